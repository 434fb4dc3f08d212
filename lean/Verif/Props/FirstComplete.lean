import Verif.Props.Complete
import Verif.Props.FirstSlice

/-
Property C67 for channels_first layers that pad nothing themselves.
-/

namespace GroCo
open Tensor

variable {α : Type}

theorem formatPaddingOption_valid : formatPaddingOption "valid" = .ok .valid := by decide

theorem ChannelsMoved.of_same {B : Nat} {m : List Nat} {g : Option Nat} {C : Nat} {x y x' : Tensor α} (h : ChannelsMoved B m g C x x')
    (hs : x.Same y) : ChannelsMoved B m g C y x' := by
  refine ⟨hs.1.symm.trans h.last, h.first, fun b p c hb hp hc => (h.get b p c hb hp hc).trans (hs.2 _ ?_)⟩
  rw [h.last]
  have : Valid (m ++ g.toList ++ [C]) (p ++ [c]) := (valid_append _ _ _ _ hp.length).2 ⟨hp, hc, trivial⟩
  rw [List.append_assoc] at this
  exact ⟨hb, this⟩

/-- outputs that are the same in channels_first are the same in channels_last -/
theorem same_moved_last {B : Nat} {out out' : List Nat} {M M' F : Nat} {z z' y y' : Tensor α} (h : ChannelsMoved B out (some M) F z y)
    (h' : ChannelsMoved B out' (some M') F z' y') (hy : y.Same y') : z.Same z' := by
  have hsh := hy.1
  rw [h.first, h'.first] at hsh
  have e1 : out ++ [M] = out' ++ [M'] := by simpa [sigShape] using hsh
  obtain ⟨rfl, e2⟩ := List.append_inj' e1 rfl
  cases e2
  refine ⟨h.last.trans h'.last.symm, fun idx hv => ?_⟩
  rw [h.last] at hv
  match idx, hv with
  | b :: q, ⟨hb, hq⟩ =>
    have hq : Valid (out ++ ((some M).toList ++ [F])) q := hq
    rw [← List.append_assoc] at hq
    obtain ⟨p, r, rfl, hp, hr⟩ := valid_append_split hq
    match r, hr with
    | [c], ⟨hc, _⟩ =>
      have e := hy.2 (b :: c :: p) (by rw [h.first]; exact ⟨hb, hc, hp⟩)
      rw [h.get b p c hb hp hc, h'.get b p c hb hp hc] at e
      exact e

/-- C67 for channels_first: if an ordinary unpadded convolution with one output for each element of the subgroup commutes with the
elements of the subgroup on images of some one size `m`, then there are weights with which the channels_first layer computes it, on
images of every size, up to moving the channel axis. -/
theorem C67_channels_first [Semiring α] {a : ConvArgs α} {bt : Option Nat} {n : List Nat} {g : Option Nat} {C : Nat}
    {k0 b0 : List Nat → α} {H : List Nat} {l : GroupConv α} (hl : BuiltConv a false bt n g C k0 b0 H l)
    (hf : a.dataFormat = .channelsFirst) (hu : Unpadded l.transforms) (hact : a.activation = id) (hb : a.useBias = false)
    (hpad : a.padding = "valid")
    (hs : a.group.Grid a.strides) (hd : a.group.Grid a.dilation) (hd0 : 0 ∉ a.dilation)
    (m : List Nat) (hm : a.group.Grid m) (hfit : ∀ i, i < a.group.dim → dilated (nth a.kernelSize i) (nth a.dilation i) ≤ nth m i ∧
      (nth m i - dilated (nth a.kernelSize i) (nth a.dilation i)) % nth a.strides i = 0)
    (W : List Nat → α) (hW : PlainCommutes a.group H a.kernelSize a.strides a.dilation W a.filters m g C) :
    ∃ k1, (∃ l1, BuiltConv a false bt n g C k1 b0 H l1 ∧ Unpadded l1.transforms) ∧
      ∀ (bt' : Option Nat) (n' : List Nat) (b1 : List Nat → α) (l' : GroupConv α), BuiltConv a false bt' n' g C k1 b1 H l' →
      Unpadded l'.transforms → ∀ (B : Nat) (m' : List Nat) (x x' y : Tensor α), m'.length = a.group.dim →
        (∀ i, i < a.group.dim → dilated (nth a.kernelSize i) (nth a.dilation i) ≤ nth m' i) →
        ChannelsMoved B m' g C x x' → PlainConv a.kernelSize a.strides a.dilation W H.length a.filters B m' g C x y →
        ∃ z out, (l'.call x').2 = .ok z ∧ ChannelsMoved B out (some H.length) a.filters y z := by
  have hopt : formatPaddingOption a.padding = .ok .valid := hpad ▸ formatPaddingOption_valid
  obtain ⟨t, ht, -, -⟩ := C30_plain hl hf hu .valid hopt
  obtain ⟨k1, -, h⟩ := C67_every_equivariant_convolution ht rfl hact hb rfl hs hd hd0 m hm hfit W hW
  refine ⟨k1, ⟨l.assign k1 b0, C53_assign hl, hu⟩, fun bt' n' b1 l' hl' hu' B m' x x' y hm' hfit' hx hy => ?_⟩
  obtain ⟨t', ht', -, hs'⟩ := C30_plain hl' hf hu' .valid hopt
  have hs' := hs' k1 b1
  rw [assign_self hl', assign_self ht'] at hs'
  obtain ⟨z1, hz1, hz1y⟩ := h bt' _ b1 t' ht' B m' x y hm' hfit' hx.last hy
  obtain ⟨r, o⟩ := hs' B m' x x' hm' hx
  obtain ⟨z, hz⟩ := r.1 ⟨z1, hz1⟩
  obtain ⟨out, mz⟩ := o z1 z hz1 hz
  exact ⟨z, out, hz, mz.of_same hz1y⟩

/-- C67 for channels_first, the converse: what a linear channels_first layer that pads nothing computes is an ordinary convolution, up
to moving the channel axis, and this convolution commutes with the elements of the subgroup. -/
theorem C67_channels_first_converse [Semiring α] {a : ConvArgs α} {bt : Option Nat} {n : List Nat} {g : Option Nat}
    {C : Nat} {k0 b0 : List Nat → α} {H : List Nat} {l : GroupConv α} (hl : BuiltConv a false bt n g C k0 b0 H l)
    (hf : a.dataFormat = .channelsFirst) (hu : Unpadded l.transforms) (hact : a.activation = id) (hb : a.useBias = false)
    (hpad : a.padding = "valid") (hs : a.group.Grid a.strides) (hd : a.group.Grid a.dilation) :
    ∃ W, (∀ (B : Nat) (m : List Nat) (x x' y' : Tensor α), m.length = a.group.dim → ChannelsMoved B m g C x x' →
        (l.call x').2 = .ok y' → ∃ y out, ChannelsMoved B out (some H.length) a.filters y y' ∧
          PlainConv a.kernelSize a.strides a.dilation W H.length a.filters B m g C x y) ∧
      ∀ m, a.group.Grid m → (∀ i, i < a.group.dim → dilated (nth a.kernelSize i) (nth a.dilation i) ≤ nth m i ∧
        (nth m i - dilated (nth a.kernelSize i) (nth a.dilation i)) % nth a.strides i = 0) →
        PlainCommutes a.group H a.kernelSize a.strides a.dilation W a.filters m g C := by
  have hopt : formatPaddingOption a.padding = .ok .valid := hpad ▸ formatPaddingOption_valid
  obtain ⟨t, ht, -, hst⟩ := C30_plain hl hf hu .valid hopt
  have hst := hst k0 b0
  rw [assign_self hl, assign_self ht] at hst
  obtain ⟨W, h1, h2⟩ := C67_layers_are_equivariant_convolutions ht rfl hact hb rfl hs hd
  refine ⟨W, fun B m x x' y' hm hx hy' => ?_, h2⟩
  obtain ⟨r, o⟩ := hst B m x x' hm hx
  obtain ⟨y, hy⟩ := r.2 ⟨y', hy'⟩
  obtain ⟨out, my⟩ := o y y' hy hy'
  exact ⟨y, out, my, h1 B m x y hm hx.last hy⟩

/-- C67 for channels_first: the weights are determined by what the layer computes on images of some one size. -/
theorem C67_channels_first_determined [Semiring α] {a : ConvArgs α} {bt bt' : Option Nat} {n n' : List Nat} {g : Option Nat} {C : Nat}
    {k0 k1 b0 b1 : List Nat → α} {H : List Nat} {l l' : GroupConv α} (hl : BuiltConv a false bt n g C k0 b0 H l)
    (hl' : BuiltConv a false bt' n' g C k1 b1 H l') (hu : Unpadded l.transforms) (hu' : Unpadded l'.transforms)
    (hf : a.dataFormat = .channelsFirst) (hact : a.activation = id) (hb : a.useBias = false) (hpad : a.padding = "valid")
    (hd0 : 0 ∉ a.dilation)
    (m : List Nat) (hm : m.length = a.group.dim)
    (hfit : ∀ i, i < a.group.dim → dilated (nth a.kernelSize i) (nth a.dilation i) ≤ nth m i)
    (heq : ∀ x y y' : Tensor α, x.shape = sigShape .channelsFirst 1 m g C → (l.call x).2 = .ok y → (l'.call x).2 = .ok y' → y.Same y') :
    ∃ kernel kernel', l.kernel = some kernel ∧ l'.kernel = some kernel' ∧ kernel.Same kernel' := by
  have hopt : formatPaddingOption a.padding = .ok .valid := hpad ▸ formatPaddingOption_valid
  obtain ⟨t, ht, -, hs⟩ := C30_plain hl hf hu .valid hopt
  obtain ⟨t', ht', -, hs'⟩ := C30_plain hl' hf hu' .valid hopt
  have hs := hs k0 b0
  have hs' := hs' k1 b1
  rw [assign_self hl, assign_self ht] at hs
  rw [assign_self hl', assign_self ht'] at hs'
  obtain ⟨_, _, _, _, f, _⟩ := hl.facts_first hf
  obtain ⟨_, _, _, _, f', _⟩ := hl'.facts_first hf
  obtain ⟨_, _, _, _, ft, _⟩ := ht.facts_last rfl
  obtain ⟨_, _, _, _, ft', _⟩ := ht'.facts_last rfl
  obtain ⟨K, K', e, e', h⟩ := C67_weights_determined ht ht' rfl hact hb rfl hd0 m hm hfit (fun x y y' hx hy hy' => by
    obtain ⟨x', mx⟩ : ∃ x', ChannelsMoved 1 m g C x x' := exists_first hx
    obtain ⟨r, o⟩ := hs 1 m x x' hm mx
    obtain ⟨r', o'⟩ := hs' 1 m x x' hm mx
    obtain ⟨z, hz⟩ := r.1 ⟨y, hy⟩
    obtain ⟨z', hz'⟩ := r'.1 ⟨y', hy'⟩
    obtain ⟨out, mz⟩ := o y z hy hz
    obtain ⟨out', mz'⟩ := o' y' z' hy' hz'
    exact same_moved_last mz mz' (heq x' z z' mx.first hz hz'))
  refine ⟨K, K', ?_, ?_, h⟩
  · rw [f.kernel, ← e, ft.kernel]; rfl
  · rw [f'.kernel, ← e', ft'.kernel]; rfl

/-- `plainConvArgs` for channels_first -/
def plainConvFirst : ConvArgs Int := { plainConvArgs with dataFormat := .channelsFirst, allowNonEquivariance := true }

set_option maxRecDepth 8000 in
/-- hypotheses are met: the ordinary convolution computed by this layer commutes with the elements of the subgroup on images of size 5
by 5 -/
example : ∃ l, BuiltConv plainConvFirst false none [5, 5] (some 4) 1
      (fun _ => 1) (fun _ => 0) [0, 2] l ∧ Unpadded l.transforms ∧
    ∃ W : List Nat → Int, PlainCommutes plainConvFirst.group [0, 2] plainConvFirst.kernelSize plainConvFirst.strides
      plainConvFirst.dilation W plainConvFirst.filters [5, 5] (some 4) 1 := by
  obtain ⟨l, hl, hu⟩ : ∃ l, BuiltConv plainConvFirst false none [5, 5] (some 4) 1
      (fun _ => 1) (fun _ => 0) [0, 2] l ∧ Unpadded l.transforms :=
    ⟨_, ⟨⟨_, rfl, rfl⟩, rfl, rfl⟩, rfl⟩
  obtain ⟨W, _, hW⟩ := C67_channels_first_converse hl rfl hu rfl rfl rfl plainConvArgs_grid.1 plainConvArgs_grid.2.1
  exact ⟨l, hl, hu, W, hW [5, 5] plainConvArgs_grid.2.2 (by decide)⟩

end GroCo
