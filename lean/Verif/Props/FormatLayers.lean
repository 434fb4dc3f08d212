import Verif.MovedLemmas
import Verif.Props.Format
import Verif.Props.Pooling
import Verif.Props.Transpose

/-
Property C30 for all kinds of layers: channels_first layers of which neither the layer itself nor its channels_last version
adds padding (attribute `needs_padding` of the padding layer, set when it is built). What happens otherwise is
`C21_violation` and `C30_violation`.
-/

namespace GroCo
open Tensor

variable {α : Type}

/-- the padding layer inside a built layer adds nothing: its attribute `needs_padding` -/
def Unpadded (t : GroupTransforms) : Prop := t.padState.needsPadding = false

/-- C30 for convolution layers: if neither layer pads, the channels_first layer with the same weights returns whenever the
channels_last layer does, and computes the same values with the channel axis moved. The layers may be built on different
sizes. -/
theorem C30_unpadded_partial [Semiring α] {a a' : ConvArgs α} (hlast : a.dataFormat = .channelsLast)
    (hfirst : a' = { a with dataFormat := .channelsFirst })
    {bt bt' : Option Nat} {n n' : List Nat} {g : Option Nat} {C : Nat} {k0 b0 : List Nat → α} {H : List Nat} {l l' : GroupConv α}
    (hl : BuiltConv a false bt n g C k0 b0 H l) (hl' : BuiltConv a' false bt' n' g C k0 b0 H l')
    (hu : Unpadded l.transforms) (hu' : Unpadded l'.transforms)
    (x x' : Tensor α) (B : Nat) (m : List Nat) (hm : m.length = a.group.dim) (hx : ChannelsMoved B m g C x x') :
    ((∃ y, (l.call x).2 = .ok y) ↔ ∃ y', (l'.call x').2 = .ok y') ∧
    ∀ y y', (l.call x).2 = .ok y → (l'.call x').2 = .ok y' →
      ∃ out, ChannelsMoved B out (some H.length) a.filters y y' := by
  obtain ⟨h1, h2⟩ := conv_moved hlast hfirst hl hl' hu hu' hm hx
  exact ⟨h1, fun y y' hy hy' => (h2 y y' hy hy').imp fun _ h => h.1⟩

/-- C30 for transposed convolution layers: if neither layer pads, both return, with the same values up to moving the channel
axis. -/
theorem C30_transposed_partial [Semiring α] {a a' : ConvArgs α} (hlast : a.dataFormat = .channelsLast)
    (hfirst : a' = { a with dataFormat := .channelsFirst })
    {bt bt' : Option Nat} {n n' : List Nat} {g : Option Nat} {C : Nat} {k0 b0 : List Nat → α} {H : List Nat} {l l' : GroupConv α}
    (hl : BuiltConv a true bt n g C k0 b0 H l) (hl' : BuiltConv a' true bt' n' g C k0 b0 H l')
    (hu : Unpadded l.transforms) (hu' : Unpadded l'.transforms)
    (x x' : Tensor α) (B : Nat) (m : List Nat) (hm : m.length = a.group.dim) (hx : ChannelsMoved B m g C x x') :
    ∃ y y' out, (l.call x).2 = .ok y ∧ (l'.call x').2 = .ok y' ∧
      ChannelsMoved B out (some a.group.group.order) a.filters y y' := by
  obtain ⟨y, y', h1, h2, out, h3, _⟩ := convT_moved hlast hfirst hl hl' hu hu' hm hx
  exact ⟨y, y', out, h1, h2, h3⟩

/-- C30 for pooling layers: if neither layer pads, the channels_first layer returns whenever the channels_last layer does,
with the same values up to moving the channel axis. -/
theorem C30_pooling_partial [Field α] [LinearOrder α] {a a' : PoolArgs} (hlast : a.dataFormat = .channelsLast)
    (hfirst : a' = { a with dataFormat := .channelsFirst })
    {bt bt' : Option Nat} {n n' : List Nat} {g C : Nat} {H : List Nat} {l l' : GroupPooling}
    (hl : BuiltPool a bt n g C H l) (hl' : BuiltPool a' bt' n' g C H l')
    (hu : Unpadded l.transforms) (hu' : Unpadded l'.transforms)
    (x x' : Tensor α) (B : Nat) (m : List Nat) (hm : m.length = a.group.dim) (hx : ChannelsMoved B m (some g) C x x') :
    ((∃ y, l.call x = .ok y) ↔ ∃ y', l'.call x' = .ok y') ∧
    ∀ y y', l.call x = .ok y → l'.call x' = .ok y' → ∃ out, ChannelsMoved B out (some H.length) C y y' := by
  obtain ⟨opt, kp, cos, e1, e2, f, rfl, hst⟩ := hl.facts hlast
  obtain ⟨opt', kp', cos', e1', e2', f', _, hst'⟩ := hl'.facts_first (by rw [hfirst])
  have f' := f' (unpadded_state hst' hu')
  have hkk : kp' = kp := by
    have : a'.padding = a.padding := by rw [hfirst]
    rw [this] at e2'
    cases (show Except.ok kp = Except.ok kp' from e2.symm.trans e2')
    rfl
  subst hkk
  have hcc : cos' = cos := by
    obtain ⟨s, h1, _, h2⟩ := f.sub
    obtain ⟨s', h1', _, h2'⟩ := f'.sub
    rw [hfirst] at h1' h2'
    have : s = s' := by
      have := h1.symm.trans h1'
      cases this; rfl
    subst this
    cases (show Except.ok cos = Except.ok cos' from h2.symm.trans h2')
    rfl
  subst hcc
  obtain ⟨h1, h2⟩ := pool_moved f f' hfirst (unpadded_state hst hu) hm hx
  refine ⟨⟨?_, ?_⟩, ?_⟩
  · rintro ⟨y, hy⟩
    obtain ⟨y', hy', _⟩ := h2 y hy
    exact ⟨y', hy'⟩
  · rintro ⟨y', hy'⟩
    exact h1 y' hy'
  · intro y y' hy hy'
    obtain ⟨z', hz', out, _, h3⟩ := h2 y hy
    rw [hy'] at hz'
    cases hz'
    exact ⟨out, h3⟩

/-! ### equivariance -/

/-- C23 to C25 in channels_first: if the channels_last version of a layer is accepted with allow_non_equivariance=False under
the conditions of `C25_refused_or_equivariant_partial`, and neither layer pads, the channels_first layer is equivariant.
Missing: layers that pad; they pad the wrong axes. -/
theorem C30_convolution_equivariant_partial [Semiring α] {a a' : ConvArgs α} (hlast : a.dataFormat = .channelsLast)
    (hfirst : a' = { a with dataFormat := .channelsFirst }) (hallow : a.allowNonEquivariance = false)
    {bt bt' : Option Nat} {n n' : List Nat} {g : Option Nat} {C : Nat} {k0 b0 : List Nat → α} {H : List Nat} {l l' : GroupConv α}
    (hl : BuiltConv a false bt n g C k0 b0 H l) (hl' : BuiltConv a' false bt' n' g C k0 b0 H l')
    (hu : Unpadded l.transforms) (hu' : Unpadded l'.transforms)
    (hs : a.group.Grid a.strides) (hd : a.group.Grid a.dilation) (hn : a.group.Grid n)
    (hdil : ∀ opt, formatPaddingOption a.padding = .ok opt → ∀ i, i < a.group.dim →
      DilationOk opt (nth a.kernelSize i) (nth a.strides i) (nth a.dilation i))
    (x : Tensor α) (B : Nat) (hx : x.shape = sigShape .channelsFirst B n g C) (y : Tensor α) (hy : (l'.call x).2 = .ok y) :
    Commutes a.group.group a.group.dim .channelsFirst a.subgroup H.length (g.map fun _ => "") a.subgroup
      (fun x => (l'.call x).2) x y := by
  have S := a.group.sym
  have hmv := toLast_moved x hx
  obtain ⟨h1, h2⟩ := conv_moved hlast hfirst hl hl' hu hu' hl.dims hmv
  obtain ⟨y1, hy1⟩ := h1.2 ⟨y, hy⟩
  obtain ⟨out, hout, hgrid⟩ := h2 y1 y hy1 hy
  obtain ⟨sH, hsH, hH⟩ := parse_sub hl.elements
  obtain ⟨opt, kp, hopt, hkp, f, hst⟩ := hl.facts_last hlast
  have hc := C25_refused_or_equivariant_partial hl hlast hallow hs hd hn hdil _ B hmv.last y1 hy1
  refine commutes_moved a.group hsH hH hn (hgrid hn hs hd) hmv hout (D := List.range a.group.group.order) (E := H) ?_
    (fun e he => List.mem_range.2 (S.sub_lt hH he)) ⟨rfl, sH, hsH, hH⟩ (fun e he => he) ?_ hc
  · cases g with
    | none => rfl
    | some g' => exact ⟨f.size g' rfl, _, rfl, S.tab.own⟩
  · intro z z' hz w hw
    obtain ⟨k1, k2⟩ := conv_moved hlast hfirst hl hl' hu hu' hl.dims hz
    obtain ⟨w', hw'⟩ := k1.1 ⟨w, hw⟩
    obtain ⟨o, ho, _⟩ := k2 w w' hw hw'
    exact ⟨w', hw', o, ho⟩

/-- C31 in channels_first: if the channels_last version of a transposed layer is accepted with allow_non_equivariance=False
under the conditions of `C31_transpose_equivariant_partial`, and neither layer pads, the channels_first layer is
equivariant. -/
theorem C30_transposed_equivariant_partial [Semiring α] {a a' : ConvArgs α} (hlast : a.dataFormat = .channelsLast)
    (hfirst : a' = { a with dataFormat := .channelsFirst }) (hallow : a.allowNonEquivariance = false)
    {bt bt' : Option Nat} {n n' : List Nat} {g : Option Nat} {C : Nat} {k0 b0 : List Nat → α} {H : List Nat} {l l' : GroupConv α}
    (hl : BuiltConv a true bt n g C k0 b0 H l) (hl' : BuiltConv a' true bt' n' g C k0 b0 H l')
    (hu : Unpadded l.transforms) (hu' : Unpadded l'.transforms)
    (hs : a.group.Grid a.strides) (hd : a.group.Grid a.dilation) (hn : a.group.Grid n)
    (hok : ∀ opt, formatPaddingOption a.padding = .ok opt → ∀ i, i < a.group.dim →
      TransposeOk opt (nth n i) (nth a.kernelSize i) (nth a.strides i) (nth a.dilation i))
    (x : Tensor α) (B : Nat) (hx : x.shape = sigShape .channelsFirst B n g C) (y : Tensor α) (hy : (l'.call x).2 = .ok y) :
    Commutes a.group.group a.group.dim .channelsFirst a.subgroup H.length (g.map fun _ => a.subgroup.getD "") (some "")
      (fun x => (l'.call x).2) x y := by
  have S := a.group.sym
  have hmv := toLast_moved x hx
  obtain ⟨y1, y2, hy1, hy2, out, hout, hgrid⟩ := convT_moved hlast hfirst hl hl' hu hu' hl.dims hmv
  rw [hy] at hy2
  cases hy2
  obtain ⟨sH, hsH, hH⟩ := parse_sub hl.elements
  obtain ⟨opt, kp, hopt, hkp, f, hst⟩ := hl.facts_last hlast
  have hc := C31_transpose_equivariant_partial hl hlast hallow hs hd hn hok _ B hmv.last y1 hy1
  refine commutes_moved a.group hsH hH hn (hgrid hn hs hd) hmv hout (D := H) (E := List.range a.group.group.order) ?_
    (fun e he => he) ⟨by simp, _, rfl, S.tab.own⟩ (fun e he => List.mem_range.2 (S.sub_lt hH he)) ?_ hc
  · cases g with
    | none => rfl
    | some g' =>
      refine ⟨f.size g' rfl, sH, ?_, hH⟩
      cases hsub : a.subgroup with
      | none =>
        rw [hsub] at hsH
        exact absurd hsH (by simp [GroupData.parseSubgroup])
      | some s =>
        rw [hsub] at hsH
        exact hsH
  · intro z z' hz w hw
    obtain ⟨w1, w', hw1, hw', o, ho, _⟩ := convT_moved hlast hfirst hl hl' hu hu' hl.dims hz
    rw [hw] at hw1
    cases hw1
    exact ⟨w', hw', o, ho⟩

/-- C34 in channels_first: if the channels_last version of a pooling layer is accepted with allow_non_equivariance=False
under the conditions of `C34_pooling_equivariant_partial`, and neither layer pads, the channels_first layer is
equivariant. -/
theorem C30_pooling_equivariant_partial [Field α] [LinearOrder α] {a a' : PoolArgs} (hlast : a.dataFormat = .channelsLast)
    (hfirst : a' = { a with dataFormat := .channelsFirst }) (hallow : a.allowNonEquivariance = false)
    {bt bt' : Option Nat} {n n' : List Nat} {g C : Nat} {H : List Nat} {l l' : GroupPooling}
    (hl : BuiltPool a bt n g C H l) (hl' : BuiltPool a' bt' n' g C H l')
    (hu : Unpadded l.transforms) (hu' : Unpadded l'.transforms) (opt : PadOption)
    (hopt : formatPaddingOption a.padding = .ok opt)
    (hn : a.group.Grid n) (hK : a.group.Grid a.poolSize) (hs : a.group.Grid a.windowStrides)
    (hok : ∀ i, i < a.group.dim → PoolOk opt (nth n i) (nth a.poolSize i) (a.strides.map fun s => nth s i))
    (x : Tensor α) (B : Nat) (hx : x.shape = sigShape .channelsFirst B n (some g) C) (y : Tensor α) (hy : l'.call x = .ok y) :
    Commutes a.group.group a.group.dim .channelsFirst a.subgroup H.length (some "") a.subgroup l'.call x y := by
  have S := a.group.sym
  have hmv := toLast_moved x hx
  obtain ⟨h1, h2⟩ := C30_pooling_partial hlast hfirst hl hl' hu hu' _ x B n hl.dims hmv
  obtain ⟨y1, hy1⟩ := h1.2 ⟨y, hy⟩
  obtain ⟨out, hout⟩ := h2 y1 y hy1 hy
  obtain ⟨sH, hsH, hH⟩ := parse_sub hl.elements
  obtain ⟨opt', kp, cos, hopt', hkp, f, hgo, hst⟩ := hl.facts hlast
  rw [hopt] at hopt'
  cases hopt'
  have hO : a.group.Grid out := by
    have hg := poolOut_grid (padding_agree hopt hkp) hn hK hs hl.dims f.stridesLen
    have h0 := unpadded_state hst hu
    subst hgo
    obtain ⟨c1, c2⟩ := pool_call_last f hmv.last hl.dims
    obtain ⟨y2, hy2, hys, _⟩ := c2 (c1 y1 hy1)
    rw [hy1] at hy2
    cases hy2
    unfold poolGrid poolSkip at hys
    rw [h0, grow_none hl.dims] at hys
    have : out = _ := sigShape_last_inj (B := B) (g := some H.length) (C := C) (hout.last.symm.trans hys)
    rw [this]
    exact hg
  have hc := C34_pooling_equivariant_partial hl hlast hallow opt hopt hn hK hs hok _ B hmv.last y1 hy1
  refine commutes_moved a.group hsH hH hn hO hmv hout (D := List.range a.group.group.order) (E := H)
    ⟨by simp [hgo], _, rfl, S.tab.own⟩
    (fun e he => List.mem_range.2 (S.sub_lt hH he)) ⟨rfl, sH, hsH, hH⟩ (fun e he => he) ?_ hc
  intro z z' hz w hw
  obtain ⟨k1, k2⟩ := C30_pooling_partial hlast hfirst hl hl' hu hu' z z' B n hl.dims hz
  obtain ⟨w', hw'⟩ := k1.1 ⟨w, hw⟩
  obtain ⟨o, ho⟩ := k2 w w' hw hw'
  exact ⟨w', hw', o, ho⟩

/-! ### hypotheses are met -/

/-- a P4 layer with strides 2 for which 5x5 signals need no padding -/
def strideConv : ConvArgs Int :=
  { group := .P4, subgroup := some "P2", kernelSize := [3, 3], strides := [2, 2], padding := "valid_equiv",
    allowNonEquivariance := false, dataFormat := .channelsLast, filters := 2, dilation := [1, 1], useBias := true,
    activation := id }

/-- strideConv in channels_first -/
def strideConvFirst : ConvArgs Int := { strideConv with dataFormat := .channelsFirst }

/-- exampleTranspose in channels_first -/
def exampleTransposeFirst : ConvArgs Int := { exampleTranspose with dataFormat := .channelsFirst }

/-- a P2MM pooling layer -/
def stridePool : PoolArgs :=
  { group := .P2MM, subgroup := some "PMh", poolType := .max, poolSize := [2, 2], strides := some [2, 2], padding := "valid",
    allowNonEquivariance := false, dataFormat := .channelsLast }

/-- stridePool in channels_first -/
def stridePoolFirst : PoolArgs := { stridePool with dataFormat := .channelsFirst }

set_option maxRecDepth 8000 in
/-- hypotheses of the statements about convolution layers are met -/
example : (∃ l l' y, BuiltConv strideConv false none [5, 5] none 3 (fun _ => 1) (fun _ => 0) [0, 2] l ∧
      BuiltConv strideConvFirst false none [5, 5] none 3 (fun _ => 1) (fun _ => 0) [0, 2] l' ∧
      Unpadded l.transforms ∧ Unpadded l'.transforms ∧
      (l'.call ⟨sigShape .channelsFirst 1 [5, 5] none 3, fun _ => 1⟩).2 = .ok y) ∧
    strideConv.group.Grid strideConv.strides ∧ strideConv.group.Grid strideConv.dilation ∧ strideConv.group.Grid [5, 5] ∧
    (∀ opt, formatPaddingOption strideConv.padding = .ok opt → ∀ i, i < 2 →
      DilationOk opt (nth strideConv.kernelSize i) (nth strideConv.strides i) (nth strideConv.dilation i)) ∧
    ChannelsMoved 1 [5, 5] none 3 (⟨sigShape .channelsLast 1 [5, 5] none 3, fun _ => 1⟩ : Tensor Int)
      ⟨sigShape .channelsFirst 1 [5, 5] none 3, fun _ => 1⟩ := by
  refine ⟨⟨_, _, _, ⟨⟨_, rfl, rfl⟩, rfl, rfl⟩, ⟨⟨_, rfl, rfl⟩, rfl, rfl⟩, rfl, rfl, rfl⟩, ⟨rfl, rfl⟩, ⟨rfl, rfl⟩, ⟨rfl, rfl⟩, ?_,
    rfl, rfl, fun _ _ _ _ _ _ => rfl⟩
  intro opt _ i hi
  have : i = 0 ∨ i = 1 := by omega
  rcases this with rfl | rfl <;> exact Or.inl rfl

set_option maxRecDepth 8000 in
/-- hypotheses of the statements about transposed layers are met -/
example : (∃ l l' y, BuiltConv exampleTranspose true none [4, 4] (some 2) 1 (fun _ => 1) (fun _ => 0) [0, 2] l ∧
      BuiltConv exampleTransposeFirst true none [4, 4] (some 2) 1 (fun _ => 1) (fun _ => 0) [0, 2] l' ∧
      Unpadded l.transforms ∧ Unpadded l'.transforms ∧
      (l'.call ⟨sigShape .channelsFirst 1 [4, 4] (some 2) 1, fun _ => 1⟩).2 = .ok y) ∧
    exampleTranspose.group.Grid exampleTranspose.strides ∧ exampleTranspose.group.Grid exampleTranspose.dilation ∧
    exampleTranspose.group.Grid [4, 4] ∧
    (∀ i, i < 2 → TransposeOk .valid (nth [4, 4] i) (nth exampleTranspose.kernelSize i) (nth exampleTranspose.strides i)
      (nth exampleTranspose.dilation i)) := by
  refine ⟨⟨_, _, _, ⟨⟨_, rfl, rfl⟩, rfl, rfl⟩, ⟨⟨_, rfl, rfl⟩, rfl, rfl⟩, rfl, rfl, rfl⟩, ⟨rfl, rfl⟩, ⟨rfl, rfl⟩, ⟨rfl, rfl⟩, ?_⟩
  intro i hi
  have : i = 0 ∨ i = 1 := by omega
  rcases this with rfl | rfl <;> exact ⟨by decide, by decide, by decide⟩

set_option maxRecDepth 8000 in
/-- hypotheses of the statements about pooling layers are met -/
example : (∃ l l' y, BuiltPool stridePool none [4, 4] 4 1 [0, 2] l ∧ BuiltPool stridePoolFirst none [4, 4] 4 1 [0, 2] l' ∧
      Unpadded l.transforms ∧ Unpadded l'.transforms ∧
      l'.call (⟨sigShape .channelsFirst 1 [4, 4] (some 4) 1, fun _ => 1⟩ : Tensor ℚ) = .ok y) ∧
    stridePool.group.Grid [4, 4] ∧ stridePool.group.Grid stridePool.poolSize ∧ stridePool.group.Grid stridePool.windowStrides ∧
    (∀ i, i < 2 → PoolOk .valid (nth [4, 4] i) (nth stridePool.poolSize i) (stridePool.strides.map fun s => nth s i)) := by
  refine ⟨⟨_, _, _, ⟨⟨_, rfl, rfl⟩, rfl, rfl⟩, ⟨⟨_, rfl, rfl⟩, rfl, rfl⟩, rfl, rfl, rfl⟩, ⟨rfl, trivial⟩, ⟨rfl, trivial⟩,
    ⟨rfl, trivial⟩, ?_⟩
  intro i hi
  have : i = 0 ∨ i = 1 := by omega
  rcases this with rfl | rfl <;> exact fun h => absurd h (by decide)

end GroCo
