import Verif.Props.Conv
import Verif.Props.ExactPool
import Verif.Props.ExactTranspose
import Verif.Props.FormatTwin
import Verif.Props.Slices

/-
Properties C22, C33, C45, C46, C69 and C70 for channels_first layers that pad nothing themselves, from what is proved about channels_last
layers and C30_plain.
-/

namespace GroCo
open Tensor

variable {α : Type}

theorem builtIn_plain (opt : PadOption) (n k s : Nat) : builtIn opt.plain n k s = builtIn opt n k s := by
  cases opt <;> rfl

/-- the zeros around the image in a layer that pads nothing itself -/
theorem padsTo_plain {opt : PadOption} {n m k s r before after : Nat} (h : PadsTo opt.plain n m k s r before after) :
    before = builtIn opt m (dilated k r) s / 2 ∧ before + after = builtIn opt m (dilated k r) s := by
  obtain ⟨e, he, h1, h2⟩ := h
  have : e = 0 := by rcases plain_cases opt with h | h <;> rw [h] at he <;> exact he
  subst this
  rw [builtIn_plain] at h1 h2
  simp only [Nat.add_zero, Nat.zero_add] at h1 h2
  exact ⟨by omega, h2⟩

/-- reading outside the image gives zero in both data formats -/
theorem read0_moved [Zero α] {B : Nat} {n : List Nat} {g : Option Nat} {C : Nat} {x1 x : Tensor α} (h : ChannelsMoved B n g C x1 x)
    (b c : Int) (q : List Int) : read0 x1 (b :: q ++ [c]) = read0 x (b :: c :: q) := by
  unfold read0
  rw [h.last, h.first]
  have hbox : InBox (sigShape .channelsFirst B n g C) (b :: c :: q) ↔ InBox (sigShape .channelsLast B n g C) (b :: q ++ [c]) := by
    by_cases hq : q.length = (n ++ g.toList).length
    · have h1 := inBox_append (s := B :: (n ++ g.toList)) (t := [C]) (q := b :: q) (r := [c]) (by simpa using hq)
      have e : sigShape .channelsLast B n g C = B :: (n ++ g.toList) ++ [C] := by simp [sigShape]
      rw [e, h1]
      simp only [sigShape, List.cons_append, InBox]
      tauto
    · constructor <;> intro h2 <;> have := h2.length <;> simp [sigShape] at this hq <;> omega
  by_cases hb : InBox (sigShape .channelsLast B n g C) (b :: q ++ [c])
  · have hf := hbox.2 hb
    rw [if_pos hb, if_pos hf]
    have hv := hf.valid
    simp only [sigShape, List.cons_append, List.map_cons, Valid] at hv
    have := h.get b.toNat (q.map Int.toNat) c.toNat hv.1 hv.2.2 hv.2.1
    simp only [List.map_cons, List.map_append, List.cons_append, List.map_nil] at this ⊢
    exact this.symm
  · rw [if_neg hb, if_neg (fun hc => hb (hbox.1 hc))]

/-- the channels_first version of a call -/
theorem SameUpToFormat.call {d : Nat} {g : Option Nat} {C F M : Nat} {f f' : Tensor α → Res (Tensor α)}
    (h : SameUpToFormat d g C F M f f') {B : Nat} {m : List Nat} {x : Tensor α} (hm : m.length = d)
    (hx : x.shape = sigShape .channelsFirst B m g C) : ∃ x1, ChannelsMoved B m g C x1 x ∧
      ((∃ y, f' x = .ok y) ↔ ∃ y1, f x1 = .ok y1) ∧
      ∀ y, f' x = .ok y → ∃ y1 out, f x1 = .ok y1 ∧ ChannelsMoved B out (some M) F y1 y := by
  obtain ⟨h1, h2⟩ := h B m _ x hm (toLast_moved x hx)
  refine ⟨_, toLast_moved x hx, h1.symm, fun y hy => ?_⟩
  obtain ⟨y1, hy1⟩ := h1.2 ⟨y, hy⟩
  obtain ⟨out, ho⟩ := h2 y1 y hy1 hy
  exact ⟨y1, out, hy1, ho⟩

theorem ChannelsMoved.shape_eq {B : Nat} {out out' : List Nat} {M F : Nat} {y1 y : Tensor α}
    (h : ChannelsMoved B out (some M) F y1 y) (h1 : y1.shape = sigShape .channelsLast B out' (some M) F) : out = out' :=
  sigShape_last_inj (h.last.symm.trans h1)

/-- an entry of the output in both formats -/
theorem ChannelsMoved.entry {B : Nat} {out : List Nat} {M F : Nat} {y1 y : Tensor α} (h : ChannelsMoved B out (some M) F y1 y)
    {b o i : Nat} {p : List Nat} (hv : Valid y.shape (b :: o :: p ++ [i])) :
    Valid y1.shape (b :: p ++ [i, o]) ∧ y.get (b :: o :: p ++ [i]) = y1.get (b :: p ++ [i, o]) := by
  rw [h.first] at hv
  simp only [sigShape, List.cons_append, Valid, Option.toList_some] at hv
  obtain ⟨hb, ho, hp⟩ := hv
  have := h.get b (p ++ [i]) o hb (by simpa using hp) ho
  refine ⟨?_, by simpa using this⟩
  rw [h.last]
  have hv : Valid (out ++ [M] ++ [F]) (p ++ [i] ++ [o]) := (valid_append _ _ _ _ hp.length).2 ⟨hp, ho, trivial⟩
  simp only [sigShape, List.cons_append, Option.toList_some]
  exact ⟨hb, by simpa using hv⟩

/-- C22 for channels_first: a built channels_first GroupConv layer that pads nothing itself, called on a signal with grid sizes `m`,
computes the group convolution, with the zeros `before` and `after` that Keras adds. The call returns exactly if the (dilated)
kernel fits. -/
theorem C22_channels_first [Semiring α] {a : ConvArgs α} {bt : Option Nat} {n : List Nat} {g : Option Nat} {C : Nat}
    {k0 b0 : List Nat → α} {H : List Nat} {l : GroupConv α} (hl : BuiltConv a false bt n g C k0 b0 H l)
    (hf : a.dataFormat = .channelsFirst) (hu : Unpadded l.transforms) (opt : PadOption)
    (hopt : formatPaddingOption a.padding = .ok opt) (x : Tensor α) (B : Nat) (m : List Nat) (hm : m.length = a.group.dim)
    (hx : x.shape = sigShape .channelsFirst B m g C) :
    ∃ (before after : List Nat) (src : Nat → List Nat → List Nat),
      (∀ i, i < a.group.dim →
        let T := builtIn opt (nth m i) (dilated (nth a.kernelSize i) (nth a.dilation i)) (nth a.strides i)
        nth before i = T / 2 ∧ nth before i + nth after i = T) ∧
      (∀ i k, i < H.length → Valid a.kernelSize k → Valid a.kernelSize (src i k) ∧
        MovesTo (a.group.motion (nth H i)) (List.range a.group.dim) a.kernelSize (src i k) k) ∧
      ((∃ y, (l.call x).2 = .ok y) ↔ ∀ i, i < a.group.dim →
        dilated (nth a.kernelSize i) (nth a.dilation i) ≤ nth before i + nth m i + nth after i) ∧
      ∀ y, (l.call x).2 = .ok y →
        y.shape = sigShape .channelsFirst B ((List.range a.group.dim).map fun i =>
          (nth before i + nth m i + nth after i - dilated (nth a.kernelSize i) (nth a.dilation i)) / nth a.strides i + 1)
          (some H.length) a.filters ∧
        ∀ (b : Nat) (p : List Nat) (i o : Nat), Valid y.shape (b :: o :: p ++ [i]) →
          (g = none → y.get (b :: o :: p ++ [i]) = a.activation (
            ((indices a.kernelSize).map fun k => ((List.range C).map fun (c : Nat) =>
              read0 x ((b : Int) :: (c : Int) :: window before a.strides a.dilation p k) * k0 (src i k ++ [c, o])).sum).sum
            + if a.useBias then b0 [o] else 0)) ∧
          (∀ g', g = some g' → g' = a.group.group.order ∧ y.get (b :: o :: p ++ [i]) = a.activation (
            ((indices a.kernelSize).map fun k => ((List.range g').map fun (j : Nat) => ((List.range C).map fun (c : Nat) =>
              read0 x ((b : Int) :: (c : Int) :: window before a.strides a.dilation p k ++ [(j : Int)]) *
                k0 (src i k ++ [a.group.group.comp (nth a.group.group.inverses (nth H i)) j * C + c, o])).sum).sum).sum
            + if a.useBias then b0 [o] else 0)) := by
  obtain ⟨l1, hl1, -, hsame⟩ := C30_plain hl hf hu opt hopt
  have hs := hsame k0 b0
  rw [assign_self hl, assign_self hl1] at hs
  obtain ⟨x1, hx1, hret, hout⟩ := hs.call hm hx
  obtain ⟨before, after, src, c1, c2, c3, c4⟩ := C22_group_convolution hl1 rfl opt.plain
    ((accepted_iff _ _ _).2 (plain_accepted opt)).1 x1 B m hm hx1.last
  refine ⟨before, after, src, fun i hi => padsTo_plain (c1 i hi), c2, hret.trans c3, fun y hy => ?_⟩
  obtain ⟨y1, out, hy1, hyy⟩ := hout y hy
  obtain ⟨d1, d2⟩ := c4 y1 hy1
  have := hyy.shape_eq d1
  subst this
  refine ⟨hyy.first, fun b p i o hv => ?_⟩
  obtain ⟨hv1, he⟩ := hyy.entry hv
  obtain ⟨e1, e2⟩ := d2 b p i o hv1
  rw [he]
  refine ⟨fun hg => (e1 hg).trans ?_, fun g' hg => ⟨(e2 g' hg).1, (e2 g' hg).2.trans ?_⟩⟩
  · simp only [read0_moved hx1]
    rfl
  · have : ∀ (w : List Int) (j c : Int), read0 x1 ((b : Int) :: w ++ [j, c]) = read0 x ((b : Int) :: c :: w ++ [j]) := by
      intro w j c
      have := read0_moved hx1 (b : Int) c (w ++ [j])
      simpa using this
    simp only [this]
    rfl

/-- C45 for channels_first: two channels_first layers that pad nothing and differ only in `subgroup` accept the same inputs and agree
at every element both compute. -/
theorem C45_channels_first [Semiring α] {a : ConvArgs α} {s₁ s₂ : Option String} {bt : Option Nat} {n₁ n₂ : List Nat}
    {g : Option Nat} {C : Nat} {k0 b0 : List Nat → α} {H₁ H₂ : List Nat} {l₁ l₂ : GroupConv α}
    (h₁ : BuiltConv { a with subgroup := s₁ } false bt n₁ g C k0 b0 H₁ l₁)
    (h₂ : BuiltConv { a with subgroup := s₂ } false bt n₂ g C k0 b0 H₂ l₂) (hf : a.dataFormat = .channelsFirst)
    (hu₁ : Unpadded l₁.transforms) (hu₂ : Unpadded l₂.transforms)
    (x : Tensor α) (B : Nat) (m : List Nat) (hm : m.length = a.group.dim) (hx : x.shape = sigShape .channelsFirst B m g C) :
    ((∃ y, (l₁.call x).2 = .ok y) ↔ ∃ y, (l₂.call x).2 = .ok y) ∧
    ∀ y₁ y₂, (l₁.call x).2 = .ok y₁ → (l₂.call x).2 = .ok y₂ →
      (∃ q, y₁.shape = sigShape .channelsFirst B q (some H₁.length) a.filters ∧
        y₂.shape = sigShape .channelsFirst B q (some H₂.length) a.filters) ∧
      ∀ b p i j o, Valid y₁.shape (b :: o :: p ++ [i]) → j < H₂.length → nth H₂ j = nth H₁ i →
        y₁.get (b :: o :: p ++ [i]) = y₂.get (b :: o :: p ++ [j]) := by
  obtain ⟨opt, kp, hopt, -⟩ := h₁.facts_first hf
  obtain ⟨t₁, ht₁, -, hs₁⟩ := C30_plain h₁ hf hu₁ opt hopt
  obtain ⟨t₂, ht₂, -, hs₂⟩ := C30_plain h₂ hf hu₂ opt hopt
  have hs₁ := hs₁ k0 b0
  have hs₂ := hs₂ k0 b0
  rw [assign_self h₁, assign_self ht₁] at hs₁
  rw [assign_self h₂, assign_self ht₂] at hs₂
  have hx1 := toLast_moved x hx
  obtain ⟨r₁, o₁⟩ := hs₁ B m _ x hm hx1
  obtain ⟨r₂, o₂⟩ := hs₂ B m _ x hm hx1
  obtain ⟨c1, c2⟩ := C45_subgroup_slices (a := a.plainLast opt) (s₁ := s₁) (s₂ := s₂) ht₁ ht₂ rfl _ B m hm hx1.last
  refine ⟨r₁.symm.trans (c1.trans r₂), fun y₁ y₂ hy₁ hy₂ => ?_⟩
  obtain ⟨z₁, hz₁⟩ := r₁.2 ⟨y₁, hy₁⟩
  obtain ⟨z₂, hz₂⟩ := r₂.2 ⟨y₂, hy₂⟩
  obtain ⟨q₁, m₁⟩ := o₁ z₁ y₁ hz₁ hy₁
  obtain ⟨q₂, m₂⟩ := o₂ z₂ y₂ hz₂ hy₂
  obtain ⟨⟨q, d1, d2⟩, d3⟩ := c2 z₁ z₂ hz₁ hz₂
  have := m₁.shape_eq d1
  subst this
  have := m₂.shape_eq d2
  subst this
  refine ⟨⟨_, m₁.first, m₂.first⟩, fun b p i j o hv hj hij => ?_⟩
  obtain ⟨hv1, e1⟩ := m₁.entry hv
  have hv2 : Valid y₂.shape (b :: o :: p ++ [j]) := by
    rw [m₁.first] at hv
    rw [m₂.first]
    simp only [sigShape, List.cons_append, Valid, Option.toList_some] at hv ⊢
    obtain ⟨hb, ho, hp⟩ := hv
    obtain ⟨u, w, e, hu, hw⟩ := valid_append_split hp
    have hlen : w.length = 1 := by rw [hw.length]; rfl
    have : p = u := by
      obtain ⟨w0, rfl⟩ := List.length_eq_one_iff.1 hlen
      exact (List.append_inj' e rfl).1
    subst this
    exact ⟨hb, ho, (valid_append _ _ _ _ hu.length).2 ⟨hu, hj, trivial⟩⟩
  rw [e1, (m₂.entry hv2).2]
  exact d3 b p i j o hv1 hj hij

/-- `x'` is `x` moved by `v` along the grid axes of channels_first signals, both read as zero outside their grids -/
def TranslatedFirst [Zero α] (d : Nat) (v : List Int) (x x' : Tensor α) : Prop :=
  ∀ (b c : Nat) (q r : List Int), q.length = d →
    read0 x' ((b : Int) :: (c : Int) :: (List.zipWith (· + ·) q v) ++ r) = read0 x ((b : Int) :: (c : Int) :: q ++ r)

theorem read0_out [Zero α] (x : Tensor α) {q : List Int} (h : ¬ InBox x.shape q) : read0 x q = 0 := if_neg h

theorem translated_moved [Zero α] {B : Nat} {n : List Nat} {g : Option Nat} {C d : Nat} {x1 x x1' x' : Tensor α} {v : List Int}
    (hn : n.length = d) (hv : v.length = d) (h : ChannelsMoved B n g C x1 x) (h' : ChannelsMoved B n g C x1' x')
    (ht : TranslatedFirst d v x x') : Translated d v x1 x1' := by
  intro b q r hq
  have hqv : (List.zipWith (· + ·) q v).length = d := by simp [hq, hv]
  rcases List.eq_nil_or_concat r with rfl | ⟨r, c, rfl⟩
  · have hsh : ∀ (z : Tensor α) (w : List Int), z.shape = sigShape .channelsLast B n g C → w.length = d →
        read0 z ((b : Int) :: w ++ []) = 0 := by
      intro z w hz hw
      refine read0_out _ fun hb => ?_
      have := hb.length
      rw [hz] at this
      simp [sigShape] at this
      omega
    rw [hsh _ _ h.last hq, hsh _ _ h'.last hqv]
  · have e : ∀ w : List Int, (b : Int) :: w ++ r.concat c = (b : Int) :: (w ++ r) ++ [c] := fun w => by simp
    rw [e, e, read0_moved h, read0_moved h']
    by_cases hc : 0 ≤ c
    · obtain ⟨c', rfl⟩ := Int.eq_ofNat_of_zero_le hc
      exact ht b c' q r hq
    · rw [read0_out, read0_out]
      · rw [h.first]; rintro ⟨_, hb, _⟩; exact hc hb.1
      · rw [h'.first]; rintro ⟨_, hb, _⟩; exact hc hb.1

theorem translated_first [Zero α] {B : Nat} {n : List Nat} {g : Option Nat} {C d : Nat} {x1 x x1' x' : Tensor α} {v : List Int}
    (h : ChannelsMoved B n g C x1 x) (h' : ChannelsMoved B n g C x1' x') (ht : Translated d v x1 x1') : TranslatedFirst d v x x' := by
  intro b c q r hq
  have := ht b q (r ++ [(c : Int)]) hq
  have e : ∀ w : List Int, (b : Int) :: w ++ (r ++ [(c : Int)]) = (b : Int) :: (w ++ r) ++ [(c : Int)] := fun w => by simp
  rw [e, e, read0_moved h, read0_moved h'] at this
  exact this

/-- C46 for channels_first: if a signal is moved by `t` strides along each grid axis and nothing is pushed off the grid, the output of
a channels_first layer that pads nothing itself is moved by `t`. -/
theorem C46_channels_first [Semiring α] {a : ConvArgs α} {bt : Option Nat} {n : List Nat}
    {g : Option Nat} {C : Nat} {k0 b0 : List Nat → α} {H : List Nat} {l : GroupConv α}
    (hl : BuiltConv a false bt n g C k0 b0 H l) (hf : a.dataFormat = .channelsFirst) (hu : Unpadded l.transforms)
    (x x' : Tensor α) (B : Nat) (m : List Nat) (hm : m.length = a.group.dim) (hx : x.shape = sigShape .channelsFirst B m g C)
    (hx' : x'.shape = x.shape) (t : List Int) (ht : t.length = a.group.dim)
    (hmove : TranslatedFirst a.group.dim (List.zipWith (fun (s : Nat) (u : Int) => s * u) a.strides t) x x') :
    ((∃ y, (l.call x).2 = .ok y) ↔ ∃ y, (l.call x').2 = .ok y) ∧
    ∀ y y', (l.call x).2 = .ok y → (l.call x').2 = .ok y' → y'.shape = y.shape ∧
      ∀ b p p' i o, Valid y.shape (b :: o :: p ++ [i]) → Valid y.shape (b :: o :: p' ++ [i]) →
        p'.map Int.ofNat = List.zipWith (· + ·) (p.map Int.ofNat) t →
          y'.get (b :: o :: p' ++ [i]) = y.get (b :: o :: p ++ [i]) := by
  obtain ⟨opt, kp, hopt, -, f, -⟩ := hl.facts_first hf
  obtain ⟨l1, hl1, -, hsame⟩ := C30_plain hl hf hu opt hopt
  have hs := hsame k0 b0
  rw [assign_self hl, assign_self hl1] at hs
  have hX' := hx'.trans hx
  have m1 := toLast_moved x hx
  have m1' := toLast_moved x' hX'
  have hvl : (List.zipWith (fun (s : Nat) (u : Int) => s * u) a.strides t).length = a.group.dim := by
    simp [f.stridesLen, ht]
  obtain ⟨c1, c2⟩ := C46_translation_equivariant hl1 rfl _ _ B m hm m1.last (m1'.last.trans m1.last.symm) t ht
    (translated_moved hm hvl m1 m1' hmove)
  obtain ⟨r, o1⟩ := hs B m _ x hm m1
  obtain ⟨r', o1'⟩ := hs B m _ x' hm m1'
  refine ⟨r.symm.trans (c1.trans r'), fun y y' hy hy' => ?_⟩
  obtain ⟨z, hz⟩ := r.2 ⟨y, hy⟩
  obtain ⟨z', hz'⟩ := r'.2 ⟨y', hy'⟩
  obtain ⟨q, mz⟩ := o1 z y hz hy
  obtain ⟨q', mz'⟩ := o1' z' y' hz' hy'
  obtain ⟨d1, d2⟩ := c2 z z' hz hz'
  have : q' = q := mz'.shape_eq (d1.trans mz.last)
  subst this
  have hyy : y'.shape = y.shape := mz'.first.trans mz.first.symm
  refine ⟨hyy, fun b p p' i o hv hv' hpp => ?_⟩
  obtain ⟨w, e⟩ := mz.entry hv
  obtain ⟨w', e'⟩ := mz'.entry (hyy ▸ hv')
  rw [e, e']
  exact d2 b p p' i o w (d1 ▸ w') hpp

/-- C69 for channels_first: a transposed channels_first layer without dilation that pads nothing itself, on a grid the group acts on,
moves its output with its input for all elements of its subgroup and all weights exactly if along every axis that the subgroup mirrors
the stride is at most the size of the kernel and, with 'same' or 'same_equiv', both are even or both odd. -/
theorem C69_channels_first [Semiring α] {a : ConvArgs α} {bt : Option Nat} {n : List Nat} {g : Option Nat} {C : Nat}
    {k0 b0 : List Nat → α} {H : List Nat} {l : GroupConv α} (hl : BuiltConv a true bt n g C k0 b0 H l)
    (hf : a.dataFormat = .channelsFirst) (hu : Unpadded l.transforms) (opt : PadOption)
    (hopt : formatPaddingOption a.padding = .ok opt)
    (hdil : a.dilation = List.replicate a.group.dim 1) (hn : a.group.Grid n) (hs : a.group.Grid a.strides) (hpos : 0 ∉ n)
    (v : α) (hv : a.activation v ≠ a.activation 0) (hC : 0 < C) :
    (∀ h k1 b1, h ∈ H → MovesOutputFirst a.group H (List.range a.group.group.order) h (fun x => ((l.assign k1 b1).call x).2) n g C
      a.filters) ↔
    ∀ i : Fin a.group.dim, (∃ h ∈ H, a.group.motion h i i = -1) → nth a.strides i ≤ nth a.kernelSize i ∧
      (opt = .valid ∨ opt = .validEquiv ∨ (nth a.kernelSize i - nth a.strides i) % 2 = 0) := by
  obtain ⟨l1, hl1, hu1, hsame⟩ := C30_plain_transposed hl hf hu opt hopt
  have hgd : ∀ g', g = some g' → g' = H.length := by
    obtain ⟨_, _, _, _, f, _⟩ := hl.facts_first hf
    intro g' hg
    exact f.size g' hg
  have hz : ∀ i, nth (List.replicate a.group.dim 0) i = 0 := fun i => by
    simp [nth, List.getD_eq_getElem?_getD, List.getElem?_replicate]; split <;> rfl
  have key := C69_exact hl1 rfl opt.plain ((accepted_iff _ _ _).2 (plain_accepted opt)).1 hdil hn hs hpos v hv hC
    (List.replicate a.group.dim 0) (List.replicate a.group.dim 0) (by simp [ConvArgs.plainLast]) (fun i hi => by
      rw [hz]; unfold Unpadded at hu1; simp [PadState.amount, hu1])
  have hfm : ∀ h k1 b1, MovesOutput a.group H (List.range a.group.group.order) h (fun x => ((l1.assign k1 b1).call x).2) n g C
      a.filters ↔ MovesOutputFirst a.group H (List.range a.group.group.order) h (fun x => ((l.assign k1 b1).call x).2) n g C
      a.filters := fun h k1 b1 => movesOutput_formats hgd (fun B x x' hx => by
        rw [List.length_range]; exact hsame k1 b1 B n x x' hl.dims hx)
  refine Iff.trans ⟨fun h e k1 b1 he => (hfm e k1 b1).2 (h e k1 b1 he), fun h e k1 b1 he => (hfm e k1 b1).1 (h e k1 b1 he)⟩
    (key.trans ?_)
  refine forall_congr' fun i => forall_congr' fun _ => ?_
  rw [hz]
  have hop : (opt.plain = .valid ∨ opt.plain = .validEquiv ∨ (nth a.kernelSize i - nth a.strides i) % 2 = 0) ↔
      (opt = .valid ∨ opt = .validEquiv ∨ (nth a.kernelSize i - nth a.strides i) % 2 = 0) := by
    cases opt <;> simp [PadOption.plain]
  constructor
  · rintro ⟨h1, -, h3⟩; exact ⟨h1, hop.1 h3⟩
  · rintro ⟨h1, h3⟩; exact ⟨h1, rfl, hop.2 h3⟩

/-- C70 for channels_first: a channels_first pooling layer that pads nothing itself is equivariant exactly if its windows are mirrored
into each other along every axis that is reversed by an element of its subgroup. -/
theorem C70_channels_first [Field α] [LinearOrder α] [IsStrictOrderedRing α] {a : PoolArgs} {bt : Option Nat} {n : List Nat} {g C : Nat}
    {H : List Nat} {l : GroupPooling} (hl : BuiltPool a bt n g C H l) (hf : a.dataFormat = .channelsFirst) (hu : Unpadded l.transforms)
    (opt : PadOption) (hopt : formatPaddingOption a.padding = .ok opt) (hC : 0 < C)
    (hn : ∀ h ∈ H, KeepsSizes (a.group.motion h) n) (hK : ∀ h ∈ H, KeepsSizes (a.group.motion h) a.poolSize)
    (hs : ∀ h ∈ H, KeepsSizes (a.group.motion h) a.windowStrides)
    (hcall : ∃ (x y : Tensor α) (B : Nat), x.shape = sigShape .channelsFirst B n (some g) C ∧ l.call x = .ok y) :
    (∀ h ∈ H, MovesOutputFirst a.group (List.range a.group.group.order) H h (l.call (α := α)) n (some g) C C) ↔
      ∀ i : Fin a.group.dim, (∃ h ∈ H, a.group.motion h i i = -1) →
        PlainMirrored opt (nth n i) (nth a.poolSize i) (nth a.windowStrides i) := by
  obtain ⟨l1, hl1, hu1, hsame⟩ := C30_plain_pooling (α := α) hl hf hu opt hopt
  have hg : g = a.group.group.order := by
    obtain ⟨_, _, _, _, _, _, hg, _⟩ := hl.facts_first hf
    exact hg
  have hnone : ∀ i, i < a.group.dim → ∃ skip skip', PoolPads opt.plain (nth n i) (nth n i) (nth a.poolSize i)
      (nth a.windowStrides i) (nth a.paddingStrides i) 0 0 skip skip' := by
    intro i hi
    refine ⟨builtIn opt.plain (nth n i) (nth a.poolSize i) (nth a.windowStrides i) / 2,
      builtIn opt.plain (nth n i) (nth a.poolSize i) (nth a.windowStrides i) -
        builtIn opt.plain (nth n i) (nth a.poolSize i) (nth a.windowStrides i) / 2, 0, ?_, by simp, by simp, by simp, ?_⟩
    · rcases plain_cases opt with h | h <;> rw [h]
    · simp only [Nat.add_zero]; omega
  obtain ⟨x, y, B, hx, hy⟩ := hcall
  obtain ⟨x1, hx1, -, hout⟩ := hsame.call hl.dims hx
  obtain ⟨y1, _, hy1, _⟩ := hout y hy
  have key := C70_no_zeros (α := α) hl1 rfl opt.plain ((accepted_iff _ _ _).2 (plain_accepted opt)).1 hC hn hK hs hnone
    ⟨x1, y1, B, hx1.last, hy1⟩
  have hfm : ∀ h, MovesOutput a.group (List.range a.group.group.order) H h (l1.call (α := α)) n (some g) C C ↔
      MovesOutputFirst a.group (List.range a.group.group.order) H h (l.call (α := α)) n (some g) C C := fun h =>
    movesOutput_formats (fun g' h => by cases h; simpa using hg) (fun B x x' hx => hsame B n x x' hl.dims hx)
  refine Iff.trans ⟨fun h e he => (hfm e).2 (h e he), fun h e he => (hfm e).1 (h e he)⟩ (key.trans ?_)
  refine forall_congr' fun i => forall_congr' fun _ => ?_
  show PlainMirrored opt.plain (nth n i) (nth a.poolSize i) (nth a.windowStrides i) ↔ _
  unfold PlainMirrored
  cases opt <;> rfl

/-- C33 for channels_first: what a channels_first pooling layer that pads nothing itself computes from signals with grid sizes `m`. The
windows start `skip` positions before the grid, and positions outside are left out. -/
theorem C33_channels_first [Field α] [LinearOrder α] {a : PoolArgs} {bt : Option Nat} {n : List Nat} {g C : Nat} {H : List Nat}
    {l : GroupPooling} (hl : BuiltPool a bt n g C H l) (hf : a.dataFormat = .channelsFirst) (hu : Unpadded l.transforms)
    (opt : PadOption) (hopt : formatPaddingOption a.padding = .ok opt) (m : List Nat) (hm : m.length = a.group.dim) :
    ∃ cos skip skip' : List Nat,
      Tiles a.group.group.order a.group.group.comp H cos ∧
      (∀ i, i < a.group.dim →
        let T := builtIn opt (nth m i) (nth a.poolSize i) (nth a.windowStrides i)
        nth skip i = T / 2 ∧ nth skip i + nth skip' i = T) ∧
      ∀ (x : Tensor α) (B : Nat), x.shape = sigShape .channelsFirst B m (some g) C → ((∃ y, l.call x = .ok y) ↔
        ∀ i, i < a.group.dim → nth a.poolSize i ≤ nth skip i + nth m i + nth skip' i) ∧
      ∀ y, l.call x = .ok y →
        y.shape = sigShape .channelsFirst B ((List.range a.group.dim).map fun i =>
          (nth skip i + nth m i + nth skip' i - nth a.poolSize i) / nth a.windowStrides i + 1) (some H.length) C ∧
        ∀ (b : Nat) (p : List Nat) (i c : Nat), Valid y.shape (b :: c :: p ++ [i]) → ∃ qs : List (List Int),
          qs = ((indices a.poolSize).map fun k => window skip a.windowStrides (List.replicate a.group.dim 1) p k).filter
            (fun q => InBox m q) ∧ qs ≠ [] ∧
          y.get (b :: c :: p ++ [i]) = a.poolType.reduce (qs.map fun q => a.poolType.reduce (cos.map fun t =>
            x.get (b :: c :: q.map Int.toNat ++ [a.group.group.comp (nth H i) t]))) := by
  obtain ⟨l1, hl1, -, hsame⟩ := C30_plain_pooling (α := α) hl hf hu opt hopt
  obtain ⟨cos, lo, hi, skip, skip', ht, hp, hc⟩ := C33_uniform (α := α) hl1 rfl opt.plain
    ((accepted_iff _ _ _).2 (plain_accepted opt)).1 m hm
  have hz : ∀ i, i < a.group.dim → nth lo i = 0 ∧ nth hi i = 0 ∧
      nth skip i = builtIn opt (nth m i) (nth a.poolSize i) (nth a.windowStrides i) / 2 ∧
      nth skip i + nth skip' i = builtIn opt (nth m i) (nth a.poolSize i) (nth a.windowStrides i) := by
    intro i hi
    obtain ⟨e, he, h1, h2, h3, h4⟩ := hp i hi
    have : e = 0 := by rcases plain_cases opt with h | h <;> rw [h] at he <;> exact he
    subst this
    rw [builtIn_plain] at h3 h4
    simp only [Nat.add_zero] at h3 h4
    exact ⟨by omega, by omega, h3, h4⟩
  refine ⟨cos, (List.range a.group.dim).map fun i => nth skip i, skip', ht, fun i hi => ?_, fun x B hx => ?_⟩
  · rw [nth_map_range, if_pos hi]
    exact (hz i hi).2.2
  obtain ⟨x1, hx1, hret, hout⟩ := hsame.call hm hx
  obtain ⟨c1, c2⟩ := hc x1 B hx1.last
  have hnum : ∀ i, i < a.group.dim → nth skip i + (nth lo i + nth m i + nth hi i) + nth skip' i =
      nth ((List.range a.group.dim).map fun i => nth skip i) i + nth m i + nth skip' i := by
    intro i hi
    rw [nth_map_range, if_pos hi, (hz i hi).1, (hz i hi).2.1]
    omega
  refine ⟨hret.trans (c1.trans ⟨fun h i hi => ?_, fun h i hi => ?_⟩), fun y hy => ?_⟩
  · rw [← hnum i hi]; exact h i hi
  · rw [hnum i hi]; exact h i hi
  obtain ⟨y1, out, hy1, hyy⟩ := hout y hy
  obtain ⟨d1, d2⟩ := c2 y1 hy1
  have := hyy.shape_eq d1
  subst this
  refine ⟨?_, fun b p i c hv => ?_⟩
  · rw [hyy.first]
    congr 1
    refine List.map_congr_left fun i hi => ?_
    show (_ - nth a.poolSize i) / nth a.windowStrides i + 1 = _
    rw [hnum i (List.mem_range.1 hi)]
  obtain ⟨hv1, he⟩ := hyy.entry hv
  obtain ⟨qs, hq, hne, hval⟩ := d2 b p i c hv1
  have hbox : ∀ q, InExtended lo m hi q ↔ InBox m q := by
    intro q
    rw [inBox_iff]
    unfold InExtended
    refine and_congr_right fun _ => forall_congr' fun i => forall_congr' fun him => ?_
    rw [(hz i (hm ▸ him)).1, (hz i (hm ▸ him)).2.1]
    simp
  have hbef : ((List.range a.group.dim).map fun i => nth skip i + nth lo i) = (List.range a.group.dim).map fun i => nth skip i :=
    List.map_congr_left fun i hi => by rw [(hz i (List.mem_range.1 hi)).1]; rfl
  refine ⟨qs, ?_, hne, ?_⟩
  · rw [hq]
    show ((indices a.poolSize).map fun k => window ((List.range a.group.dim).map fun i => nth skip i + nth lo i)
      a.windowStrides (List.replicate a.group.dim 1) p k).filter _ = _
    rw [hbef]
    refine List.filter_congr fun q _ => ?_
    simp only [hbox]
  · rw [he, hval]
    show a.poolType.reduce _ = _
    refine congrArg _ (List.map_congr_left fun q hqm => ?_)
    have hqb : InBox m q := by
      rw [hq, List.mem_filter] at hqm
      exact (hbox q).1 (by simpa using hqm.2)
    rw [if_pos hqb]
    refine congrArg a.poolType.reduce (List.map_congr_left fun t htc => ?_)
    have hgo : g = a.group.group.order := by
      obtain ⟨_, _, _, _, _, _, hg, _⟩ := hl.facts_first hf
      exact hg
    have hvs := hv
    rw [hyy.first] at hvs
    simp only [sigShape, List.cons_append, Valid, Option.toList_some] at hvs
    obtain ⟨sH, _, hH⟩ := parse_sub hl.elements
    have S := a.group.sym
    have hi : i < H.length := by
      obtain ⟨u, w, e, _, hw⟩ := valid_append_split hvs.2.2
      have hlen : w.length = 1 := by rw [hw.length]; rfl
      obtain ⟨w0, rfl⟩ := List.length_eq_one_iff.1 hlen
      have := (List.append_inj' e rfl).2
      cases this
      exact hw.1
    have hcl := S.tab.laws.closed _ _ (S.sub_nth_lt hH hi) (ht.2.1 t htc)
    have := hx1.get b (q.map Int.toNat ++ [a.group.group.comp (nth H i) t]) c hvs.1
      ((valid_append _ _ _ _ hqb.valid.length).2 ⟨hqb.valid, by rw [hgo]; exact hcl, trivial⟩) hvs.2.1
    rw [List.cons_append, List.cons_append, List.cons_append, this]
    simp [PoolArgs.plainLast]

/-! ### hypotheses are met -/

set_option maxRecDepth 8000 in
/-- hypotheses of C30_plain, C22_channels_first, C45_channels_first are met, with and without group axis -/
example : (∃ l y, BuiltConv strideConvFirst false none [5, 5] none 3 (fun _ => 1) (fun _ => 0) [0, 2] l ∧ Unpadded l.transforms ∧
      (l.call ⟨sigShape .channelsFirst 1 [5, 5] none 3, fun _ => 1⟩).2 = .ok y) ∧
    (∃ l, BuiltConv { strideConvFirst with strides := [1, 1] } false none [5, 5] (some 4) 3 (fun _ => 1) (fun _ => 0) [0, 2] l ∧
      Unpadded l.transforms) ∧
    ∃ l, BuiltConv { strideConvFirst with subgroup := some "" } false none [5, 5] none 3 (fun _ => 1) (fun _ => 0) [0, 1, 2, 3] l ∧
      Unpadded l.transforms :=
  ⟨⟨_, _, ⟨⟨_, rfl, rfl⟩, rfl, rfl⟩, rfl, rfl⟩, ⟨_, ⟨⟨_, rfl, rfl⟩, rfl, rfl⟩, rfl⟩, ⟨_, ⟨⟨_, rfl, rfl⟩, rfl, rfl⟩, rfl⟩⟩

/-- one bright pixel of a 9x9 image in channels_first -/
def pixelFirst (u v : Nat) : Tensor Int := ⟨[1, 1, 9, 9], fun i => if i = [0, 0, u, v] then 1 else 0⟩

theorem pixel_moved (u v : Nat) : ChannelsMoved 1 [9, 9] none 1 (pixel u v) (pixelFirst u v) := by
  refine ⟨rfl, rfl, ?_⟩
  intro b p c hb hp hc
  match p, hp with
  | [p0, p1], _ =>
    obtain rfl : b = 0 := by omega
    obtain rfl : c = 0 := by omega
    simp [pixel, pixelFirst]

set_option maxRecDepth 8000 in
/-- hypotheses of C46_channels_first are met: the pixel is moved by one stride down and left -/
example : (∃ l, BuiltConv strideConvFirst false none [7, 7] none 1 (fun _ => 1) (fun _ => 0) [0, 2] l ∧ Unpadded l.transforms) ∧
    TranslatedFirst 2 (List.zipWith (fun (s : Nat) (u : Int) => s * u) [2, 2] [1, -1]) (pixelFirst 2 4) (pixelFirst 4 2) := by
  refine ⟨⟨_, ⟨⟨_, rfl, rfl⟩, rfl, rfl⟩, rfl⟩, translated_first (pixel_moved 2 4) (pixel_moved 4 2) ?_⟩
  intro b q r hq
  match q, hq with
  | [q0, q1], _ =>
    show read0 _ ((b : Int) :: (q0 + 2 * 1) :: (q1 + 2 * -1) :: r) = read0 _ ((b : Int) :: q0 :: q1 :: r)
    rw [read0_pixel (by decide) (by decide), read0_pixel (by decide) (by decide)]
    congr 1
    apply propext
    constructor <;> rintro ⟨h1, h2, h3, h4⟩ <;> refine ⟨h1, ?_, ?_, h4⟩ <;> push_cast at * <;> omega

set_option maxRecDepth 8000 in
/-- a transposed channels_first layer that is equivariant by C69_channels_first -/
example : ∃ l, BuiltConv exampleTransposeFirst true none [4, 4] (some 2) 1 (fun _ => 1) (fun _ => 0) [0, 2] l ∧
    ∀ h k1 b1, h ∈ [0, 2] →
      MovesOutputFirst .P4 [0, 2] (List.range 4) h (fun x => ((l.assign k1 b1).call x).2) [4, 4] (some 2) 1 2 := by
  obtain ⟨l, hl, hu⟩ : ∃ l, BuiltConv exampleTransposeFirst true none [4, 4] (some 2) 1 (fun _ => 1) (fun _ => 0) [0, 2] l ∧
    Unpadded l.transforms := ⟨_, ⟨⟨_, rfl, rfl⟩, rfl, rfl⟩, rfl⟩
  refine ⟨l, hl, (C69_channels_first hl rfl hu .valid rfl rfl ⟨rfl, rfl⟩ ⟨rfl, rfl⟩ (by decide) 1 (by decide) (by decide)).2 ?_⟩
  intro i _
  match i with
  | ⟨0, _⟩ => exact ⟨show 2 ≤ 2 by decide, Or.inl rfl⟩
  | ⟨1, _⟩ => exact ⟨show 2 ≤ 2 by decide, Or.inl rfl⟩

/-- defaultStridesPool in channels_first, with allow_non_equivariance=True -/
def defaultStridesPoolFirst : PoolArgs := { defaultStridesPool with dataFormat := .channelsFirst, allowNonEquivariance := true }

/-- The premises of C33_channels_first and C70_channels_first are met by layers that are equivariant and by layers that are not. -/
example : (∃ l, BuiltPool defaultStridesPoolFirst none [4, 6] 2 1 [0, 1] l ∧
      ∀ h ∈ [0, 1], MovesOutputFirst .P2 (List.range 2) [0, 1] h (l.call (α := ℚ)) [4, 6] (some 2) 1 1) ∧
    ∃ l, BuiltPool defaultStridesPoolFirst none [3, 4] 2 1 [0, 1] l ∧
      ¬ ∀ h ∈ [0, 1], MovesOutputFirst .P2 (List.range 2) [0, 1] h (l.call (α := ℚ)) [3, 4] (some 2) 1 1 := by
  have hk : ∀ e ∈ [0, 1], ∀ m m' : Nat, KeepsSizes (GroupName.P2.motion e) [m, m'] := fun e he m m' => by
    have he' : e < 2 := by simp at he; omega
    have hg : GroupName.P2.Grid [m, m'] := ⟨rfl, trivial⟩
    exact (keeps_iff _ he' _).2 (hg.kept he')
  constructor
  · obtain ⟨l, hl, hu, hc⟩ : ∃ l, BuiltPool defaultStridesPoolFirst none [4, 6] 2 1 [0, 1] l ∧ Unpadded l.transforms ∧
        ∃ (x y : Tensor ℚ) (B : Nat), x.shape = sigShape .channelsFirst B [4, 6] (some 2) 1 ∧ l.call x = .ok y :=
      ⟨_, ⟨⟨_, rfl, rfl⟩, rfl, rfl⟩, rfl, ⟨[1, 1, 4, 6, 2], fun _ => 1⟩, _, 1, rfl, rfl⟩
    refine ⟨l, hl, (C70_channels_first hl rfl hu .validEquiv rfl (by decide) (fun e he => hk e he 4 6) (fun e he => hk e he 2 2)
      (fun e he => hk e he 2 2) hc).2 ?_⟩
    intro i _
    match i with
    | ⟨0, _⟩ => show PlainMirrored .validEquiv 4 2 2; unfold PlainMirrored; decide
    | ⟨1, _⟩ => show PlainMirrored .validEquiv 6 2 2; unfold PlainMirrored; decide
  · obtain ⟨l, hl, hu, hc⟩ : ∃ l, BuiltPool defaultStridesPoolFirst none [3, 4] 2 1 [0, 1] l ∧ Unpadded l.transforms ∧
        ∃ (x y : Tensor ℚ) (B : Nat), x.shape = sigShape .channelsFirst B [3, 4] (some 2) 1 ∧ l.call x = .ok y :=
      ⟨_, ⟨⟨_, rfl, rfl⟩, rfl, rfl⟩, rfl, ⟨[1, 1, 3, 4, 2], fun _ => 1⟩, _, 1, rfl, rfl⟩
    refine ⟨l, hl, fun hall => ?_⟩
    have := (C70_channels_first hl rfl hu .validEquiv rfl (by decide) (fun e he => hk e he 3 4) (fun e he => hk e he 2 2)
      (fun e he => hk e he 2 2) hc).1 hall ⟨0, by decide⟩ (C68_reversing .P2 "P2" _ (by decide) (by decide) ⟨0, by decide⟩)
    have : PlainMirrored .validEquiv 3 2 2 := this
    unfold PlainMirrored at this
    exact absurd this (by decide)

end GroCo
