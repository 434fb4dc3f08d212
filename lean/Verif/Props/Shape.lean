import Verif.ShapeLemmas
import Verif.Props.Format

/-
Property C28: the shape announced by `compute_output_shape`.
-/

namespace GroCo
open Tensor

variable {α : Type}

/-- A shape with known sizes agrees with a static shape, in which unknown sizes are `none`. -/
def Announces (s : List (Option Nat)) (t : List Nat) : Prop :=
  s.length = t.length ∧ ∀ i k, s.getD i none = some k → nth t i = k

/-- C28 as stated, for inputs with the sizes the layer was built on -/
def OutputShapeRight : Prop :=
  ∀ (a : ConvArgs Int) (bt : Option Nat) (n : List Nat) (g : Option Nat) (C : Nat) (k0 b0 : List Nat → Int) (H : List Nat)
    (l : GroupConv Int), BuiltConv a false bt n g C k0 b0 H l →
  ∀ (x : Tensor Int) (B : Nat), x.shape = sigShape a.dataFormat B n g C → (∀ b, bt = some b → B = b) → ∀ y, (l.call x).2 = .ok y →
    ∃ s, l.computeOutputShape (inputShape a.dataFormat bt n g C) = .ok s ∧ Announces s y.shape

theorem announces_of {fmt : DataFormat} {bt : Option Nat} {B : Nat} {n : List Nat} {g C : Nat} (hb : ∀ b, bt = some b → B = b) :
    Announces (inputShape fmt bt n (some g) C) (sigShape fmt B n (some g) C) := by
  have key : ∀ t : List Nat, ∀ i k, (bt :: t.map some).getD i none = some k → nth (B :: t) i = k := by
    intro t i k h
    cases i with
    | zero => exact hb k (by simpa using h)
    | succ i =>
      by_cases hi : i < t.length
      · simpa [nth, hi] using h
      · exact absurd h (by simp [hi])
  cases fmt with
  | channelsLast =>
    refine ⟨by simp [inputShape, sigShape], ?_⟩
    have := key (n ++ [g, C])
    simpa [inputShape, sigShape] using this
  | channelsFirst =>
    refine ⟨by simp [inputShape, sigShape], ?_⟩
    have := key (C :: n ++ [g])
    simpa [inputShape, sigShape] using this

/-- the group axis of the announced shape is that of the output only if its size is -/
theorem announces_iff {fmt : DataFormat} {bt : Option Nat} {B : Nat} {n : List Nat} {g h C : Nat} (hb : ∀ b, bt = some b → B = b) :
    Announces (inputShape fmt bt n (some g) C) (sigShape fmt B n (some h) C) ↔ h = g := by
  constructor
  · intro ⟨_, h2⟩
    cases fmt with
    | channelsLast =>
      have := h2 (n.length + 1) g (by simp [inputShape])
      simpa [sigShape, nth] using this
    | channelsFirst =>
      have := h2 (n.length + 2) g (by simp [inputShape])
      simpa [sigShape, nth] using this
  · rintro rfl
    exact announces_of hb

/-- Layers in configurations in which the padding layer has nothing to add announce the shape of their output exactly if the
layer is on the whole group. (The argument is ignored: the announced shape is that for the sizes the layer was built on.) -/
theorem C28_whole_group_iff [Semiring α] {a : ConvArgs α} {bt : Option Nat} {n : List Nat} {g : Option Nat} {C : Nat}
    {k0 b0 : List Nat → α} {H : List Nat} {l : GroupConv α} (hl : BuiltConv a false bt n g C k0 b0 H l)
    (hnp : ∀ opt, formatPaddingOption a.padding = .ok opt → ∀ i, i < a.group.dim →
      NeverPads opt (nth a.kernelSize i) (nth a.strides i))
    (x : Tensor α) (B : Nat) (hB : ∀ b, bt = some b → B = b) (hx : x.shape = sigShape a.dataFormat B n g C) (y : Tensor α)
    (hy : (l.call x).2 = .ok y) (arg : List (Option Nat)) :
    (∃ s, l.computeOutputShape arg = .ok s ∧ Announces s y.shape) ↔ H.length = a.group.group.order := by
  obtain ⟨h1, h2, h3⟩ := hl.shape_facts
  have hn := hl.dims
  suffices h : ∃ kp, ConvFacts a false g C k0 b0 H (List.range a.group.group.order) l kp ∧
      FitsIn a.strides a.dilation a.kernelSize (grow n (kpads kp a.strides a.dilation a.kernelSize n)) ∧
      y.shape = sigShape a.dataFormat B (outSizes a.strides a.dilation a.kernelSize
        (grow n (kpads kp a.strides a.dilation a.kernelSize n))) (some H.length) a.filters by
    obtain ⟨kp, f, hfit, hys⟩ := h
    have hs : l.computeOutputShape arg = .ok (inputShape a.dataFormat bt (outSizes a.strides a.dilation a.kernelSize
        (grow n (kpads kp a.strides a.dilation a.kernelSize n))) (some a.group.group.order) a.filters) := by
      unfold GroupConv.computeOutputShape
      rw [f.transp, h1, h2, f.fmt, f.padding, f.strides, f.dilation, f.filters]
      simp only [Bool.false_eq_true, if_false]
      rw [convOutputShape_ok (by rw [hn, f.stridesLen]) hfit, res_bind_ok, res_pure]
      unfold GroupTransforms.correctOutputShape
      rw [h3, insert_group (d := a.group.dim) (by rw [length_outSizes, f.stridesLen]) f.gaxis]
    constructor
    · rintro ⟨s, e, h⟩
      rw [hs] at e
      cases e
      rw [hys] at h
      exact (announces_iff hB).1 h
    · intro h
      exact ⟨_, hs, hys ▸ (announces_iff hB).2 h⟩
  have hgrow : ∀ kp, a.strides.length = a.group.dim → padded ⟨false, []⟩ kp a.strides a.dilation a.kernelSize n =
      grow n (kpads kp a.strides a.dilation a.kernelSize n) := by
    intro kp hsl
    unfold padded
    rw [grow_zeros (n := n)]
    · rw [length_epads, hn, hsl]
    · intro p hp
      simp only [epads, List.mem_map] at hp
      obtain ⟨i, _, rfl⟩ := hp
      simp
  cases hf : a.dataFormat with
  | channelsLast =>
    obtain ⟨opt, kp, e1, e2, f, hst⟩ := hl.facts_last hf
    have h0 : l.transforms.padState = ⟨false, []⟩ := never_pads f.kernelLen f.kernelPos (hnp opt e1) hst
    obtain ⟨c1, c2⟩ := conv_call_last f hf (by rw [hx, hf]) hn
    rw [h0, hgrow kp f.stridesLen] at c1 c2
    obtain ⟨z, hz, hzs, _⟩ := c2 (c1 y hy)
    rw [hz] at hy
    cases hy
    exact ⟨kp, f, c1 y (by rw [hz]), by rw [hzs]; rfl⟩
  | channelsFirst =>
    obtain ⟨opt, kp, e1, e2, f, hst⟩ := hl.facts_first hf
    have h0 : l.transforms.padState = ⟨false, []⟩ := never_pads f.kernelLen f.kernelPos (hnp opt e1) hst
    obtain ⟨c1, c2⟩ := conv_call_first f hf h0 (toLast_moved x (by rw [hx, hf])) hn
    rw [hgrow kp f.stridesLen] at c1 c2
    obtain ⟨z, hz, hzs, _⟩ := c2 (c1 y hy)
    rw [hz] at hy
    cases hy
    exact ⟨kp, f, c1 y (by rw [hz]), by rw [hzs]; rfl⟩

/-- C28 for layers on the whole group in configurations in which the padding layer has nothing to add: the layer announces
the shape of its output. (The argument is ignored: the announced shape is that for the sizes the layer was built on.) -/
theorem C28_output_shape_partial [Semiring α] {a : ConvArgs α} {bt : Option Nat} {n : List Nat} {g : Option Nat} {C : Nat}
    {k0 b0 : List Nat → α} {H : List Nat} {l : GroupConv α} (hl : BuiltConv a false bt n g C k0 b0 H l)
    (hH : H.length = a.group.group.order)
    (hnp : ∀ opt, formatPaddingOption a.padding = .ok opt → ∀ i, i < a.group.dim →
      NeverPads opt (nth a.kernelSize i) (nth a.strides i))
    (x : Tensor α) (B : Nat) (hB : ∀ b, bt = some b → B = b) (hx : x.shape = sigShape a.dataFormat B n g C) (y : Tensor α)
    (hy : (l.call x).2 = .ok y) (arg : List (Option Nat)) :
    ∃ s, l.computeOutputShape arg = .ok s ∧ Announces s y.shape :=
  (C28_whole_group_iff hl hnp x B hB hx y hy arg).2 hH

/-- `firstConv3` on the whole group, 'valid', channels_last -/
def plainConv : ConvArgs Int :=
  { group := .P2, subgroup := some "", kernelSize := [2, 2], strides := [3, 3], padding := "valid",
    allowNonEquivariance := true, dataFormat := .channelsLast, filters := 1, dilation := [1, 1], useBias := false,
    activation := id }

/-- hypotheses of the theorem are met -/
example : ∃ l y, BuiltConv plainConv false none [5, 6] none 3 (fun _ => 1) (fun _ => 0) [0, 1] l ∧
    (l.call ⟨sigShape .channelsLast 1 [5, 6] none 3, fun _ => 1⟩).2 = .ok y ∧
    ([0, 1] : List Nat).length = plainConv.group.group.order ∧
    ∀ opt, formatPaddingOption plainConv.padding = .ok opt → ∀ i, i < 2 →
      NeverPads opt (nth plainConv.kernelSize i) (nth plainConv.strides i) := by
  refine ⟨_, _, ⟨⟨_, rfl, rfl⟩, rfl, rfl⟩, rfl, rfl, ?_⟩
  intro opt ho i _
  cases ho
  exact Or.inr (Or.inl rfl)

/-- a P4 layer with subgroup P2 to which the equivalence applies: it announces another shape -/
example : ∃ l y, BuiltConv oddConv false none [5, 5] none 1 (fun _ => 1) (fun _ => 0) [0, 2] l ∧
    (l.call ⟨sigShape .channelsLast 1 [5, 5] none 1, fun _ => 1⟩).2 = .ok y ∧
    ¬ ([0, 2] : List Nat).length = oddConv.group.group.order ∧
    ∀ opt, formatPaddingOption oddConv.padding = .ok opt → ∀ i, i < 2 →
      NeverPads opt (nth oddConv.kernelSize i) (nth oddConv.strides i) := by
  refine ⟨_, _, ⟨⟨_, rfl, rfl⟩, rfl, rfl⟩, rfl, by decide, ?_⟩
  intro opt ho i hi
  cases ho
  rcases i with _ | _ | i
  · exact Or.inr (Or.inr ⟨rfl, Or.inr rfl⟩)
  · exact Or.inr (Or.inr ⟨rfl, Or.inr rfl⟩)
  · omega

/-- C28 for transposed layers in configurations in which the padding layer has nothing to add: the layer announces the shape
of its output, for every subgroup, since transposed layers put out the whole group. -/
theorem C28_transposed_partial [Semiring α] {a : ConvArgs α} {bt : Option Nat} {n : List Nat} {g : Option Nat} {C : Nat}
    {k0 b0 : List Nat → α} {H : List Nat} {l : GroupConv α} (hl : BuiltConv a true bt n g C k0 b0 H l)
    (hnp : ∀ opt, formatPaddingOption a.padding = .ok opt → ∀ i, i < a.group.dim →
      NeverPads opt (nth a.kernelSize i) (nth a.strides i))
    (x : Tensor α) (B : Nat) (hB : ∀ b, bt = some b → B = b) (hx : x.shape = sigShape a.dataFormat B n g C) (y : Tensor α)
    (hy : (l.call x).2 = .ok y) (arg : List (Option Nat)) :
    ∃ s, l.computeOutputShape arg = .ok s ∧ Announces s y.shape := by
  obtain ⟨h1, h2, h3⟩ := hl.shape_facts
  have hn := hl.dims
  suffices h : ∃ kp, ConvFacts a true g C k0 b0 (List.range a.group.group.order) H l kp ∧
      y.shape = sigShape a.dataFormat B (upSizes kp a.strides a.dilation a.kernelSize n) (some a.group.group.order)
        a.filters by
    obtain ⟨kp, f, hys⟩ := h
    refine ⟨inputShape a.dataFormat bt (upSizes kp a.strides a.dilation a.kernelSize n) (some a.group.group.order) a.filters,
      ?_, hys ▸ announces_of hB⟩
    unfold GroupConv.computeOutputShape
    rw [f.transp, h1, h2, f.fmt, f.padding, f.strides, f.dilation, f.filters]
    simp only [if_true]
    rw [convTransposeOutputShape_ok (by rw [hn, f.stridesLen]), res_bind_ok, res_pure]
    unfold GroupTransforms.correctOutputShape
    rw [h3, insert_group (d := a.group.dim) (by rw [upSizes, List.length_map, List.length_range, f.stridesLen]) f.gaxis]
  have hgrow : grow n (epads ⟨false, []⟩ a.group.dim) = n := by
    rw [grow_zeros (n := n)]
    · rw [length_epads, hn]
    · intro p hp
      simp only [epads, List.mem_map] at hp
      obtain ⟨i, _, rfl⟩ := hp
      simp
  cases hf : a.dataFormat with
  | channelsLast =>
    obtain ⟨opt, kp, e1, e2, f, hst⟩ := hl.facts_last hf
    have h0 : l.transforms.padState = ⟨false, []⟩ := never_pads f.kernelLen f.kernelPos (hnp opt e1) hst
    obtain ⟨z, hz, hzs, _⟩ := convT_call_last f hf (by rw [hx, hf]) hn
    rw [h0, hgrow] at hzs
    rw [hz] at hy
    cases hy
    exact ⟨kp, f, by rw [hzs]; simp [sigShape, actingOf]⟩
  | channelsFirst =>
    obtain ⟨opt, kp, e1, e2, f, hst⟩ := hl.facts_first hf
    have h0 : l.transforms.padState = ⟨false, []⟩ := never_pads f.kernelLen f.kernelPos (hnp opt e1) hst
    obtain ⟨z, hz, hzs, _⟩ := convT_call_first f hf h0 (toLast_moved x (by rw [hx, hf])) hn
    rw [hgrow] at hzs
    rw [hz] at hy
    cases hy
    exact ⟨kp, f, by rw [hzs]; simp [sigShape, actingOf]⟩

/-- a transposed P2 layer with the trivial subgroup: it takes signals on one group element to signals on two -/
def shapeTranspose : ConvArgs Int :=
  { group := .P2, subgroup := some "P1", kernelSize := [2, 2], strides := [2, 2], padding := "valid",
    allowNonEquivariance := true, dataFormat := .channelsLast, filters := 1, dilation := [1, 1], useBias := false,
    activation := id }

/-- hypotheses of the theorem are met, by a layer on a proper subgroup -/
example : ∃ l y, BuiltConv shapeTranspose true none [2, 3] (some 1) 1 (fun _ => 1) (fun _ => 0) [0] l ∧
    (l.call ⟨sigShape .channelsLast 1 [2, 3] (some 1) 1, fun _ => 1⟩).2 = .ok y ∧ y.shape = [1, 4, 6, 2, 1] ∧
    ∀ opt, formatPaddingOption shapeTranspose.padding = .ok opt → ∀ i, i < 2 →
      NeverPads opt (nth shapeTranspose.kernelSize i) (nth shapeTranspose.strides i) := by
  refine ⟨_, _, ⟨⟨_, rfl, rfl⟩, rfl, rfl⟩, rfl, rfl, ?_⟩
  intro opt ho i _
  cases ho
  exact Or.inr (Or.inl rfl)

/-- C28 fails for layers on a proper subgroup: a layer on P4 with subgroup P2 announces a group axis of size 4, its output
has size 2. -/
theorem C28_violation_subgroup : ¬ OutputShapeRight := by
  intro h
  obtain ⟨s, hs, h1, h2⟩ := h oddConv none [5, 5] none 1 (fun _ => 1) (fun _ => 0) [0, 2] _ ⟨⟨_, rfl, rfl⟩, rfl, rfl⟩
    ⟨[1, 5, 5, 1], fun _ => 1⟩ 1 rfl (by simp) _ rfl
  cases hs
  exact absurd (h2 3 4 rfl) (by decide)

/-- a P2 layer that pads 5x5 images to 7x7 -/
def paddedConv : ConvArgs Int :=
  { group := .P2, subgroup := some "", kernelSize := [3, 3], strides := [4, 4], padding := "valid_equiv",
    allowNonEquivariance := false, dataFormat := .channelsLast, filters := 1, dilation := [1, 1], useBias := false,
    activation := id }

/-- C28 fails for layers that pad: the zeros of the padding layer are not counted. -/
theorem C28_violation_padding : ¬ OutputShapeRight := by
  intro h
  obtain ⟨s, hs, h1, h2⟩ := h paddedConv none [5, 5] none 1 (fun _ => 1) (fun _ => 0) [0, 1] _ ⟨⟨_, rfl, rfl⟩, rfl, rfl⟩
    ⟨[1, 5, 5, 1], fun _ => 1⟩ 1 rfl (by simp) _ rfl
  cases hs
  exact absurd (h2 1 1 rfl) (by decide)

/-- The argument of `compute_output_shape` is ignored, so that the answer is wrong for other sizes than those the layer was
built on, even on the whole group and without padding. -/
theorem C28_violation_argument : ∃ l y, BuiltConv plainConv false none [5, 5] none 3 (fun _ => 1) (fun _ => 0) [0, 1] l ∧
    (l.call ⟨sigShape .channelsLast 1 [8, 8] none 3, fun _ => 1⟩).2 = .ok y ∧
    ∃ s, l.computeOutputShape (inputShape .channelsLast none [8, 8] none 3) = .ok s ∧ ¬ Announces s y.shape := by
  refine ⟨_, _, ⟨⟨_, rfl, rfl⟩, rfl, rfl⟩, rfl, _, rfl, ?_⟩
  rintro ⟨h1, h2⟩
  exact absurd (h2 1 2 rfl) (by decide)

end GroCo
