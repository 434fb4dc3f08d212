import Verif.Props.Shape
import Verif.Props.FormatLayers

/-
Property C28 for layers of either data format that were built so that they pad nothing themselves.
-/

namespace GroCo
open Tensor

variable {α : Type}

/-- C28 for layers of either data format whose padding layer adds nothing on the sizes the layer was built on: they announce the shape of
their output exactly if they are on the whole group. -/
theorem C28_unpadded [Semiring α] {a : ConvArgs α} {bt : Option Nat} {n : List Nat} {g : Option Nat} {C : Nat}
    {k0 b0 : List Nat → α} {H : List Nat} {l : GroupConv α} (hl : BuiltConv a false bt n g C k0 b0 H l)
    (hu : Unpadded l.transforms)
    (x : Tensor α) (B : Nat) (hB : ∀ b, bt = some b → B = b) (hx : x.shape = sigShape a.dataFormat B n g C) (y : Tensor α)
    (hy : (l.call x).2 = .ok y) (arg : List (Option Nat)) :
    (∃ s, l.computeOutputShape arg = .ok s ∧ Announces s y.shape) ↔ H.length = a.group.group.order := by
  obtain ⟨h1, h2, h3⟩ := hl.shape_facts
  have hn := hl.dims
  suffices h : ∃ kp, ConvFacts a false g C k0 b0 H (List.range a.group.group.order) l kp ∧
      FitsIn a.strides a.dilation a.kernelSize (grow n (kpads kp a.strides a.dilation a.kernelSize n)) ∧
      y.shape = sigShape a.dataFormat B (outSizes a.strides a.dilation a.kernelSize
        (grow n (kpads kp a.strides a.dilation a.kernelSize n))) (some H.length) a.filters by
    obtain ⟨kp, f, hfit, hys⟩ := h
    have hs : l.computeOutputShape arg = .ok (inputShape a.dataFormat bt (outSizes a.strides a.dilation a.kernelSize
        (grow n (kpads kp a.strides a.dilation a.kernelSize n))) (some a.group.group.order) a.filters) := by
      unfold GroupConv.computeOutputShape
      rw [f.transp, h1, h2, f.fmt, f.padding, f.strides, f.dilation, f.filters]
      simp only [Bool.false_eq_true, if_false]
      rw [convOutputShape_ok (by rw [hn, f.stridesLen]) hfit, res_bind_ok, res_pure]
      unfold GroupTransforms.correctOutputShape
      rw [h3, insert_group (d := a.group.dim) (by rw [length_outSizes, f.stridesLen]) f.gaxis]
    constructor
    · rintro ⟨s, e, h⟩
      rw [hs] at e
      cases e
      rw [hys] at h
      exact (announces_iff hB).1 h
    · intro h
      exact ⟨_, hs, hys ▸ (announces_iff hB).2 h⟩
  have hgrow : ∀ kp, a.strides.length = a.group.dim → padded ⟨false, []⟩ kp a.strides a.dilation a.kernelSize n =
      grow n (kpads kp a.strides a.dilation a.kernelSize n) := by
    intro kp hsl
    unfold padded
    rw [grow_zeros (n := n)]
    · rw [length_epads, hn, hsl]
    · intro p hp
      simp only [epads, List.mem_map] at hp
      obtain ⟨i, _, rfl⟩ := hp
      simp
  cases hf : a.dataFormat with
  | channelsLast =>
    obtain ⟨opt, kp, e1, e2, f, hst⟩ := hl.facts_last hf
    have h0 : l.transforms.padState = ⟨false, []⟩ := unpadded_state hst hu
    obtain ⟨c1, c2⟩ := conv_call_last f hf (by rw [hx, hf]) hn
    rw [h0, hgrow kp f.stridesLen] at c1 c2
    obtain ⟨z, hz, hzs, _⟩ := c2 (c1 y hy)
    rw [hz] at hy
    cases hy
    exact ⟨kp, f, c1 y (by rw [hz]), by rw [hzs]; rfl⟩
  | channelsFirst =>
    obtain ⟨opt, kp, e1, e2, f, hst⟩ := hl.facts_first hf
    have h0 : l.transforms.padState = ⟨false, []⟩ := unpadded_state hst hu
    obtain ⟨c1, c2⟩ := conv_call_first f hf h0 (toLast_moved x (by rw [hx, hf])) hn
    rw [hgrow kp f.stridesLen] at c1 c2
    obtain ⟨z, hz, hzs, _⟩ := c2 (c1 y hy)
    rw [hz] at hy
    cases hy
    exact ⟨kp, f, c1 y (by rw [hz]), by rw [hzs]; rfl⟩

/-- the layer of `C21_violation` on two channels, on which it does not pad: it announces the shape of its output. With kernels of size 2,
stride 3 and 'valid_equiv' layers pad on other sizes. -/
example : ∃ l y, BuiltConv firstConv3 false none [5, 6] none 2 (fun _ => 1) (fun _ => 0) [0, 1] l ∧
    (l.call ⟨sigShape .channelsFirst 1 [5, 6] none 2, fun _ => 1⟩).2 = .ok y ∧
    ∃ s, l.computeOutputShape [] = .ok s ∧ Announces s y.shape := by
  obtain ⟨l, y, hl, hy, hu⟩ : ∃ l y, BuiltConv firstConv3 false none [5, 6] none 2 (fun _ => 1) (fun _ => 0) [0, 1] l ∧
    (l.call ⟨sigShape .channelsFirst 1 [5, 6] none 2, fun _ => 1⟩).2 = .ok y ∧ Unpadded l.transforms :=
    ⟨_, _, ⟨⟨_, rfl, rfl⟩, rfl, rfl⟩, rfl, rfl⟩
  exact ⟨l, y, hl, hy, (C28_unpadded hl hu _ 1 (by simp) rfl y hy []).2 rfl⟩

/-- C28 for transposed layers of either data format whose padding layer adds nothing on the sizes the layer was built on: they announce
the shape of their output, for every subgroup. -/
theorem C28_unpadded_transposed [Semiring α] {a : ConvArgs α} {bt : Option Nat} {n : List Nat} {g : Option Nat} {C : Nat}
    {k0 b0 : List Nat → α} {H : List Nat} {l : GroupConv α} (hl : BuiltConv a true bt n g C k0 b0 H l)
    (hu : Unpadded l.transforms)
    (x : Tensor α) (B : Nat) (hB : ∀ b, bt = some b → B = b) (hx : x.shape = sigShape a.dataFormat B n g C) (y : Tensor α)
    (hy : (l.call x).2 = .ok y) (arg : List (Option Nat)) :
    ∃ s, l.computeOutputShape arg = .ok s ∧ Announces s y.shape := by
  obtain ⟨h1, h2, h3⟩ := hl.shape_facts
  have hn := hl.dims
  suffices h : ∃ kp, ConvFacts a true g C k0 b0 (List.range a.group.group.order) H l kp ∧
      y.shape = sigShape a.dataFormat B (upSizes kp a.strides a.dilation a.kernelSize n) (some a.group.group.order)
        a.filters by
    obtain ⟨kp, f, hys⟩ := h
    refine ⟨inputShape a.dataFormat bt (upSizes kp a.strides a.dilation a.kernelSize n) (some a.group.group.order) a.filters,
      ?_, hys ▸ announces_of hB⟩
    unfold GroupConv.computeOutputShape
    rw [f.transp, h1, h2, f.fmt, f.padding, f.strides, f.dilation, f.filters]
    simp only [if_true]
    rw [convTransposeOutputShape_ok (by rw [hn, f.stridesLen]), res_bind_ok, res_pure]
    unfold GroupTransforms.correctOutputShape
    rw [h3, insert_group (d := a.group.dim) (by rw [upSizes, List.length_map, List.length_range, f.stridesLen]) f.gaxis]
  have hgrow : grow n (epads ⟨false, []⟩ a.group.dim) = n := by
    rw [grow_zeros (n := n)]
    · rw [length_epads, hn]
    · intro p hp
      simp only [epads, List.mem_map] at hp
      obtain ⟨i, _, rfl⟩ := hp
      simp
  cases hf : a.dataFormat with
  | channelsLast =>
    obtain ⟨opt, kp, e1, e2, f, hst⟩ := hl.facts_last hf
    have h0 : l.transforms.padState = ⟨false, []⟩ := unpadded_state hst hu
    obtain ⟨z, hz, hzs, _⟩ := convT_call_last f hf (by rw [hx, hf]) hn
    rw [h0, hgrow] at hzs
    rw [hz] at hy
    cases hy
    exact ⟨kp, f, by rw [hzs]; simp [sigShape, actingOf]⟩
  | channelsFirst =>
    obtain ⟨opt, kp, e1, e2, f, hst⟩ := hl.facts_first hf
    have h0 : l.transforms.padState = ⟨false, []⟩ := unpadded_state hst hu
    obtain ⟨z, hz, hzs, _⟩ := convT_call_first f hf h0 (toLast_moved x (by rw [hx, hf])) hn
    rw [hgrow] at hzs
    rw [hz] at hy
    cases hy
    exact ⟨kp, f, by rw [hzs]; simp [sigShape, actingOf]⟩

/-- a transposed channels_first layer that pads on other sizes -/
def firstTranspose3 : ConvArgs Int :=
  { group := .P2, subgroup := some "P1", kernelSize := [3, 3], strides := [2, 2], padding := "valid_equiv",
    allowNonEquivariance := true, dataFormat := .channelsFirst, filters := 1, dilation := [1, 1], useBias := false,
    activation := id }

/-- hypotheses are met -/
example : ∃ l y, BuiltConv firstTranspose3 true none [3, 4] (some 1) 1 (fun _ => 1) (fun _ => 0) [0] l ∧
    (l.call ⟨sigShape .channelsFirst 1 [3, 4] (some 1) 1, fun _ => 1⟩).2 = .ok y ∧ Unpadded l.transforms :=
  ⟨_, _, ⟨⟨_, rfl, rfl⟩, rfl, rfl⟩, rfl, rfl⟩

end GroCo
