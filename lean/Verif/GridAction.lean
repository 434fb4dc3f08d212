import Mathlib.Tactic.SplitIfs
import Verif.SPerm

/-
Helper: the `_action` functions of the library stack, along the new axis, the copies of the signal re-indexed by the
symmetries listed in SPerm.lean.
-/

namespace GroCo
open Tensor

variable {α : Type}

theorem Stack.congr {y x : Tensor α} {a : Nat} {fs gs : List (List Nat → List Nat)} (h : Stack y a fs x)
    (ha : a ≤ x.rank) (hl : fs.length = gs.length)
    (he : ∀ i, i < fs.length → ∀ idx, Valid x.shape idx → fs.getD i id idx = gs.getD i id idx) : Stack y a gs x := by
  refine ⟨by rw [h.1, hl], fun idx hi => ?_⟩
  rw [h.2 idx hi]
  obtain ⟨h1, h2⟩ := valid_insert_erase ha (h.1 ▸ hi)
  rw [he _ h2 _ h1]

theorem axis_shift (a h : Nat) : (if (a : Int) ≤ (h : Int) then (h : Int) + 1 else (h : Int)) = ((shift a h : Nat) : Int) := by
  unfold shift
  split <;> split <;> first | rfl | omega | simp

theorem pyIndex_nat {r a : Nat} (h : a < r) : pyIndex r (a : Int) = .ok a := by
  unfold pyIndex
  rw [if_pos ⟨by omega, by omega⟩]
  simp

theorem pyIndex_neg {r a : Nat} (h : a ≤ r) (h0 : 0 < a) : pyIndex r (-(a : Int)) = .ok (r - a) := by
  unfold pyIndex
  rw [if_neg (by omega), if_pos ⟨by omega, by omega⟩]
  congr 1
  omega

theorem swappedAxes_nat {r h w : Nat} (hh : h < r) (hw : w < r) :
    swappedAxes r h w = .ok (swapList (List.range r) h w) := by
  simp [swappedAxes, pyIndex_nat hh, pyIndex_nat hw]

theorem stack_concat2 {x y z : Tensor α} {a : Nat} {fs gs} (hy : Stack y a fs x) (hz : Stack z a gs x)
    (ha : a ≤ x.rank) : ∃ w, concatenate [y, z] a = .ok w ∧ Stack w a (fs ++ gs) x := by
  obtain ⟨w, h1, h2⟩ := stack_concatenate ha [y, z] [fs, gs] (.cons hy (.cons hz .nil)) (by simp)
  exact ⟨w, h1, by simpa using h2⟩

/-- each of two axes of the same grid -/
structure Axes2 (x : Tensor α) (h w : Nat) : Prop where
  hh : h < x.rank
  hw : w < x.rank
  ne : h ≠ w

macro "pull2" : tactic => `(tactic| (
  refine ext_nth ?_ ?_
  · simp [flipAt, length_swapList, length_place, SPerm.pullIdx]
  · intro i hi
    simp only [SPerm.pullIdx, SPerm.pull, coords, place, SPerm.neg, SPerm.src, flipAt, swapList, List.range_succ,
      List.range_zero, Function.comp, id, List.map_cons, List.map_nil, List.nil_append, List.cons_append,
      List.length_cons, List.length_nil, List.getD_cons_zero, List.getD_cons_succ, nth_cons_zero, nth_cons_succ,
      nth_set, List.length_set, if_true, if_false, Bool.false_eq_true] at *
    try grind))

theorem P4M_act (x : Tensor α) {h w a : Nat} (hax : Axes2 x h w) (ha : a ≤ x.rank)
    (hsq : nth x.shape h = nth x.shape w) :
    ∃ y, P4M_action x [h, w] a = .ok y ∧
      Stack y a (p4mEls.map fun σ => σ.pullIdx [h, w] (coords [h, w] x.shape)) x := by
  obtain ⟨y1, e1, s1⟩ := stack_expand x ha
  obtain ⟨y2, e2, s2⟩ := stack_flip s1 ha hax.hw
  obtain ⟨y3, e3, s3⟩ := stack_concat2 s1 s2 ha
  obtain ⟨y4, e4, s4⟩ := stack_flip s3 ha hax.hh
  obtain ⟨y5, e5, s5⟩ := stack_concat2 s3 s4 ha
  obtain ⟨y6, e6, s6⟩ := stack_transpose s5 ha hax.hh hax.hw hsq
  obtain ⟨y7, e7, s7⟩ := stack_concat2 s5 s6 ha
  obtain ⟨y8, e8, s8⟩ := stack_take s7 ha (is := [0, 5, 3, 6, 1, 4, 2, 7]) (by simp)
  have hr5 := s5.rank ha
  have e6' := swappedAxes_nat (r := y5.rank) (h := shift a h) (w := shift a w)
    (by rw [hr5]; exact shift_lt hax.hh) (by rw [hr5]; exact shift_lt hax.hw)
  refine ⟨y8, ?_, s8.congr ha (by simp [p4mEls]) ?_⟩
  · simp only [P4M_action, unpack2, res_bind_ok, e1, axis_shift, e2, e3, e4, e5, e6', e6, e7, e8]
  · intro i hi idx hv
    have hlen := hv.length
    have h1 := hax.hh
    have h2 := hax.hw
    have h3 := hax.ne
    have h4 := hv.lt h1
    have h5 := hv.lt h2
    simp only [List.length_map, List.length_cons, List.length_nil] at hi
    have : i = 0 ∨ i = 1 ∨ i = 2 ∨ i = 3 ∨ i = 4 ∨ i = 5 ∨ i = 6 ∨ i = 7 := by omega
    rcases this with rfl | rfl | rfl | rfl | rfl | rfl | rfl | rfl <;> simp only [p4mEls, List.map_cons, List.map_nil, List.getD_cons_zero, List.getD_cons_succ, List.nil_append, List.cons_append]
    all_goals pull2

theorem P4_act (x : Tensor α) {h w a : Nat} (hax : Axes2 x h w) (ha : a ≤ x.rank) (hsq : nth x.shape h = nth x.shape w) :
    ∃ y, P4_action x [h, w] a = .ok y ∧
      Stack y a (p4Els.map fun σ => σ.pullIdx [h, w] (coords [h, w] x.shape)) x := by
  obtain ⟨y1, e1, s1⟩ := stack_expand x ha
  obtain ⟨y2, e2, s2⟩ := stack_flip s1 ha hax.hw
  obtain ⟨y3, e3, s3⟩ := stack_flip s2 ha hax.hh
  obtain ⟨y4, e4, s4⟩ := stack_concat2 s1 s3 ha
  obtain ⟨y5, e5, s5⟩ := stack_transpose s4 ha hax.hh hax.hw hsq
  obtain ⟨y6, e6, s6⟩ := stack_flip s5 ha hax.hh
  obtain ⟨y7, e7, s7⟩ := stack_concat2 s4 s6 ha
  obtain ⟨y8, e8, s8⟩ := stack_take s7 ha (is := [0, 2, 1, 3]) (by simp)
  have hr4 := s4.rank ha
  have e5' := swappedAxes_nat (r := y4.rank) (h := shift a h) (w := shift a w)
    (by rw [hr4]; exact shift_lt hax.hh) (by rw [hr4]; exact shift_lt hax.hw)
  refine ⟨y8, ?_, s8.congr ha (by simp [p4Els, p4mEls]) ?_⟩
  · simp only [P4_action, unpack2, res_bind_ok, axis_shift, e1, e2, e3, e4, e5', e5, e6, e7, e8]
  · intro i hi idx hv
    have hlen := hv.length
    have h1 := hax.hh
    have h2 := hax.hw
    have h3 := hax.ne
    have h4 := hv.lt h1
    have h5 := hv.lt h2
    simp only [List.length_map, List.length_cons, List.length_nil, List.nil_append, List.cons_append, List.map_cons, List.map_nil] at hi
    have : i = 0 ∨ i = 1 ∨ i = 2 ∨ i = 3 := by omega
    rcases this with rfl | rfl | rfl | rfl <;> simp only [p4Els, p4mEls, List.take, List.map_cons, List.map_nil, List.getD_cons_zero,
      List.getD_cons_succ, List.nil_append, List.cons_append]
    all_goals pull2

theorem P2MM_act (x : Tensor α) {h w a : Nat} (hax : Axes2 x h w) (ha : a ≤ x.rank) :
    ∃ y, P2MM_action x [h, w] a = .ok y ∧
      Stack y a (p2mmEls.map fun σ => σ.pullIdx [h, w] (coords [h, w] x.shape)) x := by
  obtain ⟨y1, e1, s1⟩ := stack_expand x ha
  obtain ⟨y2, e2, s2⟩ := stack_flip s1 ha hax.hw
  obtain ⟨y3, e3, s3⟩ := stack_concat2 s1 s2 ha
  obtain ⟨y4, e4, s4⟩ := stack_flip s3 ha hax.hh
  obtain ⟨y5, e5, s5⟩ := stack_concat2 s3 s4 ha
  refine ⟨y5, ?_, s5.congr ha (by simp [p2mmEls]) ?_⟩
  · simp only [P2MM_action, unpack2, res_bind_ok, axis_shift, e1, e2, e3, e4, e5]
  · intro i hi idx hv
    have hlen := hv.length
    have h1 := hax.hh
    have h2 := hax.hw
    have h3 := hax.ne
    have h4 := hv.lt h1
    have h5 := hv.lt h2
    simp only [List.length_map, List.length_cons, List.length_nil, List.nil_append, List.cons_append, List.map_cons, List.map_nil] at hi
    have : i = 0 ∨ i = 1 ∨ i = 2 ∨ i = 3 := by omega
    rcases this with rfl | rfl | rfl | rfl <;> simp only [p2mmEls, List.take, List.map_cons, List.map_nil, List.getD_cons_zero,
      List.getD_cons_succ, List.nil_append, List.cons_append]
    all_goals pull2

theorem PMh_act (x : Tensor α) {h w a : Nat} (hax : Axes2 x h w) (ha : a ≤ x.rank) :
    ∃ y, PMh_action x [h, w] a = .ok y ∧
      Stack y a (pmhEls.map fun σ => σ.pullIdx [h, w] (coords [h, w] x.shape)) x := by
  obtain ⟨y1, e1, s1⟩ := stack_expand x ha
  obtain ⟨y2, e2, s2⟩ := stack_flip s1 ha hax.hh
  obtain ⟨y3, e3, s3⟩ := stack_concat2 s1 s2 ha
  refine ⟨y3, ?_, s3.congr ha (by simp [pmhEls]) ?_⟩
  · simp only [PMh_action, unpack2, res_bind_ok, axis_shift, e1, e2, e3]
  · intro i hi idx hv
    have hlen := hv.length
    have h1 := hax.hh
    have h2 := hax.hw
    have h3 := hax.ne
    have h4 := hv.lt h1
    have h5 := hv.lt h2
    simp only [List.length_map, List.length_cons, List.length_nil, List.nil_append, List.cons_append, List.map_cons, List.map_nil] at hi
    have : i = 0 ∨ i = 1 := by omega
    rcases this with rfl | rfl <;> simp only [pmhEls, List.take, List.map_cons, List.map_nil, List.getD_cons_zero,
      List.getD_cons_succ, List.nil_append, List.cons_append]
    all_goals pull2

theorem PMw_act (x : Tensor α) {h w a : Nat} (hax : Axes2 x h w) (ha : a ≤ x.rank) :
    ∃ y, PMw_action x [h, w] a = .ok y ∧
      Stack y a (pmwEls.map fun σ => σ.pullIdx [h, w] (coords [h, w] x.shape)) x := by
  obtain ⟨y1, e1, s1⟩ := stack_expand x ha
  obtain ⟨y2, e2, s2⟩ := stack_flip s1 ha hax.hw
  obtain ⟨y3, e3, s3⟩ := stack_concat2 s1 s2 ha
  refine ⟨y3, ?_, s3.congr ha (by simp [pmwEls]) ?_⟩
  · simp only [PMw_action, unpack2, res_bind_ok, axis_shift, e1, e2, e3]
  · intro i hi idx hv
    have hlen := hv.length
    have h1 := hax.hh
    have h2 := hax.hw
    have h3 := hax.ne
    have h4 := hv.lt h1
    have h5 := hv.lt h2
    simp only [List.length_map, List.length_cons, List.length_nil, List.nil_append, List.cons_append, List.map_cons, List.map_nil] at hi
    have : i = 0 ∨ i = 1 := by omega
    rcases this with rfl | rfl <;> simp only [pmwEls, List.take, List.map_cons, List.map_nil, List.getD_cons_zero,
      List.getD_cons_succ, List.nil_append, List.cons_append]
    all_goals pull2

theorem P2_act (x : Tensor α) {h w a : Nat} (hax : Axes2 x h w) (ha : a ≤ x.rank) :
    ∃ y, P2_action x [h, w] a = .ok y ∧
      Stack y a (p2Els.map fun σ => σ.pullIdx [h, w] (coords [h, w] x.shape)) x := by
  obtain ⟨y1, e1, s1⟩ := stack_expand x ha
  obtain ⟨y2, e2, s2⟩ := stack_flip s1 ha hax.hw
  obtain ⟨y3, e3, s3⟩ := stack_flip s2 ha hax.hh
  obtain ⟨y4, e4, s4⟩ := stack_concat2 s1 s3 ha
  refine ⟨y4, ?_, s4.congr ha (by simp [p2Els]) ?_⟩
  · simp only [P2_action, unpack2, res_bind_ok, axis_shift, e1, e2, e3, e4]
  · intro i hi idx hv
    have hlen := hv.length
    have h1 := hax.hh
    have h2 := hax.hw
    have h3 := hax.ne
    have h4 := hv.lt h1
    have h5 := hv.lt h2
    simp only [List.length_map, List.length_cons, List.length_nil, List.nil_append, List.cons_append, List.map_cons, List.map_nil] at hi
    have : i = 0 ∨ i = 1 := by omega
    rcases this with rfl | rfl <;> simp only [p2Els, List.take, List.map_cons, List.map_nil, List.getD_cons_zero,
      List.getD_cons_succ, List.nil_append, List.cons_append]
    all_goals pull2

theorem P1_act (x : Tensor α) {h w a : Nat} (hax : Axes2 x h w) (ha : a ≤ x.rank) :
    ∃ y, P1_action x [h, w] a = .ok y ∧
      Stack y a (p1Els.map fun σ => σ.pullIdx [h, w] (coords [h, w] x.shape)) x := by
  obtain ⟨y1, e1, s1⟩ := stack_expand x ha
  refine ⟨y1, ?_, s1.congr ha (by simp [p1Els]) ?_⟩
  · simp only [P1_action, unpack2, res_bind_ok, axis_shift, e1]
  · intro i hi idx hv
    have hlen := hv.length
    have h1 := hax.hh
    have h2 := hax.hw
    have h3 := hax.ne
    have h4 := hv.lt h1
    have h5 := hv.lt h2
    simp only [List.length_map, List.length_cons, List.length_nil, List.nil_append, List.cons_append, List.map_cons, List.map_nil] at hi
    have : i = 0 := by omega
    rcases this with rfl <;> simp only [p1Els, List.take, List.map_cons, List.map_nil, List.getD_cons_zero,
      List.getD_cons_succ, List.nil_append, List.cons_append]
    all_goals pull2

end GroCo
