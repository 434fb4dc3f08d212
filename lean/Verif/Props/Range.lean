import Mathlib.Algebra.Order.Field.Basic
import Mathlib.Algebra.Order.Ring.Rat
import Verif.Props.Linear
import Verif.Props.Pooling
import Verif.Props.FormatLayers

/-
Property C55: pooling stays within the values of its input.
-/

namespace GroCo
open Tensor

variable {α : Type}

theorem max_pred [Field α] [LinearOrder α] (Q : α → Prop) : RedRel (fun a (_ _ : α) => Q a) (maxOf : List α → α) maxOf maxOf := by
  intro l f g h hl H
  obtain ⟨i, hi, e⟩ := List.mem_map.1 (maxOf_mem (l := l.map f) (by simpa using hl))
  rw [← e]
  exact H i hi

theorem max_monotone [Field α] [LinearOrder α] {φ : α → α} (hφ : Monotone φ) :
    RedRel (fun (a b _ : α) => b = φ a) (maxOf : List α → α) maxOf maxOf := by
  intro l f g h hl H
  have e : l.map g = (l.map f).map φ := by
    rw [List.map_map]
    exact List.map_congr_left H
  rw [e]
  have hm := maxOf_mem (l := (l.map f)) (by simpa using hl)
  apply le_antisymm
  · obtain ⟨a, ha, e⟩ := List.mem_map.1 (maxOf_mem (l := (l.map f).map φ) (by simpa using hl))
    rw [← e]
    exact hφ (le_maxOf ha)
  · exact le_maxOf (List.mem_map_of_mem hm)

theorem sum_bounds [Field α] [LinearOrder α] [IsStrictOrderedRing α] {lo hi : α} (l : List α) (H : ∀ a ∈ l, lo ≤ a ∧ a ≤ hi) :
    lo * l.length ≤ l.sum ∧ l.sum ≤ hi * l.length := by
  induction l with
  | nil => simp
  | cons a l ih =>
    have h1 := H a (by simp)
    have h2 := ih fun b hb => H b (by simp [hb])
    simp only [List.sum_cons, List.length_cons, Nat.cast_add, Nat.cast_one, mul_add, mul_one]
    constructor <;> linarith

theorem mean_bounds [Field α] [LinearOrder α] [IsStrictOrderedRing α] (lo hi : α) :
    RedRel (fun a (_ _ : α) => lo ≤ a ∧ a ≤ hi) (meanOf : List α → α) meanOf meanOf := by
  intro l f g h hl H
  have hb := sum_bounds (l.map f) (lo := lo) (hi := hi) (by
    intro a ha
    obtain ⟨i, hi, rfl⟩ := List.mem_map.1 ha
    exact H i hi)
  have hpos : (0 : α) < (l.map f).length := by
    rw [List.length_map]
    exact_mod_cast List.length_pos_iff.2 hl
  unfold meanOf
  rw [le_div_iff₀ hpos, div_le_iff₀ hpos]
  exact hb

theorem reduce_bounds [Field α] [LinearOrder α] [IsStrictOrderedRing α] (t : PoolType) (lo hi : α) :
    RedRel (fun a (_ _ : α) => lo ≤ a ∧ a ≤ hi) (t.reduce : List α → α) t.reduce t.reduce := by
  cases t with
  | max => exact max_pred _
  | average => exact mean_bounds lo hi

theorem RRel.left {R : α → α → α → Prop} {r : Res (Tensor α)} {y : Tensor α} (h : RRel (TRel R) r r r) (hy : r = .ok y) :
    ∀ idx, Valid y.shape idx → R (y.get idx) (y.get idx) (y.get idx) := by
  subst hy
  cases h with
  | ok h => exact h.get

/-- C55, the part that holds: the entries of the result of a pooling layer lie within any bounds on the entries of the input,
if the layer adds no zeros, or if zero lies within the bounds. -/
theorem C55_range_partial [Field α] [LinearOrder α] [IsStrictOrderedRing α] (l : GroupPooling) {lo hi : α}
    (h0 : Unpadded l.transforms ∨ lo ≤ 0 ∧ 0 ≤ hi) {x y : Tensor α}
    (hx : ∀ idx, Valid x.shape idx → lo ≤ x.get idx ∧ x.get idx ≤ hi) (hy : l.call x = .ok y) :
    ∀ idx, Valid y.shape idx → lo ≤ y.get idx ∧ y.get idx ≤ hi :=
  (pool_call_rel l (reduce_bounds _ lo hi) (fun h => h0.resolve_left (by unfold Unpadded; simp [h]))
    (⟨rfl, rfl, hx⟩ : TRel _ x x x)).left hy

/-- C55 for global pooling -/
theorem C55_global_range [Field α] [LinearOrder α] [IsStrictOrderedRing α] (l : GlobalGroupPooling) {lo hi : α} {x y : Tensor α}
    (hx : ∀ idx, Valid x.shape idx → lo ≤ x.get idx ∧ x.get idx ≤ hi) (hy : l.call x = .ok y) :
    ∀ idx, Valid y.shape idx → lo ≤ y.get idx ∧ y.get idx ≤ hi :=
  (globalPool_call_rel l (reduce_bounds _ lo hi) (⟨rfl, rfl, hx⟩ : TRel _ x x x)).left hy

/-- C55, maximum: every entry of the result is an entry of the input, or zero if the layer adds zeros. -/
theorem C55_maximum_partial [Field α] [LinearOrder α] (l : GroupPooling) (hp : l.poolType = .max) {x y : Tensor α}
    (hy : l.call x = .ok y) (idx : List Nat) (hv : Valid y.shape idx) :
    (∃ i, Valid x.shape i ∧ y.get idx = x.get i) ∨ y.get idx = 0 ∧ ¬ Unpadded l.transforms := by
  refine (pool_call_rel (R := fun a _ _ => (∃ i, Valid x.shape i ∧ a = x.get i) ∨ a = 0 ∧ ¬ Unpadded l.transforms) l ?_ ?_
    (⟨rfl, rfl, fun i hi => .inl ⟨i, hi, rfl⟩⟩ : TRel _ x x x)).left hy idx hv
  · rw [hp]
    exact max_pred _
  · intro h
    exact .inr ⟨rfl, by unfold Unpadded; simp [h]⟩

/-- C55, activations: a monotone function can be applied before or after the maximum, if it fixes zero or the layer adds no
zeros. -/
theorem C55_activation_partial [Field α] [LinearOrder α] (l : GroupPooling) (hp : l.poolType = .max) {φ : α → α}
    (hφ : Monotone φ) (h0 : Unpadded l.transforms ∨ φ 0 = 0) {x y : Tensor α} (hy : l.call x = .ok y) :
    ∃ y', l.call (mapT φ x) = .ok y' ∧ y'.Same (mapT φ y) := by
  have h := pool_call_rel (R := fun a b _ => b = φ a) l (by rw [hp]; exact max_monotone hφ)
    (fun h => (h0.resolve_left (by unfold Unpadded; simp [h])).symm)
    (⟨rfl, rfl, fun _ _ => rfl⟩ : TRel _ x (mapT φ x) x)
  generalize l.call (mapT φ x) = r at h
  rw [hy] at h
  cases h with
  | ok h => exact ⟨_, rfl, h.right, fun i hi => h.get i (h.right ▸ hi)⟩

/-- C55 for global maximum pooling -/
theorem C55_global_activation [Field α] [LinearOrder α] (l : GlobalGroupPooling) (hp : l.poolType = .max) {φ : α → α}
    (hφ : Monotone φ) {x y : Tensor α} (hy : l.call x = .ok y) :
    ∃ y', l.call (mapT φ x) = .ok y' ∧ y'.Same (mapT φ y) := by
  have h := globalPool_call_rel (R := fun a b _ => b = φ a) l (by rw [hp]; exact max_monotone hφ)
    (⟨rfl, rfl, fun _ _ => rfl⟩ : TRel _ x (mapT φ x) x)
  generalize l.call (mapT φ x) = r at h
  rw [hy] at h
  cases h with
  | ok h => exact ⟨_, rfl, h.right, fun i hi => h.get i (h.right ▸ hi)⟩

/-- the full statement of C55 for the ranges of pooling layers -/
def PoolingKeepsRange : Prop :=
  ∀ (a : PoolArgs) (bt : Option Nat) (n : List Nat) (g C : Nat) (H : List Nat) (l : GroupPooling), BuiltPool a bt n g C H l →
    ∀ (lo hi : ℚ) (x y : Tensor ℚ), (∀ idx, Valid x.shape idx → lo ≤ x.get idx ∧ x.get idx ≤ hi) → l.call x = .ok y →
      ∀ idx, Valid y.shape idx → lo ≤ y.get idx ∧ y.get idx ≤ hi

set_option maxRecDepth 8000 in
/-- C55 fails: with padding 'same_equiv' the zeros added around the signal take part in the maximum, the result on a signal
that is -1 everywhere has entries 0. -/
theorem C55_violation : ¬ PoolingKeepsRange := by
  intro h
  have := h evenSamePool none [2, 2] 2 1 [0, 1] _ ⟨⟨_, rfl, rfl⟩, rfl, rfl⟩ (-1) (-1) ⟨[1, 2, 2, 2, 1], fun _ => -1⟩ _
    (fun _ _ => ⟨le_refl _, le_refl _⟩) rfl [0, 0, 0, 0, 0] (by decide +kernel)
  revert this
  decide +kernel

set_option maxRecDepth 8000 in
/-- hypotheses are met, by layers with and without padding -/
example : (∃ l y, BuiltPool evenSamePool none [2, 2] 2 1 [0, 1] l ∧ l.poolType = .max ∧ ¬ Unpadded l.transforms ∧
      l.call (⟨[1, 2, 2, 2, 1], fun _ => 1⟩ : Tensor ℚ) = .ok y) ∧
    (∃ l y, BuiltPool defaultStridesPool none [3, 3] 2 1 [0, 1] l ∧ l.poolType = .max ∧ Unpadded l.transforms ∧
      l.call (⟨[1, 3, 3, 2, 1], fun _ => 1⟩ : Tensor ℚ) = .ok y) ∧
    Monotone (fun a : ℚ => max a 0) ∧ max (0 : ℚ) 0 = 0 :=
  ⟨⟨_, _, ⟨⟨_, rfl, rfl⟩, rfl, rfl⟩, rfl, by unfold Unpadded; decide, rfl⟩, ⟨_, _, ⟨⟨_, rfl, rfl⟩, rfl, rfl⟩, rfl, rfl, rfl⟩,
    fun _ _ h => max_le_max_right 0 h, max_self 0⟩

end GroCo
