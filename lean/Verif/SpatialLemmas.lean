import Verif.NegativeLemmas

/-
Spatial axes counted from the end: lemmas for property C61.
-/

namespace GroCo
open Tensor

variable {α : Type}

theorem flip_fromEnd (x : Tensor α) {h r : Nat} (hh : h < r) (hr : x.rank = r + 1) :
    flip x ((h : Int) - r) = flip x ((h : Int) + 1) := by
  unfold flip
  rw [hr]
  congr 1
  unfold normAxis
  rw [if_neg (by omega), if_pos (by omega), if_pos (by omega)]
  congr 1
  omega

theorem swappedAxes_fromEnd {h w r q : Nat} (hh : h < r) (hw : w < r) (hq : q = r + 1) :
    swappedAxes q ((h : Int) - r) ((w : Int) - r) = swappedAxes q ((h : Int) + 1) ((w : Int) + 1) := by
  have key : ∀ a : Nat, a < r → pyIndex q ((a : Int) - r) = pyIndex q ((a : Int) + 1) := by
    intro a ha
    unfold pyIndex
    rw [if_neg (by omega), if_pos (by omega), if_pos (by omega)]
    congr 1
    omega
  unfold swappedAxes
  rw [key h hh, key w hw]

/-- the axes after a new axis has been put before them -/
theorem shift_neg {a h r : Nat} (hh : h < r) :
    (if (a : Int) ≤ (h : Int) - r then (h : Int) - r + 1 else (h : Int) - r) = (h : Int) - r := if_neg (by omega)

theorem shift_pos {a h : Nat} (ha : a ≤ h) :
    (if (a : Int) ≤ (h : Int) then (h : Int) + 1 else (h : Int)) = (h : Int) + 1 := if_pos (by omega)

/-- the actions in two dimensions do not depend on which end the spatial axes are counted from, if the new axis comes first -/
theorem act_fromEnd (n : GroupName) (hd : n.dim = 2) (x : Tensor α) {h w a : Nat} (hh : h < x.rank) (hw : w < x.rank)
    (ah : a ≤ h) (aw : a ≤ w) :
    n.group.act α x [(h : Int) - x.rank, (w : Int) - x.rank] a = n.group.act α x [(h : Int), (w : Int)] a := by
  generalize hr : x.rank = r at *
  cases n <;> first | exact absurd hd (by decide) | skip
  · rfl
  · show P2_action _ _ _ = P2_action _ _ _
    simp only [P2_action, unpack2, res_bind_ok]
    apply bind_congr_ok; intro x1 e1
    have r1 := expandDims_rank e1
    rw [shift_neg hh, shift_neg hw, shift_pos ah, shift_pos aw]
    rw [flip_fromEnd x1 hw (by omega)]
    apply bind_congr_ok; intro x2 ex2
    have rx2 := flip_rank ex2
    rw [flip_fromEnd x2 hh (by omega)]
  · show PMw_action _ _ _ = PMw_action _ _ _
    simp only [PMw_action, unpack2, res_bind_ok]
    apply bind_congr_ok; intro x1 e1
    have r1 := expandDims_rank e1
    rw [shift_neg hw, shift_pos aw]
    rw [flip_fromEnd x1 hw (by omega)]
  · show PMh_action _ _ _ = PMh_action _ _ _
    simp only [PMh_action, unpack2, res_bind_ok]
    apply bind_congr_ok; intro x1 e1
    have r1 := expandDims_rank e1
    rw [shift_neg hh, shift_pos ah]
    rw [flip_fromEnd x1 hh (by omega)]
  · show P2MM_action _ _ _ = P2MM_action _ _ _
    simp only [P2MM_action, unpack2, res_bind_ok]
    apply bind_congr_ok; intro x1 e1
    have r1 := expandDims_rank e1
    rw [shift_neg hh, shift_neg hw, shift_pos ah, shift_pos aw]
    rw [flip_fromEnd x1 hw (by omega)]
    apply bind_congr_ok; intro x2 ex2
    apply bind_congr_ok; intro x3 ex3
    have rx3 := concatenate_rank ex3
    rw [flip_fromEnd x3 hh (by omega)]
  · show P4_action _ _ _ = P4_action _ _ _
    simp only [P4_action, unpack2, res_bind_ok]
    apply bind_congr_ok; intro x1 e1
    have r1 := expandDims_rank e1
    rw [shift_neg hh, shift_neg hw, shift_pos ah, shift_pos aw]
    rw [flip_fromEnd x1 hw (by omega)]
    apply bind_congr_ok; intro x2 ex2
    have rx2 := flip_rank ex2
    rw [flip_fromEnd x2 hh (by omega)]
    apply bind_congr_ok; intro x3 ex3
    apply bind_congr_ok; intro x4 ex4
    have rx4 := concatenate_rank ex4
    rw [swappedAxes_fromEnd hh hw (by omega)]
    apply bind_congr_ok; intro _ _
    apply bind_congr_ok; intro x5 ex5
    have rx5 := transpose_rank ex5
    rw [flip_fromEnd x5 hh (by omega)]
  · show P4M_action _ _ _ = P4M_action _ _ _
    simp only [P4M_action, unpack2, res_bind_ok]
    apply bind_congr_ok; intro x1 e1
    have r1 := expandDims_rank e1
    rw [shift_neg hh, shift_neg hw, shift_pos ah, shift_pos aw]
    rw [flip_fromEnd x1 hw (by omega)]
    apply bind_congr_ok; intro x2 ex2
    apply bind_congr_ok; intro x3 ex3
    have rx3 := concatenate_rank ex3
    rw [flip_fromEnd x3 hh (by omega)]
    apply bind_congr_ok; intro x4 ex4
    apply bind_congr_ok; intro x5 ex5
    have rx5 := concatenate_rank ex5
    rw [swappedAxes_fromEnd hh hw (by omega)]

theorem actionOnGrid_fromEnd (n : GroupName) (hd : n.dim = 2) (x : Tensor α) {h w a : Nat} (hh : h < x.rank) (hw : w < x.rank)
    (ah : a ≤ h) (aw : a ≤ w) (s : Option String) :
    n.group.actionOnGrid x a [(h : Int) - x.rank, (w : Int) - x.rank] s = n.group.actionOnGrid x a [(h : Int), (w : Int)] s := by
  unfold Group.actionOnGrid
  rw [act_fromEnd n hd x hh hw ah aw]

theorem actionOnGroup_fromEnd [Zero α] (n : GroupName) (hd : n.dim = 2) (x : Tensor α) {h w g : Nat} (hh : h < x.rank)
    (hw : w < x.rank) (gh : g ≤ h) (gw : g ≤ w) (a : Int) (s d : Option String) :
    n.group.actionOnGroup x a [(h : Int) - x.rank, (w : Int) - x.rank] s g d =
      n.group.actionOnGroup x a [(h : Int), (w : Int)] s g d := by
  unfold Group.actionOnGroup
  apply bind_congr_ok
  intro A _
  apply bind_congr_ok
  intro D _
  dsimp only
  have key : ∀ x1 : Tensor α, x1.rank = x.rank → n.group.actionOnGrid x1 g [(h : Int) - x.rank, (w : Int) - x.rank] s =
      n.group.actionOnGrid x1 g [(h : Int), (w : Int)] s := by
    intro x1 r1
    rw [← r1]
    exact actionOnGrid_fromEnd n hd x1 (by omega) (by omega) gh gw s
  split
  · apply bind_congr_ok
    intro x1 e1
    rw [key x1 (upsample_rank n e1)]
  · simp only [res_bind_ok]
    rw [key x rfl]

end GroCo
