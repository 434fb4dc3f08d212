import Verif.NegativeLemmas

/- Property C40: negative `new_group_axis`. -/

namespace GroCo
open Tensor

/-- C40 is violated: on a square image, with spatial axes (0, 1), the reflection of PMh reverses the rows when the new
axis is given as 2, as it should, but reverses the columns when the same axis is given as -1. No error is raised. -/
theorem C40_violation : ∃ (x y z : Tensor Nat), x.shape = [2, 2] ∧
    PMh.action x [0, 1] 2 none (some "") none = .ok y ∧ PMh.action x [0, 1] (-1) none (some "") none = .ok z ∧
    y.shape = z.shape ∧ ¬ y.Same z ∧ y.get [0, 1, 1] = x.get [1, 1] ∧ z.get [0, 1, 1] = x.get [0, 0] := by
  refine ⟨⟨[2, 2], fun idx => nth idx 0 * 2 + nth idx 1⟩, _, _, rfl, rfl, rfl, by decide, ?_, by decide, by decide⟩
  intro h
  have := h.2 [0, 1, 1] (by decide)
  revert this
  decide

/-- C40, where it holds: position `k` of the new axis may be written as `k` or counted from the end of the result, with
the same outcome, errors included, for signals on the group or a subgroup (any `domain_group`), for P1 and the
three-dimensional groups, and for the other groups when the new axis comes before all spatial axes.
Missing: signals on the grid and a new axis behind a spatial axis in two dimensions, see `C40_violation`. -/
theorem C40_negative_axis_partial {α : Type} [Zero α] (n : GroupName) (x : Tensor α) (axs : List Int) (ga : Option Int)
    (acting domain : Option String) (k : Nat) (hk : k ≤ x.rank)
    (h : domain ≠ none ∨ n.dim = 3 ∨ n = .P1 ∨ ∀ a ∈ axs, (k : Int) ≤ a) :
    n.group.action x axs ((k : Int) - (x.rank + 1)) ga acting domain = n.group.action x axs k ga acting domain := by
  have e1 : ((k : Int) - (x.rank + 1)) = -((x.rank + 1 - k : Nat) : Int) := by omega
  have e2 : (k : Int) = ((x.rank + 1 : Nat) : Int) - ((x.rank + 1 - k : Nat) : Int) := by omega
  have grid : (n.dim = 3 ∨ n = .P1 ∨ ∀ a ∈ axs, (k : Int) ≤ a) → ∀ s,
      n.group.actionOnGrid x ((k : Int) - (x.rank + 1)) axs s = n.group.actionOnGrid x k axs s := by
    intro h s
    rw [e1, actionOnGrid_neg n x axs s (by omega) (by omega) rfl (by rwa [← e2]), ← e2]
  have group : ∀ s g d, n.group.actionOnGroup x ((k : Int) - (x.rank + 1)) axs s g d = n.group.actionOnGroup x k axs s g d := by
    intro s g d
    rw [e1, actionOnGroup_neg n x axs s d g (by omega) (by omega) rfl, ← e2]
  unfold Group.action
  cases domain with
  | none => exact grid (h.resolve_left (by simp)) _
  | some d =>
    have hd : ∃ d', n.group.parseSubgroup (some d) = some d' ∧ d' ≠ "" := by
      unfold GroupData.parseSubgroup
      split
      · exact absurd ‹_› (by simp)
      · exact ⟨_, rfl, by cases n <;> decide⟩
      · rename_i s hs hd
        cases hd
        exact ⟨_, rfl, fun e => hs (by rw [e])⟩
    obtain ⟨d', hd, hne⟩ := hd
    simp only [hd]
    cases ga with
    | none => rfl
    | some g => exact group _ _ _

/-- a signal on P4 over a square grid; the new axis goes behind the spatial axes -/
example : ∃ y, P4.action (⟨[1, 2, 2, 4, 1], fun idx => ravel [1, 2, 2, 4, 1] idx⟩ : Tensor Nat) [1, 2] (-2) (some 3)
    (some "P2") (some "") = .ok y ∧ y.shape = [1, 2, 2, 4, 2, 1] := ⟨_, rfl, by decide⟩

example : ∃ y, P4.action (⟨[1, 2, 2, 4, 1], fun idx => ravel [1, 2, 2, 4, 1] idx⟩ : Tensor Nat) [1, 2] 4 (some 3)
    (some "P2") (some "") = .ok y ∧ y.shape = [1, 2, 2, 4, 2, 1] := ⟨_, rfl, by decide⟩

/-- a volume, the new axis last -/
example : ∃ y, D4.action (⟨[2, 2, 2], fun idx => ravel [2, 2, 2] idx⟩ : Tensor Nat) [0, 1, 2] (-1) none (some "") none = .ok y ∧
    y.shape = [2, 2, 2, 8] := ⟨_, rfl, by decide +kernel⟩

/-- an image, the new axis first -/
example : ∃ y, P4M.action (⟨[2, 2, 1], fun idx => ravel [2, 2, 1] idx⟩ : Tensor Nat) [0, 1] (-4) none (some "PMh") none = .ok y ∧
    y.shape = [2, 2, 2, 1] ∧ ∀ a ∈ ([0, 1] : List Int), ((0 : Nat) : Int) ≤ a := ⟨_, rfl, by decide, by decide⟩

end GroCo
