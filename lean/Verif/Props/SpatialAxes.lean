import Verif.SpatialLemmas

/-!
C61: spatial axes counted from the end.
-/

namespace GroCo
open Tensor

/-- the full statement of C61 for the group `n`: spatial axes may be counted from the end of the shape of the signal, as
elsewhere in Python, with the same outcome -/
def SpatialFromEnd (n : GroupName) : Prop :=
  ∀ (α : Type) [Zero α] (x : Tensor α) (axs : List Nat) (a : Nat) (ga : Option Int) (acting domain : Option String),
    axs.length = n.dim → axs.Nodup → (∀ b ∈ axs, b < x.rank) → a ≤ x.rank →
    n.group.action x (axs.map fun b => (b : Int) - x.rank) a ga acting domain =
      n.group.action x (axs.map Int.ofNat) a ga acting domain

theorem parse_some (n : GroupName) (d : String) : ∃ d', n.group.parseSubgroup (some d) = some d' ∧ d' ≠ "" := by
  unfold GroupData.parseSubgroup
  split
  · exact absurd ‹_› (by simp)
  · exact ⟨_, rfl, by cases n <;> decide⟩
  · rename_i s hs hd
    cases hd
    exact ⟨_, rfl, fun e => hs (by rw [e])⟩

/-- C61, the part that holds: for P1 always, and for the other groups in two dimensions if the axis at which the transformed
copies are put together comes before the spatial axes: this is `new_group_axis` for signals on the grid and `group_axis` for
signals on the group or a subgroup. The outcome is then the same, errors included. -/
theorem C61_from_end_partial {α : Type} [Zero α] (n : GroupName) (hd : n.dim = 2) (x : Tensor α) (h w a : Nat) (g : Nat)
    (hh : h < x.rank) (hw : w < x.rank) (acting domain : Option String)
    (hax : n = .P1 ∨ (domain = none ∧ a ≤ h ∧ a ≤ w) ∨ (domain ≠ none ∧ g ≤ h ∧ g ≤ w)) :
    n.group.action x [(h : Int) - x.rank, (w : Int) - x.rank] a (some (g : Int)) acting domain =
      n.group.action x [(h : Int), (w : Int)] a (some (g : Int)) acting domain := by
  rcases hax with rfl | ⟨rfl, ah, aw⟩ | ⟨hne, gh, gw⟩
  · rfl
  · exact actionOnGrid_fromEnd n hd x hh hw ah aw _
  · obtain ⟨d, rfl⟩ := Option.ne_none_iff_exists'.1 hne
    obtain ⟨d', e, h0⟩ := parse_some n d
    unfold Group.action
    simp only [e]
    exact actionOnGroup_fromEnd n hd x hh hw gh gw _ _ _

/-- C61: in three dimensions axes counted from the end are refused. -/
theorem C61_refused {α : Type} [Zero α] (n : GroupName) (hd : n.dim = 3) (x : Tensor α) (o : Int) (ho : o < 0) (l : List Int)
    (a : Int) (ga : Option Int) (acting domain : Option String) :
    ∃ e, n.group.action x (o :: l) a ga acting domain = .error e := by
  have hO : ∀ y : Tensor α, ∀ b, Oh_action y (o :: l) b = .error .value := by
    intro y b
    unfold Oh_action
    simp only
    rw [if_neg (by omega)]
    rfl
  have act : ∀ y : Tensor α, ∀ b, n.group.act α y (o :: l) b = .error .value := by
    intro y b
    cases n <;> first | exact absurd hd (by decide) | skip
    · exact hO y b
    all_goals
      show subgroupAction Oh _ _ _ _ _ = _
      unfold subgroupAction
      rw [show Oh.act = fun _ => Oh_action from rfl]
      simp only [hO, res_bind_error]
  have grid : ∀ (y : Tensor α) b s, n.group.actionOnGrid y b (o :: l) s = .error .value := by
    intro y b s
    simp only [Group.actionOnGrid, act, res_bind_error]
  unfold Group.action
  simp only
  split
  · exact ⟨_, grid _ _ _⟩
  · exact ⟨_, grid _ _ _⟩
  · cases ga with
    | none =>
      rename_i d _ _
      cases n.group.sub (n.group.parseSubgroup acting) with
      | error e => exact ⟨e, rfl⟩
      | ok A =>
        cases n.group.sub (some d) with
        | error e => exact ⟨e, rfl⟩
        | ok D => exact ⟨.typ, rfl⟩
    | some g =>
      unfold Group.actionOnGroup
      simp only [grid, res_bind_error]
      cases hA : n.group.sub (n.group.parseSubgroup acting) with
      | error e => exact ⟨e, rfl⟩
      | ok A =>
        simp only [res_bind_ok]
        rename_i d _ _
        cases hD : n.group.sub (some d) with
        | error e => exact ⟨e, rfl⟩
        | ok D =>
          simp only [res_bind_ok]
          split
          · cases n.group.upsample x g (some d) with
            | error e => exact ⟨e, rfl⟩
            | ok y => exact ⟨_, rfl⟩
          · exact ⟨_, rfl⟩

/-- C61 fails for images: with the new axis behind the rows, the reflection of PMh reverses the columns of an image of shape
(2, 2, 1) when its axes are given as (-3, -2), and the rows when they are given as (0, 1). No error is raised. -/
theorem C61_violation_grid : ¬ SpatialFromEnd .PMh := by
  intro h
  have := h Nat ⟨[2, 2, 1], fun idx => ravel [2, 2, 1] idx⟩ [0, 1] 2 none (some "") none rfl (by decide) (by decide) (by decide)
  have := congrArg (fun r : Res (Tensor Nat) => match r with | .ok y => y.get [0, 0, 1, 0] | .error _ => 0) this
  revert this
  decide +kernel

/-- C61 fails for signals on the group in the default layout, shape (batch, height, width, group, channels): with
`spatial_axes=(-4, -3)` the reflection of PMh reverses the columns, with `spatial_axes=(1, 2)` the rows. No error is raised. -/
theorem C61_violation_group : ∃ (x y z : Tensor Nat), x.shape = [1, 2, 2, 2, 1] ∧
    PMh.action x [1, 2] 0 (some 3) (some "") (some "") = .ok y ∧ PMh.action x [-4, -3] 0 (some 3) (some "") (some "") = .ok z ∧
    y.shape = z.shape ∧ ¬ y.Same z := by
  refine ⟨⟨[1, 2, 2, 2, 1], fun idx => ravel [1, 2, 2, 2, 1] idx⟩, _, _, rfl, rfl, rfl, by decide +kernel, ?_⟩
  intro h
  have := h.2 [1, 0, 0, 1, 0, 0] (by decide +kernel)
  revert this
  decide +kernel

/-- hypotheses are met: an image and a signal on P4 with the group axis before the spatial axes -/
example : ∃ y z : Tensor Nat,
    P4M.action (⟨[3, 2, 2, 1], fun idx => ravel [3, 2, 2, 1] idx⟩ : Tensor Nat) [-3, -2] 0 (some 0) (some "") none = .ok y ∧
    P4.action (⟨[1, 4, 2, 2], fun idx => ravel [1, 4, 2, 2] idx⟩ : Tensor Nat) [-2, -1] 0 (some 1) (some "P2") (some "") = .ok z ∧
    y.shape = [8, 3, 2, 2, 1] ∧ z.shape = [2, 1, 4, 2, 2] := ⟨_, _, rfl, rfl, by decide +kernel, by decide +kernel⟩

end GroCo
