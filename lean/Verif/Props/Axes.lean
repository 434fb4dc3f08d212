import Verif.Props.Groups

/-!
C60: which axes a group acts on.
-/

namespace GroCo
open Tensor

/-- the full statement of C60 for the group `n`: whenever `Group.action` returns a result for spatial axes that are in range and
distinct, as many as the group has dimensions, part `i` of the result is the signal moved by symmetry `i` along exactly these
axes, in this order -/
def ActsOnAxes (n : GroupName) : Prop :=
  ∀ (α : Type) [Zero α] (x y : Tensor α) (axs : List Nat) (a : Nat), axs.length = n.dim → axs.Nodup → (∀ b ∈ axs, b < x.rank) →
    a ≤ x.rank → n.group.action x (axs.map Int.ofNat) a none (some "") none = .ok y →
    ∀ i, i < n.group.order → ∀ idx jdx, Valid x.shape idx → Valid x.shape jdx → MovesTo (n.motion i) axs x.shape idx jdx →
      y.get (jdx.insertIdx a i) = x.get idx

/-- the same for axes that are admissible -/
theorem acts_on_ok (n : GroupName) {α : Type} [Zero α] (x y : Tensor α) (axs : List Nat) (a : Nat)
    (hax : AxesOk n.dim x.rank axs) (ha : a ≤ x.rank)
    (hy : n.group.action x (axs.map Int.ofNat) a none (some "") none = .ok y) :
    ∀ i, i < n.group.order → ∀ idx jdx, Valid x.shape idx → Valid x.shape jdx → MovesTo (n.motion i) axs x.shape idx jdx →
      y.get (jdx.insertIdx a i) = x.get idx := by
  by_cases hg : n.Grid (axs.map (nth x.shape))
  · obtain ⟨z, hz, -, h⟩ := (C03_rigid_motion n).2.2.2 α x axs a hax hg ha
    rw [hy] at hz
    cases hz
    exact fun i hi => (h i hi).1
  · rw [(C04_grid_partial n x axs a hax ha).2.1 hg] at hy
    cases hy

/-- C60, the part that holds: the two-dimensional groups act on the two axes given, in any order and not necessarily next to
each other; the three-dimensional groups do so if the three axes follow each other in ascending order. -/
theorem C60_axes_partial (n : GroupName) :
    (n.dim = 2 → ActsOnAxes n) ∧
    (n.dim = 3 → ∀ (α : Type) [Zero α] (x y : Tensor α) (o a : Nat), o + 2 < x.rank → a ≤ x.rank →
      n.group.action x ([o, o + 1, o + 2].map Int.ofNat) a none (some "") none = .ok y →
      ∀ i, i < n.group.order → ∀ idx jdx, Valid x.shape idx → Valid x.shape jdx →
        MovesTo (n.motion i) [o, o + 1, o + 2] x.shape idx jdx → y.get (jdx.insertIdx a i) = x.get idx) := by
  refine ⟨fun hd α _ x y axs a hl hn hr ha hy => acts_on_ok n x y axs a ⟨hl, hn, hr, by omega⟩ ha hy, ?_⟩
  intro hd α _ x y o a ho ha hy
  exact acts_on_ok n x y [o, o + 1, o + 2] a ⟨hd.symm, by simp, by simp; omega, fun _ => ⟨o, rfl⟩⟩ ha hy

theorem Oh_following (n : GroupName) (hd : n.dim = 3) {α : Type} (x : Tensor α) (o : Int) (l l' : List Int) (a : Int) :
    n.group.act α x (o :: l) a = n.group.act α x (o :: l') a := by
  cases n <;> first | rfl | exact absurd hd (by decide)

/-- C60: the three-dimensional groups ignore all spatial axes but the first, for signals on the grid, the group and its
subgroups: any other list of axes with the same first axis, of any length, gives the same result or error. -/
theorem C60_following (n : GroupName) (hd : n.dim = 3) {α : Type} [Zero α] (x : Tensor α) (o : Int) (l l' : List Int) (a : Int)
    (ga : Option Int) (acting domain : Option String) :
    n.group.action x (o :: l) a ga acting domain = n.group.action x (o :: l') a ga acting domain := by
  simp only [Group.action, Group.actionOnGroup, Group.actionOnGrid, Oh_following n hd _ o l l']

/-- C60 fails for all three-dimensional groups: with spatial axes (0, 1, 3) a signal of shape (2, 2, 2, 2) is moved along the
axes 0, 1 and 2. No error is raised. -/
theorem C60_violation (n : GroupName) (hd : n.dim = 3) : ¬ ActsOnAxes n := by
  intro h
  let x : Tensor Nat := ⟨[2, 2, 2, 2], fun idx => ravel [2, 2, 2, 2] idx⟩
  obtain ⟨y, hy, -, hm⟩ := (C03_rigid_motion n).2.2.2 Nat x [0, 1, 2] 0 ⟨hd.symm, by decide, by decide, fun _ => ⟨0, rfl⟩⟩
    (by cases n <;> first | exact ⟨rfl, rfl, rfl⟩ | exact absurd hd (by decide)) (by decide)
  have hy' : n.group.action x ([0, 1, 3].map Int.ofNat) ((0 : Nat) : Int) none (some "") none = .ok y := by
    rw [← hy]
    exact C60_following n hd x 0 [1, 3] [1, 2] _ _ _ _
  have h := h Nat x y [0, 1, 3] 0 hd.symm (by decide) (by decide) (by decide) hy'
  have hi : 1 < n.group.order := by cases n <;> first | decide | exact absurd hd (by decide)
  have m1 : MovesTo (n.motion 1) [0, 1, 3] x.shape [0, 0, 0, 0] [0, 1, 0, 1] := by
    refine ⟨fun i hi => ?_, ?_⟩
    · match i with
      | 0 => rfl
      | 1 | 3 => simp at hi
      | 2 | i + 4 => rfl
    · cases n <;> first | decide +kernel | exact absurd hd (by decide)
  have m2 : MovesTo (n.motion 1) [0, 1, 2] x.shape [0, 0, 1, 1] [0, 1, 0, 1] := by
    refine ⟨fun i hi => ?_, ?_⟩
    · match i with
      | 0 => rfl
      | 1 | 2 => simp at hi
      | 3 | i + 4 => rfl
    · cases n <;> first | decide +kernel | exact absurd hd (by decide)
  have e1 := h 1 hi _ _ (by decide) (by decide) m1
  have e2 := (hm 1 hi).1 _ _ (by decide) (by decide) m2
  rw [e1] at e2
  exact absurd e2 (by decide)

/-- C60: with another number of spatial axes than two the two-dimensional groups other than P1 raise an error for signals on
the grid; so do the three-dimensional groups with no axes at all. -/
theorem C60_number (n : GroupName) {α : Type} [Zero α] (x : Tensor α) (axs : List Int) (a : Int) (ga : Option Int)
    (acting : Option String) (hn : n ≠ .P1)
    (h : (n.dim = 2 ∧ axs.length ≠ 2) ∨ axs = []) :
    ∃ e, n.group.action x axs a ga acting none = .error e := by
  have hu : axs.length ≠ 2 → unpack2 axs = .error .value := by
    intro hl
    match axs with
    | [] | [_] | _ :: _ :: _ :: _ => rfl
    | [_, _] => simp at hl
  have key : ∃ e, n.group.act α x axs a = .error e := by
    rcases h with ⟨hd, hl⟩ | rfl
    · have hu := hu hl
      refine ⟨.value, ?_⟩
      cases n <;> first
        | exact absurd rfl hn
        | exact absurd hd (by decide)
        | (show (unpack2 axs >>= _) = _; rw [hu]; rfl)
    · cases n <;> first | exact absurd rfl hn | exact ⟨_, rfl⟩
  obtain ⟨e, he⟩ := key
  exact ⟨e, by simp only [Group.action, GroupData.parseSubgroup, Group.actionOnGrid, he, res_bind_error]⟩

/-- hypotheses are met: a rectangle with its axes in the wrong order and apart from each other, and a volume -/
example : ∃ y z : Tensor Nat,
    P4M.action (⟨[2, 3, 2], fun idx => ravel [2, 3, 2] idx⟩ : Tensor Nat) [2, 0] 1 none (some "") none = .ok y ∧
    O.action (⟨[1, 2, 2, 2], fun idx => ravel [1, 2, 2, 2] idx⟩ : Tensor Nat) [1, 2, 3] 0 none (some "") none = .ok z ∧
    y.shape = [2, 8, 3, 2] ∧ z.shape = [24, 1, 2, 2, 2] := ⟨_, _, rfl, rfl, by decide +kernel, by decide +kernel⟩

end GroCo
