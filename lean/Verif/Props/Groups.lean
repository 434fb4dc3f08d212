import Verif.MatrixLemmas
import Verif.GridErrors

/-
Properties C01–C04: the shipped groups and their action on signals on the grid.
`n.group` is the group object named `n`; `n.group.action x axs a none (some "") none` is the call
`group.action(x, spatial_axes=axs, new_group_axis=a, acting_group="", domain_group=None)`.
-/

namespace GroCo
open Tensor

/-- documented orders of the groups -/
def GroupName.documentedOrder : GroupName → Nat
  | .P1 => 1 | .P2 => 2 | .PMw => 2 | .PMh => 2 | .P2MM => 4 | .P4 => 4 | .P4M => 8
  | .Oh => 48 | .O => 24 | .D4h => 16 | .D4 => 8

/-- C01: every group object satisfies the group laws, and its tables have the right sizes. -/
theorem C01_group_laws (n : GroupName) :
    GroupLaws n.group.order n.group.comp (nth n.group.inverses) ∧
    n.group.order = n.documentedOrder ∧
    n.group.composition.length = n.group.order ∧ (∀ row ∈ n.group.composition, row.length = n.group.order) ∧
    n.group.inverses.length = n.group.order :=
  ⟨n.sym.tab.laws, by cases n <;> rfl, n.sym.tab.compLen, n.sym.tab.rowLen, n.sym.tab.invLen⟩

/-- the non-abelian P4M: rotating then mirroring differs from mirroring then rotating -/
example : P4M.comp 1 4 = 5 ∧ P4M.comp 4 1 = 7 ∧ nth P4M.inverses 1 = 3 := by decide

/-- C02: acting with `g` and then with `h` is acting with `composition[h][g]`, and element 0 does nothing. The two
actions may put their new group axes anywhere (`a`, `a'`), the spatial axes may be anywhere. -/
theorem C02_left_action {α : Type} [Zero α] (n : GroupName) (x : Tensor α) (axs : List Nat) (a a' : Nat)
    (hax : AxesOk n.dim x.rank axs) (hgrid : n.Grid (axs.map (nth x.shape))) (ha : a ≤ x.rank) (ha' : a' ≤ x.rank) :
    ∃ y, n.group.action x (axs.map Int.ofNat) a none (some "") none = .ok y ∧ (slice y a 0).Same x ∧
      ∀ g, g < n.group.order → ∃ z,
        n.group.action (slice y a g) (axs.map Int.ofNat) a' none (some "") none = .ok z ∧
        ∀ h, h < n.group.order → (slice z a' h).Same (slice y a (n.group.comp h g)) := by
  obtain ⟨y, ey, sy⟩ := n.sym.action_grid_all x hax hgrid ha
  have T := n.sym.tab
  refine ⟨y, ey, ⟨sy.slice_shape ha, fun idx hi => ?_⟩, fun g hg => ?_⟩
  · rw [sy.slice_shape ha] at hi
    rw [sy.slice_get ha (by simpa using T.pos) hi, getD_map_range _ _ T.pos, n.sym.elPull_one hax hi]
  · have hs := sy.slice_shape (g := g) ha
    obtain ⟨z, ez, sz⟩ := n.sym.action_grid_all (slice y a g) (axs := axs) (a := a')
      (by simp only [Tensor.rank, hs]; exact hax) (by rw [hs]; exact hgrid) (by simp only [Tensor.rank, hs]; exact ha')
    refine ⟨z, ez, fun h hh => ⟨?_, fun idx hi => ?_⟩⟩
    · rw [sz.slice_shape (by simp only [Tensor.rank, hs]; exact ha'), hs, sy.slice_shape ha]
    · rw [sz.slice_shape (by simp only [Tensor.rank, hs]; exact ha')] at hi
      rw [sz.slice_get (by simp only [Tensor.rank, hs]; exact ha') (by simpa using hh) hi, getD_map_range _ _ hh]
      rw [hs] at hi ⊢
      have hc := (T.comp h hh g hg).1
      rw [sy.slice_get ha (by simpa using hg) (n.sym.valid_elPull hax hgrid hh hi), getD_map_range _ _ hg,
        sy.slice_get ha (by simpa using hc) hi, getD_map_range _ _ hc, n.sym.elPull_comp hax hgrid hh hg hi]

/-- C03: the matrices `n.motion i`, one per group element, are exactly the documented symmetries, each occurring once,
they multiply like the composition table, and acting with element `i` moves the value at `idx` to the position `jdx`
reached by `n.motion i` about the centre of the grid. Every position is reached, and every position goes somewhere. -/
theorem C03_rigid_motion (n : GroupName) :
    (∀ A, n.Symmetry A ↔ ∃ i, i < n.group.order ∧ n.motion i = A) ∧
    (∀ i j, i < n.group.order → j < n.group.order → n.motion i = n.motion j → i = j) ∧
    (∀ i j, i < n.group.order → j < n.group.order → n.motion (n.group.comp i j) = n.motion i * n.motion j) ∧
    ∀ (α : Type) [Zero α] (x : Tensor α) (axs : List Nat) (a : Nat), AxesOk n.dim x.rank axs →
      n.Grid (axs.map (nth x.shape)) → a ≤ x.rank →
      ∃ y, n.group.action x (axs.map Int.ofNat) a none (some "") none = .ok y ∧
        y.shape = x.shape.insertIdx a n.group.order ∧
        ∀ i, i < n.group.order →
          (∀ idx jdx, Valid x.shape idx → Valid x.shape jdx → MovesTo (n.motion i) axs x.shape idx jdx →
            y.get (jdx.insertIdx a i) = x.get idx) ∧
          (∀ jdx, Valid x.shape jdx → ∃ idx, Valid x.shape idx ∧ MovesTo (n.motion i) axs x.shape idx jdx) ∧
          (∀ idx, Valid x.shape idx → ∃ jdx, Valid x.shape jdx ∧ MovesTo (n.motion i) axs x.shape idx jdx) := by
  have T := n.sym.tab
  refine ⟨n.symmetry_mat, ?_, ?_, ?_⟩
  · intro i j hi hj h
    exact T.inj hi hj (SPerm.mat_inj (T.wfi hi) (T.wfi hj) h)
  · intro i j hi hj
    simp only [GroupName.motion]
    rw [(T.comp i hi j hj).2, SPerm.mat_comp (T.wfi hj)]
  · intro α _ x axs a hax hgrid ha
    obtain ⟨y, ey, sy⟩ := n.sym.action_grid_all x hax hgrid ha
    have hcomp : ∀ i, i < n.group.order → (n.els.getD i []).Compat (coords axs x.shape) := fun i hi =>
      n.sym.compat _ hgrid _ (getD_mem (by rw [T.len]; exact hi))
    have hpull : ∀ i, i < n.group.order → ∀ jdx, Valid x.shape jdx →
        MovesTo ((n.els.getD i []).mat n.dim) axs x.shape (elPull n.els axs (coords axs x.shape) i jdx) jdx :=
      fun i hi jdx hj => SPerm.moves_pull (T.wfi hi) hax.1 hax.2.1 hax.2.2.1 (hcomp i hi) hj
    refine ⟨y, ey, by rw [sy.1]; simp, fun i hi => ⟨?_, ?_, ?_⟩⟩
    · intro idx jdx hv hj hm
      have h1 := sy.slice_get ha (g := i) (by simpa using hi) hj
      rw [getD_map_range _ _ hi] at h1
      simp only [slice] at h1
      rw [h1]
      congr 1
      exact n.elPull_of_moves hi hax hgrid hv hj hm
    · intro jdx hj
      exact ⟨_, n.sym.valid_elPull hax hgrid hi hj, hpull i hi jdx hj⟩
    · intro idx hv
      have hinv := (T.inv i hi).1
      refine ⟨elPull n.els axs (coords axs x.shape) (nth n.group.inverses i) idx,
        n.sym.valid_elPull hax hgrid hinv hv, ?_⟩
      have := hpull i hi _ (n.sym.valid_elPull hax hgrid hinv hv)
      rwa [n.sym.elPull_comp hax hgrid hinv hi hv, (T.inv i hi).2.2, n.sym.elPull_one hax hv] at this

/-- hypotheses are met: a 2x3x3x5 signal with its group axis put last; a cubic 3D signal -/
example : AxesOk GroupName.P4M.dim 4 [1, 2] ∧ GroupName.P4M.Grid ([1, 2].map (nth [2, 3, 3, 5])) ∧
    AxesOk GroupName.Oh.dim 5 [1, 2, 3] ∧ GroupName.Oh.Grid ([1, 2, 3].map (nth [7, 4, 4, 4, 2])) ∧
    AxesOk GroupName.P4.dim 4 [3, 0] := by
  refine ⟨⟨rfl, by decide, by decide, nofun⟩, ⟨rfl, by decide⟩, ⟨rfl, by decide, by decide, fun _ => ⟨1, rfl⟩⟩,
    ⟨rfl, by decide⟩, ⟨rfl, by decide, by decide, nofun⟩⟩

/-- the quarter turn of P4 moves the top left pixel of a 2x2 image to the bottom left -/
example : ∃ y, P4.action (⟨[2, 2], fun idx => nth idx 0 * 2 + nth idx 1⟩ : Tensor Nat) [0, 1] 0 none (some "") none = .ok y ∧
    y.get [1, 1, 0] = 0 ∧ y.get [1, 0, 0] = 1 := by
  refine ⟨_, rfl, ?_, ?_⟩ <;> decide

/-- C04, what holds: the action succeeds, with the documented shape, exactly on the grids `n.Grid`, and on other
grids it raises ValueError. For all groups but D4h and D4 these are exactly the grids all symmetries preserve. -/
theorem C04_grid_partial {α : Type} [Zero α] (n : GroupName) (x : Tensor α) (axs : List Nat) (a : Nat)
    (hax : AxesOk n.dim x.rank axs) (ha : a ≤ x.rank) :
    (n.Grid (axs.map (nth x.shape)) →
      ∃ y, n.group.action x (axs.map Int.ofNat) a none (some "") none = .ok y ∧
        y.shape = x.shape.insertIdx a n.group.order) ∧
    (¬ n.Grid (axs.map (nth x.shape)) →
      n.group.action x (axs.map Int.ofNat) a none (some "") none = .error .value) ∧
    (n ≠ .D4h → n ≠ .D4 →
      (n.Grid (axs.map (nth x.shape)) ↔ n.PreservesGrid (axs.map (nth x.shape)))) := by
  refine ⟨fun hgrid => ?_, fun hgrid => ?_, fun h1 h2 => ?_⟩
  · obtain ⟨y, ey, sy⟩ := n.sym.action_grid_all x hax hgrid ha
    exact ⟨y, ey, by rw [sy.1]; simp⟩
  · have key := n.act_error x hax ha hgrid
    simp only [Group.action, GroupData.parseSubgroup, Group.actionOnGrid, key, res_bind_error]
  · have hlen : (axs.map (nth x.shape)).length = n.dim := by rw [List.length_map]; exact hax.1
    have hfwd : n.Grid (axs.map (nth x.shape)) → n.PreservesGrid (axs.map (nth x.shape)) := by
      intro hgrid
      refine ⟨hlen, fun A hA j k hjk => ?_⟩
      obtain ⟨i, hi, rfl⟩ := (n.symmetry_mat A).1 hA
      have hc := n.sym.compat _ hgrid _ (getD_mem (b := []) (by rw [n.sym.tab.len]; exact hi)) k
        (by rw [(n.sym.tab.wfi hi).1]; exact k.2)
      simp only [SPerm.mat] at hjk
      split at hjk
      · rename_i e; rw [← e, hc]
      · simp at hjk
    refine ⟨hfwd, fun ⟨_, hp⟩ => ⟨hlen, ?_⟩⟩
    cases n <;> simp only [ne_eq, not_true, reduceCtorEq, not_false_eq_true] at h1 h2 <;> simp only
    · exact hp (!![0, 1; -1, 0] : Matrix (Fin 2) (Fin 2) ℤ)
        (by simp only [GroupName.Symmetry, Matrix.det_fin_two]; decide +kernel) (0 : Fin 2) (1 : Fin 2) (by decide)
    · exact hp (!![0, 1; -1, 0] : Matrix (Fin 2) (Fin 2) ℤ)
        (by simp only [GroupName.Symmetry]; decide +kernel) (0 : Fin 2) (1 : Fin 2) (by decide)
    all_goals
      have hs : GroupName.Symmetry .Oh (!![0, 1, 0; 0, 0, 1; 1, 0, 0] : Matrix (Fin 3) (Fin 3) ℤ) ∧
          GroupName.Symmetry .O (!![0, 1, 0; 0, 0, 1; 1, 0, 0] : Matrix (Fin 3) (Fin 3) ℤ) := by
        simp only [GroupName.Symmetry, Matrix.det_fin_three]; decide +kernel
      have e1 := hp (!![0, 1, 0; 0, 0, 1; 1, 0, 0] : Matrix (Fin 3) (Fin 3) ℤ)
        (by first | exact hs.1 | exact hs.2) (0 : Fin 3) (1 : Fin 3) (by decide)
      have e2 := hp (!![0, 1, 0; 0, 0, 1; 1, 0, 0] : Matrix (Fin 3) (Fin 3) ℤ)
        (by first | exact hs.1 | exact hs.2) (1 : Fin 3) (2 : Fin 3) (by decide)
      exact ⟨e1, e1.trans e2⟩

/-- a non-square grid on which P2MM acts and P4M does not -/
example : GroupName.P2MM.Grid [3, 5] ∧ ¬ GroupName.P4M.Grid [3, 5] ∧ AxesOk 2 3 [1, 2] :=
  ⟨⟨rfl, trivial⟩, by simp [GroupName.Grid], ⟨rfl, by decide, by decide, nofun⟩⟩

/-- C04 is violated: every symmetry of D4h (and of D4) preserves every cuboid with square base, but acting on such a
cuboid raises an error whenever its depth differs from its height, because the parent Oh is asked to act first. -/
theorem C04_violation_cuboid {α : Type} [Zero α] (n : GroupName) (hn : n = .D4h ∨ n = .D4) (h d : Nat) (hd : h ≠ d)
    (x : Tensor α) (hx : x.shape = [h, h, d]) :
    n.PreservesGrid [h, h, d] ∧ n.group.action x [0, 1, 2] 0 none (some "") none = .error .value := by
  have hax : AxesOk 3 x.rank [0, 1, 2] := ⟨rfl, by decide, by simp [Tensor.rank, hx], fun _ => ⟨0, rfl⟩⟩
  have hpres : ∀ A : Matrix (Fin 3) (Fin 3) ℤ, Orthogonal A → A 2 0 = 0 → A 2 1 = 0 →
      ∀ j k : Fin 3, A j k ≠ 0 → nth [h, h, d] j = nth [h, h, d] k := by
    intro A hA h0 h1 j k hjk
    have hkey : ∀ A ∈ cand3, Orthogonal A ∧ A 2 0 = 0 ∧ A 2 1 = 0 → A 0 2 = 0 ∧ A 1 2 = 0 := by decide +kernel
    obtain ⟨h2, h3⟩ := hkey A (orth3_cand hA) ⟨hA, h0, h1⟩
    fin_cases j <;> fin_cases k <;> simp_all
  rcases hn with rfl | rfl
  · refine ⟨⟨rfl, fun A hA => hpres A hA.1 hA.2.1 hA.2.2⟩, ?_⟩
    exact (C04_grid_partial .D4h x [0, 1, 2] 0 hax (Nat.zero_le _)).2.1 (by
      simp only [GroupName.Grid, hx]; simp; intro _; exact hd)
  · refine ⟨⟨rfl, fun A hA => hpres A hA.1 hA.2.1 hA.2.2.1⟩, ?_⟩
    exact (C04_grid_partial .D4 x [0, 1, 2] 0 hax (Nat.zero_le _)).2.1 (by
      simp only [GroupName.Grid, hx]; simp; intro _; exact hd)

end GroCo
