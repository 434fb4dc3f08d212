import Verif.GroupLemmas

/- Helper: the grid actions fail on grids of the wrong size. -/

namespace GroCo
open Tensor

variable {α : Type}

theorem concatenate_error (t u : Tensor α) (us : List (Tensor α)) {a : Nat} (h : a < t.rank) (hu : u ∈ us)
    (hs : u.shape.eraseIdx a ≠ t.shape.eraseIdx a) : concatenate (t :: us) a = .error .value := by
  simp only [concatenate, normAxis_nat h, res_bind_ok]
  rw [if_neg]
  intro h'
  exact hs (h' u hu).1

theorem shift_swap_ne {x y : Tensor α} {a h w : Nat} {fs} (hy : Stack y a fs x) (ha : a ≤ x.rank) (hax : Axes2 x h w)
    (hsq : nth x.shape h ≠ nth x.shape w) :
    (swapList y.shape (shift a h) (shift a w)).eraseIdx a ≠ y.shape.eraseIdx a := by
  have hr := hy.rank ha
  have := hax.hh
  have := hax.hw
  rw [erase_swap_shift _ _ _ _ (by romega) (by romega) (by romega), hy.1, eraseIdx_insertIdx' _ _ _ ha]
  intro e
  have := congrArg (fun l => nth l h) e
  replace this : nth (swapList x.shape h w) h = nth x.shape h := this
  rw [nth_swapList _ hax.hh hax.hw] at this
  have hne := hax.ne
  grind

theorem P4M_error (x : Tensor α) {h w a : Nat} (hax : Axes2 x h w) (ha : a ≤ x.rank)
    (hsq : nth x.shape h ≠ nth x.shape w) : P4M_action x [h, w] a = .error .value := by
  obtain ⟨y1, e1, s1⟩ := stack_expand x ha
  obtain ⟨y2, e2, s2⟩ := stack_flip s1 ha hax.hw
  obtain ⟨y3, e3, s3⟩ := stack_concat2 s1 s2 ha
  obtain ⟨y4, e4, s4⟩ := stack_flip s3 ha hax.hh
  obtain ⟨y5, e5, s5⟩ := stack_concat2 s3 s4 ha
  have hr5 := s5.rank ha
  have h1 : shift a h < y5.rank := by rw [hr5]; exact shift_lt hax.hh
  have h2 : shift a w < y5.rank := by rw [hr5]; exact shift_lt hax.hw
  obtain ⟨y6, e6, s6, -⟩ := transpose_swap h1 h2
  have e6' := swappedAxes_nat h1 h2
  have e7 : concatenate [y5, y6] (a : Int) = .error .value :=
    concatenate_error y5 y6 [y6] (by romega) (by simp) (by rw [s6]; exact shift_swap_ne s5 ha hax hsq)
  simp only [P4M_action, unpack2, res_bind_ok, e1, axis_shift, e2, e3, e4, e5, e6', e6, e7, res_bind_error]

theorem P4_error (x : Tensor α) {h w a : Nat} (hax : Axes2 x h w) (ha : a ≤ x.rank)
    (hsq : nth x.shape h ≠ nth x.shape w) : P4_action x [h, w] a = .error .value := by
  obtain ⟨y1, e1, s1⟩ := stack_expand x ha
  obtain ⟨y2, e2, s2⟩ := stack_flip s1 ha hax.hw
  obtain ⟨y3, e3, s3⟩ := stack_flip s2 ha hax.hh
  obtain ⟨y4, e4, s4⟩ := stack_concat2 s1 s3 ha
  have hr5 := s4.rank ha
  have h1 : shift a h < y4.rank := by rw [hr5]; exact shift_lt hax.hh
  have h2 : shift a w < y4.rank := by rw [hr5]; exact shift_lt hax.hw
  obtain ⟨y6, e6, s6, -⟩ := transpose_swap h1 h2
  have e6' := swappedAxes_nat h1 h2
  have hr6 : y6.rank = y4.rank := by simp only [Tensor.rank, s6, length_swapList]
  have e7 := flip_ok y6 (a := shift a h) (by rw [hr6]; exact h1)
  have e8 := concatenate_error y4 _ [⟨y6.shape, fun idx => y6.get (idx.set (shift a h) (nth y6.shape (shift a h) - 1 - nth idx (shift a h)))⟩]
    (a := a) (by romega) (by simp; rfl) (by simp only [s6]; exact shift_swap_ne s4 ha hax hsq)
  simp only [P4_action, unpack2, res_bind_ok, e1, axis_shift, e2, e3, e4, e6', e6, e7, e8, res_bind_error]

theorem Oh_error (x : Tensor α) {o a : Nat} (ho : o + 3 ≤ x.rank) (ha : a ≤ x.rank) (spatial : List Int)
    (hsp : spatial.head? = some (o : Int))
    (h : ¬ (nth x.shape o = nth x.shape (o + 1) ∧ nth x.shape o = nth x.shape (o + 2))) :
    Oh_action x spatial a = .error .value := by
  have hpar : ∀ pf ∈ ohParameters, Perm3 pf.1 ∧ pf.2.Nodup ∧ ∀ f ∈ pf.2, f < 3 := by decide +kernel
  have key : ∀ pf ∈ ohParameters, ∃ y, (do
      let y ← pf.2.foldlM (fun y f => flip y ((f + o : Nat) : Int)) x
      let y ← transpose y (List.range o ++ pf.1.map (· + o) ++ (List.range x.rank).drop (o + 3))
      expandDims y a : Res (Tensor α)) = .ok y ∧
      y.shape = ((ohPerm o x.rank pf.1).map (nth x.shape)).insertIdx a 1 := by
    rintro ⟨p, fl⟩ hm
    obtain ⟨hp, hnd, hlt⟩ := hpar _ hm
    simp only at hp hnd hlt ⊢
    obtain ⟨y, ey, hys, hyg⟩ := foldlM_flips o fl x hnd (fun f hf => by have := hlt f hf; romega)
    have hyr : y.rank = x.rank := by simp only [Tensor.rank, hys]
    have et := transpose_ok y (perm := ohPerm o x.rank p) (by rw [length_ohPerm hp.1 ho, hyr]) (by
      intro b hb
      rw [hyr] at hb
      have := idxOf_ohPerm hp ho hb
      rw [← List.idxOf_lt_length_iff, this, length_ohPerm hp.1 ho]
      split
      · omega
      · split
        · have := hp.idxOf_lt (j := b - o) (by omega); omega
        · omega)
    rw [ey, res_bind_ok, ← ohPerm, et, res_bind_ok]
    refine ⟨_, expandDims_ok _ ?_, ?_⟩
    · simp only [Tensor.rank, List.length_map, length_ohPerm hp.1 ho]; exact ha
    · simp only [hys]
  obtain ⟨ys, e, hys⟩ := mapM_ok (R := fun (u : Tensor α) (s : List Nat) => u.shape = s)
    (g := fun pf : List Nat × List Nat => ((ohPerm o x.rank pf.1).map (nth x.shape)).insertIdx a 1) key
  have hlen := hys.length_eq
  have hl48 : ohParameters.length = 48 := by decide +kernel
  rw [List.length_map, hl48] at hlen
  have hget : ∀ i, (hi : i < 48) → (ys[i]'(by omega)).shape.eraseIdx a =
      (ohPerm o x.rank (ohParameters[i]'(by omega)).1).map (nth x.shape) := by
    intro i hi
    have := hys.get (i := i) (by omega) (by simp [hl48, hi])
    simp only [List.get_eq_getElem, List.getElem_map] at this
    rw [this, eraseIdx_insertIdx']
    rw [List.length_map, length_ohPerm _ ho]
    · exact ha
    · exact (hpar _ (List.getElem_mem _)).1.1
  have hnthm : ∀ (p : List Nat) (i : Nat), p.length = 3 → i < 3 →
      nth ((ohPerm o x.rank p).map (nth x.shape)) (o + i) = nth x.shape (nth p i + o) := by
    intro p i hp hi
    rw [nth_eq_getElem _ _ (by rw [List.length_map, length_ohPerm hp ho]; romega), List.getElem_map,
      ← nth_eq_getElem, nth_ohPerm hp ho (by romega), if_neg (by omega), if_pos (by omega)]
    congr 2; congr 1; omega
  obtain ⟨t, us, rfl⟩ : ∃ t us, ys = t :: us := by
    cases ys with
    | nil => simp at hlen
    | cons t us => exact ⟨t, us, rfl⟩
  have htr : t.rank = x.rank + 1 := by
    have := hys.get (i := 0) (by simp) (by simp [hl48])
    simp only [List.get_eq_getElem, List.getElem_map, List.getElem_cons_zero] at this
    simp only [Tensor.rank, this]
    rw [List.length_insertIdx_of_le_length, List.length_map, length_ohPerm _ ho]
    · exact (hpar _ (List.getElem_mem _)).1.1
    · rw [List.length_map, length_ohPerm _ ho]
      · exact ha
      · exact (hpar _ (List.getElem_mem _)).1.1
  have h0 := hget 0 (by omega)
  simp only [List.getElem_cons_zero] at h0
  have p0 : (ohParameters[0]'(by decide +kernel)).1 = [0, 1, 2] := by decide +kernel
  have p32 : (ohParameters[32]'(by decide +kernel)).1 = [2, 1, 0] := by decide +kernel
  have p40 : (ohParameters[40]'(by decide +kernel)).1 = [1, 0, 2] := by decide +kernel
  have h32 := hget 32 (by omega)
  have h40 := hget 40 (by omega)
  rw [p0] at h0; rw [p32] at h32; rw [p40] at h40
  have ec : concatenate (t :: us) (a : Int) = .error .value := by
    by_cases hc : nth x.shape o = nth x.shape (o + 1)
    · apply concatenate_error t (us[31]'(by simp at hlen; omega)) us (by romega) (List.getElem_mem _)
      rw [show us[31]'(by simp at hlen; omega) = (t :: us)[32]'(by omega) from rfl, h32, h0]
      intro e
      have := congrArg (fun l => nth l (o + 0)) e
      simp only [hnthm [2, 1, 0] 0 rfl (by omega), hnthm [0, 1, 2] 0 rfl (by omega), nth_cons_zero] at this
      apply h
      refine ⟨hc, ?_⟩
      rw [Nat.add_comm o 2, this, Nat.zero_add]
    · apply concatenate_error t (us[39]'(by simp at hlen; omega)) us (by romega) (List.getElem_mem _)
      rw [show us[39]'(by simp at hlen; omega) = (t :: us)[40]'(by omega) from rfl, h40, h0]
      intro e
      have := congrArg (fun l => nth l (o + 0)) e
      simp only [hnthm [1, 0, 2] 0 rfl (by omega), hnthm [0, 1, 2] 0 rfl (by omega), nth_cons_zero] at this
      apply hc
      rw [Nat.add_comm o 1, this, Nat.zero_add]
  match spatial, hsp with
  | s :: _, hs =>
    simp only [List.head?_cons, Option.some.injEq] at hs
    subst hs
    simp only [Oh_action, Int.natCast_nonneg, if_true, Int.toNat_natCast, res_bind_ok]
    erw [e]
    simpa using ec

/-- On any other grid the action raises ValueError. -/
theorem GroupName.act_error (n : GroupName) (x : Tensor α) {axs : List Nat} {a : Nat} (hax : AxesOk n.dim x.rank axs)
    (ha : a ≤ x.rank) (hgrid : ¬ n.Grid (axs.map (nth x.shape))) :
    n.group.act α x (axs.map Int.ofNat) a = .error .value := by
  have hO : n.dim = 3 → ¬ (nth (axs.map (nth x.shape)) 0 = nth (axs.map (nth x.shape)) 1 ∧
      nth (axs.map (nth x.shape)) 0 = nth (axs.map (nth x.shape)) 2) →
      Oh_action x (axs.map Int.ofNat) a = .error .value := by
    intro hd hne
    obtain ⟨o, rfl⟩ := hax.2.2.2 hd
    have h3 := hax.2.2.1 (o + 2) (by simp)
    exact Oh_error x (by romega) ha _ rfl (by simpa using hne)
  have hW : n.dim = 2 → nth (axs.map (nth x.shape)) 0 ≠ nth (axs.map (nth x.shape)) 1 →
      P4M_action x (axs.map Int.ofNat) a = .error .value ∧ P4_action x (axs.map Int.ofNat) a = .error .value := by
    intro hd hne
    rw [hd] at hax
    obtain ⟨i, j, rfl, h2⟩ := axes2_of hax
    simp only [List.map_cons, nth_cons_zero, nth_cons_succ] at hne
    exact ⟨P4M_error x h2 ha hne, P4_error x h2 ha hne⟩
  have hlen : (axs.map (nth x.shape)).length = n.dim := by rw [List.length_map]; exact hax.1
  cases n <;> simp only [GroupName.Grid, hlen, true_and, and_true, not_true] at hgrid
  · exact (hW rfl hgrid).2
  · exact (hW rfl hgrid).1
  · exact hO rfl hgrid
  all_goals
    have := hO rfl hgrid
    simp only [GroupName.group, GroCo.O, GroCo.D4h, GroCo.D4, subgroupAction, GroCo.Oh, this, res_bind_error]

end GroCo
