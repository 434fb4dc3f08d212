import Verif.Props.Manips

/-
Properties C11 and C13, exactly: for which axes `merge_axes` and `move_axis_to_left_of` do what they say.
-/

namespace GroCo
open Tensor

variable {α : Type}

/-- The result `r` is `x` with axis `m` moved to the left of axis `t`: the axes of the result, named by their number in `x`, are
a rearrangement in which `m` is immediately left of `t` and the others keep their order; entries are re-indexed accordingly. -/
def MovedLeft (x : Tensor α) (m t : Nat) (r : Res (Tensor α)) : Prop :=
  ∃ y p, r = .ok y ∧ p.Perm (List.range x.rank) ∧ (∃ A B, p = A ++ m :: t :: B) ∧
    p.filter (· ≠ m) = (List.range x.rank).filter (· ≠ m) ∧ y.shape = p.map (nth x.shape) ∧
    ∀ idx, Valid x.shape idx → y.get (p.map (nth idx)) = x.get idx

/-- The result `r` is `x` with axis `m` merged into axis `t`. -/
def MergedInto (x : Tensor α) (m t : Nat) (r : Res (Tensor α)) : Prop :=
  ∃ y, r = .ok y ∧ y.shape = (x.shape.set t (nth x.shape t * nth x.shape m)).eraseIdx m ∧
    ∀ idx, Valid x.shape idx → y.get ((idx.set t (nth idx m * nth x.shape t + nth idx t)).eraseIdx m) = x.get idx

theorem moveAxis_plain (x : Tensor α) {am at' : Int} {m t : Nat} (hm : IsAxis x.rank am m) (ht : IsAxis x.rank at' t)
    (h : am < at' ↔ m < t) : moveAxisToLeftOf x am at' = moveAxisToLeftOf x m t := by
  obtain ⟨h1, h2⟩ := normAxis_eq hm.norm
  obtain ⟨h3, h4⟩ := normAxis_eq ht.norm
  rw [moveAxisToLeftOf_norm x (normAxis_nat h1) (normAxis_nat h3) (Or.inl ⟨by omega, by omega⟩)]
  unfold moveAxisToLeftOf
  refine moveaxis_norm x hm.norm (normAxis_of ?_ ?_)
  · unfold after; split <;> omega
  · unfold after
    by_cases h' : m < t
    · rw [if_pos (h.2 h'), if_pos h']; omega
    · rw [if_neg (fun h'' => h' (h.1 h'')), if_neg h']; omega

theorem mergeAxes_plain (x : Tensor α) {am at' : Int} {m t : Nat} (hm : IsAxis x.rank am m) (ht : IsAxis x.rank at' t)
    (h : am < at' ↔ m < t) : mergeAxes x am at' = mergeAxes x m t := by
  obtain ⟨h1, -⟩ := normAxis_eq hm.norm
  obtain ⟨h3, -⟩ := normAxis_eq ht.norm
  have e : mergeShapes (x.shape.map some) am at' = mergeShapes (x.shape.map some) m t := by
    simp only [mergeShapes]
    rw [pyIndex_eq_norm (k := m) (by simpa using hm.norm), pyIndex_eq_norm (k := t) (by simpa using ht.norm),
      pyIndex_eq_norm (k := m) (by simpa using normAxis_nat h1), pyIndex_eq_norm (k := t) (by simpa using normAxis_nat h3)]
  simp only [mergeAxes, mergeAxesS, e, moveAxis_plain x hm ht h]

/-- where the axis ends up when the two axes are counted from different ends in the wrong order -/
def strayed (r m t : Nat) : Nat := if m < t then t else if t = 0 then r - 1 else t - 1

theorem moveAxis_strayed (x : Tensor α) {am at' : Int} {m t : Nat} (hm : IsAxis x.rank am m) (ht : IsAxis x.rank at' t)
    (hne : m ≠ t) (h : ¬ (am < at' ↔ m < t)) : moveAxisToLeftOf x am at' = moveaxis x m (strayed x.rank m t) := by
  obtain ⟨h1, h2⟩ := normAxis_eq hm.norm
  obtain ⟨h3, h4⟩ := normAxis_eq ht.norm
  unfold moveAxisToLeftOf
  simp only
  rw [moveaxis_norm x hm.norm (d := strayed x.rank m t)]
  apply normAxis_of
  · unfold strayed; split_ifs <;> omega
  · unfold strayed
    by_cases h' : m < t
    · rw [if_neg (by omega), if_pos h']; omega
    · rw [if_pos (by omega), if_neg h']
      split_ifs <;> omega

theorem strayed_lt {r m t : Nat} (hm : m < r) (ht : t < r) : strayed r m t < r := by
  unfold strayed; split_ifs <;> omega

theorem moveOrder_mem {r s d a : Nat} (hs : s < r) (hd : d < r) (ha : a < r) : a ∈ moveOrder r s d := by
  rw [← List.idxOf_lt_length_iff, idxOf_moveOrder hs hd ha, length_moveOrder hs hd]
  unfold movedTo; grind

theorem moveOrder_perm {r s d : Nat} (hs : s < r) (hd : d < r) : (moveOrder r s d).Perm (List.range r) := by
  symm
  apply List.Subperm.perm_of_length_le
  · apply List.subperm_of_subset List.nodup_range
    intro a ha
    exact moveOrder_mem hs hd (List.mem_range.1 ha)
  · rw [length_moveOrder hs hd, List.length_range]

theorem moveaxis_order (x : Tensor α) {s d : Nat} (hs : s < x.rank) (hd : d < x.rank) :
    ∃ y, moveaxis x s d = .ok y ∧ y.shape = (moveOrder x.rank s d).map (nth x.shape) ∧
      ∀ idx, idx.length = x.rank → y.get ((moveOrder x.rank s d).map (nth idx)) = x.get idx := by
  refine ⟨_, by simpa only [moveaxis, normAxis_nat hs, normAxis_nat hd, res_bind_ok] using
    transpose_ok x (length_moveOrder hs hd) fun a ha => moveOrder_mem hs hd ha, rfl, ?_⟩
  intro idx hl
  simp only
  congr 1
  apply ext_nth
  · simp [hl]
  · intro i hi
    simp only [List.length_map, List.length_range] at hi
    rw [nth_map_range, if_pos hi]
    have hlt := List.idxOf_lt_length_of_mem (moveOrder_mem hs hd hi)
    rw [nth_eq_getElem _ _ (by simpa using hlt), List.getElem_map, List.getElem_idxOf]

/-- C13, exactly: `move_axis_to_left_of` does what it says for all tensors of a rank if and only if the axes as written are in the
same order as the axes they mean: always when they are counted from the same end, and in half of the other cases. -/
theorem C13_exact [Inhabited α] (r : Nat) (am at' : Int) (m t : Nat) (hm : IsAxis r am m) (ht : IsAxis r at' t) (hne : m ≠ t) :
    (∀ x : Tensor α, x.rank = r → MovedLeft x m t (moveAxisToLeftOf x am at')) ↔ (am < at' ↔ m < t) := by
  constructor
  · intro h
    by_contra hc
    have hr : (⟨(List.range r).map (· + 1), fun _ => default⟩ : Tensor α).rank = r := by simp [Tensor.rank]
    obtain ⟨y, p, e, hp, ⟨A, B, hAB⟩, -, hs, -⟩ := h ⟨(List.range r).map (· + 1), fun _ => default⟩ hr
    have hd := strayed_lt hm.1 ht.1
    obtain ⟨y', e', hs', -⟩ := moveaxis_order (⟨(List.range r).map (· + 1), fun _ => default⟩ : Tensor α) (s := m)
      (d := strayed r m t) (by rw [hr]; exact hm.1) (by rw [hr]; exact hd)
    rw [moveAxis_strayed _ (by rw [hr]; exact hm) (by rw [hr]; exact ht) hne hc, hr, e'] at e
    cases e
    rw [hr] at hs' hp
    rw [hs'] at hs
    have hpe : moveOrder r m (strayed r m t) = p := by
      apply ext_nth
      · simpa using congrArg List.length hs
      · intro i hi
        have h1 := congrArg (fun l => nth l i) hs
        have hi' : i < p.length := by
          have := congrArg List.length hs; simp only [List.length_map] at this; omega
        simp only at h1
        rw [nth_eq_getElem _ _ (by simpa using hi), nth_eq_getElem _ _ (by simpa using hi'), List.getElem_map,
          List.getElem_map] at h1
        have b1 : (moveOrder r m (strayed r m t))[i] < r := List.mem_range.1 ((moveOrder_perm hm.1 hd).mem_iff.1 (List.getElem_mem hi))
        have b2 : p[i] < r := List.mem_range.1 (hp.mem_iff.1 (List.getElem_mem hi'))
        rw [nth_map_range, nth_map_range, if_pos b1, if_pos b2] at h1
        rw [nth_eq_getElem _ _ hi, nth_eq_getElem _ _ hi']
        omega
    have hlen : A.length + 2 + B.length = r := by
      have := hp.length_eq
      rw [hAB] at this
      simp at this
      omega
    have n1 : nth p A.length = m := by rw [hAB]; simp [nth]
    have n2 : nth p (A.length + 1) = t := by rw [hAB]; simp [nth]
    rw [← hpe, nth_moveOrder hm.1 hd (by omega)] at n1 n2
    have hm1 := hm.1
    have ht1 := ht.1
    unfold strayed at n1 n2
    simp only at n1 n2
    split_ifs at n1 n2 <;> omega
  · intro h x hx
    subst hx
    rw [moveAxis_plain x hm ht h]
    obtain ⟨y, p, q⟩ := C13_move_axis_partial x (m : Int) (t : Int) m t
      ⟨hm.1, by simp⟩ ⟨ht.1, by simp⟩ hne (Or.inl ⟨by omega, by omega⟩)
    exact ⟨y, p, q⟩

theorem ravel_zero (p : List Nat) (f e : Nat → Nat) (h : ∀ a ∈ p, e a = 0) : ravel (p.map f) (p.map e) = 0 := by
  induction p with
  | nil => rfl
  | cons a p ih =>
    simp only [List.map_cons, ravel]
    rw [h a List.mem_cons_self, ih fun b hb => h b (List.mem_cons_of_mem _ hb)]
    simp

theorem prod_one (p : List Nat) (f : Nat → Nat) (h : ∀ a ∈ p, f a = 1) : prod (p.map f) = 1 := by
  induction p with
  | nil => rfl
  | cons a p ih =>
    simp only [List.map_cons, prod_cons]
    rw [h a List.mem_cons_self, ih fun b hb => h b (List.mem_cons_of_mem _ hb)]

theorem split_two {p : List Nat} {P Q : Nat} (hP : P ∈ p) (hQ : Q ∈ p) (h : p.idxOf P < p.idxOf Q) :
    ∃ A B C, p = A ++ P :: (B ++ Q :: C) := by
  induction p with
  | nil => cases hP
  | cons a p ih =>
    by_cases ha : a = P
    · subst ha
      rcases List.mem_cons.1 hQ with rfl | hQ
      · simp at h
      · obtain ⟨B, C, rfl⟩ := List.append_of_mem hQ
        exact ⟨[], B, C, rfl⟩
    · by_cases ha' : a = Q
      · subst ha'
        simp at h
      · rw [List.idxOf_cons_ne _ ha, List.idxOf_cons_ne _ ha'] at h
        obtain ⟨A, B, C, rfl⟩ := ih ((List.mem_cons.1 hP).resolve_left (Ne.symm ha))
          ((List.mem_cons.1 hQ).resolve_left (Ne.symm ha')) (by omega)
        exact ⟨a :: A, B, C, rfl⟩

/-- sizes 2 on two axes and 1 elsewhere -/
def twoAxes (P Q a : Nat) : Nat := if a = P ∨ a = Q then 2 else 1

/-- index 1 on one axis -/
def oneAt (X a : Nat) : Nat := if a = X then 1 else 0

theorem ravel_two {p : List Nat} (hn : p.Nodup) {P Q : Nat} (hP : P ∈ p) (hQ : Q ∈ p) (h : p.idxOf P < p.idxOf Q) :
    ravel (p.map (twoAxes P Q)) (p.map (oneAt Q)) = 1 ∧ ravel (p.map (twoAxes P Q)) (p.map (oneAt P)) = 2 := by
  have hne : P ≠ Q := by rintro rfl; omega
  obtain ⟨A, B, C, rfl⟩ := split_two hP hQ h
  rw [List.nodup_append] at hn
  obtain ⟨-, hn, hA⟩ := hn
  rw [List.nodup_cons, List.nodup_append, List.nodup_cons] at hn
  obtain ⟨hPn, -, ⟨hQC, -⟩, hB⟩ := hn
  have fA : ∀ a ∈ A, a ≠ P ∧ a ≠ Q := fun a ha => ⟨fun e => hA a ha P (by simp) e, fun e => hA a ha Q (by simp) e⟩
  have fB : ∀ a ∈ B, a ≠ P ∧ a ≠ Q := fun a ha =>
    ⟨fun e => hPn (by rw [← e]; exact List.mem_append_left _ ha), fun e => hB a ha Q (by simp) e⟩
  have fC : ∀ a ∈ C, a ≠ P ∧ a ≠ Q := fun a ha =>
    ⟨fun e => hPn (by rw [← e]; simp [ha]), fun e => hQC (by rw [← e]; exact ha)⟩
  have z : ∀ (L : List Nat) (X : Nat), (X = P ∨ X = Q) → (∀ a ∈ L, a ≠ P ∧ a ≠ Q) →
      ravel (L.map (twoAxes P Q)) (L.map (oneAt X)) = 0 := by
    intro L X hX hL
    apply ravel_zero
    intro a ha
    have := hL a ha
    unfold oneAt
    rw [if_neg]
    rcases hX with rfl | rfl
    · exact this.1
    · exact this.2
  have o : ∀ L : List Nat, (∀ a ∈ L, a ≠ P ∧ a ≠ Q) → prod (L.map (twoAxes P Q)) = 1 := by
    intro L hL
    apply prod_one
    intro a ha
    have := hL a ha
    simp [twoAxes, this.1, this.2]
  have tP : twoAxes P Q P = 2 := by simp [twoAxes]
  have tQ : twoAxes P Q Q = 2 := by simp [twoAxes]
  constructor
  · simp only [List.map_append, List.map_cons]
    rw [ravel_append (by simp)]
    simp only [ravel]
    rw [ravel_append (by simp)]
    simp only [ravel, z A Q (Or.inr rfl) fA, z B Q (Or.inr rfl) fB, z C Q (Or.inr rfl) fC, o C fC]
    simp [oneAt, hne]
  · simp only [List.map_append, List.map_cons]
    rw [ravel_append (by simp)]
    simp only [ravel]
    rw [ravel_append (by simp)]
    simp only [ravel, z A P (Or.inl rfl) fA, z B P (Or.inl rfl) fB, z C P (Or.inl rfl) fC, o C fC, prod_append, prod_cons, o B fB, tQ]
    simp [oneAt, hne.symm]

/-- the two axes that are interchanged -/
theorem interchanged {r m t : Nat} (hm : m < r) (ht : t < r) (hne : m ≠ t) :
    ∃ P Q, P < r ∧ Q < r ∧ P ≠ Q ∧ (moveOrder r m (strayed r m t)).idxOf P < (moveOrder r m (strayed r m t)).idxOf Q ∧
      (moveOrder r m (after m t)).idxOf Q < (moveOrder r m (after m t)).idxOf P := by
  have hd := strayed_lt hm ht
  have hd' : after m t < r := by unfold after; split <;> omega
  rcases Nat.lt_or_ge m t with h | h
  · refine ⟨t, m, ht, hm, Ne.symm hne, ?_, ?_⟩ <;> rw [idxOf_moveOrder hm (by assumption) ht, idxOf_moveOrder hm (by assumption) hm]
    · unfold movedTo strayed; simp only; split_ifs <;> omega
    · unfold movedTo after; simp only; split_ifs <;> omega
  · rcases Nat.eq_zero_or_pos t with h0 | h0
    · refine ⟨t, m, ht, hm, Ne.symm hne, ?_, ?_⟩ <;> rw [idxOf_moveOrder hm (by assumption) ht, idxOf_moveOrder hm (by assumption) hm]
      · unfold movedTo strayed; simp only; split_ifs <;> omega
      · unfold movedTo after; simp only; split_ifs <;> omega
    · refine ⟨m, t - 1, hm, by omega, by omega, ?_, ?_⟩ <;>
        rw [idxOf_moveOrder hm (by assumption) (by omega), idxOf_moveOrder hm (by assumption) (by omega)]
      · unfold movedTo strayed; simp only; split_ifs <;> omega
      · unfold movedTo after; simp only; split_ifs <;> omega

theorem strayed_merge (x : Tensor α) {am at' : Int} {m t d : Nat} (hm : IsAxis x.rank am m) (ht : IsAxis x.rank at' t)
    (hd : d < x.rank) (hmv : moveAxisToLeftOf x am at' = moveaxis x m d) (y : Tensor α) (hy : mergeAxes x am at' = .ok y) :
    y.shape = (x.shape.set t (nth x.shape t * nth x.shape m)).eraseIdx m ∧
    prod y.shape = prod ((moveOrder x.rank m d).map (nth x.shape)) ∧
    ∀ k idx, Valid x.shape idx → ravel ((moveOrder x.rank m d).map (nth x.shape)) ((moveOrder x.rank m d).map (nth idx)) = k →
      y.get (unravel y.shape k) = x.get idx := by
  obtain ⟨h1, -⟩ := normAxis_eq hm.norm
  obtain ⟨h3, -⟩ := normAxis_eq ht.norm
  obtain ⟨z, ez, hzs, hzg⟩ := moveaxis_order x h1 hd
  have hms : mergeShapes (x.shape.map some) am at' = .ok (((x.shape.set t (nth x.shape t * nth x.shape m)).eraseIdx m).map some) := by
    simp only [mergeShapes]
    rw [pyIndex_eq_norm (k := m) (by simpa using hm.norm), pyIndex_eq_norm (k := t) (by simpa using ht.norm)]
    simp only [res_bind_ok]
    have g : ∀ k, k < x.rank → (x.shape.map some)[k]? = some (some (nth x.shape k)) := by
      intro k hk
      simp only [Tensor.rank] at hk
      simp [hk, nth]
    rw [g t h3, g m h1]
    simp only [res_pure]
    rw [← List.map_set, List.eraseIdx_map]
  have hr : ∀ s : List Nat, resolveShape (prod z.shape) (formatBatchDim (s.map some)) = .ok s := fun s => resolve_known s _
  simp only [mergeAxes, mergeAxesS, hms, res_bind_ok, hmv, ez, reshape, hr, reshapeN] at hy
  split at hy
  next hp =>
    cases hy
    refine ⟨rfl, by rw [← hzs]; exact hp.symm, ?_⟩
    intro k idx hv hk
    have hvz : Valid z.shape ((moveOrder x.rank m d).map (nth idx)) := by
      rw [hzs, valid_iff]
      refine ⟨by simp, ?_⟩
      intro i hi
      simp only [List.length_map] at hi
      rw [nth_eq_getElem _ _ (by simpa using hi), nth_eq_getElem _ _ (by simpa using hi), List.getElem_map, List.getElem_map]
      apply ((valid_iff _ _).1 hv).2
      exact List.mem_range.1 ((moveOrder_perm h1 hd).mem_iff.1 (List.getElem_mem hi))
    have hlt := ravel_lt hvz
    simp only
    rw [ravel_unravel (by rw [← hp, ← hk, ← hzs]; exact hlt), ← hk, ← hzs, unravel_ravel hvz]
    exact hzg idx hv.length
  next => cases hy

/-- C11, exactly: `merge_axes` does what it says for all tensors of a rank if and only if the axes as written are in the same order
as the axes they mean. In the other cases it returns a tensor of the right shape with entries in other places, without an error. -/
theorem C11_exact [Nontrivial α] (r : Nat) (am at' : Int) (m t : Nat) (hm : IsAxis r am m) (ht : IsAxis r at' t) (hne : m ≠ t) :
    (∀ x : Tensor α, x.rank = r → MergedInto x m t (mergeAxes x am at')) ↔ (am < at' ↔ m < t) := by
  have good : ∀ x : Tensor α, x.rank = r → MergedInto x m t (mergeAxes x m t) := by
    intro x hx
    subst hx
    obtain ⟨y, e, h1, -, h2, -⟩ := C11_merge_axes_partial x (m : Int) (t : Int) m t
      ⟨hm.1, by simp⟩ ⟨ht.1, by simp⟩ hne (Or.inl ⟨by omega, by omega⟩)
    exact ⟨y, e, h1, fun idx hv => (h2 idx hv).2⟩
  constructor
  · intro h
    by_contra hc
    obtain ⟨P, Q, hP, hQ, hPQ, o1, o2⟩ := interchanged hm.1 ht.1 hne
    obtain ⟨u, v, huv⟩ := exists_pair_ne α
    have hd := strayed_lt hm.1 ht.1
    have hd' : after m t < r := by have := hm.1; have := ht.1; unfold after; split <;> omega
    let x : Tensor α := ⟨(List.range r).map (twoAxes P Q), fun idx => if idx = (List.range r).map (oneAt P) then u else v⟩
    have hr : x.rank = r := by simp [Tensor.rank, x]
    have hx : ∀ p : List Nat, p.Perm (List.range r) → p.map (nth x.shape) = p.map (twoAxes P Q) := by
      intro p hp
      apply List.map_congr_left
      intro a ha
      have := List.mem_range.1 (hp.mem_iff.1 ha)
      show nth ((List.range r).map (twoAxes P Q)) a = _
      rw [nth_map_range, if_pos this]
    have hi : ∀ (p : List Nat) (X : Nat), p.Perm (List.range r) → p.map (nth ((List.range r).map (oneAt X))) = p.map (oneAt X) := by
      intro p X hp
      apply List.map_congr_left
      intro a ha
      have := List.mem_range.1 (hp.mem_iff.1 ha)
      rw [nth_map_range, if_pos this]
    have hv : ∀ X, (X = P ∨ X = Q) → Valid x.shape ((List.range r).map (oneAt X)) := by
      intro X hX
      rw [valid_iff]
      refine ⟨by simp [x], ?_⟩
      intro i hi
      have hi' : i < r := by simpa [x] using hi
      show nth _ i < nth ((List.range r).map (twoAxes P Q)) i
      rw [nth_map_range, nth_map_range, if_pos hi', if_pos hi']
      unfold oneAt twoAxes
      split_ifs <;> simp_all
    obtain ⟨y, e, hys, hyg⟩ := h x hr
    obtain ⟨y', e', hys', hyg'⟩ := good x hr
    have p1 := moveOrder_perm hm.1 hd
    have p2 := moveOrder_perm hm.1 hd'
    obtain ⟨s1, s2, s3⟩ := strayed_merge x (by rw [hr]; exact hm) (by rw [hr]; exact ht) (d := strayed r m t) (by rw [hr]; exact hd)
      (by rw [moveAxis_strayed x (by rw [hr]; exact hm) (by rw [hr]; exact ht) hne hc, hr]) y e
    obtain ⟨t1, t2, t3⟩ := strayed_merge x (am := m) (at' := t) ⟨by rw [hr]; exact hm.1, by simp⟩ ⟨by rw [hr]; exact ht.1, by simp⟩ (d := after m t)
      (by rw [hr]; exact hd') (moveAxisToLeftOf_norm x (normAxis_nat (by rw [hr]; exact hm.1)) (normAxis_nat (by rw [hr]; exact ht.1))
        (Or.inl ⟨by omega, by omega⟩)) y' e'
    rw [hr] at s2 s3 t2 t3
    have n1 : (moveOrder r m (strayed r m t)).Nodup := p1.nodup_iff.2 List.nodup_range
    have n2 : (moveOrder r m (after m t)).Nodup := p2.nodup_iff.2 List.nodup_range
    have r1 := ravel_two n1 (moveOrder_mem hm.1 hd hP) (moveOrder_mem hm.1 hd hQ) o1
    have r2 := ravel_two n2 (moveOrder_mem hm.1 hd' hQ) (moveOrder_mem hm.1 hd' hP) o2
    have tw : twoAxes Q P = twoAxes P Q := by funext a; exact if_congr or_comm rfl rfl
    rw [tw] at r2
    have a1 := s3 1 _ (hv Q (Or.inr rfl)) (by rw [hx _ p1, hi _ _ p1]; exact r1.1)
    have a2 := t3 1 _ (hv P (Or.inl rfl)) (by rw [hx _ p2, hi _ _ p2]; exact r2.1)
    have hlt : 1 < prod y'.shape := by
      rw [t2, hx _ p2]
      have hval : Valid ((moveOrder r m (after m t)).map (twoAxes P Q)) ((moveOrder r m (after m t)).map (oneAt Q)) := by
        rw [valid_iff]
        refine ⟨by simp, ?_⟩
        intro i hi
        simp only [List.length_map] at hi
        rw [nth_eq_getElem _ _ (by simpa using hi), nth_eq_getElem _ _ (by simpa using hi), List.getElem_map, List.getElem_map]
        unfold oneAt twoAxes
        split_ifs <;> simp_all
      have := ravel_lt hval
      rw [r2.2] at this
      omega
    have hvu := valid_unravel hlt
    have hshape : y.shape = y'.shape := by rw [hys, hys']
    have same : y.get (unravel y'.shape 1) = y'.get (unravel y'.shape 1) := by
      rw [hys'] at hvu ⊢
      have hum := unmerged_index (s := x.shape) (by have := hm.1; rwa [← hr] at this) (by have := ht.1; rwa [← hr] at this) hne hvu
      rw [← hum.2, hyg _ hum.1, hyg' _ hum.1]
    rw [hshape] at a1
    rw [a1, a2] at same
    have hne' : (List.range r).map (oneAt Q) ≠ (List.range r).map (oneAt P) := by
      intro h
      have := congrArg (fun l => nth l P) h
      simp only [nth_map_range, if_pos hP] at this
      simp [oneAt, hPQ] at this
    simp only [x, if_neg hne', if_true] at same
    exact huv same.symm
  · intro h x hx
    have := good x hx
    subst hx
    rwa [mergeAxes_plain x hm ht h]

/-- hypotheses are met, on both sides of the equivalences -/
example : IsAxis 3 (-1) 2 ∧ IsAxis 3 0 0 ∧ ((0 : Int) < -1 ↔ (0 : Nat) < 2) = False ∧ ((-1 : Int) < 0 ↔ (2 : Nat) < 0) = False ∧
    IsAxis 3 2 2 ∧ IsAxis 3 (-3) 0 ∧ ((2 : Int) < -3 ↔ (2 : Nat) < 0) = True := by
  simp [IsAxis]

end GroCo
