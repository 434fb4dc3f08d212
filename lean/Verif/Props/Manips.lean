import Verif.ManipsLemmas

/-
Properties C11–C15: the tensor manipulation functions of groco/utils/tensor_manips.py.
`IsAxis`, `SameSign`, `unknownAt` are in Verif/Spec.lean.
-/

namespace GroCo
open Tensor

variable {α : Type}

/-- C11, for axes counted from the same end: every entry is found at the merged index and nowhere else, and the shape is
the one `merge_shapes` computes. The full statement, for any two axes, is false: see `C11_violation`. -/
theorem C11_merge_axes_partial (x : Tensor α) (am at' : Int) (m t : Nat) (hm : IsAxis x.rank am m)
    (ht : IsAxis x.rank at' t) (hne : m ≠ t) (hs : SameSign am at') :
    ∃ y, mergeAxes x am at' = .ok y ∧ y.shape = (x.shape.set t (nth x.shape t * nth x.shape m)).eraseIdx m ∧
      mergeShapes (x.shape.map some) am at' = .ok (y.shape.map some) ∧
      (∀ idx, Valid x.shape idx →
        let j := (idx.set t (nth idx m * nth x.shape t + nth idx t)).eraseIdx m
        Valid y.shape j ∧ y.get j = x.get idx) ∧
      ∀ jdx, Valid y.shape jdx →
        ∃ idx, Valid x.shape idx ∧ (idx.set t (nth idx m * nth x.shape t + nth idx t)).eraseIdx m = jdx := by
  obtain ⟨y, ey, hys, hyg⟩ := mergeAxes_ok x hm.norm ht.norm hs hne
  refine ⟨y, ey, hys, ?_, ?_, ?_⟩
  · simp only [mergeShapes]
    rw [pyIndex_eq_norm (k := m) (by simpa using hm.norm), pyIndex_eq_norm (k := t) (by simpa using ht.norm)]
    simp only [res_bind_ok]
    have g : ∀ k, k < x.rank → (x.shape.map some)[k]? = some (some (nth x.shape k)) := by
      intro k hk
      simp only [Tensor.rank] at hk
      simp [hk, nth]
    rw [g t ht.1, g m hm.1]
    simp only [res_pure]
    rw [hys]
    congr 1
    rw [← List.map_set, List.eraseIdx_map]
  · intro idx hv
    obtain ⟨h1, h2⟩ := merged_index hm.1 ht.1 hne hv
    simp only
    rw [← hys] at h1
    refine ⟨h1, ?_⟩
    rw [hyg _ h1]
    simp only at h2
    rw [h2]
  · intro jdx hv
    rw [hys] at hv
    have := unmerged_index hm.1 ht.1 hne hv
    exact ⟨_, this.1, this.2⟩

/-- C11 fails for axes counted from different ends: merging axis 0 of a 2x3 tensor into axis -1 interleaves the entries
the other way round, without an error. -/
theorem C11_violation : ∃ (x y : Tensor Nat), IsAxis x.rank 0 0 ∧ IsAxis x.rank (-1) 1 ∧ mergeAxes x 0 (-1) = .ok y ∧
    ∃ idx, Valid x.shape idx ∧ y.get ((idx.set 1 (nth idx 0 * nth x.shape 1 + nth idx 1)).eraseIdx 0) ≠ x.get idx := by
  refine ⟨⟨[2, 3], fun idx => nth idx 0 * 3 + nth idx 1⟩, _, by simp [IsAxis, Tensor.rank], by simp [IsAxis, Tensor.rank], rfl, [0, 1], by decide,
    by decide⟩

/-- C13, for axes counted from the same end: the axes of the result, named by their number in the input, are a
rearrangement `p` in which the moved axis is immediately left of the target and the others keep their order; entries are
re-indexed accordingly. -/
theorem C13_move_axis_partial (x : Tensor α) (am at' : Int) (m t : Nat) (hm : IsAxis x.rank am m)
    (ht : IsAxis x.rank at' t) (hne : m ≠ t) (hs : SameSign am at') :
    ∃ y p, moveAxisToLeftOf x am at' = .ok y ∧ p.Perm (List.range x.rank) ∧
      (∃ A B, p = A ++ m :: t :: B) ∧ p.filter (· ≠ m) = (List.range x.rank).filter (· ≠ m) ∧
      y.shape = p.map (nth x.shape) ∧
      ∀ idx, Valid x.shape idx → y.get (p.map (nth idx)) = x.get idx := by
  have hm1 := hm.1
  have ht1 := ht.1
  have hd : after m t < x.rank := by unfold after; split <;> omega
  have e := transpose_ok x (length_moveOrder hm1 hd) fun a ha => by
    rw [← List.idxOf_lt_length_iff, idxOf_moveOrder hm1 hd ha, length_moveOrder hm1 hd]
    unfold movedTo; grind
  have hnd : (moveOrder x.rank m (after m t)).Nodup := by
    rw [List.nodup_iff_injective_get]
    intro ⟨i, hi⟩ ⟨j, hj⟩ h
    simp only [List.get_eq_getElem] at h
    rw [← nth_eq_getElem _ _ hi, ← nth_eq_getElem _ _ hj] at h
    rw [length_moveOrder hm1 hd] at hi hj
    rw [nth_moveOrder hm1 hd hi, nth_moveOrder hm1 hd hj] at h
    simp only at h
    rw [Fin.mk.injEq]
    split_ifs at h <;> omega
  have hperm : (moveOrder x.rank m (after m t)).Perm (List.range x.rank) := by
    rw [List.perm_ext_iff_of_nodup hnd List.nodup_range]
    intro a
    rw [List.mem_range]
    constructor
    · intro ha
      obtain ⟨i, hi, rfl⟩ := List.mem_iff_getElem.1 ha
      rw [← nth_eq_getElem _ _ hi]
      rw [length_moveOrder hm1 hd] at hi
      rw [nth_moveOrder hm1 hd hi]
      simp only
      split_ifs <;> omega
    · intro ha
      rw [← List.idxOf_lt_length_iff, idxOf_moveOrder hm1 hd ha, length_moveOrder hm1 hd]
      unfold movedTo; grind
  refine ⟨⟨_, fun idx => x.get ((List.range x.rank).map fun a => nth idx ((moveOrder x.rank m (after m t)).idxOf a))⟩,
    moveOrder x.rank m (after m t), ?_, hperm, ?_, ?_, rfl, ?_⟩
  · rw [moveAxisToLeftOf_norm x hm.norm ht.norm hs]
    simp only [moveaxis, normAxis_nat hm1, normAxis_nat hd, res_bind_ok]
    exact e
  · have hl := length_moveOrder hm1 hd
    have ha2 : after m t + 1 < x.rank := by unfold after; split <;> omega
    refine ⟨(moveOrder x.rank m (after m t)).take (after m t), (moveOrder x.rank m (after m t)).drop (after m t + 2), ?_⟩
    have h1 := nth_moveOrder hm1 hd hd
    have h2 := nth_moveOrder hm1 hd ha2
    rw [if_pos rfl] at h1
    rw [nth_eq_getElem _ _ (by omega)] at h1 h2
    have h3 : (moveOrder x.rank m (after m t))[after m t + 1]'(by omega) = t := by
      rw [h2]; unfold after; simp only; split_ifs <;> omega
    conv_lhs => rw [← List.take_append_drop (after m t) (moveOrder x.rank m (after m t)),
      List.drop_eq_getElem_cons (by omega), h1, List.drop_eq_getElem_cons (by omega), h3]
  · unfold moveOrder
    have h1 : ((List.range x.rank).eraseIdx m).insertIdx (after m t) m =
        ((List.range x.rank).eraseIdx m).take (after m t) ++ [m] ++ ((List.range x.rank).eraseIdx m).drop (after m t) := by
      rw [insertIdx_eq_take_drop]
      rw [length_eraseIdx_of_lt (by simpa using hm1)]; simp; unfold after; split <;> omega
    rw [h1]
    simp only [List.filter_append]
    have h2 : [m].filter (· ≠ m) = [] := by simp
    rw [h2, List.append_nil, ← List.filter_append, List.take_append_drop, List.eraseIdx_eq_take_drop_succ,
      List.filter_append]
    conv_rhs => rw [← List.take_append_drop m (List.range x.rank), List.drop_eq_getElem_cons (by simpa using hm1)]
    rw [List.filter_append, List.filter_cons]
    simp
  · intro idx hv
    simp only
    congr 1
    apply ext_nth
    · simp [hv.length]
    · intro i hi
      simp only [List.length_map, List.length_range] at hi
      rw [nth_map_range, if_pos hi]
      have hmem : i ∈ moveOrder x.rank m (after m t) := hperm.mem_iff.2 (List.mem_range.2 hi)
      have hlt := List.idxOf_lt_length_of_mem hmem
      rw [nth_eq_getElem _ _ (by simpa using hlt), List.getElem_map, List.getElem_idxOf]

/-- C13 fails for axes counted from different ends: moving axis 0 to the left of axis -1 leaves it to the right. -/
theorem C13_violation : ∃ (x y : Tensor Nat), IsAxis x.rank 0 0 ∧ IsAxis x.rank (-1) 2 ∧ x.shape = [2, 3, 4] ∧
    moveAxisToLeftOf x 0 (-1) = .ok y ∧ y.shape = [3, 4, 2] :=
  ⟨⟨[2, 3, 4], fun _ => 0⟩, _, by simp [IsAxis, Tensor.rank], by simp [IsAxis, Tensor.rank], rfl, rfl, rfl⟩

/-- C12: splitting undoes merging with the next axis. -/
theorem C12_split_merge (x : Tensor α) (m : Nat) (hm : m + 1 < x.rank) (hpos : 0 < nth x.shape m) :
    ∃ y z, mergeAxes x (m : Int) ((m + 1 : Nat) : Int) = .ok y ∧ splitAxes y (nth x.shape m) (m : Int) = .ok z ∧
      z.Same x := by
  obtain ⟨y, ey, hys, -, hg, hc⟩ := C11_merge_axes_partial x (m : Int) ((m + 1 : Nat) : Int) m (m + 1)
    ⟨by omega, Or.inl rfl⟩ ⟨hm, Or.inl rfl⟩ (by omega) (Or.inl ⟨by omega, by omega⟩)
  have hyr : y.rank = x.rank - 1 := by
    simp only [Tensor.rank] at *
    rw [hys, length_eraseIdx_of_lt (by simp; omega), List.length_set]
  have hym : nth y.shape m = nth x.shape m * nth x.shape (m + 1) := by
    rw [hys, nth_eraseIdx, if_neg (by omega), nth_set, if_pos ⟨rfl, hm⟩, Nat.mul_comm]
  obtain ⟨z, ez, hzs, hzg⟩ := splitAxes_ok y (ax := (m : Int)) (normAxis_nat (by omega)) hpos hym
  have hshape : z.shape = x.shape := by
    rw [hzs, hys]
    simp only [Tensor.rank] at *
    apply ext_nth
    · rw [List.length_insertIdx, List.length_set, length_eraseIdx_of_lt (by simp; omega), List.length_set,
        if_pos (by omega)]; omega
    · intro i hi
      rw [nth_insertIdx _ _ _ _ (by rw [List.length_set, length_eraseIdx_of_lt (by simp; omega), List.length_set]; omega)]
      simp only [nth_set, nth_eraseIdx, length_eraseIdx_of_lt (l := x.shape.set (m+1) (nth x.shape (m + 1) * nth x.shape m)) (s := m) (by simp; omega), List.length_set]
      split_ifs <;> first | rfl | omega | (congr 1; omega)
  refine ⟨y, z, ey, ez, hshape, ?_⟩
  intro idx hi
  have hix : Valid x.shape idx := hshape ▸ hi
  rw [hzg idx hi]
  have := (hg idx hix).2
  rw [← this]
  congr 1
  have hl := hix.length
  simp only [Tensor.rank] at *
  apply ext_nth
  · rw [List.length_set, length_eraseIdx_of_lt (by omega), length_eraseIdx_of_lt (by simp; omega), List.length_set]
  · intro i hi
    simp only [nth_set, nth_eraseIdx, length_eraseIdx_of_lt (l := idx) (s := m) (by omega), List.length_set]
    split_ifs <;> first | rfl | omega

/-- C12: merging undoes splitting, whenever the factor divides the size. -/
theorem C12_merge_split (x : Tensor α) (k f : Nat) (hk : k < x.rank) (hf : 0 < f) (hd : f ∣ nth x.shape k) :
    ∃ y z, splitAxes x f (k : Int) = .ok y ∧ mergeAxes y (k : Int) ((k + 1 : Nat) : Int) = .ok z ∧ z.Same x := by
  obtain ⟨q, hq⟩ := hd
  obtain ⟨y, ey, hys, hyg⟩ := splitAxes_ok x (ax := (k : Int)) (normAxis_nat hk) hf hq
  have hyr : y.rank = x.rank + 1 := by
    simp only [Tensor.rank] at *
    rw [hys, List.length_insertIdx, List.length_set, if_pos (by omega)]
  obtain ⟨z, ez, hzs, -, hg, hc⟩ := C11_merge_axes_partial y (k : Int) ((k + 1 : Nat) : Int) k (k + 1)
    ⟨by omega, Or.inl rfl⟩ ⟨by omega, Or.inl rfl⟩ (by omega) (Or.inl ⟨by omega, by omega⟩)
  have hny : ∀ i, nth y.shape i = if i < k then nth x.shape i else if i = k then f else if i = k + 1 then q else nth x.shape (i - 1) := by
    intro i
    simp only [Tensor.rank] at *
    rw [hys, nth_insertIdx _ _ _ _ (by simp; omega)]
    simp only [nth_set]
    split_ifs <;> first | rfl | omega
  have hshape : z.shape = x.shape := by
    rw [hzs]
    simp only [Tensor.rank] at *
    apply ext_nth
    · rw [length_eraseIdx_of_lt (by simp; omega), List.length_set]; omega
    · intro i hi
      rw [nth_eraseIdx, nth_set, nth_set, hny k, hny (k + 1), hny i, hny (i + 1)]
      by_cases h : i = k
      · subst h; simp; rw [if_pos (by omega), hq, Nat.mul_comm]
      · split_ifs <;> first | rfl | omega
  refine ⟨y, z, ey, ez, hshape, ?_⟩
  intro jdx hj
  obtain ⟨idx, hi, e⟩ := hc jdx hj
  have h1 := (hg idx hi).2
  simp only [e] at h1
  rw [h1, hyg idx hi]
  congr 1
  have hl := hi.length
  have hjl := hj.length
  rw [hshape] at hjl
  rw [← e]
  simp only [Tensor.rank] at *
  apply ext_nth
  · rw [List.length_set, length_eraseIdx_of_lt (by omega), length_eraseIdx_of_lt (by simp; omega), List.length_set]
  · intro i hi2
    rw [hny (k + 1)]
    simp only [nth_set, nth_eraseIdx, length_eraseIdx_of_lt (l := idx) (s := k) (by omega), List.length_set]
    split_ifs <;> first | rfl | omega

/-- C12: a factor that does not divide the size is refused, when there is any data. -/
theorem C12_split_refused (x : Tensor α) (ax : Int) (k f : Nat) (hk : IsAxis x.rank ax k) (hf : 0 < f)
    (hd : ¬ f ∣ nth x.shape k) (hpos : ∀ i, i < x.rank → i ≠ k → 0 < nth x.shape i) :
    splitAxes x f ax = .error .value := splitAxes_error x hk.norm hf hd hpos

/-- C14: taking the flattened tensor at its index tensor gives it back; and so for any re-indexing `f` of the index
tensor into another shape `s`. -/
theorem C14_index_tensor (x : Tensor α) (s : List Nat) (f : List Nat → List Nat)
    (hf : ∀ idx, Valid s idx → Valid x.shape (f idx)) :
    ∃ y, reshape x [-1] = .ok y ∧ ∃ z, takeT y ⟨s, fun idx => (getIndexTensor x).get (f idx)⟩ 0 = .ok z ∧
      z.Same ⟨s, fun idx => x.get (f idx)⟩ := by
  have hr : reshape x [-1] = .ok ⟨[prod x.shape], fun idx => x.get (unravel x.shape (ravel [prod x.shape] idx))⟩ := by
    simp only [reshape, resolveShape]
    simp [reshapeN, Nat.mod_one]
  refine ⟨_, hr, ?_⟩
  simp only [takeT]
  have hn : normAxis ([prod x.shape] : List Nat).length 0 = .ok 0 := rfl
  simp only [Tensor.rank, hn, res_bind_ok]
  rw [if_pos]
  · refine ⟨_, rfl, by simp, ?_⟩
    intro idx hi
    simp only [List.take_zero, List.nil_append, List.drop_zero, Nat.zero_add, nth_cons_zero, List.length_singleton,
      List.drop_one, List.tail_cons, List.append_nil] at hi ⊢
    have hl := hi.length
    have : idx.take s.length = idx := by rw [← hl]; exact List.take_length
    rw [this]
    have h2 : idx.drop s.length = [] := by rw [← hl]; exact List.drop_length
    simp only [h2, List.append_nil, getIndexTensor, ravel, prod_nil, Nat.mul_one, Nat.add_zero]
    rw [unravel_ravel (hf idx hi)]
  · intro i hi
    exact ravel_lt (hf i ((mem_indices _ _).1 hi))

/-- C14, first half -/
theorem C14_roundtrip (x : Tensor α) :
    ∃ y z, reshape x [-1] = .ok y ∧ takeT y (getIndexTensor x) 0 = .ok z ∧ z.Same x := by
  obtain ⟨y, ey, z, ez, h⟩ := C14_index_tensor x x.shape id (fun _ h => h)
  exact ⟨y, z, ey, ez, h⟩

/-- C15: merging with an unknown size of one other axis `b` (traced, `None`) is merging with the known size. -/
theorem C15_merge_unknown_batch (x : Tensor α) (b : Nat) (am at' : Int) (m t : Nat) (hm : IsAxis x.rank am m)
    (ht : IsAxis x.rank at' t) (hs : SameSign am at') (hne : m ≠ t) (hb : b < x.rank) (hbm : b ≠ m) (hbt : b ≠ t)
    (hpos : ∀ i, i < x.rank → i ≠ b → 0 < nth x.shape i) :
    ∃ y z, mergeAxesS (unknownAt x.shape (some b)) x am at' = .ok y ∧ mergeAxes x am at' = .ok z ∧ y.Same z := by
  obtain ⟨y, ey, hys, hyg⟩ := mergeAxesS_ok x (some b) hm.norm ht.norm hs hne (by simpa using hbm) (by simpa using hbt)
    (by rintro k h; cases h; exact ⟨hb, hpos⟩)
  obtain ⟨z, ez, hzs, hzg⟩ := mergeAxes_ok x hm.norm ht.norm hs hne
  exact ⟨y, z, ey, ez, by rw [hys, hzs], fun idx hi => by rw [hyg idx hi, hzg idx (by rw [hzs, ← hys]; exact hi)]⟩

/-- C15: the same for splitting. -/
theorem C15_split_unknown_batch (x : Tensor α) (b : Nat) (ax : Int) (k f : Nat) (hk : IsAxis x.rank ax k) (hf : 0 < f)
    (hd : f ∣ nth x.shape k) (hb : b < x.rank) (hbk : b ≠ k) (hpos : ∀ i, i < x.rank → i ≠ b → 0 < nth x.shape i) :
    ∃ y z, splitAxesS (unknownAt x.shape (some b)) x f ax = .ok y ∧ splitAxes x f ax = .ok z ∧ y.Same z := by
  obtain ⟨q, hq⟩ := hd
  obtain ⟨y, ey, hys, hyg⟩ := splitAxesS_ok x (some b) hk.norm (by simpa using hbk) hf hq
    (by rintro k h; cases h; exact ⟨hb, hpos⟩)
  obtain ⟨z, ez, hzs, hzg⟩ := splitAxes_ok x hk.norm hf hq
  exact ⟨y, z, ey, ez, by rw [hys, hzs], fun idx hi => by rw [hyg idx hi, hzg idx (by rw [hzs, ← hys]; exact hi)]⟩

/-- C15, error branch: if the unknown size is that of an axis to be merged or split, a TypeError is raised instead of a
reshape with wrong sizes. -/
theorem C15_unknown_axis (x : Tensor α) (b : Nat) (hb : b < x.rank) :
    (∀ (am at' : Int) (m t : Nat), IsAxis x.rank am m → IsAxis x.rank at' t → b = m ∨ b = t →
      mergeAxesS (unknownAt x.shape (some b)) x am at' = .error .typ) ∧
    ∀ (ax : Int) (f : Nat), IsAxis x.rank ax b → splitAxesS (unknownAt x.shape (some b)) x f ax = .error .typ := by
  have hlen : (unknownAt x.shape (some b)).length = x.rank := by simp [unknownAt, Tensor.rank]
  have hidx : ∀ ax k, IsAxis x.rank ax k → pyIndex x.rank ax = .ok k := by
    intro ax k ⟨h1, h2⟩
    unfold pyIndex
    rcases h2 with h | h
    · rw [if_pos (by omega), h]; rfl
    · rw [if_neg (by omega), if_pos (by omega)]
      congr 1
      omega
  have hnone : (unknownAt x.shape (some b))[b]? = some none := by
    simp only [unknownAt]
    rw [List.getElem?_set_self (by simpa [Tensor.rank] using hb)]
  constructor
  · intro am at' m t hm ht h
    unfold mergeAxesS mergeShapes
    rw [hlen, hidx _ _ hm, hidx _ _ ht, res_bind_ok, res_bind_ok]
    rcases h with rfl | rfl
    · rw [hnone]
      split
      · rename_i h1 h2; cases h2
      · rfl
    · rw [hnone]; rfl
  · intro ax f hax
    unfold splitAxesS splitShapes
    rw [hlen, hidx _ _ hax, res_bind_ok, hnone]
    rfl

/-- hypotheses are met: merging the group axis 3 into the channels axis 4 of a signal, the batch size 5 being unknown -/
example : IsAxis 5 3 3 ∧ IsAxis 5 4 4 ∧ IsAxis 5 (-2) 3 ∧ IsAxis 5 (-1) 4 ∧ SameSign 3 4 ∧ SameSign (-2) (-1) ∧
    unknownAt [5, 2, 2, 4, 3] (some 0) = [none, some 2, some 2, some 4, some 3] ∧
    (∀ i, i < 5 → i ≠ 0 → 0 < nth [5, 2, 2, 4, 3] i) := by
  simp only [IsAxis, SameSign]; decide

example : ∃ y, mergeAxes (⟨[2, 3], fun idx => nth idx 0 * 3 + nth idx 1⟩ : Tensor Nat) 1 0 = .ok y ∧ y.shape = [6] ∧
    y.get [1] = 3 := ⟨_, rfl, rfl, by decide⟩

end GroCo
