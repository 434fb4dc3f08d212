import Verif.Tensor

/- Helper lemmas about the modelled keras ops; no properties here. -/

namespace GroCo
open Tensor

variable {α β : Type}

theorem normAxis_nat {r a : Nat} (h : a < r) : normAxis r (a : Int) = .ok a := by
  unfold normAxis
  rw [if_pos ⟨by omega, by omega⟩]
  simp

theorem normAxis_neg {r a : Nat} (h : a ≤ r) (h0 : 0 < a) : normAxis r (-(a : Int)) = .ok (r - a) := by
  unfold normAxis
  rw [if_neg (by omega), if_pos ⟨by omega, by omega⟩]
  congr 1
  omega

theorem normAxis_lt {r : Nat} {ax : Int} {a : Nat} (h : normAxis r ax = .ok a) : a < r := by
  unfold normAxis at h
  split at h
  · cases h; omega
  · split at h
    · cases h; omega
    · cases h

theorem Tensor.Same.refl (t : Tensor α) : t.Same t := ⟨rfl, fun _ _ => rfl⟩
theorem Tensor.Same.symm {t u : Tensor α} (h : t.Same u) : u.Same t :=
  ⟨h.1.symm, fun idx hi => (h.2 idx (h.1 ▸ hi)).symm⟩
theorem Tensor.Same.trans {t u v : Tensor α} (h : t.Same u) (h' : u.Same v) : t.Same v :=
  ⟨h.1.trans h'.1, fun idx hi => (h.2 idx hi).trans (h'.2 idx (h.1 ▸ hi))⟩

theorem expandDims_ok (x : Tensor α) {a : Nat} (h : a ≤ x.rank) :
    expandDims x a = .ok ⟨x.shape.insertIdx a 1, fun idx => x.get (idx.eraseIdx a)⟩ := by
  simp [expandDims, normAxis_nat (Nat.lt_succ_of_le h)]

theorem flip_ok (x : Tensor α) {a : Nat} (h : a < x.rank) :
    flip x a = .ok ⟨x.shape, fun idx => x.get (idx.set a (nth x.shape a - 1 - nth idx a))⟩ := by
  simp [flip, normAxis_nat h]

theorem take_ok (x : Tensor α) {a : Nat} (h : a < x.rank) {is : List Nat} (his : ∀ i ∈ is, i < nth x.shape a) :
    take x is a = .ok ⟨x.shape.set a is.length, fun idx => x.get (idx.set a (nth is (nth idx a)))⟩ := by
  simp only [take, normAxis_nat h, res_bind_ok, if_pos his, res_pure]

theorem concatenate_ok (t : Tensor α) (us : List (Tensor α)) {a : Nat} (h : a < t.rank)
    (hs : ∀ u ∈ us, u.shape.eraseIdx a = t.shape.eraseIdx a ∧ u.rank = t.rank) :
    concatenate (t :: us) a =
      .ok ⟨t.shape.set a ((t :: us).map (fun u => nth u.shape a)).sum, concatGet a t us⟩ := by
  simp only [concatenate, normAxis_nat h, res_bind_ok, if_pos hs, res_pure]

theorem transpose_ok (x : Tensor α) {perm : List Nat} (h : perm.length = x.rank)
    (h' : ∀ a, a < x.rank → a ∈ perm) :
    transpose x perm = .ok ⟨perm.map (nth x.shape),
      fun idx => x.get ((List.range x.rank).map fun a => nth idx (perm.idxOf a))⟩ := by
  unfold transpose
  rw [if_pos ⟨h, fun a ha => h' a (by simpa using ha)⟩]

/-! ### Shapes after inserting, erasing, setting -/

theorem valid_insert_erase {s idx : List Nat} {a n : Nat} (ha : a ≤ s.length) (h : Valid (s.insertIdx a n) idx) :
    Valid s (idx.eraseIdx a) ∧ nth idx a < n := by
  rw [valid_iff] at h ⊢
  have hl : (s.insertIdx a n).length = s.length + 1 := by rw [List.length_insertIdx]; simp [ha]
  have hlen := h.1
  rw [hl] at hlen
  refine ⟨⟨by rw [List.length_eraseIdx]; split <;> omega, fun i hi => ?_⟩, ?_⟩
  · rw [nth_eraseIdx]
    split
    · have := h.2 i (by omega)
      rw [nth_insertIdx _ _ _ _ ha] at this
      simpa [*] using this
    · have := h.2 (i + 1) (by omega)
      rw [nth_insertIdx _ _ _ _ ha] at this
      rw [if_neg (by omega), if_neg (by omega)] at this
      simpa using this
  · have := h.2 a (by omega)
    rw [nth_insertIdx _ _ _ _ ha] at this
    simpa using this

theorem valid_insertIdx {s idx : List Nat} {a n i : Nat} (ha : a ≤ s.length) (h : Valid s idx) (hi : i < n) :
    Valid (s.insertIdx a n) (idx.insertIdx a i) := by
  rw [valid_iff] at h ⊢
  have ha' : a ≤ idx.length := by omega
  refine ⟨by simp [List.length_insertIdx, ha, ha', h.1], fun j hj => ?_⟩
  rw [List.length_insertIdx, if_pos ha] at hj
  rw [nth_insertIdx _ _ _ _ ha, nth_insertIdx _ _ _ _ ha']
  split
  · exact h.2 j (by omega)
  · split
    · exact hi
    · exact h.2 (j - 1) (by omega)

theorem valid_set {s idx : List Nat} {a v : Nat} (h : Valid s idx) (hv : v < nth s a) : Valid s (idx.set a v) := by
  rw [valid_iff] at h ⊢
  refine ⟨by simp [h.1], fun i hi => ?_⟩
  rw [nth_set]
  split
  · simp_all
  · exact h.2 i hi

theorem valid_set_set {s idx : List Nat} {a n v : Nat} (h : Valid (s.set a n) idx) (hv : a < s.length → v < nth s a) :
    Valid s (idx.set a v) := by
  rw [valid_iff] at h ⊢
  simp only [List.length_set] at h
  refine ⟨by simp [h.1], fun i hi => ?_⟩
  rw [nth_set]
  split
  · rename_i hc
    rw [hc.1]
    exact hv (by omega)
  · have := h.2 i hi
    rw [nth_set] at this
    split at this
    · rename_i h1 h2
      exact absurd ⟨h2.1, by omega⟩ h1
    · exact this

theorem insertIdx_eraseIdx_nth {l : List Nat} {a : Nat} (h : a < l.length) :
    (l.eraseIdx a).insertIdx a (nth l a) = l := by
  have h1 : (l.eraseIdx a).length = l.length - 1 := by rw [List.length_eraseIdx]; simp [h]
  apply ext_nth
  · rw [List.length_insertIdx, h1]; split <;> omega
  · intro i hi
    rw [nth_insertIdx _ _ _ _ (by omega), nth_eraseIdx, nth_eraseIdx]
    split
    · rfl
    · split
      · simp_all
      · rw [if_neg (by omega)]
        congr 1
        omega

theorem eraseIdx_insertIdx' (l : List Nat) (a v : Nat) (h : a ≤ l.length) : (l.insertIdx a v).eraseIdx a = l := by
  rw [List.eraseIdx_insertIdx_self]

theorem insertIdx_set_self (s : List Nat) (a n m : Nat) : (s.insertIdx a n).set a m = s.insertIdx a m := by
  apply ext_nth
  · simp [List.length_insertIdx]
  · intro i hi
    simp only [List.length_set] at hi
    rcases Nat.lt_or_ge s.length a with h | h
    · rw [List.insertIdx_of_length_lt h, List.insertIdx_of_length_lt h, nth_set]
      rw [if_neg (by omega)]
    · rw [nth_set, nth_insertIdx _ _ _ _ h, nth_insertIdx _ _ _ _ h]
      rw [List.length_insertIdx, if_pos h]
      split
      · rename_i hc
        simp [hc.1]
      · split
        · rfl
        · rw [if_neg (by omega), if_neg (by omega)]

theorem eraseIdx_set_self (l : List Nat) (a v : Nat) : (l.set a v).eraseIdx a = l.eraseIdx a := by
  rw [List.eraseIdx_set_eq]

end GroCo
