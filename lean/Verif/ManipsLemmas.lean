import Mathlib.Tactic.Ring
import Verif.OhAction
import Verif.Spec

/- Helper lemmas: pointwise behaviour of moveaxis, merge_axes and split_axes. -/

namespace GroCo
open Tensor

variable {α : Type}

theorem length_eraseIdx_of_lt {l : List Nat} {s : Nat} (hs : s < l.length) : (l.eraseIdx s).length = l.length - 1 := by
  rw [List.length_eraseIdx, if_pos hs]

theorem length_erase_insert {l : List Nat} {s d v : Nat} (hs : s < l.length) (hd : d < l.length) :
    ((l.eraseIdx s).insertIdx d v).length = l.length := by
  have := length_eraseIdx_of_lt hs
  rw [List.length_insertIdx, if_pos (by omega)]; omega

theorem nth_moveOrder {r s d i : Nat} (hs : s < r) (hd : d < r) (hi : i < r) :
    nth (moveOrder r s d) i =
      if i = d then s else
        let j := if i < d then i else i - 1
        if j < s then j else j + 1 := by
  rw [moveOrder, nth_insertIdx _ _ _ _ (by simp [List.length_eraseIdx, hs]; omega)]
  simp only [nth_eraseIdx, nth_range]
  split_ifs <;> omega

theorem length_moveOrder {r s d : Nat} (hs : s < r) (hd : d < r) : (moveOrder r s d).length = r := by
  rw [moveOrder, List.length_insertIdx, if_pos (by simp [List.length_eraseIdx, hs]; omega)]
  simp [List.length_eraseIdx, hs]; omega

/-- where axis `a` goes -/
def movedTo (s d a : Nat) : Nat :=
  if a = s then d else
    let j := if a < s then a else a - 1
    if j < d then j else j + 1

theorem idxOf_moveOrder {r s d a : Nat} (hs : s < r) (hd : d < r) (ha : a < r) :
    (moveOrder r s d).idxOf a = movedTo s d a := by
  have hb : movedTo s d a < r := by unfold movedTo; grind
  apply idxOf_eq_of_nth
  · rw [length_moveOrder hs hd]; exact hb
  · rw [nth_moveOrder hs hd hb]
    unfold movedTo
    simp only
    grind
  · intro j hj hja
    rw [length_moveOrder hs hd] at hj
    rw [nth_moveOrder hs hd hj] at hja
    unfold movedTo
    simp only at *
    grind

theorem moveaxis_ok (x : Tensor α) {s d : Nat} (hs : s < x.rank) (hd : d < x.rank) :
    ∃ y, moveaxis x s d = .ok y ∧ y.shape = (x.shape.eraseIdx s).insertIdx d (nth x.shape s) ∧
      ∀ idx : List Nat, idx.length = x.rank → y.get idx = x.get ((idx.eraseIdx d).insertIdx s (nth idx d)) := by
  have e := transpose_ok x (length_moveOrder hs hd) fun a ha => by
    rw [← List.idxOf_lt_length_iff, idxOf_moveOrder hs hd ha, length_moveOrder hs hd]
    unfold movedTo; grind
  refine ⟨_, by simp only [moveaxis, normAxis_nat hs, normAxis_nat hd, res_bind_ok]; exact e, ?_, ?_⟩
  · apply ext_nth
    · rw [length_erase_insert hs hd, List.length_map, length_moveOrder hs hd]
    · intro i hi
      rw [List.length_map, length_moveOrder hs hd] at hi
      rw [nth_eq_getElem _ _ (by simpa [length_moveOrder hs hd] using hi), List.getElem_map,
        ← nth_eq_getElem _ _ (by simpa [length_moveOrder hs hd] using hi), nth_moveOrder hs hd hi,
        nth_insertIdx _ _ _ _ (by have := length_eraseIdx_of_lt hs; romega)]
      simp only [nth_eraseIdx]
      split_ifs <;> first | rfl | omega
  · intro idx hl
    simp only
    congr 1
    apply ext_nth
    · rw [length_erase_insert (by romega) (by romega)]; simp [hl]
    · intro i hi
      simp only [List.length_map, List.length_range] at hi
      rw [nth_map_range, if_pos hi, idxOf_moveOrder hs hd hi,
        nth_insertIdx _ _ _ _ (by simp [List.length_eraseIdx, hl, hd]; omega)]
      simp only [nth_eraseIdx, movedTo]
      split_ifs <;> first | rfl | omega

/-! ### reshape -/

theorem resolveShape_nat (size : Nat) (s : List Nat) : resolveShape size (s.map Int.ofNat) = .ok s := by
  unfold resolveShape
  rw [if_pos]
  · simp [Function.comp_def]
  · simp

theorem formatBatchDim_some (s : List Nat) : formatBatchDim (s.map some) = s.map Int.ofNat := by
  simp [formatBatchDim]

theorem reshape_nat (x : Tensor α) {s : List Nat} (h : prod x.shape = prod s) :
    reshape x (s.map Int.ofNat) = .ok ⟨s, fun idx => x.get (unravel x.shape (ravel s idx))⟩ := by
  simp [reshape, resolveShape_nat, reshapeN, h]

theorem unravel_eq {s idx : List Nat} {k : Nat} (h : Valid s idx) (e : ravel s idx = k) : unravel s k = idx := by
  rw [← e, unravel_ravel h]

/-- merging two adjacent axes by reshaping -/
theorem unravel_merge {A B i j : List Nat} {p q v : Nat} (hi : Valid A i) (hj : Valid B j) (hv : v < p * q) :
    unravel (A ++ p :: q :: B) (ravel (A ++ (p * q) :: B) (i ++ v :: j)) = i ++ (v / q) :: (v % q) :: j := by
  have hq : 0 < q := by
    rcases Nat.eq_zero_or_pos q with h | h
    · simp [h] at hv
    · exact h
  apply unravel_eq
  · rw [valid_append _ _ _ _ hi.length]
    refine ⟨hi, ?_, Nat.mod_lt _ hq, hj⟩
    rw [Nat.div_lt_iff_lt_mul hq]; exact hv
  · rw [ravel_append hi.length, ravel_append hi.length]
    simp only [ravel, prod_cons]
    have : v * prod B = (v / q) * (q * prod B) + (v % q) * prod B := by
      rw [← Nat.mul_assoc, ← Nat.add_mul, Nat.mul_comm (v / q) q, Nat.div_add_mod]
    rw [this]
    ring_nf

/-- splitting an axis by reshaping -/
theorem unravel_split {A B i j : List Nat} {p q u v : Nat} (hi : Valid A i) (hj : Valid B j) (hu : u < p) (hv : v < q) :
    unravel (A ++ (p * q) :: B) (ravel (A ++ p :: q :: B) (i ++ u :: v :: j)) = i ++ (u * q + v) :: j := by
  apply unravel_eq
  · rw [valid_append _ _ _ _ hi.length]
    refine ⟨hi, ?_, hj⟩
    calc u * q + v < u * q + q := by omega
      _ = (u + 1) * q := by rw [Nat.add_mul]; simp
      _ ≤ p * q := Nat.mul_le_mul_right _ hu
  · rw [ravel_append hi.length, ravel_append hi.length]
    simp only [ravel, prod_cons]
    ring_nf

/-! ### merge_axes and split_axes -/

theorem split_at {l : List Nat} {d : Nat} (h : d < l.length) : l = l.take d ++ nth l d :: l.drop (d + 1) := by
  rw [nth_eq_getElem _ _ h]
  simp

theorem set_split {A B : List Nat} {q v d : Nat} (h : A.length = d) : (A ++ q :: B).set d v = A ++ v :: B := by
  subst h; simp

theorem insert_split {A B : List Nat} {v d : Nat} (h : A.length = d) : (A ++ B).insertIdx d v = A ++ v :: B := by
  subst h
  induction A with
  | nil => simp
  | cons a A ih => simp [ih]

theorem erase_split {A B : List Nat} {v d : Nat} (h : A.length = d) : (A ++ v :: B).eraseIdx d = A ++ B := by
  subst h
  rw [List.eraseIdx_append_of_length_le (by simp)]; simp

theorem nth_split {A B : List Nat} {v d : Nat} (h : A.length = d) : nth (A ++ v :: B) d = v := by
  subst h; rw [nth_append]; simp

theorem nth_split1 {A B : List Nat} {u v d : Nat} (h : A.length = d) : nth (A ++ u :: v :: B) (d + 1) = v := by
  subst h; rw [nth_append]; simp

theorem reshapeN_merge (z : Tensor α) {E : List Nat} {d p : Nat} (hd : d < E.length) (hz : z.shape = E.insertIdx d p) :
    ∃ y, reshapeN z (E.set d (p * nth E d)) = .ok y ∧ y.shape = E.set d (p * nth E d) ∧
      ∀ idx, Valid y.shape idx →
        y.get idx = z.get ((idx.set d (nth idx d % nth E d)).insertIdx d (nth idx d / nth E d)) := by
  obtain ⟨A, q, B, hA, hE⟩ : ∃ A q B, A.length = d ∧ E = A ++ q :: B :=
    ⟨E.take d, nth E d, E.drop (d + 1), by simp; omega, split_at hd⟩
  subst hE
  rw [nth_split hA, set_split hA]
  rw [insert_split hA] at hz
  have hpr : prod z.shape = prod (A ++ (p * q) :: B) := by
    rw [hz]; simp only [prod_append, prod_cons]; ring
  refine ⟨_, if_pos hpr, rfl, ?_⟩
  · intro idx hi
    simp only at hi ⊢
    obtain ⟨i, j, rfl, hiA, hj⟩ := valid_append_split hi
    match j, hj with
    | v :: j, hj =>
      have hil : i.length = d := by rw [hiA.length, hA]
      rw [hz, unravel_merge hiA hj.2 hj.1, nth_split hil, set_split hil, insert_split hil]

theorem reshapeN_split (z : Tensor α) {k p q : Nat} (hk : k < z.rank) (hz : nth z.shape k = p * q) :
    ∃ y, reshapeN z ((z.shape.set k q).insertIdx k p) = .ok y ∧ y.shape = (z.shape.set k q).insertIdx k p ∧
      ∀ idx, Valid y.shape idx →
        y.get idx = z.get ((idx.eraseIdx k).set k (nth idx k * q + nth idx (k + 1))) := by
  obtain ⟨A, n, B, hA, hE⟩ : ∃ A n B, A.length = k ∧ z.shape = A ++ n :: B :=
    ⟨z.shape.take k, nth z.shape k, z.shape.drop (k + 1), by simp; romega, split_at hk⟩
  rw [hE, nth_split hA] at hz
  subst hz
  rw [hE, set_split hA, insert_split hA]
  have hpr : prod z.shape = prod (A ++ p :: q :: B) := by
    rw [hE]; simp only [prod_append, prod_cons]; ring
  refine ⟨_, if_pos hpr, rfl, ?_⟩
  · intro idx hi
    simp only at hi ⊢
    obtain ⟨i, j, rfl, hiA, hj⟩ := valid_append_split hi
    match j, hj with
    | u :: v :: j, hj =>
      have hil : i.length = k := by rw [hiA.length, hA]
      rw [hE, unravel_split hiA hj.2.2 hj.1 hj.2.1, nth_split hil, nth_split1 hil, erase_split hil, set_split hil]

/-- position of axis `t` after removing axis `m` -/
def after (m t : Nat) : Nat := if m < t then t - 1 else t

theorem resolve_known (s : List Nat) (size : Nat) : resolveShape size (formatBatchDim (unknownAt s none)) = .ok s := by
  rw [unknownAt, formatBatchDim_some, resolveShape_nat]

theorem getElem?_unknownAt {shape : List Nat} {b : Option Nat} {k : Nat} (hk : k < shape.length) (hb : b ≠ some k) :
    (unknownAt shape b)[k]? = some (some (nth shape k)) := by
  cases b with
  | none => simp [unknownAt, hk, nth]
  | some b =>
    have : b ≠ k := fun h => hb (by rw [h])
    rw [unknownAt, List.getElem?_set_ne this]
    simp [hk, nth]

theorem length_unknownAt (shape : List Nat) (b : Option Nat) : (unknownAt shape b).length = shape.length := by
  cases b <;> simp [unknownAt]

theorem getElem?_unknownAt' (shape : List Nat) (b : Option Nat) (k : Nat) :
    (unknownAt shape b)[k]? = if k < shape.length then (if b = some k then some none else some (some (nth shape k))) else none := by
  split
  · rename_i hk
    split
    · rename_i hb; subst hb; simp [unknownAt, hk]
    · rename_i hb; exact getElem?_unknownAt hk hb
  · rename_i hk
    rw [List.getElem?_eq_none]
    rw [length_unknownAt]; omega

theorem unknownAt_set {shape : List Nat} {b : Option Nat} {k v : Nat} (hb : b ≠ some k) :
    (unknownAt shape b).set k (some v) = unknownAt (shape.set k v) b := by
  apply List.ext_getElem?
  intro i
  rw [List.getElem?_set, getElem?_unknownAt', getElem?_unknownAt', length_unknownAt, List.length_set, nth_set]
  by_cases hik : i = k
  · subst hik
    simp only [if_true, hb, if_false, true_and]
    split_ifs <;> rfl
  · rw [if_neg (fun h => hik h.symm)]
    simp only [hik, false_and, if_false]

theorem unknownAt_erase {shape : List Nat} {b : Option Nat} {m : Nat} (hb : b ≠ some m) :
    (unknownAt shape b).eraseIdx m = unknownAt (shape.eraseIdx m) (b.map (after m)) := by
  apply List.ext_getElem?
  intro i
  rw [List.getElem?_eraseIdx, getElem?_unknownAt', getElem?_unknownAt', getElem?_unknownAt', List.length_eraseIdx,
    nth_eraseIdx]
  cases b with
  | none => simp; split_ifs <;> first | rfl | omega
  | some b =>
    simp only [Option.map_some, Option.some.injEq, after, ne_eq] at *
    grind

theorem unknownAt_insert {shape : List Nat} {b : Option Nat} {k v : Nat} (hk : k ≤ shape.length) :
    (unknownAt shape b).insertIdx k (some v) = unknownAt (shape.insertIdx k v) (b.map (shift k)) := by
  apply List.ext_getElem?
  intro i
  rw [List.getElem?_insertIdx, getElem?_unknownAt', getElem?_unknownAt', getElem?_unknownAt', List.length_insertIdx,
    nth_insertIdx _ _ _ _ hk, length_unknownAt]
  cases b with
  | none => simp; grind
  | some b =>
    simp only [Option.map_some, Option.some.injEq, shift] at *
    grind

theorem prod_pos_of {s : List Nat} (h : ∀ i, i < s.length → 0 < nth s i) : 0 < prod s := by
  induction s with
  | nil => simp
  | cons n s ih =>
    rw [prod_cons]
    exact Nat.mul_pos (by simpa using h 0 (by simp)) (ih fun i hi => by simpa using h (i + 1) (by simpa using hi))

theorem prod_erase {s : List Nat} {b : Nat} (h : b < s.length) : prod s = nth s b * prod (s.eraseIdx b) := by
  obtain ⟨A, q, B, hA, hE⟩ : ∃ A q B, A.length = b ∧ s = A ++ q :: B :=
    ⟨s.take b, nth s b, s.drop (b + 1), by simp; omega, split_at h⟩
  rw [hE, erase_split hA, nth_split hA, prod_append, prod_cons, prod_append]; ring

theorem resolve_unknown (s : List Nat) (b : Option Nat) (hb : ∀ k, b = some k → k < s.length ∧ ∀ i, i < s.length → i ≠ k → 0 < nth s i) :
    resolveShape (prod s) (formatBatchDim (unknownAt s b)) = .ok s := by
  cases b with
  | none => exact resolve_known s _
  | some b =>
    obtain ⟨h1, h2'⟩ := hb b rfl
    have hp := prod_erase h1
    have h2 : prod (s.eraseIdx b) ≠ 0 := by
      have : 0 < prod (s.eraseIdx b) := by
        apply prod_pos_of
        intro i hi
        rw [length_eraseIdx_of_lt h1] at hi
        rw [nth_eraseIdx]
        split
        · exact h2' _ (by omega) (by omega)
        · exact h2' _ (by omega) (by omega)
      omega
    obtain ⟨A, q, B, hA, hE⟩ : ∃ A q B, A.length = b ∧ s = A ++ q :: B :=
      ⟨s.take b, nth s b, s.drop (b + 1), by simp; omega, split_at h1⟩
    subst hE
    rw [erase_split hA] at h2 hp
    rw [nth_split hA] at hp
    have e : formatBatchDim (unknownAt (A ++ q :: B) (some b)) = A.map Int.ofNat ++ (-1) :: B.map Int.ofNat := by
      subst hA
      have hset : (List.map some (A ++ q :: B)).set A.length none = A.map some ++ none :: B.map some := by simp
      rw [unknownAt, hset]
      simp only [formatBatchDim, List.map_append, List.map_cons, List.map_map]
      rfl
    have hnn : ∀ (l : List Nat), (l.map Int.ofNat).count (-1) = 0 := by
      intro l
      rw [List.count_eq_zero]
      simp only [List.mem_map, not_exists, not_and]
      intro n _ h
      have : (n : Int) = -1 := h
      omega
    have hf : ∀ (l : List Nat), (l.map Int.ofNat).filter (fun n => decide (n ≠ -1)) = l.map Int.ofNat := by
      intro l
      rw [List.filter_eq_self]
      simp only [List.mem_map]
      rintro _ ⟨n, _, rfl⟩
      simp only [decide_eq_true_eq]
      intro h
      have : (n : Int) = -1 := h
      omega
    have hk : prod (((A.map Int.ofNat ++ (-1) :: B.map Int.ofNat).filter (fun n => decide (n ≠ -1))).map Int.toNat)
        = prod (A ++ B) := by
      rw [List.filter_append, hf, List.filter_cons_of_neg (by simp), hf]
      simp [Function.comp_def]
    rw [e]
    unfold resolveShape
    rw [if_neg (by simp)]
    simp only [hk]
    rw [if_pos]
    · congr 1
      have hm : ∀ (l : List Nat) (z : Nat), (l.map Int.ofNat).map (fun n => if n = -1 then z else n.toNat) = l := by
        intro l z
        rw [List.map_map]
        conv => rhs; rw [← List.map_id l]
        apply List.map_congr_left
        intro n _
        simp only [Function.comp]
        rw [if_neg (by intro h; have : (n : Int) = -1 := h; omega)]
        simp
      rw [List.map_append, List.map_cons, hm, hm, if_pos rfl, hp, Nat.mul_div_cancel _ (by omega)]
    · refine ⟨?_, ?_, h2, ?_⟩
      · simp only [List.all_append, List.all_cons, Bool.and_eq_true, List.all_eq_true, decide_eq_true_eq, List.mem_map]
        refine ⟨?_, by omega, ?_⟩ <;>
        · rintro _ ⟨n, _, rfl⟩
          have : (0 : Int) ≤ Int.ofNat n := Int.natCast_nonneg n
          omega
      · rw [List.count_append, List.count_cons, hnn, hnn]; simp
      · rw [hp, Nat.mul_mod_left]

theorem pyIndex_eq_norm {r : Nat} {ax : Int} {k : Nat} (h : normAxis r ax = .ok k) : pyIndex r ax = .ok k := by
  unfold normAxis at h
  unfold pyIndex
  split at h
  · rename_i hc; rw [if_pos hc]; exact h
  · rename_i hc
    rw [if_neg hc]
    split at h
    · rename_i hc2; rw [if_pos hc2]; exact h
    · cases h

theorem normAxis_eq {r : Nat} {ax : Int} {k : Nat} (h : normAxis r ax = .ok k) :
    k < r ∧ ((0 ≤ ax ∧ ax = k) ∨ (ax < 0 ∧ ax = (k : Int) - r)) := by
  unfold normAxis at h
  split at h
  · cases h; omega
  · split at h
    · cases h; omega
    · cases h

theorem normAxis_of {r : Nat} {ax : Int} {k : Nat} (hk : k < r)
    (h : (0 ≤ ax ∧ ax = k) ∨ (ax < 0 ∧ ax = (k : Int) - r)) : normAxis r ax = .ok k := by
  unfold normAxis
  rcases h with ⟨h1, h2⟩ | ⟨h1, h2⟩
  · rw [if_pos (by omega)]; congr 1; omega
  · rw [if_neg (by omega), if_pos (by omega)]; congr 1; omega

theorem moveaxis_norm (x : Tensor α) {a b : Int} {s d : Nat} (ha : normAxis x.rank a = .ok s)
    (hb : normAxis x.rank b = .ok d) : moveaxis x a b = moveaxis x s d := by
  have h1 := normAxis_lt ha
  have h2 := normAxis_lt hb
  simp only [moveaxis, ha, hb, normAxis_nat h1, normAxis_nat h2]

theorem moveAxisToLeftOf_norm (x : Tensor α) {am at' : Int} {m t : Nat} (hm : normAxis x.rank am = .ok m)
    (ht : normAxis x.rank at' = .ok t) (hs : SameSign am at') :
    moveAxisToLeftOf x am at' = moveaxis x m (after m t) := by
  obtain ⟨h1, h2⟩ := normAxis_eq hm
  obtain ⟨h3, h4⟩ := normAxis_eq ht
  unfold moveAxisToLeftOf
  have hc : am < at' ↔ m < t := by unfold SameSign at hs; omega
  have hd : normAxis x.rank (if am < at' then at' - 1 else at') = .ok (after m t) := by
    apply normAxis_of
    · unfold after; split <;> omega
    · unfold after
      by_cases h : m < t
      · rw [if_pos (hc.2 h), if_pos h]; unfold SameSign at hs; omega
      · rw [if_neg (fun h' => h (hc.1 h')), if_neg h]; unfold SameSign at hs; omega
  exact moveaxis_norm x hm hd

/-- merging gives the same tensor whichever other size is unknown -/
theorem mergeAxesS_all (x : Tensor α) {am at' : Int} {m t : Nat} (hm : normAxis x.rank am = .ok m)
    (ht : normAxis x.rank at' = .ok t) (hs : SameSign am at') (hne : m ≠ t) :
    ∃ y, (∀ b, b ≠ some m → b ≠ some t →
        (∀ k, b = some k → k < x.rank ∧ ∀ i, i < x.rank → i ≠ k → 0 < nth x.shape i) →
        mergeAxesS (unknownAt x.shape b) x am at' = .ok y) ∧
      y.shape = (x.shape.set t (nth x.shape t * nth x.shape m)).eraseIdx m ∧
      ∀ idx, Valid y.shape idx →
        y.get idx = x.get ((idx.set (after m t) (nth idx (after m t) % nth x.shape t)).insertIdx m
          (nth idx (after m t) / nth x.shape t)) := by
  have h1 := normAxis_lt hm
  have h3 := normAxis_lt ht
  have hd : after m t < x.rank - 1 := by unfold after; split <;> omega
  obtain ⟨z, ez, hzs, hzg⟩ := moveaxis_ok x (s := m) (d := after m t) h1 (by omega)
  have hl : (x.shape.eraseIdx m).length = x.rank - 1 := length_eraseIdx_of_lt h1
  have hEd : nth (x.shape.eraseIdx m) (after m t) = nth x.shape t := by
    rw [nth_eraseIdx]; unfold after
    split_ifs <;> first | rfl | omega | (congr 1; omega)
  obtain ⟨y, ey, hys, hyg⟩ := reshapeN_merge z (E := x.shape.eraseIdx m) (d := after m t) (p := nth x.shape m)
    (by omega) hzs
  rw [hEd] at ey hys hyg
  have hshape : (x.shape.eraseIdx m).set (after m t) (nth x.shape m * nth x.shape t)
      = (x.shape.set t (nth x.shape t * nth x.shape m)).eraseIdx m := by
    apply ext_nth
    · simp [List.length_eraseIdx]
    · intro i hi
      rw [nth_set, nth_eraseIdx, nth_eraseIdx, nth_set, nth_set, hl, Nat.mul_comm]
      unfold after
      simp only [Tensor.rank] at *
      split_ifs <;> first | rfl | omega
  refine ⟨y, ?_, by rw [hys, hshape], ?_⟩
  · intro b hbm hbt hb
    have hms : mergeShapes (unknownAt x.shape b) am at' =
        .ok (unknownAt ((x.shape.set t (nth x.shape t * nth x.shape m)).eraseIdx m) (b.map (after m))) := by
      have hl' := length_unknownAt x.shape b
      simp only [mergeShapes]
      rw [pyIndex_eq_norm (k := m) (by rw [hl']; exact hm), pyIndex_eq_norm (k := t) (by rw [hl']; exact ht)]
      simp only [res_bind_ok]
      rw [getElem?_unknownAt h3 hbt, getElem?_unknownAt h1 hbm]
      simp only [res_pure]
      rw [unknownAt_set hbt, unknownAt_erase hbm]
    simp only [mergeAxesS, hms, res_bind_ok, moveAxisToLeftOf_norm x hm ht hs, ez, reshape]
    have hprod : prod z.shape = prod ((x.shape.set t (nth x.shape t * nth x.shape m)).eraseIdx m) := by
      rw [← hshape]
      unfold reshapeN at ey
      split at ey
      · assumption
      · cases ey
    rw [hprod, resolve_unknown, res_bind_ok, ← hshape]
    · exact ey
    · intro k hk
      cases b with
      | none => simp at hk
      | some b =>
        simp only [Option.map_some, Option.some.injEq] at hk
        obtain ⟨h5, h6⟩ := hb b rfl
        simp only [ne_eq, Option.some.injEq] at hbm hbt
        have hkl : k < ((x.shape.set t (nth x.shape t * nth x.shape m)).eraseIdx m).length := by
          rw [length_eraseIdx_of_lt (by simpa using h1)]
          simp only [List.length_set]
          rw [← hk]; unfold after; split <;> romega
        refine ⟨hkl, ?_⟩
        intro i hi hik
        rw [length_eraseIdx_of_lt (by simpa using h1), List.length_set] at hi
        rw [nth_eraseIdx, nth_set, nth_set]
        have h7 := fun i hi hik => h6 i hi hik
        have h8 : 0 < nth x.shape t * nth x.shape m := Nat.mul_pos (h6 _ h3 (fun h => hbt h.symm)) (h6 _ h1 (fun h => hbm h.symm))
        have hk' : after m b = k := hk
        unfold after at hk'
        simp only [Tensor.rank] at *
        split_ifs <;> first | assumption | (apply h6 <;> grind)
  · intro idx hi
    rw [hyg idx hi, hzg]
    · have hil : idx.length = x.rank - 1 := by
        rw [hi.length, hys]; simp [hl]
      rw [eraseIdx_insertIdx' _ _ _ (by simp; omega), nth_insertIdx _ _ _ _ (by simp; omega), if_neg (by omega),
        if_pos rfl]
    · have hil : idx.length = x.rank - 1 := by
        rw [hi.length, hys]; simp [hl]
      rw [List.length_insertIdx, if_pos (by simp; omega)]; simp; omega

theorem mergeAxesS_ok (x : Tensor α) (b : Option Nat) {am at' : Int} {m t : Nat} (hm : normAxis x.rank am = .ok m)
    (ht : normAxis x.rank at' = .ok t) (hs : SameSign am at') (hne : m ≠ t) (hbm : b ≠ some m) (hbt : b ≠ some t)
    (hb : ∀ k, b = some k → k < x.rank ∧ ∀ i, i < x.rank → i ≠ k → 0 < nth x.shape i) :
    ∃ y, mergeAxesS (unknownAt x.shape b) x am at' = .ok y ∧
      y.shape = (x.shape.set t (nth x.shape t * nth x.shape m)).eraseIdx m ∧
      ∀ idx, Valid y.shape idx →
        y.get idx = x.get ((idx.set (after m t) (nth idx (after m t) % nth x.shape t)).insertIdx m
          (nth idx (after m t) / nth x.shape t)) := by
  obtain ⟨y, h1, h2⟩ := mergeAxesS_all x hm ht hs hne
  exact ⟨y, h1 b hbm hbt hb, h2⟩

/-- merging with an unknown size is merging -/
theorem mergeAxesS_eq (x : Tensor α) (b : Option Nat) {am at' : Int} {m t : Nat} (hm : normAxis x.rank am = .ok m)
    (ht : normAxis x.rank at' = .ok t) (hs : SameSign am at') (hne : m ≠ t) (hbm : b ≠ some m) (hbt : b ≠ some t)
    (hb : ∀ k, b = some k → k < x.rank ∧ ∀ i, i < x.rank → i ≠ k → 0 < nth x.shape i) :
    mergeAxesS (unknownAt x.shape b) x am at' = mergeAxes x am at' := by
  obtain ⟨y, h1, _⟩ := mergeAxesS_all x hm ht hs hne
  rw [h1 b hbm hbt hb]
  exact (h1 none (by simp) (by simp) (by simp)).symm

theorem insertIdx_eq_take_drop {β : Type} (l : List β) {k : Nat} (hk : k ≤ l.length) (v : β) :
    l.take k ++ [v] ++ l.drop k = l.insertIdx k v := by
  induction l generalizing k with
  | nil => simp at hk; subst hk; simp
  | cons a l ih =>
    cases k with
    | zero => simp
    | succ k => simpa using ih (k := k) (by simpa using hk)

theorem splitShapes_ok {shape : List Nat} {b : Option Nat} {ax : Int} {k left : Nat}
    (hk : normAxis shape.length ax = .ok k) (hbk : b ≠ some k) (h0 : 0 < left) :
    splitShapes (unknownAt shape b) left ax =
      .ok (unknownAt ((shape.set k (nth shape k / left)).insertIdx k left) (b.map (shift k))) := by
  obtain ⟨h1, h2⟩ := normAxis_eq hk
  have hl' := length_unknownAt shape b
  simp only [splitShapes]
  rw [pyIndex_eq_norm (k := k) (by rw [hl']; exact hk)]
  simp only [res_bind_ok]
  rw [getElem?_unknownAt h1 hbk]
  simp only [if_neg (Nat.pos_iff_ne_zero.1 h0), res_pure]
  rw [unknownAt_set hbk]
  have hl2 := length_unknownAt (shape.set k (nth shape k / left)) b
  rw [List.length_set] at hl2
  have e1 : (if ax < 0 then ((shape.length : Int) + ax).toNat else ax.toNat) = k := by split <;> omega
  rw [← unknownAt_insert (by simp; omega), ← insertIdx_eq_take_drop _ (by rw [hl2]; omega)]
  unfold sliceTo sliceFrom
  rw [hl2, e1]

/-- splitting gives the same tensor whichever other size is unknown -/
theorem splitAxesS_all (x : Tensor α) {ax : Int} {k left q : Nat} (hk : normAxis x.rank ax = .ok k)
    (h0 : 0 < left) (hq : nth x.shape k = left * q) :
    ∃ y, (∀ b, b ≠ some k → (∀ j, b = some j → j < x.rank ∧ ∀ i, i < x.rank → i ≠ j → 0 < nth x.shape i) →
        splitAxesS (unknownAt x.shape b) x left ax = .ok y) ∧
      y.shape = (x.shape.set k q).insertIdx k left ∧
      ∀ idx, Valid y.shape idx →
        y.get idx = x.get ((idx.eraseIdx k).set k (nth idx k * q + nth idx (k + 1))) := by
  obtain ⟨h1, h2⟩ := normAxis_eq hk
  obtain ⟨y, ey, hys, hyg⟩ := reshapeN_split x h1 hq
  refine ⟨y, ?_, hys, hyg⟩
  intro b hbk hb
  have hdiv : nth x.shape k / left = q := by rw [hq, Nat.mul_div_cancel_left _ h0]
  simp only [splitAxesS, splitShapes_ok hk hbk h0, hdiv, res_bind_ok, reshape]
  have hpr : prod x.shape = prod ((x.shape.set k q).insertIdx k left) := by
    unfold reshapeN at ey
    split at ey
    · assumption
    · cases ey
  rw [hpr, resolve_unknown, res_bind_ok]
  · exact ey
  · intro j hj
    cases b with
    | none => simp at hj
    | some b =>
      simp only [Option.map_some, Option.some.injEq] at hj
      obtain ⟨h5, h6⟩ := hb b rfl
      have hbk' : b ≠ k := fun h => hbk (by rw [h])
      have hq0 : 0 < q := by
        have := h6 k h1 (fun h => hbk' h.symm)
        rw [hq] at this
        exact Nat.pos_of_mul_pos_left this
      have hj' : shift k b = j := hj
      unfold shift at hj'
      have hll : ((x.shape.set k q).insertIdx k left).length = x.rank + 1 := by
        rw [List.length_insertIdx, List.length_set, if_pos (by romega)]
      refine ⟨by rw [hll]; simp only [Tensor.rank] at *; split at hj' <;> omega, fun i hi hij => ?_⟩
      rw [hll] at hi
      rw [nth_insertIdx _ _ _ _ (by simp; romega), nth_set, nth_set]
      simp only [Tensor.rank] at *
      split_ifs <;> first | assumption | (apply h6 <;> grind)

theorem splitAxesS_ok (x : Tensor α) (b : Option Nat) {ax : Int} {k left q : Nat} (hk : normAxis x.rank ax = .ok k)
    (hbk : b ≠ some k) (h0 : 0 < left) (hq : nth x.shape k = left * q)
    (hb : ∀ j, b = some j → j < x.rank ∧ ∀ i, i < x.rank → i ≠ j → 0 < nth x.shape i) :
    ∃ y, splitAxesS (unknownAt x.shape b) x left ax = .ok y ∧
      y.shape = (x.shape.set k q).insertIdx k left ∧
      ∀ idx, Valid y.shape idx →
        y.get idx = x.get ((idx.eraseIdx k).set k (nth idx k * q + nth idx (k + 1))) := by
  obtain ⟨y, h1, h2⟩ := splitAxesS_all x hk h0 hq
  exact ⟨y, h1 b hbk hb, h2⟩

/-- splitting with an unknown size is splitting -/
theorem splitAxesS_eq (x : Tensor α) (b : Option Nat) {ax : Int} {k left q : Nat} (hk : normAxis x.rank ax = .ok k)
    (hbk : b ≠ some k) (h0 : 0 < left) (hq : nth x.shape k = left * q)
    (hb : ∀ j, b = some j → j < x.rank ∧ ∀ i, i < x.rank → i ≠ j → 0 < nth x.shape i) :
    splitAxesS (unknownAt x.shape b) x left ax = splitAxes x left ax := by
  obtain ⟨y, h1, _⟩ := splitAxesS_all x hk h0 hq
  rw [h1 b hbk hb]
  exact (h1 none (by simp) (by simp)).symm

theorem mergeAxes_ok (x : Tensor α) {am at' : Int} {m t : Nat} (hm : normAxis x.rank am = .ok m)
    (ht : normAxis x.rank at' = .ok t) (hs : SameSign am at') (hne : m ≠ t) :
    ∃ y, mergeAxes x am at' = .ok y ∧
      y.shape = (x.shape.set t (nth x.shape t * nth x.shape m)).eraseIdx m ∧
      ∀ idx, Valid y.shape idx →
        y.get idx = x.get ((idx.set (after m t) (nth idx (after m t) % nth x.shape t)).insertIdx m
          (nth idx (after m t) / nth x.shape t)) :=
  mergeAxesS_ok x none hm ht hs hne (by simp) (by simp) (by simp)

theorem splitAxes_ok (x : Tensor α) {ax : Int} {k left q : Nat} (hk : normAxis x.rank ax = .ok k)
    (h0 : 0 < left) (hq : nth x.shape k = left * q) :
    ∃ y, splitAxes x left ax = .ok y ∧
      y.shape = (x.shape.set k q).insertIdx k left ∧
      ∀ idx, Valid y.shape idx →
        y.get idx = x.get ((idx.eraseIdx k).set k (nth idx k * q + nth idx (k + 1))) :=
  splitAxesS_ok x none hk (by simp) h0 hq (by simp)

/-- A factor that does not divide the size is refused (when there is any data at all). -/
theorem splitAxes_error (x : Tensor α) {ax : Int} {k left : Nat} (hk : normAxis x.rank ax = .ok k)
    (h0 : 0 < left) (hq : ¬ left ∣ nth x.shape k) (hpos : ∀ i, i < x.rank → i ≠ k → 0 < nth x.shape i) :
    splitAxes x left ax = .error .value := by
  obtain ⟨h1, h2⟩ := normAxis_eq hk
  have e := splitShapes_ok (b := none) hk (by simp) h0
  simp only [splitAxes, splitAxesS]
  rw [unknownAt] at e
  rw [e]
  simp only [res_bind_ok, reshape, Option.map_none, resolve_known, reshapeN]
  rw [if_neg]
  intro hp
  obtain ⟨A, n, B, hA, hE⟩ : ∃ A n B, A.length = k ∧ x.shape = A ++ n :: B :=
    ⟨x.shape.take k, nth x.shape k, x.shape.drop (k + 1), by simp; romega, split_at h1⟩
  rw [hE, nth_split hA, set_split hA, insert_split hA] at hp
  rw [hE, nth_split hA] at hq
  simp only [prod_append, prod_cons] at hp
  have hAp : 0 < prod A := by
    apply prod_pos_of
    intro i hi
    have := hpos i (by simp only [Tensor.rank, hE, List.length_append]; omega) (by omega)
    rwa [hE, nth_append, if_pos hi] at this
  have hBp : 0 < prod B := by
    apply prod_pos_of
    intro i hi
    have := hpos (k + 1 + i) (by simp only [Tensor.rank, hE, List.length_append, List.length_cons]; omega) (by omega)
    rw [hE, nth_append, if_neg (by omega)] at this
    have e2 : k + 1 + i - A.length = i + 1 := by omega
    rwa [e2, nth_cons_succ] at this
  have h3 : n = left * (n / left) := by
    have h4 := Nat.eq_of_mul_eq_mul_left hAp hp
    have h5 : n * prod B = left * (n / left) * prod B := by rw [h4]; ring
    exact Nat.eq_of_mul_eq_mul_right hBp h5
  exact hq ⟨_, h3⟩

theorem IsAxis.norm {r : Nat} {ax : Int} {k : Nat} (h : IsAxis r ax k) : normAxis r ax = .ok k := by
  obtain ⟨h1, h2⟩ := h
  apply normAxis_of h1
  omega

theorem merged_index {s idx : List Nat} {m t : Nat} (hm : m < s.length) (ht : t < s.length) (hne : m ≠ t)
    (hv : Valid s idx) :
    Valid ((s.set t (nth s t * nth s m)).eraseIdx m)
      ((idx.set t (nth idx m * nth s t + nth idx t)).eraseIdx m) ∧
    (let j := (idx.set t (nth idx m * nth s t + nth idx t)).eraseIdx m
     (j.set (after m t) (nth j (after m t) % nth s t)).insertIdx m (nth j (after m t) / nth s t)) = idx := by
  have hl := hv.length
  have h1 := hv.lt hm
  have h2 := hv.lt ht
  have hlen : ((idx.set t (nth idx m * nth s t + nth idx t)).eraseIdx m).length = s.length - 1 := by
    rw [length_eraseIdx_of_lt (by simp; omega), List.length_set, hl]
  have ea : nth ((idx.set t (nth idx m * nth s t + nth idx t)).eraseIdx m) (after m t) =
      nth idx m * nth s t + nth idx t := by
    rw [nth_eraseIdx, nth_set, nth_set]
    unfold after
    split_ifs <;> first | rfl | omega
  have hdiv : (nth idx m * nth s t + nth idx t) / nth s t = nth idx m := by
    rw [Nat.mul_comm, Nat.mul_add_div (by omega), Nat.div_eq_of_lt h2, Nat.add_zero]
  have hmod : (nth idx m * nth s t + nth idx t) % nth s t = nth idx t := by
    rw [Nat.mul_comm, Nat.mul_add_mod, Nat.mod_eq_of_lt h2]
  constructor
  · rw [valid_iff]
    refine ⟨by rw [hlen, length_eraseIdx_of_lt (by simp; omega), List.length_set], ?_⟩
    intro i hi
    rw [length_eraseIdx_of_lt (by simpa using hm), List.length_set] at hi
    rw [nth_eraseIdx, nth_eraseIdx, nth_set, nth_set, nth_set, nth_set]
    have hb : nth idx m * nth s t + nth idx t < nth s t * nth s m := by
      calc nth idx m * nth s t + nth idx t < nth idx m * nth s t + nth s t := by omega
        _ = (nth idx m + 1) * nth s t := by ring
        _ ≤ nth s m * nth s t := Nat.mul_le_mul_right _ h1
        _ = _ := Nat.mul_comm _ _
    split_ifs <;> first | omega | exact hb | (apply hv.lt; omega)
  · simp only [ea, hdiv, hmod]
    apply ext_nth
    · rw [List.length_insertIdx, if_pos (by simp [hlen]; omega)]; simp [hlen]; omega
    · intro i hi
      rw [nth_insertIdx _ _ _ _ (by simp [hlen]; omega)]
      simp only [nth_set, nth_eraseIdx, hlen, List.length_set]
      unfold after
      split_ifs <;> first | rfl | omega | (congr 1; omega)

theorem unmerged_index {s jdx : List Nat} {m t : Nat} (hm : m < s.length) (ht : t < s.length) (hne : m ≠ t)
    (hv : Valid ((s.set t (nth s t * nth s m)).eraseIdx m) jdx) :
    let idx := (jdx.set (after m t) (nth jdx (after m t) % nth s t)).insertIdx m (nth jdx (after m t) / nth s t)
    Valid s idx ∧ (idx.set t (nth idx m * nth s t + nth idx t)).eraseIdx m = jdx := by
  have hl := hv.length
  rw [length_eraseIdx_of_lt (by simpa using hm), List.length_set] at hl
  have hE : ((s.set t (nth s t * nth s m)).eraseIdx m).length = s.length - 1 := by
    rw [length_eraseIdx_of_lt (by simpa using hm), List.length_set]
  have ha : after m t < s.length - 1 := by unfold after; split <;> omega
  have h1 := hv.lt (i := after m t) (by rw [hE]; exact ha)
  have h2 : nth ((s.set t (nth s t * nth s m)).eraseIdx m) (after m t) = nth s t * nth s m := by
    rw [nth_eraseIdx, nth_set, nth_set]; unfold after; split_ifs <;> first | rfl | omega
  rw [h2] at h1
  have hst : 0 < nth s t := Nat.pos_of_ne_zero (fun h => by rw [h] at h1; simp at h1)
  have hd : nth jdx (after m t) / nth s t < nth s m := Nat.div_lt_of_lt_mul h1
  have hm' := Nat.mod_lt (nth jdx (after m t)) hst
  intro idx
  have hlen : idx.length = s.length := by
    simp only [idx]
    rw [List.length_insertIdx, if_pos (by simp; omega)]; simp; omega
  have hn : ∀ i, nth idx i = if i < m then (if i = after m t then nth jdx (after m t) % nth s t else nth jdx i)
      else if i = m then nth jdx (after m t) / nth s t
      else if i - 1 = after m t then nth jdx (after m t) % nth s t else nth jdx (i - 1) := by
    intro i
    simp only [idx]
    rw [nth_insertIdx _ _ _ _ (by simp; omega)]
    simp only [nth_set]
    split_ifs <;> first | rfl | omega
  have hnm : nth idx m = nth jdx (after m t) / nth s t := by rw [hn]; simp
  have hnt : nth idx t = nth jdx (after m t) % nth s t := by
    rw [hn]; unfold after; split_ifs <;> first | rfl | omega
  constructor
  · rw [valid_iff]
    refine ⟨hlen, fun i hi => ?_⟩
    by_cases him : i = m
    · subst him; rw [hnm]; exact hd
    · by_cases hit : i = t
      · subst hit; rw [hnt]; exact hm'
      · rw [hn]
        have h3 := hv.lt (i := after m i) (by rw [hE]; unfold after; split <;> omega)
        rw [nth_eraseIdx, nth_set, nth_set] at h3
        unfold after at h3 ⊢
        split_ifs at h3 ⊢ <;> first | omega | exact h3 | (rw [Nat.sub_add_cancel (by omega)] at h3; exact h3)
  · apply ext_nth
    · rw [length_eraseIdx_of_lt (by simp; omega), List.length_set]; omega
    · intro i hi
      rw [nth_eraseIdx, nth_set, nth_set, hnm, hnt]
      have hdm : nth jdx (after m t) / nth s t * nth s t + nth jdx (after m t) % nth s t = nth jdx (after m t) := by
        rw [Nat.mul_comm]; exact Nat.div_add_mod _ _
      rw [hdm, hn, hn, hlen]
      unfold after
      rw [length_eraseIdx_of_lt (by simp; omega), List.length_set] at hi
      split_ifs <;> first | rfl | omega | (congr 1; omega)

end GroCo
