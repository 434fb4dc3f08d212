import Verif.Spec
import Verif.TensorLemmas

/-
Helper lemmas about reading a tensor surrounded by zeros.
-/

namespace GroCo
open Tensor

variable {α : Type}

theorem InBox.length {s : List Nat} {q : List Int} (h : InBox s q) : q.length = s.length := by
  induction s generalizing q with
  | nil => cases q with
    | nil => rfl
    | cons => exact absurd h (by simp [InBox])
  | cons n s ih => cases q with
    | nil => exact absurd h (by simp [InBox])
    | cons i q => simp [ih h.2]

theorem inBox_cast {s idx : List Nat} : InBox s (idx.map Int.ofNat) ↔ Valid s idx := by
  induction s generalizing idx with
  | nil => cases idx <;> simp [InBox, Valid]
  | cons n s ih => cases idx with
    | nil => simp [InBox, Valid]
    | cons i idx => simp [InBox, Valid, ih]

theorem InBox.toNat {s : List Nat} {q : List Int} (h : InBox s q) : (q.map Int.toNat).map Int.ofNat = q := by
  induction s generalizing q with
  | nil => cases q with
    | nil => rfl
    | cons => exact absurd h (by simp [InBox])
  | cons n s ih => cases q with
    | nil => exact absurd h (by simp [InBox])
    | cons i q => simp only [List.map_cons, ih h.2]; simp [h.1.1]

theorem InBox.valid {s : List Nat} {q : List Int} (h : InBox s q) : Valid s (q.map Int.toNat) := by
  rw [← inBox_cast, h.toNat]; exact h

theorem read0_valid [Zero α] (x : Tensor α) {idx : List Nat} (h : Valid x.shape idx) :
    read0 x (idx.map Int.ofNat) = x.get idx := by
  rw [read0, if_pos (inBox_cast.2 h)]
  congr 1
  simp [Function.comp_def]

theorem inBox_append {s t : List Nat} {q r : List Int} (h : q.length = s.length) :
    InBox (s ++ t) (q ++ r) ↔ InBox s q ∧ InBox t r := by
  induction s generalizing q with
  | nil => cases q with
    | nil => simp [InBox]
    | cons => simp at h
  | cons n s ih => cases q with
    | nil => simp at h
    | cons i q => simp [InBox, ih (by simpa using h), and_assoc]

theorem unpad_eq (s : List Nat) (ps : List (Nat × Nat)) (q : List Int)
    (hq : InBox (List.zipWith (fun n p => p.1 + n + p.2) s ps) q) (hl : ps.length = s.length) :
    unpad s ps (q.map Int.toNat) =
      if InBox s (List.zipWith (fun i p => i - (p.1 : Int)) q ps) then
        some ((List.zipWith (fun i p => i - (p.1 : Int)) q ps).map Int.toNat) else none := by
  induction s generalizing ps q with
  | nil =>
    have hlen := hq.length
    simp only [List.zipWith_nil_left, List.length_nil, List.length_eq_zero_iff] at hlen
    subst hlen
    simp only [List.length_nil, List.length_eq_zero_iff] at hl
    subst hl
    simp [unpad, InBox]
  | cons n s ih =>
    match ps, hl with
    | (b, c) :: ps, hl =>
      match q, hq with
      | i :: q, hq =>
        simp only [List.zipWith_cons_cons, InBox] at hq
        have ih' := ih ps q hq.2 (by simpa using hl)
        simp only [List.map_cons, unpad, List.zipWith_cons_cons, InBox]
        rw [ih']
        by_cases h1 : b ≤ i.toNat ∧ i.toNat - b < n
        · rw [if_pos h1]
          by_cases h2 : InBox s (List.zipWith (fun i p => i - (p.1 : Int)) q ps)
          · rw [if_pos h2, if_pos ⟨by omega, h2⟩]
            simp only [Option.map_some]
            congr 2
            omega
          · rw [if_neg h2, if_neg (fun h => h2 h.2)]; rfl
        · rw [if_neg h1, if_neg]
          rintro ⟨h, _⟩
          omega

theorem inBox_pad {s : List Nat} {ps : List (Nat × Nat)} {q : List Int} (hl : ps.length = s.length)
    (hq : q.length = s.length) (h : InBox s (List.zipWith (fun i p => i - (p.1 : Int)) q ps)) :
    InBox (List.zipWith (fun n p => p.1 + n + p.2) s ps) q := by
  induction s generalizing ps q with
  | nil =>
    simp only [List.length_nil, List.length_eq_zero_iff] at hl hq
    subst hl hq; simp [InBox]
  | cons n s ih =>
    match ps, hl, q, hq with
    | (b, c) :: ps, hl, i :: q, hq =>
      simp only [List.zipWith_cons_cons, InBox] at h ⊢
      refine ⟨by omega, ih (by simpa using hl) (by simpa using hq) h.2⟩

/-- Padding shifts what is read. -/
theorem pad_ok [Zero α] (x : Tensor α) {ps : List (Nat × Nat)} (h : ps.length = x.rank) :
    ∃ y, pad x ps = .ok y ∧ y.shape = List.zipWith (fun n p => p.1 + n + p.2) x.shape ps ∧
      ∀ q : List Int, q.length = x.rank → read0 y q = read0 x (List.zipWith (fun i p => i - (p.1 : Int)) q ps) := by
  refine ⟨_, by rw [pad, if_pos h], rfl, fun q hq => ?_⟩
  unfold read0
  by_cases hb : InBox (List.zipWith (fun n p => p.1 + n + p.2) x.shape ps) q
  · rw [if_pos hb]
    simp only
    rw [unpad_eq _ _ _ hb h]
    by_cases hc : InBox x.shape (List.zipWith (fun i p => i - (p.1 : Int)) q ps)
    · simp only [if_pos hc]
    · simp only [if_neg hc]
  · rw [if_neg hb, if_neg]
    intro hc
    exact hb (inBox_pad h hq hc)

end GroCo
