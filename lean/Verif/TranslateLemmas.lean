import Verif.TransposeLemmas

/-
Lemmas on translated signals for transposed convolutions (C46).
-/

namespace GroCo
open Tensor

variable {α : Type}

/-- the integer position that contributes to output position `q` through kernel offset `k` -/
def Source (before strides dil crop : List Nat) (q k : List Nat) (z : List Int) : Prop :=
  z.length = strides.length ∧ ∀ i, i < strides.length →
    (z.getD i 0 + nth before i) * nth strides i + nth k i * nth dil i = (nth q i + nth crop i : Int)

theorem spread_source [Semiring α] {before strides dil crop q k n r : List Nat} {x : Tensor α} {b : Nat} {z : List Int}
    (hs : ∀ i, i < strides.length → 0 < nth strides i) (hn : n.length = strides.length)
    (hz : Source before strides dil crop q k z) : spread before strides dil crop x n b q k r = readAt x n b z r := by
  have key : ∀ p, Valid n p → Hits before strides dil crop p k q → p.map Int.ofNat = z := by
    intro p hp hh
    apply List.ext_getElem
    · simp [hp.length, hn, hz.1]
    · intro i h1 h2
      have hi : i < strides.length := by rw [← hz.1]; exact h2
      have h3 := hh i hi
      have h4 := hz.2 i hi
      have hpos : (0 : Int) < nth strides i := by exact_mod_cast hs i hi
      have h5 : ((nth p i : Int) + nth before i) * nth strides i = (z.getD i 0 + nth before i) * nth strides i := by
        have : ((nth p i : Int) + nth before i) * nth strides i + nth k i * nth dil i = nth q i + nth crop i := by
          exact_mod_cast h3
        linarith
      have h6 := Int.eq_of_mul_eq_mul_right hpos.ne' h5
      have h7 : nth p i = p[i]'(by simpa using h1) := nth_eq_getElem _ _ _
      simp only [List.getElem_map, Int.ofNat_eq_natCast]
      rw [← h7]
      simp [h2] at h6
      omega
  unfold spread readAt
  split
  · rename_i hb
    have hv := InBox.valid hb
    rw [sum_ite_one (nodup_indices n) ((mem_indices _ _).2 hv)]
    intro p hp
    rw [mem_indices] at hp
    constructor
    · intro h
      rw [← key p hp h]
      simp [Function.comp_def]
    · rintro rfl i hi
      have h4 := hz.2 i hi
      have h1 := (inBox_iff.1 hb).2 i (by omega)
      have h2 : (nth (z.map Int.toNat) i : Int) = z.getD i 0 := by
        have : i < z.length := by rw [hz.1]; exact hi
        rw [nth_eq_getElem _ _ (by simpa using this)]
        simp [this] at h1 ⊢
        omega
      have : ((nth (z.map Int.toNat) i + nth before i : Nat) : Int) * nth strides i + nth k i * nth dil i =
          nth q i + nth crop i := by
        push_cast
        rw [h2]
        exact h4
      exact_mod_cast this
  · rename_i hb
    rw [sum_ite_none]
    intro p hp hh
    rw [mem_indices] at hp
    exact hb (key p hp hh ▸ inBox_of_valid hp)

theorem spread_no_source [Semiring α] {before strides dil crop q k n r : List Nat} {x : Tensor α} {b : Nat}
    (hn : n.length = strides.length) (h : ∀ z, ¬ Source before strides dil crop q k z) :
    spread before strides dil crop x n b q k r = 0 := by
  unfold spread
  rw [sum_ite_none]
  intro p hp hh
  rw [mem_indices] at hp
  refine h (p.map Int.ofNat) ⟨by simp [hp.length, hn], fun i hi => ?_⟩
  have h1 := hh i hi
  have : (p.map Int.ofNat).getD i 0 = (nth p i : Int) := by
    simp [nth, show i < p.length by rw [hp.length]; omega]
  rw [this]
  exact_mod_cast h1

/-- moving an output position by strides times `t` moves its source by `t` -/
theorem source_moved {before strides dil crop q q' k : List Nat} {t z : List Int} (ht : t.length = strides.length)
    (hq : q.length = strides.length)
    (hqq : q'.map Int.ofNat = List.zipWith (· + ·) (q.map Int.ofNat) (List.zipWith (fun (s : Nat) (u : Int) => s * u) strides t))
    (hz : Source before strides dil crop q k z) : Source before strides dil crop q' k (List.zipWith (· + ·) z t) := by
  have hlen : q'.length = q.length := by
    have := congrArg List.length hqq
    simp at this
    omega
  refine ⟨by simp [hz.1, ht], fun i hi => ?_⟩
  have h1 := hz.2 i hi
  have hk : (q'.map Int.ofNat)[i]'(by simp; omega) = (List.zipWith (· + ·) (q.map Int.ofNat)
      (List.zipWith (fun (s : Nat) (u : Int) => s * u) strides t))[i]'(by simp; omega) := by
    simp only [hqq]
  simp only [List.getElem_map, List.getElem_zipWith, Int.ofNat_eq_natCast] at hk
  have e1 : (List.zipWith (· + ·) z t).getD i 0 = z.getD i 0 + t[i]'(by omega) := by
    have : i < z.length := by rw [hz.1]; exact hi
    simp [this, show i < t.length by omega]
  rw [e1, nth_eq_getElem q' i (by omega), hk]
  rw [nth_eq_getElem q i (by omega)] at h1
  rw [nth_eq_getElem strides i hi] at h1 ⊢
  linear_combination h1

end GroCo
