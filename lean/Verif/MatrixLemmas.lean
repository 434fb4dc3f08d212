import Mathlib.Tactic.Linarith
import Mathlib.Tactic.FinCases
import Mathlib.Tactic.NormNum
import Verif.GroupLemmas

/- Helper: signed permutations as integer orthogonal matrices. -/

namespace GroCo
open Tensor

/-- matrix of the motion: the value read at `q` is written at `mat σ * q` (centred coordinates) -/
def SPerm.mat (d : Nat) (σ : SPerm) : Matrix (Fin d) (Fin d) ℤ := fun j k =>
  if σ.src k = j then (if σ.neg k then -1 else 1) else 0

theorem SPerm.mat_comp {d : Nat} {σ τ : SPerm} (hσ : σ.WF d) : (σ.comp τ).mat d = τ.mat d * σ.mat d := by
  ext j k
  have hk : (k : Nat) < σ.length := by rw [hσ.1]; exact k.2
  rw [Matrix.mul_apply, Finset.sum_eq_single ⟨σ.src k, hσ.src_lt k.2⟩]
  · simp only [mat, src_comp _ _ hk, neg_comp _ _ hk, if_true]
    split <;> cases σ.neg k <;> cases τ.neg (σ.src k) <;> simp
  · intro b _ hb
    have : σ.src k ≠ b := fun h => hb (by ext; simp [h])
    simp [mat, this]
  · simp

theorem SPerm.mat_sum {d : Nat} {σ : SPerm} (hσ : σ.WF d) (k : Fin d) (c : Fin d → ℤ) :
    ∑ l : Fin d, σ.mat d ⟨σ.src k, hσ.src_lt k.2⟩ l * c l = (if σ.neg k then -1 else 1) * c k := by
  rw [Finset.sum_eq_single k]
  · simp [mat]
  · intro b _ hb
    have : σ.src b ≠ σ.src k := fun h => hb (by ext; exact hσ.src_inj b.2 k.2 h)
    simp [mat, this]
  · simp

theorem SPerm.moves {d : Nat} {σ : SPerm} (hσ : σ.WF d) {axs s idx jdx : List Nat} (hl : axs.length = d)
    (hnd : axs.Nodup) (hlt : ∀ a ∈ axs, a < s.length) (hc : σ.Compat (coords axs s)) (hi : Valid s idx)
    (hj : Valid s jdx) (hm : MovesTo (σ.mat d) axs s idx jdx) : σ.pullIdx axs (coords axs s) jdx = idx := by
  unfold SPerm.pullIdx
  apply place_eq_of hnd
  · rw [SPerm.length_pull, hσ.1, hl]
  · rw [hj.length]; exact hlt
  · rw [hi.length, hj.length]
  · intro i _ hi'; exact (hm.1 i hi').symm
  · intro k hk
    have hkd : k < d := by omega
    rw [SPerm.nth_pull _ _ _ (by rw [hσ.1]; exact hkd), nth_coords _ _ hk,
      nth_coords _ _ (by rw [hl]; exact hσ.src_lt hkd)]
    have h1 := hm.2 ⟨σ.src k, hσ.src_lt hkd⟩
    have h2 := SPerm.mat_sum hσ ⟨k, hkd⟩ (fun l => centred (nth s (nth axs l)) (nth idx (nth axs l)))
    simp only at h1 h2
    rw [h2] at h1
    have hcc := hc k (by rw [hσ.1]; exact hkd)
    rw [nth_coords _ _ hk, nth_coords _ _ (by rw [hl]; exact hσ.src_lt hkd)] at hcc
    have b1 := hi.lt (hlt _ (nth_mem axs k hk))
    have b2 := hj.lt (hlt _ (nth_mem axs (σ.src k) (by rw [hl]; exact hσ.src_lt hkd)))
    unfold centred at h1
    cases hn : σ.neg k <;> simp only [hn, if_true, if_false, Bool.false_eq_true] at h1 ⊢ <;> omega

/-! ### classification of small integer orthogonal matrices -/

theorem sq2 {a b : ℤ} (h : a * a + b * b = 1) : (a, b) ∈ [((1 : ℤ), (0 : ℤ)), (-1, 0), (0, 1), (0, -1)] := by
  have ha : -1 ≤ a := by nlinarith [mul_self_nonneg b]
  have ha' : a ≤ 1 := by nlinarith [mul_self_nonneg b]
  have hb : -1 ≤ b := by nlinarith [mul_self_nonneg a]
  have hb' : b ≤ 1 := by nlinarith [mul_self_nonneg a]
  have h1 : a = -1 ∨ a = 0 ∨ a = 1 := by omega
  have h2 : b = -1 ∨ b = 0 ∨ b = 1 := by omega
  rcases h1 with rfl | rfl | rfl <;> rcases h2 with rfl | rfl | rfl <;> simp at h ⊢

def rows3 : List (ℤ × ℤ × ℤ) := [(1, 0, 0), (-1, 0, 0), (0, 1, 0), (0, -1, 0), (0, 0, 1), (0, 0, -1)]

theorem sq3 {a b c : ℤ} (h : a * a + b * b + c * c = 1) : (a, b, c) ∈ rows3 := by
  have ha : -1 ≤ a := by nlinarith [mul_self_nonneg b, mul_self_nonneg c]
  have ha' : a ≤ 1 := by nlinarith [mul_self_nonneg b, mul_self_nonneg c]
  have hb : -1 ≤ b := by nlinarith [mul_self_nonneg a, mul_self_nonneg c]
  have hb' : b ≤ 1 := by nlinarith [mul_self_nonneg a, mul_self_nonneg c]
  have hc : -1 ≤ c := by nlinarith [mul_self_nonneg a, mul_self_nonneg b]
  have hc' : c ≤ 1 := by nlinarith [mul_self_nonneg a, mul_self_nonneg b]
  have h1 : a = -1 ∨ a = 0 ∨ a = 1 := by omega
  have h2 : b = -1 ∨ b = 0 ∨ b = 1 := by omega
  have h3 : c = -1 ∨ c = 0 ∨ c = 1 := by omega
  rcases h1 with rfl | rfl | rfl <;> rcases h2 with rfl | rfl | rfl <;> rcases h3 with rfl | rfl | rfl <;>
    simp [rows3] at h ⊢

def m2 (a b : ℤ × ℤ) : Matrix (Fin 2) (Fin 2) ℤ := !![a.1, a.2; b.1, b.2]
def m3 (a b c : ℤ × ℤ × ℤ) : Matrix (Fin 3) (Fin 3) ℤ :=
  !![a.1, a.2.1, a.2.2; b.1, b.2.1, b.2.2; c.1, c.2.1, c.2.2]

theorem orth2 {A : Matrix (Fin 2) (Fin 2) ℤ} (h : Orthogonal A) :
    ∃ a ∈ [((1 : ℤ), (0 : ℤ)), (-1, 0), (0, 1), (0, -1)], ∃ b ∈ [((1 : ℤ), (0 : ℤ)), (-1, 0), (0, 1), (0, -1)],
      A = m2 a b := by
  unfold Orthogonal at h
  have h00 := congrFun (congrFun h 0) 0
  have h11 := congrFun (congrFun h 1) 1
  simp [Matrix.mul_apply, Fin.sum_univ_two] at h00 h11
  refine ⟨(A 0 0, A 0 1), sq2 h00, (A 1 0, A 1 1), sq2 h11, ?_⟩
  ext i j
  fin_cases i <;> fin_cases j <;> simp [m2]

theorem orth3 {A : Matrix (Fin 3) (Fin 3) ℤ} (h : Orthogonal A) :
    ∃ a ∈ rows3, ∃ b ∈ rows3, ∃ c ∈ rows3, A = m3 a b c := by
  unfold Orthogonal at h
  have h00 := congrFun (congrFun h 0) 0
  have h11 := congrFun (congrFun h 1) 1
  have h22 := congrFun (congrFun h 2) 2
  simp [Matrix.mul_apply, Fin.sum_univ_three] at h00 h11 h22
  refine ⟨(A 0 0, A 0 1, A 0 2), sq3 h00, (A 1 0, A 1 1, A 1 2), sq3 h11, (A 2 0, A 2 1, A 2 2), sq3 h22, ?_⟩
  ext i j
  fin_cases i <;> fin_cases j <;> simp [m3]

instance {d : Nat} (A : Matrix (Fin d) (Fin d) ℤ) : Decidable (Orthogonal A) := by unfold Orthogonal; infer_instance

theorem SPerm.moves_pull {d : Nat} {σ : SPerm} (hσ : σ.WF d) {axs s jdx : List Nat} (hl : axs.length = d)
    (hnd : axs.Nodup) (hlt : ∀ a ∈ axs, a < s.length) (hc : σ.Compat (coords axs s))
    (hj : Valid s jdx) : MovesTo (σ.mat d) axs s (σ.pullIdx axs (coords axs s) jdx) jdx := by
  refine ⟨fun i hi => (nth_place_of_not_mem _ _ _ hi).symm, fun j => ?_⟩
  have hinj : Function.Injective (fun k : Fin d => (⟨σ.src k, hσ.src_lt k.2⟩ : Fin d)) := by
    intro k k' h
    simp only [Fin.mk.injEq] at h
    exact Fin.ext (hσ.src_inj k.2 k'.2 h)
  obtain ⟨k, hk⟩ := (Finite.injective_iff_surjective.1 hinj) j
  subst hk
  rw [SPerm.mat_sum hσ k (fun l => centred (nth s (nth axs l)) (nth (σ.pullIdx axs (coords axs s) jdx) (nth axs l)))]
  simp only
  have hka : (k : Nat) < axs.length := by rw [hl]; exact k.2
  have hsa : σ.src k < axs.length := by rw [hl]; exact hσ.src_lt k.2
  have hks : (k : Nat) < σ.length := by rw [hσ.1]; exact k.2
  have e : nth (σ.pullIdx axs (coords axs s) jdx) (nth axs k) =
      nth (σ.pull (coords axs s) (coords axs jdx)) k := by
    unfold SPerm.pullIdx
    rw [nth_place hnd (by rw [SPerm.length_pull, hσ.1, hl]) (by rw [hj.length]; exact hlt) hka]
  have hcc := hc k hks
  rw [nth_coords _ _ hka, nth_coords _ _ hsa] at hcc
  have b2 := hj.lt (hlt _ (nth_mem axs (σ.src k) hsa))
  rw [e, SPerm.nth_pull _ _ _ hks, nth_coords _ _ hka, nth_coords _ _ hsa, hcc]
  unfold centred
  cases hn : σ.neg k <;> simp only [if_true, if_false, Bool.false_eq_true] <;> omega

/-- all candidates for an orthogonal matrix -/
def cand2 : List (Matrix (Fin 2) (Fin 2) ℤ) :=
  let rows := [((1 : ℤ), (0 : ℤ)), (-1, 0), (0, 1), (0, -1)]
  rows.flatMap fun a => rows.map fun b => m2 a b
def cand3 : List (Matrix (Fin 3) (Fin 3) ℤ) := rows3.flatMap fun a => rows3.flatMap fun b => rows3.map fun c => m3 a b c

theorem orth2_cand {A : Matrix (Fin 2) (Fin 2) ℤ} (h : Orthogonal A) : A ∈ cand2 := by
  obtain ⟨a, ha, b, hb, rfl⟩ := orth2 h
  exact List.mem_flatMap.2 ⟨a, ha, List.mem_map.2 ⟨b, hb, rfl⟩⟩

theorem orth3_cand {A : Matrix (Fin 3) (Fin 3) ℤ} (h : Orthogonal A) : A ∈ cand3 := by
  obtain ⟨a, ha, b, hb, c, hc, rfl⟩ := orth3 h
  exact List.mem_flatMap.2 ⟨a, ha, List.mem_flatMap.2 ⟨b, hb, List.mem_map.2 ⟨c, hc, rfl⟩⟩⟩

theorem symmetry_of_table {d N : Nat} (els : List SPerm) (S : Matrix (Fin d) (Fin d) ℤ → Prop)
    (cand : List (Matrix (Fin d) (Fin d) ℤ)) (hcand : ∀ A, S A → A ∈ cand)
    (h1 : ∀ A ∈ cand, S A → ∃ i, i < N ∧ (els.getD i []).mat d = A) (h2 : ∀ i, i < N → S ((els.getD i []).mat d)) :
    ∀ A, S A ↔ ∃ i, i < N ∧ (els.getD i []).mat d = A :=
  fun A => ⟨fun h => h1 A (hcand A h) h, fun ⟨i, hi, e⟩ => e ▸ h2 i hi⟩

theorem GroupName.symmetry_mat (n : GroupName) (A : Matrix (Fin n.dim) (Fin n.dim) ℤ) :
    n.Symmetry A ↔ ∃ i, i < n.group.order ∧ (n.els.getD i []).mat n.dim = A := by
  revert A
  cases n
  case P1 =>
    exact symmetry_of_table (d := 2) p1Els (fun A => A = 1) [1] (by simp) (by decide +kernel) (by decide +kernel)
  case P2 =>
    exact symmetry_of_table (d := 2) p2Els (fun A => A = 1 ∨ A = -1) [1, -1] (by simp) (by decide +kernel)
      (by decide +kernel)
  case PMh =>
    exact symmetry_of_table (d := 2) pmhEls (fun A => A = 1 ∨ A = !![-1, 0; 0, 1]) [1, !![-1, 0; 0, 1]] (by simp)
      (by decide +kernel) (by decide +kernel)
  case PMw =>
    exact symmetry_of_table (d := 2) pmwEls (fun A => A = 1 ∨ A = !![1, 0; 0, -1]) [1, !![1, 0; 0, -1]] (by simp)
      (by decide +kernel) (by decide +kernel)
  case P2MM =>
    exact symmetry_of_table (d := 2) p2mmEls (fun A => Orthogonal A ∧ A 0 1 = 0 ∧ A 1 0 = 0) cand2
      (fun A h => orth2_cand h.1) (by decide +kernel) (by decide +kernel)
  case P4 =>
    exact symmetry_of_table (d := 2) p4Els (fun A => Orthogonal A ∧ A.det = 1) cand2
      (fun A h => orth2_cand h.1) (by simp only [Matrix.det_fin_two]; decide +kernel)
      (by simp only [Matrix.det_fin_two]; decide +kernel)
  case P4M =>
    exact symmetry_of_table (d := 2) p4mEls (fun A => Orthogonal A) cand2
      (fun A h => orth2_cand h) (by decide +kernel) (by decide +kernel)
  case Oh =>
    exact symmetry_of_table (d := 3) ohEls (fun A => Orthogonal A) cand3
      (fun A h => orth3_cand h) (by decide +kernel) (by decide +kernel)
  case O =>
    exact symmetry_of_table (d := 3) oEls (fun A => Orthogonal A ∧ A.det = 1) cand3
      (fun A h => orth3_cand h.1) (by simp only [Matrix.det_fin_three]; decide +kernel)
      (by simp only [Matrix.det_fin_three]; decide +kernel)
  case D4h =>
    exact symmetry_of_table (d := 3) d4hEls (fun A => Orthogonal A ∧ A 2 0 = 0 ∧ A 2 1 = 0) cand3
      (fun A h => orth3_cand h.1) (by decide +kernel) (by decide +kernel)
  case D4 =>
    exact symmetry_of_table (d := 3) d4Els (fun A => Orthogonal A ∧ A 2 0 = 0 ∧ A 2 1 = 0 ∧ A.det = 1) cand3
      (fun A h => orth3_cand h.1) (by simp only [Matrix.det_fin_three]; decide +kernel)
      (by simp only [Matrix.det_fin_three]; decide +kernel)

theorem SPerm.mat_inj {d : Nat} {σ τ : SPerm} (hσ : σ.WF d) (hτ : τ.WF d) (h : σ.mat d = τ.mat d) : σ = τ := by
  apply List.ext_getElem
  · rw [hσ.1, hτ.1]
  · intro k h1 h2
    have hk : k < d := by rw [← hσ.1]; exact h1
    have e := congrFun (congrFun h ⟨σ.src k, hσ.src_lt hk⟩) ⟨k, hk⟩
    simp only [mat, if_true] at e
    have es : τ.src k = σ.src k := by
      by_contra hne
      simp only [hne, if_false] at e
      split at e <;> simp at e
    simp only [es, if_true] at e
    have en : σ.neg k = τ.neg k := by
      cases h3 : σ.neg k <;> cases h4 : τ.neg k <;> simp [h3, h4] at e ⊢
    have e1 : σ[k] = (σ.src k, σ.neg k) := by simp [src, neg, h1]
    have e2 : τ[k] = (τ.src k, τ.neg k) := by simp [src, neg, h2]
    rw [e1, e2, es, en]

/-- The matrix of element `i` of group `n`; what it does to pixels is stated by `C03_rigid_motion`. -/
def GroupName.motion (n : GroupName) (i : Nat) : Matrix (Fin n.dim) (Fin n.dim) ℤ := (n.els.getD i []).mat n.dim

theorem GroupName.elPull_of_moves (n : GroupName) {i : Nat} (hi : i < n.group.order) {axs s idx jdx : List Nat}
    (hax : AxesOk n.dim s.length axs) (hgrid : n.Grid (axs.map (nth s))) (hv : Valid s idx) (hj : Valid s jdx)
    (hm : MovesTo (n.motion i) axs s idx jdx) : elPull n.els axs (coords axs s) i jdx = idx :=
  SPerm.moves (n.sym.tab.wfi hi) hax.1 hax.2.1 hax.2.2.1
    (n.sym.compat _ hgrid _ (getD_mem (by rw [n.sym.tab.len]; exact hi))) hv hj hm

end GroCo
