import Mathlib.Tactic.Ring
import Mathlib.Tactic.Linarith
import Verif.Padding
import Verif.Keras

/-
Helper lemmas about the padding model.
-/

namespace GroCo
open Tensor

/-! ### vocabulary of the statements -/

/-- The shape of a batch of signals on a grid with sizes `sp`, batch size `b` and number of channels `c`; `none` is a
size unknown when the layer is built. -/
def signalShape (channelsLast : Bool) (b c : Option Nat) (sp : List Nat) : List (Option Nat) :=
  if channelsLast then b :: (sp.map some ++ [c]) else b :: c :: sp.map some

/-- Axis of spatial dimension `i`. -/
def spatialAxis (channelsLast : Bool) (i : Nat) : Nat := if channelsLast then i + 1 else i + 2

/-- Zeros added before and after axis `a` by a built padding layer. -/
def PadState.amount (st : PadState) (a : Nat) : Int × Int := if st.needsPadding then st.pads.getD a (0, 0) else (0, 0)

/-- Zeros Keras itself adds to an axis of size `n`, given the option handed to it. -/
def builtIn (o : PadOption) (n k s : Nat) : Nat :=
  match o with
  | .same | .sameEquiv => sameTotal n k s
  | .valid | .validEquiv => 0

/-- `T` zeros in total keep the sampling of an axis of size `n` symmetric: the same number on both sides is possible,
and the windows end exactly at the end. -/
def Symmetric (n k s T : Nat) : Prop := T % 2 = 0 ∧ ((n : Int) + T - k) % s = 0

/-- A padding layer and a grid it is built on: matching numbers of dimensions, positive strides. -/
structure EquivariantPadding.Fits (p : EquivariantPadding) (sp : List Nat) : Prop where
  dims : p.dimensions = sp.length
  kernels : p.kernelSizes.length = sp.length
  strs : p.strides.length = sp.length
  pos : ∀ s ∈ p.strides, 0 < s

theorem mapM_some_ok (f : Option Nat → Res Nat) (hf : ∀ n, f (some n) = .ok n) (l : List Nat) :
    (l.map some).mapM f = .ok l := by
  induction l with
  | nil => rfl
  | cons n l ih => simp only [List.map_cons, List.mapM_cons, hf, res_bind_ok, ih, res_pure]

theorem EquivariantPadding.spatialShape_ok (p : EquivariantPadding) (b c : Option Nat) (sp : List Nat)
    (hd : p.dimensions = sp.length) : p.spatialShape (signalShape p.channelsLast b c sp) = .ok sp := by
  unfold spatialShape signalShape
  rcases p.channelsLast with _ | _
  · simp only [Bool.false_eq_true, if_false, List.drop_succ_cons, List.drop_zero]
    exact mapM_some_ok _ (fun _ => rfl) _
  · simp only [if_true, List.drop_succ_cons, List.drop_zero, hd]
    rw [List.take_left' (by simp)]
    exact mapM_some_ok _ (fun _ => rfl) _

/-- paddings (extra, total) of axis `i` -/
def EquivariantPadding.padAt (p : EquivariantPadding) (sp : List Nat) (i : Nat) : Int × Int :=
  computeEquivariantPadding p.paddingOption p.transpose (nth sp i) (nth p.kernelSizes i) (nth p.strides i)

theorem EquivariantPadding.build_eq (p : EquivariantPadding) (b c : Option Nat) {sp : List Nat} (hf : p.Fits sp) :
    p.build (signalShape p.channelsLast b c sp) =
      if (p.paddingOption = .same ∨ p.paddingOption = .valid) ∧ p.allowNonEquivariance then .ok ⟨false, []⟩
      else if ∀ i, i < sp.length → (p.padAt sp i).1 = 0 then .ok ⟨false, []⟩
      else if p.paddingOption = .same ∨ p.paddingOption = .valid then .error .value
      else if ∃ i, i < sp.length ∧ (p.padAt sp i).2 % 2 ≠ 0 then
        .error (if p.paddingOption = .sameEquiv then .attribute else .value)
      else .ok ⟨true, splitPadding p.channelsLast ((List.range sp.length).map fun i => (p.padAt sp i).1)⟩ := by
  unfold EquivariantPadding.build
  have e1 : p.paddingOption = .same ∨ p.paddingOption = .valid → paddingException p.paddingOption = .value := by
    rintro (h | h) <;> rw [h] <;> rfl
  have e2 : paddingException p.paddingOption = if p.paddingOption = .sameEquiv then .attribute else .value := by
    cases p.paddingOption <;> rfl
  have e3 : (∀ e ∈ (List.range sp.length).map (p.padAt sp), e.1 = 0) ↔ ∀ i, i < sp.length → (p.padAt sp i).1 = 0 := by
    simp
  have e4 : (∃ e ∈ (List.range sp.length).map (p.padAt sp), e.2 % 2 ≠ 0) ↔
      ∃ i, i < sp.length ∧ (p.padAt sp i).2 % 2 ≠ 0 := by
    simp
  by_cases h0 : (p.paddingOption = .same ∨ p.paddingOption = .valid) ∧ p.allowNonEquivariance
  · rw [if_pos h0, if_pos h0]; rfl
  rw [if_neg h0, if_neg h0, p.spatialShape_ok b c sp hf.dims, res_bind_ok,
    if_neg (by have h1 := hf.kernels; have h2 := hf.strs; omega)]
  show (if ∀ e ∈ (List.range sp.length).map (p.padAt sp), e.1 = 0 then _ else _) = _
  by_cases h1 : ∀ i, i < sp.length → (p.padAt sp i).1 = 0
  · rw [if_pos (e3.2 h1), if_pos h1]; rfl
  rw [if_neg (fun h => h1 (e3.1 h)), if_neg h1]
  by_cases h2 : p.paddingOption = .same ∨ p.paddingOption = .valid
  · rw [if_pos h2, if_pos h2, e1 h2]
  rw [if_neg h2, if_neg h2]
  show (if ∃ e ∈ (List.range sp.length).map (p.padAt sp), e.2 % 2 ≠ 0 then _ else _) = _
  by_cases h3 : ∃ i, i < sp.length ∧ (p.padAt sp i).2 % 2 ≠ 0
  · rw [if_pos (e4.2 h3), if_pos h3, e2]
  · rw [if_neg (fun h => h3 (e4.1 h)), if_neg h3, List.map_map]; rfl

/-! ### arithmetic on one axis -/

theorem extra_nonneg (n k b : Int) {s : Int} (hs : 0 < s) : 0 ≤ (computeExtraPadding n k s b).1 := by
  unfold computeExtraPadding
  have h1 := Int.emod_nonneg (-(n + b - k)) (by omega : s ≠ 0)
  have h2 := Int.emod_nonneg ((-(n + b - k)) % s + b) (by omega : (2 : Int) ≠ 0)
  have := Int.mul_nonneg h2 hs.le
  simp only
  omega

theorem extra_total (n k b s : Int) : (computeExtraPadding n k s b).2 = (computeExtraPadding n k s b).1 + b := rfl

theorem extra_aligned (n k b s : Int) : (n + (computeExtraPadding n k s b).2 - k) % s = 0 := by
  unfold computeExtraPadding
  simp only
  have e : n + (-(n + b - k) % s + (-(n + b - k) % s + b) % 2 * s + b) - k
      = (n + b - k) + (-(n + b - k)) % s + s * ((-(n + b - k) % s + b) % 2) := by ring
  rw [e, Int.add_mul_emod_self_left, Int.add_emod, Int.emod_emod, ← Int.add_emod]
  simp

/-- The extra padding is 0 exactly when the built-in padding is even and aligned. -/
theorem extra_eq_zero (n k b : Int) {s : Int} (hs : 0 < s) :
    (computeExtraPadding n k s b).1 = 0 ↔ b % 2 = 0 ∧ (n + b - k) % s = 0 := by
  have ha := extra_aligned n k b s
  have ht := extra_total n k b s
  constructor
  · intro h
    rw [ht, h, zero_add] at ha
    refine ⟨?_, ha⟩
    unfold computeExtraPadding at h
    simp only at h
    have h0 : -(n + b - k) % s = 0 := by
      rw [Int.neg_emod_eq_sub_emod]; rw [Int.sub_emod, ha]; simp
    rw [h0, zero_add, zero_add] at h
    rcases Int.mul_eq_zero.1 h with h | h <;> omega
  · rintro ⟨h1, h2⟩
    unfold computeExtraPadding
    have h0 : -(n + b - k) % s = 0 := by
      rw [Int.neg_emod_eq_sub_emod]; rw [Int.sub_emod, h2]; simp
    simp only [h0, h1, zero_add, zero_mul]

/-- The total padding is the smallest one at least `b` that is even and aligned, if one exists. -/
theorem total_minimal (n k b : Int) {s : Int} (hs : 0 < s) {t : Int} (hb : b ≤ t) (he : t % 2 = 0)
    (ha : (n + t - k) % s = 0) : (computeExtraPadding n k s b).2 % 2 = 0 ∧ (computeExtraPadding n k s b).2 ≤ t := by
  obtain ⟨q, hq⟩ : ∃ q, t = (-(n + b - k)) % s + b + q * s := by
    have h1 : (t - b - (-(n + b - k)) % s) % s = 0 := by
      rw [Int.sub_emod, Int.emod_emod, ← Int.sub_emod]
      have : t - b - -(n + b - k) = n + t - k := by ring
      rw [this, ha]
    obtain ⟨q, hq⟩ := Int.dvd_of_emod_eq_zero h1
    exact ⟨q, by rw [mul_comm q]; omega⟩
  have hr0 := Int.emod_nonneg (-(n + b - k)) (by omega : s ≠ 0)
  have hr1 := Int.emod_lt_of_pos (-(n + b - k)) hs
  have hq0 : 0 ≤ q := by
    by_contra hneg
    have : q * s ≤ -1 * s := Int.mul_le_mul_of_nonneg_right (by omega) hs.le
    omega
  unfold computeExtraPadding
  simp only
  generalize -(n + b - k) % s = r at *
  rcases Int.emod_two_eq_zero_or_one (r + b) with h | h
  · rw [h]
    refine ⟨by omega, ?_⟩
    have := Int.mul_nonneg hq0 hs.le
    omega
  · rw [h]
    have hq1 : q ≠ 0 := by rintro rfl; omega
    have h2 : (q * s) % 2 = 1 := by omega
    have h3 : s % 2 = 1 := by
      rcases Int.emod_two_eq_zero_or_one s with h3 | h3
      · rw [Int.mul_emod, h3] at h2; simp at h2
      · exact h3
    have : 1 * s ≤ q * s := Int.mul_le_mul_of_nonneg_right (by omega) hs.le
    refine ⟨by omega, by omega⟩


/-! ### the padding Keras adds for padding='same' -/

/-- The 'same' padding computed by the library is the one Keras adds. -/
theorem builtIn_same (n k s : Nat) (hs : 0 < s) : relu ((k : Int) - s + (-(n : Int)) % s) = sameTotal n k s := by
  unfold relu sameTotal
  have hr := Nat.mod_lt n hs
  have e : (-(n : Int)) % s = if n % s = 0 then 0 else (s : Int) - (n % s : Nat) := by
    rw [Int.neg_emod_eq_sub_emod]
    split
    · rename_i h
      rw [Int.sub_emod]
      have : (n : Int) % s = 0 := by exact_mod_cast h
      rw [this]; simp
    · rename_i h
      rw [Int.sub_emod, Int.emod_self, zero_sub, Int.neg_emod_eq_sub_emod]
      have h1 : ((n : Int) % s) % s = ((n % s : Nat) : Int) := by push_cast; rw [Int.emod_emod]
      have h2 : ((n : Int) % s) = ((n % s : Nat) : Int) := by push_cast; rfl
      rw [h2]
      apply Int.emod_eq_of_lt <;> omega
  rw [e]
  split <;> omega

/-- Keras adds the same amount to the input extended by the extra padding, as the library assumed for the input. -/
theorem same_stable (n k s : Nat) (hs : 0 < s) :
    sameTotal (n + (computeExtraPadding n k s (sameTotal n k s)).1.toNat) k s = sameTotal n k s := by
  have he := extra_nonneg n k (sameTotal n k s) (s := s) (by omega)
  obtain ⟨e, hee⟩ : ∃ e : Nat, (computeExtraPadding n k s (sameTotal n k s)).1 = e := ⟨_, (Int.toNat_of_nonneg he).symm⟩
  have ha := extra_aligned n k (sameTotal n k s) s
  rw [extra_total, hee] at ha
  have hmod : ∃ q, e = (-((n : Int) + sameTotal n k s - k)) % s + q * s := by
    rw [← hee]; exact ⟨_, rfl⟩
  rw [hee, Int.toNat_natCast]
  obtain ⟨q, hq⟩ := hmod
  have hr := Nat.mod_lt n hs
  by_cases hb : sameTotal n k s = 0
  · -- nothing built in: the padded size is congruent to the kernel size
    rw [hb]
    rw [hb] at ha hq
    have hb' := hb
    unfold sameTotal at hb ⊢
    have hks : k ≤ s := by split at hb <;> omega
    have h2 : ((n + e : Nat) : Int) % s = (k : Int) % s := by
      have h3 : ((n : Int) + ((e : Int) + (0 : Nat)) - k) % s = 0 := ha
      have : (((n + e : Nat) : Int) - k) % s = 0 := by
        rw [← h3]; congr 1
      exact Int.emod_eq_emod_iff_emod_sub_eq_zero.2 this
    have h4 : (n + e) % s = k % s := by exact_mod_cast h2
    rw [h4]
    rcases Nat.lt_or_eq_of_le hks with h | h
    · rw [Nat.mod_eq_of_lt h]
      split <;> omega
    · subst h; simp
  · -- aligned already: the extra padding is a multiple of the stride
    have h0 : (-((n : Int) + sameTotal n k s - k)) % s = 0 := by
      have h1 : ((n : Int) + sameTotal n k s - k) % s = 0 := by
        have : (n : Int) + sameTotal n k s - k = s * (if n % s = 0 then ((n / s : Nat) : Int) - 1 else (n / s : Nat)) := by
          have hdm := Nat.div_add_mod n s
          have hdm' : (n : Int) = s * (n / s : Nat) + (n % s : Nat) := by exact_mod_cast hdm.symm
          unfold sameTotal at hb ⊢
          split
          · rename_i h
            rw [if_pos h] at hb
            rw [h] at hdm'
            rw [hdm']; push_cast [Nat.le_of_lt (Nat.lt_of_sub_ne_zero hb)]; ring
          · rename_i h
            rw [if_neg h] at hb
            have hle := Nat.le_of_lt (Nat.lt_of_sub_ne_zero hb)
            rw [Nat.cast_sub hle]
            omega
        rw [this, Int.mul_emod_right]
      rw [Int.neg_emod_eq_sub_emod, Int.sub_emod, h1]; simp
    rw [h0, zero_add] at hq
    have hq0 : 0 ≤ q := by
      by_contra h
      have : q * s ≤ -1 * s := Int.mul_le_mul_of_nonneg_right (by omega) (by omega)
      omega
    obtain ⟨m, rfl⟩ := Int.eq_ofNat_of_zero_le hq0
    have : e = m * s := by exact_mod_cast hq
    unfold sameTotal
    rw [this, Nat.add_mul_mod_self_right]

end GroCo
