import Verif.PaddingLemmas
import Verif.Read

/-
Properties C16–C21 of `EquivariantPadding` (groco/layers/padding.py).
`p.build (signalShape p.channelsLast b c sp)` is `build` on an input with spatial sizes `sp`, batch size `b` and `c`
channels (`none` if unknown); `st.amount a` are the numbers of zeros the built layer adds before and after axis `a`
(`amount_is_what_call_pads` below); `samePads` is what Keras adds for padding='same'.
-/

namespace GroCo
open Tensor

variable {α : Type}

theorem getD_splitPadding (l : Bool) (e : List Int) (i : Nat) (hi : i < e.length) :
    (splitPadding l e).getD (spatialAxis l i) (0, 0) = (e.getD i 0 - e.getD i 0 / 2, e.getD i 0 / 2) := by
  unfold splitPadding spatialAxis
  cases l
  · simp [List.getD_eq_getElem?_getD, hi]
  · simp [List.getD_eq_getElem?_getD, List.getElem?_append, hi]

theorem getD_splitPadding_other (l : Bool) (e : List Int) (a : Nat) (ha : ∀ i, i < e.length → a ≠ spatialAxis l i) :
    (splitPadding l e).getD a (0, 0) = (0, 0) := by
  unfold splitPadding
  unfold spatialAxis at ha
  cases l
  · simp only [Bool.false_eq_true, if_false] at ha ⊢
    rcases a with _ | _ | a
    · simp
    · simp
    · have : e.length ≤ a := by
        by_contra h
        exact ha a (by omega) rfl
      simp [List.getD_eq_getElem?_getD, this]
  · simp only [if_true] at ha ⊢
    rcases a with _ | a
    · simp
    · have : e.length ≤ a := by
        by_contra h
        exact ha a (by omega) rfl
      simp only [List.getD_eq_getElem?_getD, List.map_append, List.map_cons, List.map_nil, List.cons_append,
        List.nil_append, List.getElem?_cons_succ]
      rw [List.getElem?_append_right (by simpa using this)]
      rcases h : a - e.length with _ | m <;> simp [h]

/-- What a successful build means: on every axis the amounts are the extra padding, the odd one before, and the total
padding is even. Or nothing is padded because the user insisted. -/
theorem build_amount {p : EquivariantPadding} {b c : Option Nat} {sp : List Nat} (hf : p.Fits sp) {st : PadState}
    (h : p.build (signalShape p.channelsLast b c sp) = .ok st)
    (hn : ¬ ((p.paddingOption = .same ∨ p.paddingOption = .valid) ∧ p.allowNonEquivariance = true)) :
    (∀ i, i < sp.length → st.amount (spatialAxis p.channelsLast i) =
      ((p.padAt sp i).1 - (p.padAt sp i).1 / 2, (p.padAt sp i).1 / 2) ∧ (p.padAt sp i).2 % 2 = 0 ∧
      0 ≤ (p.padAt sp i).1) ∧
    ∀ a, (∀ i, i < sp.length → a ≠ spatialAxis p.channelsLast i) → st.amount a = (0, 0) := by
  have hs : ∀ i, i < sp.length → (0 : Int) < nth p.strides i := fun i hi => by
    exact_mod_cast hf.pos _ (nth_mem _ _ (by rw [hf.strs]; exact hi))
  rw [p.build_eq b c hf, if_neg hn] at h
  split at h
  · rename_i h0
    cases h
    refine ⟨fun i hi => ⟨?_, ?_, (h0 i hi).ge⟩, fun a _ => rfl⟩
    · rw [h0 i hi]; rfl
    · have := (extra_eq_zero _ _ _ (hs i hi)).1 (h0 i hi)
      have e : (p.padAt sp i).2 = (p.padAt sp i).1 + computeBuiltInPadding p.paddingOption p.transpose (nth sp i)
        (nth p.kernelSizes i) (nth p.strides i) := rfl
      rw [e, h0 i hi]
      omega
  · split at h
    · exact absurd h (by simp)
    · split at h
      · exact absurd h (by simp)
      · rename_i h3
        cases h
        refine ⟨fun i hi => ⟨?_, ?_, extra_nonneg _ _ _ (hs i hi)⟩, fun a ha => ?_⟩
        · show (splitPadding _ _).getD _ _ = _
          rw [getD_splitPadding _ _ _ (by simpa using hi)]
          simp [List.getD_eq_getElem?_getD, hi]
        · by_contra hc
          exact h3 ⟨i, hi, hc⟩
        · exact getD_splitPadding_other _ _ _ (by simpa using ha)

/-- C16: with 'valid_equiv', a build that succeeds pads every spatial axis equally on both sides, and the windows end
exactly at the end of the padded axis. -/
theorem C16_valid_equiv_symmetric (p : EquivariantPadding) (hp : p.paddingOption = .validEquiv)
    (ht : p.transpose = false) (b c : Option Nat) (sp : List Nat) (hf : p.Fits sp) (st : PadState)
    (h : p.build (signalShape p.channelsLast b c sp) = .ok st) (i : Nat) (hi : i < sp.length) :
    let (before, after) := st.amount (spatialAxis p.channelsLast i)
    0 ≤ before ∧ before = after ∧
      ((nth sp i : Int) + (before + after) - nth p.kernelSizes i) % nth p.strides i = 0 := by
  obtain ⟨h1, h2, h3⟩ := (build_amount hf h (by rw [hp]; simp)).1 i hi
  have ha := extra_aligned (nth sp i) (nth p.kernelSizes i)
    (computeBuiltInPadding p.paddingOption p.transpose (nth sp i) (nth p.kernelSizes i) (nth p.strides i))
    (nth p.strides i)
  have e : (p.padAt sp i).2 = (p.padAt sp i).1 := by
    unfold EquivariantPadding.padAt computeEquivariantPadding
    rw [extra_total, hp, ht]
    simp [computeBuiltInPadding]
  rw [show (computeExtraPadding _ _ _ _).2 = (p.padAt sp i).2 from rfl, e] at ha
  rw [e] at h2
  rw [h1]
  generalize (p.padAt sp i).1 = q at *
  refine ⟨by omega, by omega, ?_⟩
  have : q - q / 2 + q / 2 = q := by omega
  rw [this, ha]

example : ∃ st, (EquivariantPadding.mk .validEquiv false 2 [3, 2] [4, 2] true false).build
    (signalShape true none (some 5) [6, 10]) = .ok st ∧ st.amount 1 = (2, 2) :=
  ⟨⟨true, [(0, 0), (2, 2), (0, 0), (0, 0)]⟩, by decide, by decide⟩

/-- C17: with 'same_equiv', a build that succeeds pads such that together with what Keras adds to the padded input every
spatial axis is padded equally on both sides, and the windows end exactly at the end. -/
theorem C17_same_equiv_symmetric (p : EquivariantPadding) (hp : p.paddingOption = .sameEquiv)
    (b c : Option Nat) (sp : List Nat) (hf : p.Fits sp) (st : PadState)
    (h : p.build (signalShape p.channelsLast b c sp) = .ok st) (i : Nat) (hi : i < sp.length) :
    let (before, after) := st.amount (spatialAxis p.channelsLast i)
    let keras := samePads (nth sp i + (before + after).toNat) (nth p.kernelSizes i) (nth p.strides i)
    0 ≤ before ∧ 0 ≤ after ∧ before + keras.1 = after + keras.2 ∧
      ((nth sp i : Int) + (before + after) + (keras.1 + keras.2) - nth p.kernelSizes i) % nth p.strides i = 0 := by
  obtain ⟨h1, h2, h3⟩ := (build_amount hf h (by rw [hp]; simp)).1 i hi
  have hs : 0 < nth p.strides i := hf.pos _ (nth_mem _ _ (by rw [hf.strs]; exact hi))
  have e0 : computeBuiltInPadding p.paddingOption p.transpose (nth sp i) (nth p.kernelSizes i) (nth p.strides i) =
      sameTotal (nth sp i) (nth p.kernelSizes i) (nth p.strides i) := by
    rw [hp]; exact builtIn_same _ _ _ hs
  have ep : p.padAt sp i = computeExtraPadding (nth sp i) (nth p.kernelSizes i) (nth p.strides i)
      (sameTotal (nth sp i) (nth p.kernelSizes i) (nth p.strides i)) := by
    unfold EquivariantPadding.padAt computeEquivariantPadding; rw [e0]
  have ha := extra_aligned (nth sp i) (nth p.kernelSizes i) (sameTotal (nth sp i) (nth p.kernelSizes i) (nth p.strides i))
    (nth p.strides i)
  have hst := same_stable (nth sp i) (nth p.kernelSizes i) (nth p.strides i) hs
  rw [← ep, show (p.padAt sp i).2 = (p.padAt sp i).1 + sameTotal (nth sp i) (nth p.kernelSizes i) (nth p.strides i) by
    rw [ep, extra_total]] at ha
  rw [show (p.padAt sp i).2 = (p.padAt sp i).1 + sameTotal (nth sp i) (nth p.kernelSizes i) (nth p.strides i) by
    rw [ep, extra_total]] at h2
  rw [← ep] at hst
  rw [h1]
  simp only [samePads]
  generalize (p.padAt sp i).1 = q at *
  have eq : q - q / 2 + q / 2 = q := by omega
  rw [eq, hst]
  generalize sameTotal (nth sp i) (nth p.kernelSizes i) (nth p.strides i) = t at *
  refine ⟨by omega, by omega, by omega, ?_⟩
  rw [← ha]
  congr 1
  omega

example : ∃ st, (EquivariantPadding.mk .sameEquiv false 2 [3, 1] [4, 4] true false).build
    (signalShape true none (some 5) [6, 10]) = .ok st ∧ st.amount 1 = (2, 1) ∧ st.amount 2 = (1, 0) :=
  ⟨⟨true, [(0, 0), (2, 1), (1, 0), (0, 0)]⟩, by decide, by decide, by decide⟩

theorem padAt_eq {p : EquivariantPadding} {sp : List Nat} (hf : p.Fits sp) (ht : p.transpose = false) {i : Nat}
    (hi : i < sp.length) : p.padAt sp i = computeExtraPadding (nth sp i) (nth p.kernelSizes i) (nth p.strides i)
      (builtIn p.paddingOption (nth sp i) (nth p.kernelSizes i) (nth p.strides i)) := by
  have hs : 0 < nth p.strides i := hf.pos _ (nth_mem _ _ (by rw [hf.strs]; exact hi))
  unfold EquivariantPadding.padAt computeEquivariantPadding
  rw [ht]
  congr 1
  cases p.paddingOption
  · exact builtIn_same _ _ _ hs
  · rfl
  · exact builtIn_same _ _ _ hs
  · rfl

theorem symmetric_total (n k s b : Nat) (hs : 0 < s) (h : (computeExtraPadding n k s b).2 % 2 = 0) :
    Symmetric n k s ((computeExtraPadding n k s b).1.toNat + b) := by
  have h0 := extra_nonneg n k b (s := s) (by omega)
  have ha := extra_aligned n k b s
  rw [extra_total] at h ha
  obtain ⟨e, he⟩ := Int.eq_ofNat_of_zero_le h0
  rw [he] at h ha ⊢
  constructor
  · simp; omega
  · rw [← ha]; rfl

theorem exists_symmetric (n k s b : Nat) (hs : 0 < s) :
    (∃ T, Symmetric n k s T) ↔ (computeExtraPadding n k s b).2 % 2 = 0 := by
  constructor
  · rintro ⟨T, h1, h2⟩
    refine (total_minimal n k b (s := s) (by omega) (t := (T + b * (2 * s) : Nat)) ?_ ?_ ?_).1
    · have : b * 1 ≤ b * (2 * s) := Nat.mul_le_mul_left _ (by omega)
      omega
    · have : (T + b * (2 * s)) % 2 = 0 := by
        rw [Nat.add_mod, h1, ← Nat.mul_assoc, Nat.mul_comm b 2, Nat.mul_assoc, Nat.mul_mod_right]
      exact_mod_cast this
    · have : (n : Int) + ((T + b * (2 * s) : Nat) : Int) - k = (n + T - k) + s * (b * 2) := by push_cast; ring
      rw [this, Int.add_mul_emod_self_left, h2]
  · intro h
    exact ⟨_, symmetric_total n k s b hs h⟩

/-- C18: the extra padding (before + after) on each axis is the smallest amount that together with Keras's own padding
keeps the axis symmetric; it is also what Keras's padding of the extended axis adds up to. -/
theorem C18_minimal (p : EquivariantPadding) (hp : p.paddingOption = .sameEquiv ∨ p.paddingOption = .validEquiv)
    (ht : p.transpose = false) (b c : Option Nat) (sp : List Nat) (hf : p.Fits sp) (st : PadState)
    (h : p.build (signalShape p.channelsLast b c sp) = .ok st) (i : Nat) (hi : i < sp.length) :
    let n := nth sp i
    let k := nth p.kernelSizes i
    let s := nth p.strides i
    ∃ e : Nat, (st.amount (spatialAxis p.channelsLast i)).1 + (st.amount (spatialAxis p.channelsLast i)).2 = e ∧
      builtIn p.paddingOption (n + e) k s = builtIn p.paddingOption n k s ∧
      Symmetric n k s (e + builtIn p.paddingOption n k s) ∧
      ∀ e' : Nat, Symmetric n k s (e' + builtIn p.paddingOption n k s) → e ≤ e' := by
  intro n k s
  have hs : 0 < nth p.strides i := hf.pos _ (nth_mem _ _ (by rw [hf.strs]; exact hi))
  obtain ⟨h1, h2, h3⟩ := (build_amount hf h (by rcases hp with hp | hp <;> rw [hp] <;> simp)).1 i hi
  rw [h1]
  rw [padAt_eq hf ht hi] at *
  refine ⟨(computeExtraPadding n k s (builtIn p.paddingOption n k s)).1.toNat, ?_, ?_, ?_, ?_⟩
  · rw [Int.toNat_of_nonneg h3]; show _ - _ / 2 + _ / 2 = _; omega
  · rcases hp with hp | hp
    · rw [hp]; exact same_stable n k s hs
    · rw [hp]; rfl
  · exact symmetric_total n k s _ hs h2
  · rintro e' ⟨g1, g2⟩
    have := (total_minimal n k (builtIn p.paddingOption n k s) (s := s) (by exact_mod_cast hs)
      (t := (e' + builtIn p.paddingOption n k s : Nat)) (by omega) (by exact_mod_cast g1) g2).2
    rw [extra_total] at this
    omega

/-- C19 (the part that holds): with 'valid_equiv' or 'same_equiv' building fails exactly when on some axis no amount of
padding is symmetric. With 'valid_equiv' the exception is a ValueError; with 'same_equiv' it is not, see
`C19_violation`. -/
theorem C19_refused_partial (p : EquivariantPadding)
    (hp : p.paddingOption = .sameEquiv ∨ p.paddingOption = .validEquiv) (ht : p.transpose = false)
    (b c : Option Nat) (sp : List Nat) (hf : p.Fits sp) :
    ((∃ e, p.build (signalShape p.channelsLast b c sp) = .error e) ↔
      ∃ i, i < sp.length ∧ ¬ ∃ T, Symmetric (nth sp i) (nth p.kernelSizes i) (nth p.strides i) T) ∧
    (p.paddingOption = .validEquiv →
      ∀ e, p.build (signalShape p.channelsLast b c sp) = .error e → e = .value) := by
  have key : ∀ i, i < sp.length → ((∃ T, Symmetric (nth sp i) (nth p.kernelSizes i) (nth p.strides i) T) ↔
      (p.padAt sp i).2 % 2 = 0) := fun i hi => by
    rw [padAt_eq hf ht hi]
    exact exists_symmetric _ _ _ _ (hf.pos _ (nth_mem _ _ (by rw [hf.strs]; exact hi)))
  have h0 : ¬ (p.paddingOption = .same ∨ p.paddingOption = .valid) := by
    rcases hp with hp | hp <;> rw [hp] <;> simp
  have hz : (∀ i, i < sp.length → (p.padAt sp i).1 = 0) → ¬ ∃ i, i < sp.length ∧ (p.padAt sp i).2 % 2 ≠ 0 := by
    rintro hz ⟨i, hi, h⟩
    have hs : 0 < nth p.strides i := hf.pos _ (nth_mem _ _ (by rw [hf.strs]; exact hi))
    have := hz i hi
    rw [padAt_eq hf ht hi] at this h
    have h' := (extra_eq_zero _ _ _ (by exact_mod_cast hs)).1 this
    rw [extra_total] at h
    omega
  rw [p.build_eq b c hf, if_neg (fun h => h0 h.1), if_neg h0]
  constructor
  · rw [show (∃ i, i < sp.length ∧ ¬ ∃ T, Symmetric (nth sp i) (nth p.kernelSizes i) (nth p.strides i) T) ↔
      ∃ i, i < sp.length ∧ (p.padAt sp i).2 % 2 ≠ 0 from
        ⟨fun ⟨i, hi, h⟩ => ⟨i, hi, fun h' => h ((key i hi).2 h')⟩, fun ⟨i, hi, h⟩ => ⟨i, hi, fun h' => h ((key i hi).1 h')⟩⟩]
    by_cases h1 : ∀ i, i < sp.length → (p.padAt sp i).1 = 0
    · rw [if_pos h1]
      have := hz h1
      simp only [this, iff_false]
      rintro ⟨e, he⟩
      exact absurd he (by simp)
    · rw [if_neg h1]
      split
      · rename_i h2
        exact ⟨fun _ => h2, fun _ => ⟨_, rfl⟩⟩
      · rename_i h2
        simp only [h2, iff_false]
        rintro ⟨e, he⟩
        exact absurd he (by simp)
  · intro hv e he
    split at he
    · exact absurd he (by simp)
    · split at he
      · rw [hv] at he
        cases he; rfl
      · exact absurd he (by simp)

/-- size 3, kernel 2, stride 2 has no symmetric padding; size 6, kernel 4, stride 3 has -/
example : (EquivariantPadding.mk .validEquiv false 1 [2] [2] true false).build (signalShape true none none [3]) =
    .error .value ∧
  (EquivariantPadding.mk .validEquiv false 1 [3] [4] true false).build (signalShape true none none [6]) =
    .ok ⟨true, [(0, 0), (2, 2), (0, 0)]⟩ := by decide

/-- C19 fails for 'same_equiv': on an axis of size 4 with kernel 3 and stride 2 no padding is symmetric, and building
raises AttributeError instead of the ValueError it intends to raise. -/
theorem C19_violation :
    (¬ ∃ T, Symmetric 4 3 2 T) ∧
    (EquivariantPadding.mk .sameEquiv false 2 [2, 2] [3, 3] true false).build (signalShape true none (some 1) [4, 4]) =
      .error .attribute := by
  refine ⟨?_, by decide⟩
  rintro ⟨T, h1, h2⟩
  omega

/-- C20: plain 'valid' or 'same' with allow_non_equivariance=False is refused with a ValueError exactly when Keras's
padding is not symmetric on some axis, and otherwise pads nothing. -/
theorem C20_refused (p : EquivariantPadding) (hp : p.paddingOption = .same ∨ p.paddingOption = .valid)
    (hn : p.allowNonEquivariance = false) (ht : p.transpose = false) (b c : Option Nat) (sp : List Nat)
    (hf : p.Fits sp) :
    (p.build (signalShape p.channelsLast b c sp) = .error .value ↔ ∃ i, i < sp.length ∧
      ¬ Symmetric (nth sp i) (nth p.kernelSizes i) (nth p.strides i)
        (builtIn p.paddingOption (nth sp i) (nth p.kernelSizes i) (nth p.strides i))) ∧
    ((∀ i, i < sp.length → Symmetric (nth sp i) (nth p.kernelSizes i) (nth p.strides i)
        (builtIn p.paddingOption (nth sp i) (nth p.kernelSizes i) (nth p.strides i))) →
      ∃ st, p.build (signalShape p.channelsLast b c sp) = .ok st ∧ ∀ a, st.amount a = (0, 0)) := by
  have key : ∀ i, i < sp.length → (Symmetric (nth sp i) (nth p.kernelSizes i) (nth p.strides i)
      (builtIn p.paddingOption (nth sp i) (nth p.kernelSizes i) (nth p.strides i)) ↔ (p.padAt sp i).1 = 0) :=
    fun i hi => by
    have hs : 0 < nth p.strides i := hf.pos _ (nth_mem _ _ (by rw [hf.strs]; exact hi))
    rw [padAt_eq hf ht hi, extra_eq_zero _ _ _ (by exact_mod_cast hs)]
    unfold Symmetric
    rw [← Int.natCast_inj]
    push_cast
    rfl
  rw [p.build_eq b c hf, if_neg (by simp [hn]), if_pos hp]
  constructor
  · rw [show (∃ i, i < sp.length ∧ ¬ Symmetric (nth sp i) (nth p.kernelSizes i) (nth p.strides i)
        (builtIn p.paddingOption (nth sp i) (nth p.kernelSizes i) (nth p.strides i))) ↔
        ¬ ∀ i, i < sp.length → (p.padAt sp i).1 = 0 from
      ⟨fun ⟨i, hi, h⟩ h' => h ((key i hi).2 (h' i hi)), fun h => by
        push Not at h
        obtain ⟨i, hi, h⟩ := h
        exact ⟨i, hi, fun h' => h ((key i hi).1 h')⟩⟩]
    split <;> simp_all
  · intro h
    rw [if_pos fun i hi => (key i hi).1 (h i hi)]
    exact ⟨_, rfl, fun _ => rfl⟩

/-- C20: with allow_non_equivariance=True plain 'valid' and 'same' are never refused and nothing is padded. -/
theorem C20_allowed (p : EquivariantPadding) (hp : p.paddingOption = .same ∨ p.paddingOption = .valid)
    (hn : p.allowNonEquivariance = true) (shape : List (Option Nat)) :
    ∃ st, p.build shape = .ok st ∧ ∀ a, st.amount a = (0, 0) := by
  refine ⟨⟨false, []⟩, ?_, fun _ => rfl⟩
  unfold EquivariantPadding.build
  rw [if_pos ⟨hp, hn⟩]; rfl

example : (EquivariantPadding.mk .same false 2 [2, 2] [3, 3] true false).build (signalShape true none none [5, 6]) =
    .error .value ∧
  (EquivariantPadding.mk .same false 2 [2, 2] [3, 3] true false).build (signalShape true none none [5, 5]) =
    .ok ⟨false, []⟩ ∧
  (EquivariantPadding.mk .same true 2 [2, 2] [3, 3] true false).build (signalShape true none none [5, 6]) =
    .ok ⟨false, []⟩ := by decide

/-- The amounts are what calling the layer pads: it extends every axis by that many zeros. -/
theorem C21_call_pads [Zero α] (p : EquivariantPadding) (b c : Option Nat) (sp : List Nat) (hf : p.Fits sp)
    (st : PadState) (h : p.build (signalShape p.channelsLast b c sp) = .ok st) (x : Tensor α)
    (hx : x.rank = sp.length + 2) :
    ∃ y, st.call x = .ok y ∧ y.rank = x.rank ∧
      (∀ a, a < x.rank → (nth y.shape a : Int) = (st.amount a).1 + nth x.shape a + (st.amount a).2) ∧
      ∀ idx, Valid y.shape idx →
        y.get idx = read0 x ((List.range x.rank).map fun a => (nth idx a : Int) - (st.amount a).1) := by
  by_cases hn : st.needsPadding = true
  swap
  · refine ⟨x, by rw [PadState.call, if_neg hn], rfl, fun a _ => ?_, fun idx hv => ?_⟩
    · simp [PadState.amount, hn]
    · rw [← read0_valid x hv]
      congr 1
      apply List.ext_getElem
      · simp [hv.length]
      · intro i h1 h2
        simp only [List.length_map] at h1
        simp [PadState.amount, hn, nth, h1]
  · have hst : st.pads.length = sp.length + 2 ∧ ∀ e ∈ st.pads, 0 ≤ e.1 ∧ 0 ≤ e.2 := by
      rw [p.build_eq b c hf] at h
      split at h
      · cases h; simp at hn
      · split at h
        · cases h; simp at hn
        · split at h
          · cases h
          · split at h
            · cases h
            · cases h
              refine ⟨?_, ?_⟩
              · simp only [splitPadding, List.length_map]; split <;> simp
              · intro e he
                simp only [splitPadding, List.mem_map] at he
                obtain ⟨q, hq, rfl⟩ := he
                have : 0 ≤ q := by
                  have hq' : q = 0 ∨ ∃ i, i < sp.length ∧ (p.padAt sp i).1 = q := by
                    split at hq <;> simp at hq <;> grind
                  rcases hq' with rfl | ⟨i, hi, rfl⟩
                  · exact le_refl _
                  · exact extra_nonneg _ _ _ (by exact_mod_cast hf.pos _ (nth_mem _ _ (by rw [hf.strs]; exact hi)))
                simp only
                omega
    obtain ⟨y, ey, hs, hg⟩ := pad_ok x (ps := st.pads.map fun e => (e.1.toNat, e.2.toNat)) (by simp [hst.1, hx])
    refine ⟨y, by rw [PadState.call, if_pos hn, ey], ?_, ?_, ?_⟩
    · simp only [Tensor.rank, hs]; simp [hst.1, hx]
    · intro a ha
      have ha' : a < st.pads.length := by omega
      have := hst.2 _ (List.getElem_mem ha')
      simp only [Tensor.rank] at ha
      simp [PadState.amount, hn, hs, nth, ha, ha']
      omega
    · intro idx hv
      rw [← read0_valid y hv, hg _ (by
        rw [List.length_map, hv.length, hs]; simp [hst.1, hx])]
      congr 1
      have hl : idx.length = x.rank := by rw [hv.length, hs]; simp [hst.1, hx]
      apply List.ext_getElem
      · simp [hl, hst.1, hx]
      · intro i h1 h2
        simp only [List.length_map, List.length_range] at h2
        have hi : i < idx.length := by omega
        have ha' : i < st.pads.length := by omega
        have := hst.2 _ (List.getElem_mem ha')
        simp [PadState.amount, hn, nth, hi, ha', this.1]

/-- C21 (for the padding layer itself): a channels_first layer pads its spatial axes by the amounts the channels_last
layer pads on the same sizes, no other axis, and is refused in the same cases with the same exception. Inside the group
layers the data format does not reach the padding layer, see `C21_violation`. -/
theorem C21_channels_first_partial (p : EquivariantPadding) (b c b' c' : Option Nat) (sp : List Nat)
    (hf : p.Fits sp) (l : Bool) :
    let q : EquivariantPadding := { p with channelsLast := l }
    (∀ e, p.build (signalShape p.channelsLast b c sp) = .error e ↔ q.build (signalShape l b' c' sp) = .error e) ∧
    ∀ st st', p.build (signalShape p.channelsLast b c sp) = .ok st → q.build (signalShape l b' c' sp) = .ok st' →
      (∀ i, i < sp.length → st'.amount (spatialAxis l i) = st.amount (spatialAxis p.channelsLast i)) ∧
      ∀ a, (∀ i, i < sp.length → a ≠ spatialAxis l i) → st'.amount a = (0, 0) := by
  intro q
  have hfq : q.Fits sp := ⟨hf.dims, hf.kernels, hf.strs, hf.pos⟩
  have e1 := p.build_eq b c hf
  have e2 : q.build (signalShape l b' c' sp) = _ := q.build_eq b' c' hfq
  have ep : ∀ i, q.padAt sp i = p.padAt sp i := fun i => rfl
  by_cases h0 : (p.paddingOption = .same ∨ p.paddingOption = .valid) ∧ p.allowNonEquivariance = true
  · rw [if_pos h0] at e1
    rw [if_pos (show (q.paddingOption = .same ∨ q.paddingOption = .valid) ∧ q.allowNonEquivariance = true from h0)] at e2
    rw [e1, e2]
    refine ⟨by simp, ?_⟩
    rintro st st' h h'
    cases h; cases h'
    exact ⟨fun _ _ => rfl, fun _ _ => rfl⟩
  · constructor
    · intro e
      rw [e1, e2]
      simp only [ep]
      rw [show q.paddingOption = p.paddingOption from rfl, show q.allowNonEquivariance = p.allowNonEquivariance from rfl]
      split_ifs <;> simp
    · intro st st' h h'
      have a1 := build_amount hf h h0
      have a2 := build_amount (p := q) hfq h' h0
      refine ⟨fun i hi => ?_, a2.2⟩
      rw [(a1.1 i hi).1]
      exact (a2.1 i hi).1

example : (EquivariantPadding.mk .validEquiv false 2 [3, 2] [4, 2] false false).build
    (signalShape false none (some 5) [6, 10]) = .ok ⟨true, [(0, 0), (0, 0), (2, 2), (0, 0)]⟩ := by decide

end GroCo
