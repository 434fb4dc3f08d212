import Verif.ShapeLemmas
import Verif.PoolLemmas
import Verif.RebuildLemmas
import Verif.Props.Padding
import Verif.Props.Options

/-
Helper lemmas: when layers can be built.
-/

namespace GroCo
open Tensor

variable {α : Type}

/-- zeros added by Keras, or by the convolution a transposed convolution is the transpose of -/
def ownZeros (tr : Bool) (o : PadOption) (n k s : Nat) : Nat :=
  match o with
  | .same | .sameEquiv => sameTotal n k s
  | .valid | .validEquiv => if tr then s - k else 0

theorem padAt_own {p : EquivariantPadding} {sp : List Nat} (hf : p.Fits sp) {i : Nat}
    (hi : i < sp.length) : p.padAt sp i = computeExtraPadding (nth sp i) (nth p.kernelSizes i) (nth p.strides i)
      (ownZeros p.transpose p.paddingOption (nth sp i) (nth p.kernelSizes i) (nth p.strides i) : Nat) := by
  have hs : 0 < nth p.strides i := hf.pos _ (nth_mem _ _ (by rw [hf.strs]; exact hi))
  unfold EquivariantPadding.padAt computeEquivariantPadding
  congr 1
  cases p.paddingOption
  · exact builtIn_same _ _ _ hs
  all_goals first
    | exact builtIn_same _ _ _ hs
    | cases p.transpose
      · rfl
      · simp only [computeBuiltInPadding, ownZeros, relu, if_true]
        omega

/-- when a padding layer can be built -/
theorem padBuild_iff (p : EquivariantPadding) (b c : Option Nat) {sp : List Nat} (hf : p.Fits sp) :
    (∃ st, p.build (signalShape p.channelsLast b c sp) = .ok st) ↔ ∀ i, i < sp.length →
      if p.paddingOption = .same ∨ p.paddingOption = .valid then p.allowNonEquivariance = true ∨
        Symmetric (nth sp i) (nth p.kernelSizes i) (nth p.strides i)
          (ownZeros p.transpose p.paddingOption (nth sp i) (nth p.kernelSizes i) (nth p.strides i))
      else ∃ T, Symmetric (nth sp i) (nth p.kernelSizes i) (nth p.strides i) T := by
  have hs : ∀ i, i < sp.length → 0 < nth p.strides i := fun i hi => hf.pos _ (nth_mem _ _ (by rw [hf.strs]; exact hi))
  have k1 : ∀ i, i < sp.length → ((∃ T, Symmetric (nth sp i) (nth p.kernelSizes i) (nth p.strides i) T) ↔
      (p.padAt sp i).2 % 2 = 0) := fun i hi => by
    rw [padAt_own hf hi]
    exact exists_symmetric _ _ _ _ (hs i hi)
  have k2 : ∀ i, i < sp.length → (Symmetric (nth sp i) (nth p.kernelSizes i) (nth p.strides i)
      (ownZeros p.transpose p.paddingOption (nth sp i) (nth p.kernelSizes i) (nth p.strides i)) ↔ (p.padAt sp i).1 = 0) :=
    fun i hi => by
    rw [padAt_own hf hi, extra_eq_zero _ _ _ (by exact_mod_cast hs i hi)]
    unfold Symmetric
    rw [← Int.natCast_inj]
    push_cast
    rfl
  have k3 : ∀ i, i < sp.length → (p.padAt sp i).1 = 0 → (p.padAt sp i).2 % 2 = 0 := fun i hi h =>
    (k1 i hi).1 ⟨_, (k2 i hi).2 h⟩
  rw [p.build_eq b c hf]
  by_cases h0 : p.paddingOption = .same ∨ p.paddingOption = .valid
  · simp only [h0, true_and, if_true]
    by_cases ha : p.allowNonEquivariance = true
    · simp [ha]
    · simp only [ha, Bool.false_eq_true, if_false, false_or]
      constructor
      · rintro ⟨st, h⟩ i hi
        split at h
        · rename_i h1; exact (k2 i hi).2 (h1 i hi)
        · exact absurd h (by simp)
      · intro h
        rw [if_pos fun i hi => (k2 i hi).1 (h i hi)]
        exact ⟨_, rfl⟩
  · simp only [h0, false_and, if_false]
    constructor
    · rintro ⟨st, h⟩ i hi
      rw [k1 i hi]
      split at h
      · rename_i h1; exact k3 i hi (h1 i hi)
      · split at h
        · exact absurd h (by simp)
        · rename_i h1
          by_contra hc
          exact h1 ⟨i, hi, hc⟩
    · intro h
      split
      · exact ⟨_, rfl⟩
      · rw [if_neg]
        · exact ⟨_, rfl⟩
        · rintro ⟨i, hi, hc⟩
          exact hc ((k1 i hi).1 (h i hi))

/-- the converse of `transforms_build_last` -/
theorem transforms_build_last_ok {a : GroupArgs} {m : GroupName} {opt : PadOption} {d : Nat} {tr : Bool}
    (hf : a.dataFormat = .channelsLast) {b : Option Nat} {n : List Nat} {g : Option Nat} {C : Nat} (hn : n.length = d)
    {st : PadState}
    (hst : (initTransforms a m opt d tr).equivariantPadding.build (signalShape true b (some (chanO g C)) n) = .ok st)
    (hord : ∀ g', g = some g' → (initTransforms a m opt d tr).orderOf (initTransforms a m opt d tr).domainGroup = .ok g') :
    ∃ t, (initTransforms a m opt d tr).build (inputShape .channelsLast b n g C) = .ok t := by
  rw [transforms_build_eq]
  have hdim : (initTransforms a m opt d tr).dimensions = d := rfl
  have hfmt : (initTransforms a m opt d tr).dataFormat = .channelsLast := hf
  have hca : (initTransforms a m opt d tr).channelsAxis = d + 1 := by simp [initTransforms, hf]
  have hga : (initTransforms a m opt d tr).groupAxis = d + 1 := by simp [initTransforms, hf]
  cases g with
  | none =>
    have hlen : (inputShape .channelsLast b n none C).length = d + 2 := by simp [inputShape, hn]
    unfold reshapedOf
    simp only [hdim, hlen, show ¬ (d + 2 = d + 3) by omega, if_false, res_bind_ok]
    have : inputShape .channelsLast b n none C = signalShape true b (some (chanO none C)) n := rfl
    rw [this, hst]
    exact ⟨_, rfl⟩
  | some g =>
    have hlen : (inputShape .channelsLast b n (some g) C).length = d + 3 := by simp [inputShape, hn]
    unfold reshapedOf
    simp only [hdim, hlen, if_true, hfmt, true_and, hca, hga]
    have ho := hord g rfl
    unfold GroupTransforms.orderOf at ho
    obtain ⟨D, hD, ho⟩ := bind_eq_ok ho
    have hDg : D.length = g := by cases ho; rfl
    rw [hD, res_bind_ok, getIdx_ok _ (i := d + 1) (by omega), res_bind_ok]
    have hsz : (inputShape .channelsLast b n (some g) C)[d + 1]'(by omega) = some g := by
      simp [inputShape, ← hn]
    rw [if_pos (by rw [hsz, hDg])]
    have hm : mergeShapes (inputShape .channelsLast b n (some g) C) ((d + 1 : Nat) : Int) ((d + 1 + 1 : Nat) : Int) =
        .ok (signalShape true b (some (g * C)) n) := by
      unfold mergeShapes
      rw [pyIndex_eq_norm (normAxis_nat (by omega)), pyIndex_eq_norm (normAxis_nat (by omega))]
      have e1 : (inputShape .channelsLast b n (some g) C)[d + 1 + 1]? = some (some C) := by
        simp [inputShape, ← hn]
      have e2 : (inputShape .channelsLast b n (some g) C)[d + 1]? = some (some g) := by
        simp [inputShape, ← hn]
      simp only [res_bind_ok, e1, e2, res_pure]
      congr 1
      have : inputShape .channelsLast b n (some g) C = (b :: n.map some) ++ [some g, some C] := rfl
      rw [this, List.set_append_right _ _ (by simp; omega), List.eraseIdx_append_of_length_le (by simp; omega)]
      have : d + 1 + 1 - (b :: n.map some).length = 1 := by simp; omega
      rw [this, show d + 1 - (b :: n.map some).length = 0 by simp; omega]
      simp [signalShape, Nat.mul_comm]
    rw [show (initTransforms a m opt d tr).group.group.sub _ = _ from hD] at *
    rw [hm, res_bind_ok]
    change ∃ t, (_ >>= _) = _
    rw [show signalShape true b (some (g * C)) n = signalShape true b (some (chanO (some g) C)) n from rfl, hst]
    exact ⟨_, rfl⟩

theorem mapM_inv {β γ : Type} {f : β → Res γ} {l : List β} {r : List γ} (h : l.mapM f = .ok r) :
    ∀ b ∈ l, ∃ c, f b = .ok c := by
  induction l generalizing r with
  | nil => simp
  | cons a l ih =>
    rw [List.mapM_cons] at h
    obtain ⟨c, hc, h⟩ := bind_eq_ok h
    obtain ⟨cs, hcs, h⟩ := bind_eq_ok h
    intro b hb
    rcases List.mem_cons.1 hb with rfl | hb
    · exact ⟨c, hc⟩
    · exact ih hcs b hb

theorem mapM_total {β γ : Type} (f : β → Res γ) (l : List β) (h : ∀ b ∈ l, ∃ c, f b = .ok c) :
    ∃ r, l.mapM f = .ok r := by
  induction l with
  | nil => exact ⟨[], rfl⟩
  | cons a l ih =>
    obtain ⟨c, hc⟩ := h a (by simp)
    obtain ⟨cs, hcs⟩ := ih fun b hb => h b (by simp [hb])
    exact ⟨c :: cs, by rw [List.mapM_cons, hc, hcs]; rfl⟩

/-- when Keras accepts the sizes of a convolution -/
theorem convOutputShape_iff {kp : KerasPadding} {K strides dil : List Nat} {filters : Nat} {b c : Option Nat}
    {n : List Nat} (hn : n.length = strides.length) (hs : 0 ∉ strides) :
    (∃ o, convOutputShape .channelsLast kp K strides dil filters (signalShape true b c n) = .ok o) ↔
      (kp = .valid → ∀ i, i < n.length → dilated (nth K i) (nth dil i) ≤ nth n i + nth strides i) := by
  have hlen : (signalShape true b c n).length = strides.length + 2 := by simp [signalShape, hn]
  have hsp : spatialShapeOf .channelsLast strides.length (signalShape true b c n) = n.map some := by
    simp [spatialShapeOf, signalShape, ← hn]
  have hgetD : ∀ i, i < strides.length → (n.map some).getD i none = some (nth n i) := by
    intro i hi
    rw [← hn] at hi
    simp [nth, hi]
  have hone : ∀ i, i < strides.length →
      ((∃ o, convOutSize kp ((n.map some).getD i none) (nth K i) (nth strides i) (nth dil i) = .ok o) ↔
        (kp = .valid → dilated (nth K i) (nth dil i) ≤ nth n i + nth strides i)) := by
    intro i hi
    have hpos : 0 < nth strides i := by
      have := nth_mem strides i hi
      rcases Nat.eq_zero_or_pos (nth strides i) with h | h
      · rw [h] at this; exact absurd this hs
      · exact h
    rw [hgetD i hi]
    cases kp with
    | same => simp [convOutSize]
    | valid =>
      simp only [convOutSize, true_imp_iff, forall_const]
      generalize dilated (nth K i) (nth dil i) = e
      generalize nth n i = m
      generalize nth strides i = s at hpos
      have key : ((m : Int) - e) / s + 1 < 0 ↔ ¬ e ≤ m + s := by
        rw [show ((m : Int) - e) / s + 1 = ((m : Int) - e + s) / s by
          rw [Int.add_ediv_of_dvd_right (dvd_refl _), Int.ediv_self (by omega)]]
        rw [Int.ediv_lt_iff_lt_mul (by exact_mod_cast hpos)]
        omega
      by_cases h : e ≤ m + s
      · rw [if_neg (by rw [key]; simpa using h)]
        simp [h]
      · rw [if_pos (key.2 h)]
        simp [h]
  have hmap : (∃ os, ((List.range strides.length).mapM fun i => convOutSize kp ((n.map some).getD i none) (nth K i)
      (nth strides i) (nth dil i)) = .ok os) ↔ ∀ i, i < strides.length →
        ∃ o, convOutSize kp ((n.map some).getD i none) (nth K i) (nth strides i) (nth dil i) = .ok o := by
    constructor
    · rintro ⟨os, h⟩ i hi
      exact mapM_inv h i (List.mem_range.2 hi)
    · intro h
      exact mapM_total _ _ fun i hi => h i (List.mem_range.1 hi)
  unfold convOutputShape
  simp only [hlen, ne_eq, not_true_eq_false, if_false, hsp]
  constructor
  · rintro ⟨o, h⟩ hk i hi
    obtain ⟨os, hos, -⟩ := bind_eq_ok h
    exact (hone i (by omega)).1 (hmap.1 ⟨os, hos⟩ i (by omega)) hk
  · intro h
    obtain ⟨os, hos⟩ := hmap.2 fun i hi => (hone i hi).2 fun hk => h hk i (by omega)
    rw [hos]
    exact ⟨_, rfl⟩

/-- every subgroup is one of the groups of the library -/
theorem sub_known {G : GroupName} {s : String} {H : List Nat} (h : lookup G.group.subgroup s = .ok H) :
    ∃ m, groupDict s = .ok m := by
  have h1 : s ∈ G.group.subgroup.map Prod.fst := List.mem_map.2 ⟨_, lookup_mem h, rfl⟩
  have h2 : ∀ G : GroupName, ∀ s ∈ G.group.subgroup.map Prod.fst, (groupDict s).toOption.isSome = true := by
    intro G; cases G <;> decide +kernel
  have := h2 G s h1
  cases hd : groupDict s with
  | ok m => exact ⟨m, rfl⟩
  | error e => rw [hd] at this; exact absurd this (by simp [Except.toOption])

/-- when a convolution layer can be constructed -/
theorem conv_init_ok {a : ConvArgs α} {d : Nat} (tr : Bool) {s : String} {m : GroupName} {opt : PadOption} {kp : KerasPadding}
    (h1 : a.group.group.parseSubgroup a.subgroup = some s) (h2 : groupDict s = .ok m)
    (h3 : formatPaddingOption a.padding = .ok opt) (h4 : standardizePadding (builtInPaddingOption a.padding) = .ok kp)
    (h5 : a.kernelSize.length = d) (h6 : a.strides.length = d) (h7 : a.dilation.length = d) (h8 : 0 ∉ a.kernelSize)
    (h9 : 0 ∉ a.strides) (h10 : a.filters ≠ 0) (h11 : 0 ∉ a.dilation)
    (h12 : ¬ ((∃ s ∈ a.strides, 1 < s) ∧ ∃ r ∈ a.dilation, 1 < r)) :
    ∃ l0, GroupConv.init a d tr = .ok l0 := by
  unfold GroupConv.init GroupTransforms.init
  simp only [h1, h2, h3, res_bind_ok, res_pure, h4]
  rw [if_neg (by simp only [h5, h6, h7, h8, h9, h10, h11, h12]; simp)]
  exact ⟨_, rfl⟩

end GroCo
