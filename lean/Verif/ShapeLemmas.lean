import Verif.FirstEquiv
import Verif.MovedLemmas

/-
Helper lemmas: the output shape a built layer announces.
-/

namespace GroCo
open Tensor

variable {α : Type}

/-- whether a format is channels_last -/
def DataFormat.isLast : DataFormat → Bool
  | .channelsLast => true
  | .channelsFirst => false

theorem BuiltConv.shape_facts {a : ConvArgs α} {tr : Bool} {b : Option Nat} {n : List Nat} {g : Option Nat} {C : Nat}
    {k0 b0 : List Nat → α} {H : List Nat} {l : GroupConv α} (hl : BuiltConv a tr b n g C k0 b0 H l) :
    l.transforms.reshapedInput = signalShape a.dataFormat.isLast b (some (chanO g C)) n ∧ l.kernelSize = a.kernelSize ∧
      l.transforms.group = a.group := by
  obtain ⟨l0, h0, h1⟩ := hl.built
  obtain ⟨s, m, opt, kp, e1, e2, e3, e4, e5, e6, e7, e8, e9, rfl⟩ := conv_init_inv h0
  unfold GroupConv.build at h1
  obtain ⟨t, ht, h1⟩ := bind_eq_ok h1
  simp only at ht h1
  have hre : t.reshapedInput = signalShape a.dataFormat.isLast b (some (chanO g C)) n ∧ t.group = a.group := by
    cases hf : a.dataFormat
    · rw [hf] at ht
      obtain ⟨st, _, _, rfl⟩ := transforms_build_first (a := a.toGroupArgs) hf hl.dims ht
      exact ⟨rfl, rfl⟩
    · rw [hf] at ht
      obtain ⟨st, _, _, rfl⟩ := transforms_build_last (a := a.toGroupArgs) hf hl.dims ht
      exact ⟨rfl, rfl⟩
  obtain ⟨ch, _, h1⟩ := bind_eq_ok h1
  obtain ⟨os, _, h1⟩ := bind_eq_ok h1
  obtain ⟨t2, ht2, h1⟩ := bind_eq_ok h1
  obtain ⟨J, I, _, _, rfl⟩ := buildConv_inv ht2
  cases h1
  exact ⟨hre.1, rfl, hre.2⟩

/-- zeros Keras adds along an axis -/
def kerasTotal (kp : KerasPadding) (n k s : Nat) : Nat :=
  match kp with
  | .valid => 0
  | .same => sameTotal n k s

/-- the sizes Keras announces are those of the windows that fit -/
theorem convOutSize_ok {kp : KerasPadding} {n k s r : Nat} (hs : 0 < s) {T : Nat}
    (hT : T = kerasTotal kp n (dilated k r) s)
    (hfit : dilated k r ≤ n + T) :
    convOutSize kp (some n) k s r = .ok (some ((n + T - dilated k r) / s + 1)) := by
  have hd : 0 < dilated k r := Nat.succ_pos _
  cases kp with
  | valid =>
    simp only [kerasTotal] at hT
    subst hT
    simp only [convOutSize, Nat.add_zero] at *
    have h1 : ((n : Int) - dilated k r) = ((n - dilated k r : Nat) : Int) := by omega
    have h2 : ((n : Int) - dilated k r) / s + 1 = (((n - dilated k r) / s + 1 : Nat) : Int) := by
      rw [h1]; simp
    rw [h2, if_neg (Int.not_lt.2 (Int.natCast_nonneg _)), Int.toNat_natCast]
  | same =>
    simp only [kerasTotal] at hT
    simp only [convOutSize]
    congr 2
    generalize dilated k r = e at *
    have hn := Nat.div_add_mod n s
    have hlt := Nat.mod_lt n hs
    generalize n / s = q at *
    unfold sameTotal at hT
    by_cases h0 : n % s = 0
    · rw [if_pos h0] at hT
      rw [h0] at hn
      have h1 : (n + s - 1) / s = q := by
        rw [Nat.div_eq_iff hs]
        have : s * q = q * s := Nat.mul_comm _ _
        omega
      have hq : 0 < q := by
        rcases Nat.eq_zero_or_pos q with h | h
        · subst h; simp only [Nat.mul_zero] at hn; omega
        · exact h
      obtain ⟨j, rfl⟩ : ∃ j, q = j + 1 := ⟨q - 1, by omega⟩
      have h2 : (n + T - e) / s = j := by
        rw [Nat.div_eq_iff hs]
        have : s * (j + 1) = j * s + s := by ring
        omega
      rw [h1, h2]
    · rw [if_neg h0] at hT
      have e1 : s * q = q * s := Nat.mul_comm _ _
      have h1 : (n + s - 1) / s = q + 1 := by
        rw [Nat.div_eq_iff hs]
        have : (q + 1) * s = q * s + s := by ring
        omega
      have h2 : (n + T - e) / s = q := by
        rw [Nat.div_eq_iff hs]
        omega
      rw [h1, h2]

theorem convOutputShape_ok {fmt : DataFormat} {kp : KerasPadding} {K strides dil : List Nat} {filters : Nat} {b c : Option Nat}
    {n : List Nat} (hn : n.length = strides.length)
    (hfit : FitsIn strides dil K (grow n (kpads kp strides dil K n))) :
    convOutputShape fmt kp K strides dil filters (signalShape fmt.isLast b c n) =
      .ok (signalShape fmt.isLast b (some filters) (outSizes strides dil K (grow n (kpads kp strides dil K n)))) := by
  have hlen : (signalShape fmt.isLast b c n).length = strides.length + 2 := by
    cases fmt <;> simp [signalShape, DataFormat.isLast, hn]
  have hsp : spatialShapeOf fmt strides.length (signalShape fmt.isLast b c n) = n.map some := by
    cases fmt <;> simp [spatialShapeOf, signalShape, DataFormat.isLast, ← hn]
  have hgetD : ∀ i, i < strides.length → (n.map some).getD i none = some (nth n i) := by
    intro i hi
    rw [← hn] at hi
    simp [nth, hi]
  have hmap : ((List.range strides.length).mapM fun i => convOutSize kp ((n.map some).getD i none) (nth K i) (nth strides i)
      (nth dil i)) = .ok ((outSizes strides dil K (grow n (kpads kp strides dil K n))).map some) := by
    rw [outSizes, List.map_map]
    apply mapM_eq_ok
    intro i hi
    rw [List.mem_range] at hi
    rw [hgetD i hi]
    have hf := hfit i hi
    have hg : nth (grow n (kpads kp strides dil K n)) i = nth n i + kerasTotal kp (nth n i) (dilated (nth K i) (nth dil i)) (nth strides i) := by
      rw [nth_grow (by omega) (by simp [kpads, hn]), nth_kpads hi]
      cases kp
      · simp only [samePads, kerasTotal]; omega
      · simp only [kerasTotal]; omega
    rw [hg] at hf
    simp only [Function.comp_apply, hg]
    exact convOutSize_ok hf.1 rfl hf.2.2
  unfold convOutputShape
  simp only [hlen, ne_eq, not_true_eq_false, if_false, hsp, hmap, res_bind_ok]
  cases fmt <;> simp [signalShape, DataFormat.isLast, res_pure]

theorem convTransposeOutputShape_ok {fmt : DataFormat} {kp : KerasPadding} {K strides dil : List Nat} {filters : Nat}
    {b c : Option Nat} {n : List Nat} (hn : n.length = strides.length) :
    convTransposeOutputShape fmt kp K strides dil filters (signalShape fmt.isLast b c n) =
      .ok (signalShape fmt.isLast b (some filters) (upSizes kp strides dil K n)) := by
  have hlen : (signalShape fmt.isLast b c n).length = strides.length + 2 := by
    cases fmt <;> simp [signalShape, DataFormat.isLast, hn]
  have hsp : spatialShapeOf fmt strides.length (signalShape fmt.isLast b c n) = n.map some := by
    cases fmt <;> simp [spatialShapeOf, signalShape, DataFormat.isLast, ← hn]
  have hmap : ((List.range strides.length).map fun i => ((n.map some).getD i none).map fun m =>
      (transposeOut kp m (dilated (nth K i) (nth dil i)) (nth strides i)).1) = (upSizes kp strides dil K n).map some := by
    rw [upSizes, List.map_map]
    apply List.map_congr_left
    intro i hi
    rw [List.mem_range, ← hn] at hi
    simp [nth, hi]
  unfold convTransposeOutputShape
  simp only [hlen, ne_eq, not_true_eq_false, if_false, hsp, hmap]
  cases fmt <;> simp [signalShape, DataFormat.isLast]

theorem insert_group {fmt : DataFormat} {b : Option Nat} {n : List Nat} {F o d ga : Nat} (hn : n.length = d)
    (hga : ga = d + 1 + (if fmt = .channelsFirst then 1 else 0)) :
    (signalShape fmt.isLast b (some F) n).take ga ++ [some o] ++ (signalShape fmt.isLast b (some F) n).drop ga =
      inputShape fmt b n (some o) F := by
  subst hga hn
  cases fmt <;> simp [signalShape, DataFormat.isLast, inputShape, List.take_of_length_le, List.drop_of_length_le]

end GroCo
