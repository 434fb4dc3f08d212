import Verif.Props.Training
import Verif.ExactTLemmas

/-
Property C67 for transposed layers: the weights are determined by what a layer computes.
-/

namespace GroCo
open Tensor

variable {α : Type}

/-- the value of a transposed convolution on a signal with a single non-zero entry, at a position this entry reaches through offset `k` -/
theorem spread_sum_single [Semiring α] {before strides dil crop K m w q k shape : List Nat} {g : Option Nat} {C c : Nat}
    (V : List Nat → Nat → α) (hK : K.length = strides.length) (hd : ∀ i, i < strides.length → 0 < nth dil i) (hw : Valid m w)
    (hk : Valid K k) (hc : c < chanO g C) (hq : Hits before strides dil crop w k q) :
    ((indices K).map fun k' => ((List.range (chanO g C)).map fun c' =>
      spread before strides dil crop (single (α := α) shape (0 :: w ++ restIdx g C c)) m 0 q k' (restIdx g C c') * V k' c').sum).sum =
      V k c := by
  have hne : ∀ k' c', c' ≠ c →
      spread before strides dil crop (single (α := α) shape (0 :: w ++ restIdx g C c)) m 0 q k' (restIdx g C c') = 0 := by
    intro k' c' h
    unfold spread
    apply List.sum_eq_zero
    intro v hv
    obtain ⟨p, -, rfl⟩ := List.mem_map.1 hv
    have e : (0 :: p ++ restIdx g C c' = 0 :: w ++ restIdx g C c) → False := by
      intro e
      have hlen : (restIdx g C c').length = (restIdx g C c).length := by cases g <;> rfl
      exact h (restIdx_inj (List.append_inj_right' e hlen))
    simp only [single]
    rw [if_neg e]
    split <;> rfl
  have hhit : ∀ k', Valid K k' → (Hits before strides dil crop w k' q ↔ k' = k) := by
    intro k' hk'
    constructor
    · intro h
      apply ext_nth (by rw [hk.length, hk'.length])
      intro i hi
      rw [hk'.length, hK] at hi
      have h1 := h i hi
      have h2 := hq i hi
      exact Nat.eq_of_mul_eq_mul_right (hd i hi) (by omega)
    · rintro rfl; exact hq
  have key : ∀ k' ∈ indices K, ((List.range (chanO g C)).map fun c' =>
      spread before strides dil crop (single (α := α) shape (0 :: w ++ restIdx g C c)) m 0 q k' (restIdx g C c') * V k' c').sum =
      if k' = k then V k c else 0 := by
    intro k' hk'
    rw [mem_indices] at hk'
    have e : ∀ c' ∈ List.range (chanO g C),
        spread before strides dil crop (single (α := α) shape (0 :: w ++ restIdx g C c)) m 0 q k' (restIdx g C c') * V k' c' =
        if c' = c then (if k' = k then V k c else 0) else 0 := by
      intro c' _
      by_cases h : c' = c
      · subst h
        rw [if_pos rfl, spread_single hw]
        by_cases h : k' = k
        · subst h; rw [if_pos ((hhit _ hk').2 rfl), if_pos rfl, one_mul]
        · rw [if_neg (fun e => h ((hhit _ hk').1 e)), if_neg h, zero_mul]
      · rw [if_neg h, hne _ _ h, zero_mul]
    rw [sum_congr e, sum_ite_one (List.nodup_range (n := chanO g C)) (P := fun c' => c' = c)
      (F := fun _ => if k' = k then V k c else 0) (c := c) (List.mem_range.2 hc) (fun _ _ => Iff.rfl)]
  rw [sum_congr key, sum_ite_one (nodup_indices K) (P := fun k' => k' = k) (F := fun _ => V k c) ((mem_indices _ _).2 hk) (fun _ _ => Iff.rfl)]

set_option maxHeartbeats 1600000 in
/-- C67 for transposed layers: the weights and the bias of a built transposed GroupConv layer, with any padding and an injective
activation, are determined by what the layer computes on images of some one size. With 'valid' and 'valid_equiv' this can be any size
but zero, with 'same' and 'same_equiv', where part of the output is cut off, the stride times one less than the size must be at least
the extent of the kernel less one. -/
theorem C67_transposed_parameters [Ring α] {a : ConvArgs α} {bt : Option Nat} {n : List Nat} {g : Option Nat} {C : Nat}
    {k0 k1 b0 b1 : List Nat → α} {H : List Nat} {l : GroupConv α} (hl : BuiltConv a true bt n g C k0 b0 H l)
    (hf : a.dataFormat = .channelsLast) (opt : PadOption) (hopt : formatPaddingOption a.padding = .ok opt)
    (hact : Function.Injective a.activation) (hd0 : 0 ∉ a.dilation)
    (m : List Nat) (hm : m.length = a.group.dim)
    (hfit : ∀ i, i < a.group.dim → 0 < nth m i ∧ (opt = .valid ∨ opt = .validEquiv ∨
      dilated (nth a.kernelSize i) (nth a.dilation i) ≤ (nth m i - 1) * nth a.strides i + 1))
    (heq : ∀ x y y' : Tensor α, x.shape = sigShape .channelsLast 1 m g C → (l.call x).2 = .ok y →
      ((l.assign k1 b1).call x).2 = .ok y' → y.Same y') :
    (∀ k c o, Valid a.kernelSize k → c < g.getD 1 * C → o < a.filters → k0 (k ++ [o, c]) = k1 (k ++ [o, c])) ∧
    (a.useBias = true → ∀ o, o < a.filters → b0 [o] = b1 [o]) := by
  have S := a.group.sym
  have hl' : BuiltConv a true bt n g C k1 b1 H (l.assign k1 b1) := C53_assign hl
  obtain ⟨opt', kp, e1, e2, f, hst⟩ := hl.facts_last hf
  rw [hopt] at e1
  cases e1
  obtain ⟨opt', kp', e1', e2', f', hst'⟩ := hl'.facts_last hf
  rw [hopt] at e1'
  cases e1'
  rw [e2] at e2'
  cases e2'
  have hpad : (l.assign k1 b1).transforms.padState = l.transforms.padState := by
    rw [hst] at hst'
    exact (Except.ok.inj hst').symm
  cases padding_agree hopt e2
  obtain ⟨sD, hD⟩ := f.subD
  have hsp : ∀ i, i < a.strides.length → 0 < nth a.strides i := fun i hi =>
    Nat.pos_of_ne_zero fun h => f.stridesPos (h ▸ nth_mem _ _ hi)
  have hKp : ∀ i, i < a.strides.length → 0 < nth a.kernelSize i := fun i hi =>
    Nat.pos_of_ne_zero fun h => f.kernelPos (h ▸ nth_mem _ _ (by rw [f.kernelLen, ← f.stridesLen]; exact hi))
  have hdp : ∀ i, i < a.strides.length → 0 < nth a.dilation i := fun i hi =>
    Nat.pos_of_ne_zero fun h => hd0 (h ▸ nth_mem _ _ (by rw [f.dilationLen, ← f.stridesLen]; exact hi))
  have hml : m.length = a.strides.length := by rw [hm, f.stridesLen]
  have c1 := fun (x : Tensor α) (hx : x.shape = sigShape .channelsLast 1 m g C) => convT_call_last f hf hx hm
  have c2 := fun (x : Tensor α) (hx : x.shape = sigShape .channelsLast 1 m g C) => convT_call_last f' hf hx hm
  rw [hpad] at c2
  generalize hps : epads l.transforms.padState a.group.dim = ps at *
  have hpl : ps.length = m.length := by rw [← hps, length_epads, hm]
  have hgr : ∀ i, i < a.strides.length → nth (grow m ps) i = nth (befores ps) i + nth m i + (ps.getD i (0, 0)).2 := fun i hi => by
    rw [nth_grow (by rw [hml]; exact hi) hpl, nth_befores]
  have hcr : ∀ i, i < a.strides.length → nth (upCrop (kerasOf opt) a.strides a.dilation a.kernelSize (grow m ps)) i =
      (transposeOut (kerasOf opt) (nth (grow m ps) i) (dilated (nth a.kernelSize i) (nth a.dilation i)) (nth a.strides i)).2 := fun i hi => by
    rw [upCrop, nth_map_range, if_pos hi]
  have hout : ∀ i, i < a.strides.length → nth (upSizes (kerasOf opt) a.strides a.dilation a.kernelSize (grow m ps)) i =
      (transposeOut (kerasOf opt) (nth (grow m ps) i) (dilated (nth a.kernelSize i) (nth a.dilation i)) (nth a.strides i)).1 := fun i hi => by
    rw [upSizes, nth_map_range, if_pos hi]
  have hol := length_upSizes (kerasOf opt) a.strides a.dilation a.kernelSize (grow m ps)
  generalize upCrop (kerasOf opt) a.strides a.dilation a.kernelSize (grow m ps) = crop at *
  generalize upSizes (kerasOf opt) a.strides a.dilation a.kernelSize (grow m ps) = out at *
  -- an entry of the image that reaches the output through all offsets
  obtain ⟨w, hwdef⟩ : ∃ w : List Nat, w = (List.range a.strides.length).map fun i =>
      (nth crop i + nth a.strides i - 1) / nth a.strides i := ⟨_, rfl⟩
  have hin : ∀ i, i < a.strides.length → nth w i < nth m i ∧ nth crop i ≤ (nth w i + nth (befores ps) i) * nth a.strides i ∧
      (nth w i + nth (befores ps) i) * nth a.strides i + dilated (nth a.kernelSize i) (nth a.dilation i) ≤ nth out i + nth crop i := by
    intro i hi
    have hwn : nth w i = (nth crop i + nth a.strides i - 1) / nth a.strides i := by rw [hwdef, nth_map_range, if_pos hi]
    obtain ⟨h1, h2⟩ := hfit i (by rw [← f.stridesLen]; exact hi)
    have h3 := hcr i hi
    have h4 := hout i hi
    rw [hgr i hi] at h4
    have h5 := hsp i hi
    have h6 := Nat.div_add_mod (nth crop i + nth a.strides i - 1) (nth a.strides i)
    have h7 := Nat.mod_lt (nth crop i + nth a.strides i - 1) h5
    rw [← hwn, Nat.mul_comm] at h6
    generalize dilated (nth a.kernelSize i) (nth a.dilation i) = K at *
    generalize nth a.strides i = s at *
    generalize nth crop i = cr at *
    generalize nth w i = W at *
    generalize nth (befores ps) i = b at *
    generalize (ps.getD i (0, 0)).2 = af at *
    obtain ⟨M, hM⟩ : ∃ M, nth m i = M + 1 := ⟨nth m i - 1, by omega⟩
    rw [hM] at h2 h4 ⊢
    have g1 : (b + (M + 1) + af) * s = b * s + M * s + s + af * s := by ring
    have g2 : (W + b) * s = W * s + b * s := by ring
    have g3 : M + 1 - 1 = M := rfl
    rw [g3] at h2
    rw [g2]
    have g4 : W * s < M * s + s → W < M + 1 := fun h => by
      have : W * s < (M + 1) * s := by rw [Nat.add_mul, Nat.one_mul]; exact h
      exact Nat.lt_of_mul_lt_mul_right this
    have g5 : W * s = 0 ∨ s ≤ W * s := by
      rcases Nat.eq_zero_or_pos W with h | h
      · left; rw [h, Nat.zero_mul]
      · right; exact Nat.le_mul_of_pos_left s h
    cases opt <;> simp only [kerasOf, transposeOut, reduceCtorEq, false_or, true_or, or_true] at h2 h3 h4 <;> rw [g1] at h4
    all_goals
      generalize W * s = Ws at *
      generalize M * s = Ms at *
      generalize b * s = bs at *
      generalize af * s = as at *
      refine ⟨g4 (by omega), by omega, by omega⟩
  have hw : Valid m w := by
    rw [valid_iff]
    exact ⟨by rw [hwdef, hml]; simp, fun j hj => (hin j (by omega)).1⟩
  have hreach : ∀ k, Valid a.kernelSize k → ∃ q, Valid out q ∧ Hits (befores ps) a.strides a.dilation crop w k q := by
    intro k hk
    refine ⟨(List.range a.strides.length).map fun i => (nth w i + nth (befores ps) i) * nth a.strides i +
      nth k i * nth a.dilation i - nth crop i, ?_, ?_⟩
    · rw [valid_iff]
      refine ⟨by rw [hol]; simp, fun j hj => ?_⟩
      rw [hol] at hj
      rw [nth_map_range, if_pos hj]
      obtain ⟨-, h1, h2⟩ := hin j hj
      have h3 := hk.lt (i := j) (by rw [f.kernelLen, ← f.stridesLen]; exact hj)
      have h4 : nth k j * nth a.dilation j ≤ (nth a.kernelSize j - 1) * nth a.dilation j := Nat.mul_le_mul_right _ (by omega)
      unfold dilated at h2
      omega
    · intro j hj
      rw [nth_map_range, if_pos hj]
      have := (hin j hj).2.1
      omega
  have h0 : nth (actingOf a.group true H) 0 = 0 := by
    show nth (List.range _) 0 = 0
    rw [nth_range, if_pos S.tab.pos]
  have hi : 0 < (actingOf a.group true H).length := by
    show 0 < (List.range _).length
    rw [List.length_range]; exact S.tab.pos
  have hbias : ∀ o, o < a.filters → (if a.useBias then b0 [o] else 0) = (if a.useBias then b1 [o] else 0) := by
    intro o ho
    have hk0 : Valid a.kernelSize (List.replicate a.kernelSize.length 0) := by
      rw [valid_iff]
      refine ⟨by simp, fun j hj => ?_⟩
      rw [nth_replicate, if_pos hj]
      exact hKp j (by rw [f.stridesLen, ← f.kernelLen]; exact hj)
    obtain ⟨q, hq, -⟩ := hreach _ hk0
    obtain ⟨y, hy, hys, hyg⟩ := c1 ⟨sigShape .channelsLast 1 m g C, fun _ => 0⟩ rfl
    obtain ⟨y', hy', hys', hyg'⟩ := c2 ⟨sigShape .channelsLast 1 m g C, fun _ => 0⟩ rfl
    have h := (heq _ y y' rfl (by rw [hy]) (by rw [hy'])).2 (0 :: q ++ [0, o]) (by
      rw [hys]
      exact valid_two.2 ⟨⟨by omega, hq⟩, hi, ho⟩)
    rw [hyg 0 q _ o (by omega) hq hi ho, hyg' 0 q _ o (by omega) hq hi ho] at h
    have h := hact h
    have hz : ∀ (q k r : List Nat), spread (befores ps) a.strides a.dilation crop
        (⟨sigShape .channelsLast 1 m g C, fun _ => 0⟩ : Tensor α) m 0 q k r = 0 := by
      intro q k r; unfold spread; simp
    simpa [hz] using h
  refine ⟨?_, fun hb o ho => by simpa [hb] using hbias o ho⟩
  -- the weights used for the identity
  have hid : ∀ k c o, Valid a.kernelSize k → c < chanO g C → o < a.filters →
      weightOf a true g C k0 (domainOf a.group true H) 0 k c o = weightOf a true g C k1 (domainOf a.group true H) 0 k c o := by
    intro k c o hk hc ho
    obtain ⟨q, hq, hhit⟩ := hreach k hk
    have hx : (single (α := α) (sigShape .channelsLast 1 m g C) (0 :: w ++ restIdx g C c)).shape = sigShape .channelsLast 1 m g C := rfl
    obtain ⟨y, hy, hys, hyg⟩ := c1 _ hx
    obtain ⟨y', hy', hys', hyg'⟩ := c2 _ hx
    have h := (heq _ y y' hx (by rw [hy]) (by rw [hy'])).2 (0 :: q ++ [0, o]) (by
      rw [hys]
      exact valid_two.2 ⟨⟨by omega, hq⟩, hi, ho⟩)
    rw [hyg 0 q _ o (by omega) hq hi ho, hyg' 0 q _ o (by omega) hq hi ho] at h
    have h := hact h
    have hKl : a.kernelSize.length = a.strides.length := by rw [f.kernelLen, f.stridesLen]
    rw [h0, spread_sum_single (fun k' c' => weightOf a true g C k0 (domainOf a.group true H) 0 k' c' o) hKl hdp hw hk hc hhit,
      spread_sum_single (fun k' c' => weightOf a true g C k1 (domainOf a.group true H) 0 k' c' o) hKl hdp hw hk hc hhit,
      hbias o ho] at h
    exact add_right_cancel h
  intro k c o hk hc ho
  have hc : c < chanO g C := by
    cases g with
    | none => simpa [chanO] using hc
    | some g' => exact hc
  -- every stored weight is used for the identity somewhere
  have hp : prod (a.kernelSize ++ [chanO g C, a.filters]) = prod (kShape a true g C) := by
    unfold kShape
    rw [prod_append, prod_append]
    simp [Nat.mul_comm]
  have hv : Valid (kShape a true g C) (k ++ [o, c]) := by
    unfold kShape
    simp only [if_true]
    exact valid_two.2 ⟨hk, ho, hc⟩
  have hlt : ravel (kShape a true g C) (k ++ [o, c]) < prod (a.kernelSize ++ [chanO g C, a.filters]) := by
    rw [hp]; exact ravel_lt hv
  have hu := valid_unravel hlt
  have hr := ravel_unravel hlt
  obtain ⟨k', r, hkr, hk', hr'⟩ := valid_append_split hu
  match r, hr' with
  | [c', o'], ⟨hc', ho', _⟩ =>
    have h := hid k' c' o' hk' hc' ho'
    unfold weightOf at h
    rw [wIdx_zero hD f.size hk' f.kernelLen hc', ← hkr, hr, unravel_ravel hv] at h
    exact h

/-- a padded transposed layer from P2 to P4 with a bias and an activation that loses nothing -/
def determinedTranspose : ConvArgs Int :=
  { group := .P4, subgroup := some "P2", kernelSize := [3, 3], strides := [2, 2], padding := "same",
    allowNonEquivariance := true, dataFormat := .channelsLast, filters := 2, dilation := [1, 1], useBias := true,
    activation := fun v => 2 * v + 1 }

set_option maxRecDepth 8000 in
theorem built_determinedTranspose : ∃ l, BuiltConv determinedTranspose true none [5, 5] (some 2) 1 (fun _ => 1) (fun _ => 0) [0, 2] l :=
  ⟨_, ⟨_, rfl, rfl⟩, rfl, rfl⟩

/-- hypotheses are met: on images of size 2 by 2 the results of this layer change when one of its weights does -/
example : ∃ (l : GroupConv Int), (∃ H k0 b0, BuiltConv determinedTranspose true none [5, 5] (some 2) 1 k0 b0 H l) ∧
    ¬ ∀ x y y' : Tensor Int, x.shape = sigShape .channelsLast 1 [2, 2] (some 2) 1 → (l.call x).2 = .ok y →
      ((l.assign (fun idx => if idx = [2, 1, 0, 1] then 0 else 1) (fun _ => 0)).call x).2 = .ok y' → y.Same y' := by
  obtain ⟨l, hl⟩ := built_determinedTranspose
  refine ⟨l, ⟨_, _, _, hl⟩, fun heq => ?_⟩
  have h := (C67_transposed_parameters hl rfl .same (by decide) (fun u v e => by
    have e : 2 * u + 1 = 2 * v + 1 := e
    omega) (by decide) [2, 2] rfl (by decide) heq).1 [2, 1] 1 0 (by decide) (by decide) (by decide)
  exact absurd h (by decide)

end GroCo
