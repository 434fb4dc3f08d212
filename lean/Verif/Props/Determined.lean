import Verif.Props.Complete
import Verif.Props.Training
import Verif.ExactLemmas

/-
Property C67 for all paddings, with bias and activation: the weights are determined by what a layer computes.
-/

namespace GroCo
open Tensor

variable {α : Type}

set_option maxHeartbeats 1600000 in
/-- C67 in general: the weights and the bias of a built GroupConv layer, with any padding and an injective activation, are determined by
what the layer computes on images of some one size at least as large as a (dilated) kernel and a stride, less one. -/
theorem C67_parameters_determined [Ring α] {a : ConvArgs α} {bt : Option Nat} {n : List Nat} {g : Option Nat} {C : Nat}
    {k0 k1 b0 b1 : List Nat → α} {H : List Nat} {l : GroupConv α} (hl : BuiltConv a false bt n g C k0 b0 H l)
    (hf : a.dataFormat = .channelsLast) (hact : Function.Injective a.activation) (hd0 : 0 ∉ a.dilation)
    (m : List Nat) (hm : m.length = a.group.dim)
    (hfit : ∀ i, i < a.group.dim → dilated (nth a.kernelSize i) (nth a.dilation i) + nth a.strides i ≤ nth m i + 1)
    (heq : ∀ x y y' : Tensor α, x.shape = sigShape .channelsLast 1 m g C → (l.call x).2 = .ok y →
      ((l.assign k1 b1).call x).2 = .ok y' → y.Same y') :
    (∀ k c o, Valid a.kernelSize k → c < g.getD 1 * C → o < a.filters → k0 (k ++ [c, o]) = k1 (k ++ [c, o])) ∧
    (a.useBias = true → ∀ o, o < a.filters → b0 [o] = b1 [o]) := by
  have S := a.group.sym
  have hl' : BuiltConv a false bt n g C k1 b1 H (l.assign k1 b1) := C53_assign hl
  obtain ⟨opt, kp, e1, e2, f, hst⟩ := hl.facts_last hf
  obtain ⟨opt', kp', e1', e2', f', hst'⟩ := hl'.facts_last hf
  rw [e1] at e1'
  cases e1'
  rw [e2] at e2'
  cases e2'
  have hpad : (l.assign k1 b1).transforms.padState = l.transforms.padState := by
    rw [hst] at hst'
    exact (Except.ok.inj hst').symm
  have hg : ∀ g', g = some g' → g' = a.group.group.order := fun g' e => by
    have := f.size g' e
    simpa [domainOf] using this
  have hml : m.length = a.strides.length := by rw [hm, f.stridesLen]
  have hsp : ∀ i, i < a.strides.length → 0 < nth a.strides i := fun i hi =>
    Nat.pos_of_ne_zero fun h => f.stridesPos (h ▸ nth_mem _ _ hi)
  have hKp : ∀ i, i < a.strides.length → 0 < nth a.kernelSize i := fun i hi =>
    Nat.pos_of_ne_zero fun h => f.kernelPos (h ▸ nth_mem _ _ (by rw [f.kernelLen, ← f.stridesLen]; exact hi))
  have hdp : ∀ i, i < a.strides.length → 0 < nth a.dilation i := fun i hi =>
    Nat.pos_of_ne_zero fun h => hd0 (h ▸ nth_mem _ _ (by rw [f.dilationLen, ← f.stridesLen]; exact hi))
  have hfit' : ∀ i, i < a.strides.length →
      dilated (nth a.kernelSize i) (nth a.dilation i) + nth a.strides i ≤ nth m i + 1 := fun i hi =>
    hfit i (by rw [← f.stridesLen]; exact hi)
  have hfits : FitsIn a.strides a.dilation a.kernelSize (padded l.transforms.padState kp a.strides a.dilation a.kernelSize m) := by
    intro i hi
    refine ⟨hsp i hi, hKp i hi, ?_⟩
    rw [nth_padded hml hi]
    have := hfit' i hi
    have := hsp i hi
    omega
  have c1 := fun (x : Tensor α) (hx : x.shape = sigShape .channelsLast 1 m g C) => (conv_call_last f hf hx hm).2 hfits
  have c2 := fun (x : Tensor α) (hx : x.shape = sigShape .channelsLast 1 m g C) => (conv_call_last f' hf hx hm).2
    (by rw [hpad]; exact hfits)
  rw [hpad] at c2
  have hbl : (totalBefore l.transforms.padState kp a.strides a.dilation a.kernelSize m).length = a.strides.length := by
    simp [totalBefore]
  have hpd : ∀ i, i < a.strides.length → nth (padded l.transforms.padState kp a.strides a.dilation a.kernelSize m) i =
      nth (totalBefore l.transforms.padState kp a.strides a.dilation a.kernelSize m) i + nth m i +
        nth (totalAfter l.transforms.padState kp a.strides a.dilation a.kernelSize m) i := fun i hi => nth_padded hml hi
  generalize hB : totalBefore l.transforms.padState kp a.strides a.dilation a.kernelSize m = before at *
  generalize hA : totalAfter l.transforms.padState kp a.strides a.dilation a.kernelSize m = after at *
  generalize hQ : padded l.transforms.padState kp a.strides a.dilation a.kernelSize m = total at *
  -- a position all of whose window lies inside the image
  obtain ⟨p, hpdef⟩ : ∃ p : List Nat, p = (List.range a.strides.length).map fun i =>
      (nth before i + nth a.strides i - 1) / nth a.strides i := ⟨_, rfl⟩
  have hpn : ∀ i, i < a.strides.length → nth p i = (nth before i + nth a.strides i - 1) / nth a.strides i := fun i hi => by
    rw [hpdef, nth_map_range, if_pos hi]
  have hp1 : ∀ i, i < a.strides.length → nth before i ≤ nth p i * nth a.strides i ∧
      nth p i * nth a.strides i + 1 ≤ nth before i + nth a.strides i := fun i hi => by
    rw [hpn i hi]
    have h1 := Nat.div_add_mod (nth before i + nth a.strides i - 1) (nth a.strides i)
    have h2 := Nat.mod_lt (nth before i + nth a.strides i - 1) (hsp i hi)
    have h3 := hsp i hi
    rw [Nat.mul_comm] at h1
    omega
  have hp : Valid (outSizes a.strides a.dilation a.kernelSize total) p := by
    rw [valid_iff]
    refine ⟨by rw [length_outSizes, hpdef]; simp, fun j hj => ?_⟩
    rw [length_outSizes] at hj
    rw [outSizes, nth_map_range, if_pos hj, Nat.lt_succ_iff, Nat.le_div_iff_mul_le (hsp j hj), hpd j hj]
    have := hp1 j hj
    have := hfit' j hj
    omega
  obtain ⟨q, hqdef⟩ : ∃ q : List Nat, q = (List.range a.strides.length).map fun i =>
      nth p i * nth a.strides i - nth before i := ⟨_, rfl⟩
  have hqn : ∀ i, i < a.strides.length → nth q i = nth p i * nth a.strides i - nth before i := fun i hi => by
    rw [hqdef, nth_map_range, if_pos hi]
  have hone : (List.replicate a.strides.length 1).length = a.strides.length := by simp
  have hwin : ∀ k, winZ before a.strides a.dilation p k =
      (winN (List.replicate a.strides.length 1) a.dilation q k).map Int.ofNat := by
    intro k
    unfold winZ winN
    rw [hone, List.map_map]
    apply List.map_congr_left
    intro i hi
    rw [List.mem_range] at hi
    have := hp1 i hi
    simp only [Function.comp_apply, hqn i hi, nth_replicate, if_pos hi, Nat.mul_one, Int.ofNat_eq_natCast]
    push_cast [Nat.cast_sub this.1]
    ring
  have hbox : ∀ k, Valid a.kernelSize k → Valid m (winN (List.replicate a.strides.length 1) a.dilation q k) := by
    intro k hk
    rw [valid_iff]
    refine ⟨by rw [length_winN, hone, hml], fun j hj => ?_⟩
    rw [hml] at hj
    rw [winN, hone, nth_map_range, if_pos hj, hqn j hj, nth_replicate, if_pos hj, Nat.mul_one]
    have h1 := hp1 j hj
    have h2 := hfit' j hj
    have h3 := ((valid_iff _ _).1 hk).2 j (by rw [f.kernelLen, ← f.stridesLen]; exact hj)
    have h4 : nth k j * nth a.dilation j ≤ (nth a.kernelSize j - 1) * nth a.dilation j := Nat.mul_le_mul_right _ (by omega)
    have h5 : dilated (nth a.kernelSize j) (nth a.dilation j) = (nth a.kernelSize j - 1) * nth a.dilation j + 1 := by
      rw [dilated, Nat.mul_comm]
    omega
  have h0 : 0 ∈ H := sub_zero_mem a.group hl.elements
  have hi : H.idxOf 0 < H.length := List.idxOf_lt_length_iff.2 h0
  have hbias : ∀ o, o < a.filters → (if a.useBias then b0 [o] else 0) = (if a.useBias then b1 [o] else 0) := by
    intro o ho
    obtain ⟨y, hy, hys, hyg⟩ := c1 ⟨sigShape .channelsLast 1 m g C, fun _ => 0⟩ rfl
    obtain ⟨y', hy', hys', hyg'⟩ := c2 ⟨sigShape .channelsLast 1 m g C, fun _ => 0⟩ rfl
    have h := (heq _ y y' rfl (by rw [hy]) (by rw [hy'])).2 (0 :: p ++ [H.idxOf 0, o]) (by
      rw [hys]
      exact valid_two.2 ⟨⟨by omega, hp⟩, hi, ho⟩)
    rw [hyg 0 p _ o (by omega) hp hi ho, hyg' 0 p _ o (by omega) hp hi ho] at h
    have h := hact h
    have hz : ∀ (q : List Int) (r : List Nat), readAt (⟨sigShape .channelsLast 1 m g C, fun _ => 0⟩ : Tensor α) m 0 q r = 0 := by
      intro q r; unfold readAt; split <;> rfl
    simpa [hz] using h
  refine ⟨?_, fun hb o ho => by simpa [hb] using hbias o ho⟩
  intro k c o hk hc ho
  have hc : c < chanO g C := by
    cases g with
    | none => simpa [chanO] using hc
    | some g' => exact hc
  have hx : (single (α := α) (sigShape .channelsLast 1 m g C) (0 :: winN (List.replicate a.strides.length 1) a.dilation q k ++
    restIdx g C c)).shape = sigShape .channelsLast 1 m g C := rfl
  obtain ⟨y, hy, hys, hyg⟩ := c1 _ hx
  obtain ⟨y', hy', hys', hyg'⟩ := c2 _ hx
  have h := (heq _ y y' hx (by rw [hy]) (by rw [hy'])).2 (0 :: p ++ [H.idxOf 0, o]) (by
    rw [hys]
    exact valid_two.2 ⟨⟨by omega, hp⟩, hi, ho⟩)
  have hKl : a.kernelSize.length = (List.replicate a.strides.length 1).length := by rw [f.kernelLen, hone, f.stridesLen]
  have hval : ∀ V : List Nat → Nat → α, ((indices a.kernelSize).map fun k' => ((List.range (chanO g C)).map fun c' =>
      readAt (single (α := α) (sigShape .channelsLast 1 m g C) (0 :: winN (List.replicate a.strides.length 1) a.dilation q k ++
        restIdx g C c)) m 0 (winZ before a.strides a.dilation p k') (restIdx g C c') * V k' c').sum).sum = V k c := by
    intro V
    rw [← sum_single (m := m) (shape := sigShape .channelsLast 1 m g C) (p := q) (b := 0) V hKl (fun i hi => hdp i (by rwa [hone] at hi)) hk hc]
    apply sum_congr
    intro k' hk'
    rw [mem_indices] at hk'
    apply sum_congr
    intro c' _
    congr 1
    unfold readAt
    rw [hwin k', if_pos (inBox_of_valid (hbox k' hk')), List.map_map]
    have e : ((winN (List.replicate a.strides.length 1) a.dilation q k').map (Int.toNat ∘ Int.ofNat)) =
        winN (List.replicate a.strides.length 1) a.dilation q k' := by
      rw [show (Int.toNat ∘ Int.ofNat) = id from rfl, List.map_id]
    rw [e]
  rw [hyg 0 p _ o (by omega) hp hi ho, hyg' 0 p _ o (by omega) hp hi ho] at h
  have h := hact h
  rw [hval fun k' c' => weightOf a false g C k0 (domainOf a.group false H) (nth (actingOf a.group false H) (H.idxOf 0)) k' c' o,
    hval fun k' c' => weightOf a false g C k1 (domainOf a.group false H) (nth (actingOf a.group false H) (H.idxOf 0)) k' c' o,
    hbias o ho] at h
  have h := add_right_cancel h
  rw [show domainOf a.group false H = List.range a.group.group.order from rfl,
    show nth (actingOf a.group false H) (H.idxOf 0) = 0 from nth_idxOf h0,
    weight_false hg f.grid S.tab.pos hk hc ho, weight_false hg f.grid S.tab.pos hk hc ho, S.back_one (by rw [hk.length, f.kernelLen]),
    turnChan_zero hg hc] at h
  exact h

/-- a padded layer with a bias and an activation that loses nothing -/
def determinedArgs : ConvArgs Int :=
  { group := .P4, subgroup := some "P2", kernelSize := [3, 3], strides := [2, 2], padding := "same_equiv",
    allowNonEquivariance := false, dataFormat := .channelsLast, filters := 2, dilation := [1, 1], useBias := true,
    activation := fun v => 2 * v + 1 }

set_option maxRecDepth 8000 in
theorem built_determinedArgs : ∃ l, BuiltConv determinedArgs false none [5, 5] (some 4) 1
    (fun idx => (nth idx 0 : Int) + 3 * nth idx 1) (fun _ => 0) [0, 2] l :=
  ⟨_, ⟨_, rfl, rfl⟩, rfl, rfl⟩

/-- hypotheses are met: on images of size 5 by 5 the results of this layer change when its bias does -/
example : ∃ (l : GroupConv Int), (∃ H k0 b0, BuiltConv determinedArgs false none [5, 5] (some 4) 1 k0 b0 H l) ∧
    ¬ ∀ x y y' : Tensor Int, x.shape = sigShape .channelsLast 1 [5, 5] (some 4) 1 → (l.call x).2 = .ok y →
      ((l.assign (fun idx => (nth idx 0 : Int) + 3 * nth idx 1) (fun idx => nth idx 0)).call x).2 = .ok y' → y.Same y' := by
  obtain ⟨l, hl⟩ := built_determinedArgs
  refine ⟨l, ⟨_, _, _, hl⟩, fun heq => ?_⟩
  have h := (C67_parameters_determined hl rfl (fun u v e => by
    have e : 2 * u + 1 = 2 * v + 1 := e
    omega) (by decide) [5, 5] rfl (by decide) heq).2 rfl 1 (by decide)
  exact absurd h (by decide)

end GroCo
