import Verif.FirstEquiv

/-
Helper lemmas: what a call of a built transposed convolution layer computes, and its equivariance.
-/

namespace GroCo
open Tensor

variable {α : Type}

theorem mapM_some_iff {β γ : Type} {f : β → Option γ} {l : List β} {r : List γ} :
    l.mapM f = some r ↔ l.map f = r.map some := by
  induction l generalizing r with
  | nil => cases r <;> simp
  | cons b l ih =>
    cases r with
    | nil => cases h : f b <;> cases h2 : l.mapM f <;> simp [h, h2]
    | cons c r =>
      simp only [List.mapM_cons, List.map_cons, List.cons.injEq, ← ih]
      cases h : f b <;> cases h2 : l.mapM f <;> simp [h2]

theorem range_map_some {f : Nat → Option Nat} {d : Nat} {r : List Nat} :
    (List.range d).map f = r.map some ↔ r.length = d ∧ ∀ i, i < d → f i = some (nth r i) := by
  constructor
  · intro h
    have hl : r.length = d := by simpa using (congrArg List.length h).symm
    refine ⟨hl, fun i hi => ?_⟩
    have := congrArg (fun l => l[i]?) h
    simp only [List.getElem?_map, List.getElem?_range hi, Option.map_some] at this
    rw [List.getElem?_eq_getElem (by omega)] at this
    simp only [Option.map_some, Option.some.injEq] at this
    rw [this]
    simp [nth, List.getElem?_eq_getElem (show i < r.length by omega)]
  · rintro ⟨hl, h⟩
    apply List.ext_getElem
    · simp [hl]
    · intro i h1 h2
      simp only [List.length_map, List.length_range] at h1
      simp only [List.getElem_map, List.getElem_range, h i h1]
      simp [nth, List.getElem?_eq_getElem (show i < r.length by omega)]

/-- positions found by `upPos` -/
theorem upPos_some {strides dil crop q k n p : List Nat} (hs : ∀ i, i < strides.length → 0 < nth strides i) :
    upPos strides dil crop q k n = some p ↔ p.length = strides.length ∧ ∀ i, i < strides.length →
      nth p i * nth strides i + nth k i * nth dil i = nth q i + nth crop i ∧ nth p i < nth n i := by
  unfold upPos
  rw [mapM_some_iff, range_map_some]
  refine and_congr_right fun _ => forall_congr' fun i => forall_congr' fun hi => ?_
  have h0 := hs i hi
  simp only
  generalize nth q i + nth crop i = t
  generalize nth k i * nth dil i = e
  generalize nth strides i = s at *
  constructor
  · intro h
    split at h
    · rename_i hc
      simp only [Option.some.injEq] at h
      rw [← h]
      have := Nat.div_add_mod (t - e) s
      rw [hc.2.1, Nat.mul_comm] at this
      exact ⟨by omega, hc.2.2⟩
    · exact absurd h (by simp)
  · rintro ⟨h1, h2⟩
    have h3 : t - e = nth p i * s := by omega
    have h4 : (t - e) / s = nth p i := by rw [h3, Nat.mul_div_cancel _ h0]
    rw [if_pos ⟨by omega, by rw [h3, Nat.mul_mod_left], by rw [h4]; exact h2⟩, h4]

theorem sum_ite_none {β : Type} [AddCommMonoid α] {l : List β} {P : β → Prop} [DecidablePred P] {F : β → α}
    (h : ∀ b ∈ l, ¬ P b) : (l.map fun b => if P b then F b else 0).sum = 0 := by
  rw [sum_congr (H := fun _ => 0) fun b hb => if_neg (h b hb)]
  simp

theorem sum_ite_one {β : Type} [AddCommMonoid α] {l : List β} (hl : l.Nodup) {P : β → Prop} [DecidablePred P] {F : β → α}
    {c : β} (hc : c ∈ l) (h : ∀ b ∈ l, P b ↔ b = c) : (l.map fun b => if P b then F b else 0).sum = F c := by
  induction l with
  | nil => exact absurd hc (by simp)
  | cons b l ih =>
    rw [List.nodup_cons] at hl
    rw [List.map_cons, List.sum_cons]
    by_cases hb : b = c
    · subst hb
      rw [if_pos ((h b (by simp)).2 rfl), sum_ite_none, add_zero]
      intro b' hb' hp
      have := (h b' (by simp [hb'])).1 hp
      subst this
      exact hl.1 hb'
    · rw [if_neg (fun hp => hb ((h b (by simp)).1 hp)), zero_add]
      refine ih hl.2 (by simpa [Ne.symm hb] using hc) fun b' hb' => h b' (by simp [hb'])

/-- all entries of a signal that contribute to output position `q` through kernel offset `k` -/
def spread [AddCommMonoid α] (before strides dil crop : List Nat) (x : Tensor α) (n : List Nat) (b : Nat) (q k r : List Nat) : α :=
  ((indices n).map fun p => if Hits before strides dil crop p k q then x.get (b :: p ++ r) else 0).sum

theorem length_befores (ps : List (Nat × Nat)) : (befores ps).length = ps.length := by simp [befores]

/-- reading a padded signal -/
theorem upPos_spread [Semiring α] {strides dil crop q k n r : List Nat} {ps : List (Nat × Nat)} {x y : Tensor α} {b c : Nat}
    (hs : ∀ i, i < strides.length → 0 < nth strides i) (hn : n.length = strides.length) (hps : ps.length = strides.length)
    (hxy : ∀ q, q.length = strides.length → readAt y (grow n ps) b q [c] = readAt x n b (shiftBack q ps) r) :
    (match upPos strides dil crop q k (grow n ps) with
      | some p => y.get (b :: p ++ [c])
      | none => 0) = spread (befores ps) strides dil crop x n b q k r := by
  have hgl : (grow n ps).length = strides.length := by rw [length_grow (by omega), hn]
  have hg : ∀ i, i < strides.length → nth (grow n ps) i = nth (befores ps) i + nth n i + (ps.getD i (0, 0)).2 := fun i hi => by
    rw [nth_grow (by omega) (by omega), nth_befores]
  cases hu : upPos strides dil crop q k (grow n ps) with
  | none =>
    simp only
    unfold spread
    rw [sum_ite_none]
    intro p hp hh
    rw [mem_indices] at hp
    have := (upPos_some (dil := dil) (crop := crop) (q := q) (k := k) (n := grow n ps) (p := (List.range strides.length).map fun i => nth p i + nth (befores ps) i) hs).2
      (show _ ∧ _ from ⟨by simp, fun i hi => by
        rw [nth_map_range, if_pos hi]
        refine ⟨hh i hi, ?_⟩
        rw [hg i hi]
        have := hp.lt (i := i) (by omega)
        omega⟩)
    rw [hu] at this
    exact absurd this (by simp)
  | some p0 =>
    simp only
    obtain ⟨hl, hp⟩ := (upPos_some hs).1 hu
    have hv : Valid (grow n ps) p0 := by
      rw [valid_iff]
      exact ⟨by rw [hl, hgl], fun i hi => (hp i (by omega)).2⟩
    have hsb : ∀ i, i < strides.length → (shiftBack (p0.map Int.ofNat) ps).getD i 0 = (nth p0 i : Int) - nth (befores ps) i := by
      intro i hi
      have h1 : i < p0.length := by omega
      have h2 : i < ps.length := by omega
      rw [nth_befores]
      simp [shiftBack, h1, h2, nth]
    rw [← readAt_valid y b [c] hv, hxy _ (by simp [hl])]
    unfold spread readAt
    by_cases hb : InBox n (shiftBack (p0.map Int.ofNat) ps)
    · rw [if_pos hb]
      have hb' := inBox_iff.1 hb
      have e : ∀ i, i < strides.length →
          (nth ((shiftBack (p0.map Int.ofNat) ps).map Int.toNat) i) + nth (befores ps) i = nth p0 i := by
        intro i hi
        have h1 := (hb'.2 i (by omega)).1
        have e1 : nth ((shiftBack (p0.map Int.ofNat) ps).map Int.toNat) i = ((shiftBack (p0.map Int.ofNat) ps).getD i 0).toNat := by
          simp [nth, List.getElem?_eq_getElem (show i < (shiftBack (p0.map Int.ofNat) ps).length by omega)]
        rw [e1]
        rw [hsb i hi] at h1 ⊢
        omega
      rw [sum_ite_one (nodup_indices n) (c := (shiftBack (p0.map Int.ofNat) ps).map Int.toNat)
        ((mem_indices _ _).2 (inBox_toNat hb))]
      intro p hpn
      rw [mem_indices] at hpn
      constructor
      · intro hh
        apply ext_nth
        · rw [hpn.length, (inBox_toNat hb).length]
        · intro i hi
          rw [hpn.length, hn] at hi
          have h1 := hh i hi
          have h2 := (hp i hi).1
          have h3 := e i hi
          have h4 : (nth p i + nth (befores ps) i) * nth strides i = nth p0 i * nth strides i := by omega
          have := Nat.eq_of_mul_eq_mul_right (hs i hi) h4
          omega
      · rintro rfl i hi
        rw [e i hi]
        exact (hp i hi).1
    · rw [if_neg hb, sum_ite_none]
      intro p hpn hh
      rw [mem_indices] at hpn
      apply hb
      rw [inBox_iff]
      refine ⟨by simp [shiftBack, hl, hps, hn], fun i hi => ?_⟩
      rw [hn] at hi
      rw [hsb i hi]
      have h1 := hh i hi
      have h2 := (hp i hi).1
      have h4 : (nth p i + nth (befores ps) i) * nth strides i = nth p0 i * nth strides i := by omega
      have := Nat.eq_of_mul_eq_mul_right (hs i hi) h4
      have := hpn.lt (i := i) (by omega)
      omega

/-- output sizes of a transposed convolution -/
def upSizes (kp : KerasPadding) (strides dil K n : List Nat) : List Nat :=
  (List.range strides.length).map fun i => (transposeOut kp (nth n i) (dilated (nth K i) (nth dil i)) (nth strides i)).1

/-- positions cut off at the start of the output -/
def upCrop (kp : KerasPadding) (strides dil K n : List Nat) : List Nat :=
  (List.range strides.length).map fun i => (transposeOut kp (nth n i) (dilated (nth K i) (nth dil i)) (nth strides i)).2

theorem length_upSizes (kp : KerasPadding) (strides dil K n : List Nat) : (upSizes kp strides dil K n).length = strides.length := by
  simp [upSizes]

/-- Keras's transposed convolution -/
theorem convTransposeLast_ok [Semiring α] (kp : KerasPadding) {strides dil K n : List Nat} {B C F : Nat} {x w : Tensor α}
    (hx : x.shape = B :: n ++ [C]) (hw : w.shape = K ++ [F, C]) (hn : n.length = strides.length)
    (hK : K.length = strides.length) (hs : ∀ i, i < strides.length → 0 < nth strides i)
    (hk : ∀ i, i < strides.length → 0 < nth K i) :
    ∃ y, convTransposeLast kp strides dil x w = .ok y ∧ y.shape = B :: upSizes kp strides dil K n ++ [F] ∧
      ∀ b q o, q.length = strides.length → y.get (b :: q ++ [o]) =
        ((indices K).map fun k => ((List.range C).map fun c =>
          (match upPos strides dil (upCrop kp strides dil K n) q k n with
            | some p => x.get (b :: p ++ [c])
            | none => 0) * w.get (k ++ [o, c])).sum).sum := by
  have hxr : x.rank = strides.length + 2 := by simp [Tensor.rank, hx, hn]
  have hwr : w.rank = strides.length + 2 := by simp [Tensor.rank, hw, hK]
  have h1 : spatialPart strides.length x.shape = n := by rw [hx]; exact spatialPart_cons hn
  have h2 : w.shape.take strides.length = K := by rw [hw, ← hK]; simp
  have h3 : nth w.shape strides.length = F := by rw [hw]; lay hK
  have h4 : nth x.shape (strides.length + 1) = C := by
    rw [hx]; exact nth_app0 (a := B :: n) (by simp [hn])
  have h5 : nth w.shape (strides.length + 1) = C := by rw [hw]; lay hK
  have h6 : nth x.shape 0 = B := by rw [hx]; simp
  unfold convTransposeLast
  simp only [h1, h2, h3, h4, h5, h6, hxr, hwr, true_and]
  rw [if_pos (fun i hi => ⟨hs i hi, hk i hi⟩)]
  refine ⟨_, rfl, by simp [upSizes, Function.comp_def], ?_⟩
  intro b q o hq
  have g1 : nth (b :: q ++ [o]) (strides.length + 1) = o := nth_app0 (a := b :: q) (by simp [hq])
  simp only [g1, spatialPart_cons hq]
  simp [upCrop, Function.comp_def]
  rfl

/-- Calling a built transposed channels_last layer. -/
theorem convT_call_last [Semiring α] {a : ConvArgs α} {g : Option Nat} {C : Nat} {k0 b0 : List Nat → α}
    {A D : List Nat} {l : GroupConv α} {kp : KerasPadding} (f : ConvFacts a true g C k0 b0 A D l kp)
    (hf : a.dataFormat = .channelsLast) {x : Tensor α} {B : Nat} {n : List Nat}
    (hx : x.shape = sigShape .channelsLast B n g C) (hn : n.length = a.group.dim) :
    ∃ y, l.call x = (l, .ok y) ∧
      y.shape = B :: upSizes kp a.strides a.dilation a.kernelSize (grow n (epads l.transforms.padState a.group.dim)) ++
        [A.length, a.filters] ∧
      ∀ b q i o, b < B →
        Valid (upSizes kp a.strides a.dilation a.kernelSize (grow n (epads l.transforms.padState a.group.dim))) q →
        i < A.length → o < a.filters →
          y.get (b :: q ++ [i, o]) = a.activation ((((indices a.kernelSize).map fun k =>
            ((List.range (chanO g C)).map fun c =>
              spread (befores (epads l.transforms.padState a.group.dim)) a.strides a.dilation
                (upCrop kp a.strides a.dilation a.kernelSize (grow n (epads l.transforms.padState a.group.dim))) x n b q k
                (restIdx g C c) * weightOf a true g C k0 D (nth A i) k c o).sum).sum) +
              if a.useBias then b0 [o] else 0) := by
  obtain ⟨y, ey, hy, hyg⟩ := mergePad_last f hf x hx hn
  obtain ⟨w, ew, hw, hwg⟩ := f.transformed
  simp only [if_true] at hw hwg
  obtain ⟨b', hb', hcall⟩ := call_parts f.toConvCore (checkInput_last f hf hx hn) ey ew
  have hsl := f.stridesLen
  have hsp : ∀ i, i < a.strides.length → 0 < nth a.strides i := fun i hi =>
    Nat.pos_of_ne_zero fun h => f.stridesPos (h ▸ nth_mem _ _ hi)
  have hkp : ∀ i, i < a.strides.length → 0 < nth a.kernelSize i := fun i hi =>
    Nat.pos_of_ne_zero fun h => f.kernelPos (h ▸ nth_mem _ _ (by rw [f.kernelLen, ← hsl]; exact hi))
  have hn1 : (grow n (epads l.transforms.padState a.group.dim)).length = a.strides.length := by
    rw [length_grow (by rw [length_epads, hn]), hn, hsl]
  obtain ⟨u, eu, hu, hug⟩ := convTransposeLast_ok (dil := a.dilation) kp hy hw hn1 (by rw [f.kernelLen, hsl]) hsp hkp
  obtain ⟨v, ev, hv, hvg⟩ := bias_act a.activation hb' u hu
  have hsuper : ({ l with kernel := some w, bias := b', filters := a.filters * A.length } : GroupConv α).superCall y = .ok v := by
    rw [← ev]
    simp only [GroupConv.superCall, f.transp, if_true, baseConvTransposeCall, f.fmt, hf, convTranspose, f.padding,
      f.strides, f.dilation, f.act, eu, res_bind_ok]
    cases b' <;> rfl
  obtain ⟨z, ez, hz, hzg⟩ := restore_last f hf v hv (by rw [length_upSizes, hsl])
  refine ⟨z, ?_, hz, ?_⟩
  · rw [hcall, hsuper]
    simp only [res_bind_ok, ez]
  · intro b q i o hb hq hi ho
    have hql : q.length = a.strides.length := by rw [hq.length, length_upSizes]
    rw [hzg b q i o hb hq hi ho, hvg b q i o hq.length hi ho, hug b q _ hql]
    refine congrArg a.activation (congrArg (· + _) ?_)
    apply sum_congr
    intro k hk
    rw [mem_indices] at hk
    apply sum_congr
    intro c hc
    rw [List.mem_range] at hc
    rw [hwg k c i o hk hc hi ho]
    refine congrArg (· * _) ?_
    exact upPos_spread hsp (by rw [hn, hsl]) (by rw [length_epads, hsl]) fun q' hq' =>
      hyg b q' c hb (by rw [hq', hsl]) hc

end GroCo
