import Verif.TransposeLemmas

/-
Helper lemmas: transposed group convolution layers commute with the action of the subgroup.
-/

namespace GroCo
open Tensor

variable {α : Type}

theorem hits_pull {d : Nat} {σ : SPerm} (h : σ.WF d) {m out K before strides dil crop p k q : List Nat}
    (hs : strides.length = d) (hm : m.length = d) (hO : out.length = d) (hK : K.length = d)
    (cm : σ.Compat m) (cO : σ.Compat out) (cK : σ.Compat K) (cs : σ.Compat strides) (cd : σ.Compat dil)
    (cb : σ.Compat before) (cc : σ.Compat crop)
    (hgeo : ∀ i, i < d → σ.neg i = true → nth out i + 2 * nth crop i + nth strides i =
      (nth m i + 2 * nth before i) * nth strides i + (nth K i - 1) * nth dil i + 1)
    (hp : Valid m p) (hk : Valid K k) (hq : Valid out q) :
    Hits before strides dil crop (σ.pull m p) (σ.pull K k) (σ.pull out q) ↔ Hits before strides dil crop p k q := by
  have key : ∀ a, a < d → ((nth (σ.pull m p) a + nth before a) * nth strides a + nth (σ.pull K k) a * nth dil a =
        nth (σ.pull out q) a + nth crop a ↔
      (nth p (σ.src a) + nth before (σ.src a)) * nth strides (σ.src a) + nth k (σ.src a) * nth dil (σ.src a) =
        nth q (σ.src a) + nth crop (σ.src a)) := by
    intro a ha
    have ha' : a < σ.length := by rw [h.1]; exact ha
    have hj := h.src_lt ha
    have hpj := hp.lt (i := σ.src a) (by omega)
    have hkj := hk.lt (i := σ.src a) (by omega)
    have hqj := hq.lt (i := σ.src a) (by omega)
    rw [SPerm.nth_pull _ _ _ ha', SPerm.nth_pull _ _ _ ha', SPerm.nth_pull _ _ _ ha', ← cs a ha', ← cd a ha', ← cb a ha',
      ← cc a ha']
    rw [← cm a ha'] at hpj
    rw [← cK a ha'] at hkj
    rw [← cO a ha'] at hqj
    split
    · rename_i hneg
      have g := hgeo a ha hneg
      generalize nth p (σ.src a) = p at *
      generalize nth k (σ.src a) = k at *
      generalize nth q (σ.src a) = q at *
      generalize nth m a = m at *
      generalize nth K a = K at *
      generalize nth out a = o at *
      generalize nth before a = b at *
      generalize nth strides a = s at *
      generalize nth dil a = r at *
      generalize nth crop a = c at *
      obtain ⟨p', rfl⟩ : ∃ p', m = p + p' + 1 := ⟨m - 1 - p, by omega⟩
      obtain ⟨k', rfl⟩ : ∃ k', K = k + k' + 1 := ⟨K - 1 - k, by omega⟩
      obtain ⟨q', rfl⟩ : ∃ q', o = q + q' + 1 := ⟨o - 1 - q, by omega⟩
      rw [show p + p' + 1 - 1 - p = p' by omega, show k + k' + 1 - 1 - k = k' by omega, show q + q' + 1 - 1 - q = q' by omega]
      rw [show k + k' + 1 - 1 = k + k' by omega] at g
      have g2 : q + q' + 2 * c = (p + b) * s + (p' + b) * s + k * r + k' * r := by
        have : (p + p' + 1 + 2 * b) * s = (p + b) * s + (p' + b) * s + s := by ring
        have h2 : (k + k') * r = k * r + k' * r := by ring
        omega
      omega
    · exact Iff.rfl
  unfold Hits
  rw [hs]
  constructor
  · intro hh j hj
    obtain ⟨a, ha, rfl⟩ := h.surj hj
    exact (key a ha).1 (hh a ha)
  · intro hh a ha
    exact (key a ha).2 (hh _ (h.src_lt ha))

/-- the value a transposed layer computes -/
def convTFormula [Semiring α] (a : ConvArgs α) (g : Option Nat) (C : Nat) (k0 b0 : List Nat → α) (A D before crop : List Nat)
    (x : Tensor α) (m : List Nat) (b : Nat) (q : List Nat) (i o : Nat) : α :=
  a.activation ((((indices a.kernelSize).map fun k =>
    ((List.range (chanO g C)).map fun c =>
      spread before a.strides a.dilation crop x m b q k (restIdx g C c) * weightOf a true g C k0 D (nth A i) k c o).sum).sum) +
      if a.useBias then b0 [o] else 0)

/-- the value computed on a moved input, if the contributions are moved into each other -/
theorem formulaT_of_hits [Semiring α] {a : ConvArgs α} {g : Option Nat} {C : Nat} {k0 b0 : List Nat → α}
    {A D : List Nat} {l : GroupConv α} {kp : KerasPadding} (f : ConvFacts a true g C k0 b0 A D l kp)
    {x x' : Tensor α} {B : Nat} {m : List Nat} {h : Nat} (hm : a.group.Kept h m) {out before crop : List Nat}
    (hh : h ∈ D) (hhA : h ∈ A)
    (hxx : ∀ b p c, b < B → Valid m p → c < chanO g C → x'.get (b :: p ++ restIdx g C c) =
      x.get (b :: back a.group.els m h p ++ restIdx g C (turnChan a.group.group.toGroupData D g C h c)))
    {b : Nat} {q : List Nat} {i : Nat} (o : Nat) (hb : b < B) (hi : i < A.length)
    (hits : ∀ p k, Valid m p → Valid a.kernelSize k →
      (Hits before a.strides a.dilation crop (back a.group.els m h p) (back a.group.els a.kernelSize h k) (back a.group.els out h q) ↔
        Hits before a.strides a.dilation crop p k q)) :
    convTFormula a g C k0 b0 A D before crop x' m b q i o =
      convTFormula a g C k0 b0 A D before crop x m b (back a.group.els out h q) (turn a.group.group.toGroupData A h i) o := by
  have S := a.group.sym
  obtain ⟨sA, hA⟩ := f.subA
  obtain ⟨sD, hD⟩ := f.subD
  have hh' := S.sub_lt hD hh
  refine congrArg a.activation (congrArg (· + _) ?_)
  rw [S.nth_turn hA hhA hi]
  have hAi := S.sub_nth_lt hA hi
  have hj : a.group.group.comp (nth a.group.group.inverses h) (nth A i) < a.group.group.order :=
    S.tab.laws.closed _ _ (S.inv_lt hh') hAi
  have hcomp : a.group.group.comp h (a.group.group.comp (nth a.group.group.inverses h) (nth A i)) = nth A i := by
    rw [← S.tab.laws.assoc _ _ _ hh' (S.inv_lt hh') hAi, S.tab.laws.mul_inv _ hh', S.tab.laws.one_mul _ hAi]
  rw [← S.sum_back f.grid hh' (fun k => ((List.range (chanO g C)).map fun c =>
    spread before a.strides a.dilation crop x m b (back a.group.els out h q) k (restIdx g C c) *
      weightOf a true g C k0 D (a.group.group.comp (nth a.group.group.inverses h) (nth A i)) k c o).sum)]
  apply sum_congr
  intro k hk
  rw [mem_indices] at hk
  rw [← S.sum_turnChan hD f.size hh (fun c =>
    spread before a.strides a.dilation crop x m b (back a.group.els out h q) (back a.group.els a.kernelSize h k) (restIdx g C c) *
      weightOf a true g C k0 D (a.group.group.comp (nth a.group.group.inverses h) (nth A i)) (back a.group.els a.kernelSize h k) c o)]
  apply sum_congr
  intro c hc
  rw [List.mem_range] at hc
  have e1 := weight_covariant (k0 := k0) (o := o) (tr := true) hD f.size f.grid hh hj hk hc
  rw [hcomp] at e1
  rw [e1]
  refine congrArg₂ (· * ·) ?_ rfl
  unfold spread
  rw [← hm.sum hh' (fun p => if Hits before a.strides a.dilation crop p (back a.group.els a.kernelSize h k)
    (back a.group.els out h q) then x.get (b :: p ++ restIdx g C (turnChan a.group.group.toGroupData D g C h c)) else 0)]
  apply sum_congr
  intro p hp
  rw [mem_indices] at hp
  rw [hxx b p c hb hp hc]
  exact if_congr (hits p k hp hk).symm rfl rfl

/-- the value computed on a moved input -/
theorem formulaT_equiv [Semiring α] {a : ConvArgs α} {g : Option Nat} {C : Nat} {k0 b0 : List Nat → α}
    {A D : List Nat} {l : GroupConv α} {kp : KerasPadding} (f : ConvFacts a true g C k0 b0 A D l kp)
    {x x' : Tensor α} {B : Nat} {m : List Nat}
    {h : Nat} (hm : a.group.Kept h m) (hs : a.group.Kept h a.strides) (hd : a.group.Kept h a.dilation)
    {out before crop : List Nat} (hO : a.group.Kept h out) (hbf : a.group.Kept h before) (hcr : a.group.Kept h crop)
    (hgeo : ∀ i, i < a.group.dim → nth out i + 2 * nth crop i + nth a.strides i =
      (nth m i + 2 * nth before i) * nth a.strides i + (nth a.kernelSize i - 1) * nth a.dilation i + 1)
    (hh : h ∈ D) (hhA : h ∈ A)
    (hxx : ∀ b p c, b < B → Valid m p → c < chanO g C → x'.get (b :: p ++ restIdx g C c) =
      x.get (b :: back a.group.els m h p ++ restIdx g C (turnChan a.group.group.toGroupData D g C h c)))
    {b : Nat} {q : List Nat} {i : Nat} (o : Nat) (hb : b < B) (hq : Valid out q) (hi : i < A.length) :
    convTFormula a g C k0 b0 A D before crop x' m b q i o =
      convTFormula a g C k0 b0 A D before crop x m b (back a.group.els out h q) (turn a.group.group.toGroupData A h i) o := by
  have S := a.group.sym
  obtain ⟨sD, hD⟩ := f.subD
  have hh' := S.sub_lt hD hh
  exact formulaT_of_hits f hm hh hhA hxx o hb hi fun p k hp hk =>
    hits_pull (S.wf hh') f.stridesLen hm.1 hO.1 f.kernelLen hm.2 hO.2 (S.compat' f.grid hh') hs.2 hd.2 hbf.2 hcr.2
      (fun i hi _ => hgeo i hi) hp hk hq

/-- zeros added to both ends of an axis by the padding layer of a transposed layer -/
theorem epads_transpose {o : PadOption} {d : Nat} {strides K dil n : List Nat} {b c : Option Nat} {st : PadState}
    (hn : n.length = d) (hK : K.length = d) (hs : strides.length = d) (h0 : 0 ∉ strides)
    (h : (EquivariantPadding.mk o false d strides K true true).build (signalShape true b c n) = .ok st) {i : Nat} (hi : i < d)
    (hok : TransposeOk o (nth n i) (nth K i) (nth strides i) (nth dil i)) :
    ∃ e, e = (computeEquivariantPadding o true (nth n i) (nth K i) (nth strides i)).1.toNat / 2 ∧
      (epads st d).getD i (0, 0) = (e, e) ∧ (o = .same ∨ o = .sameEquiv → e = 0) := by
  have hf := signal_fits (o := o) (allow := false) (l := true) (tr := true) hn hK hs h0
  have hg := EquivariantPadding.build_onGrid (d := d) rfl hK h
  have hin : i < n.length := by omega
  have hsp : 0 < nth strides i := Nat.pos_of_ne_zero fun h => h0 (h ▸ nth_mem _ _ (by omega))
  obtain ⟨h1, h2, h3⟩ := (build_amount hf h (by simp)).1 i hin
  rw [nth_epads hi, ← amount_pads st d (i + 1) hg]
  have e0 : st.amount (spatialAxis (EquivariantPadding.mk o false d strides K true true).channelsLast i) = st.amount (i + 1) := rfl
  have e1 : (EquivariantPadding.mk o false d strides K true true).padAt n i =
    computeEquivariantPadding o true (nth n i) (nth K i) (nth strides i) := rfl
  rw [e0, e1] at h1
  rw [e1] at h2 h3
  rw [h1]
  obtain ⟨hks, hr, hopt⟩ := hok
  have hev : (computeEquivariantPadding o true (nth n i) (nth K i) (nth strides i)).1 % 2 = 0 ∧
      (o = .same ∨ o = .sameEquiv → (computeEquivariantPadding o true (nth n i) (nth K i) (nth strides i)).1 = 0) := by
    by_cases hsame : o = .same ∨ o = .sameEquiv
    · have hT : (nth K i - nth strides i) % 2 = 0 ∧ sameTotal (nth n i) (nth K i) (nth strides i) % 2 = 0 := by
        rcases hsame with rfl | rfl <;> simpa using hopt
      have eb : computeBuiltInPadding o true (nth n i) (nth K i) (nth strides i) =
          sameTotal (nth n i) (nth K i) (nth strides i) := by
        rcases hsame with rfl | rfl <;> exact builtIn_same _ _ _ hsp
      have : (computeEquivariantPadding o true (nth n i) (nth K i) (nth strides i)).1 = 0 := by
        unfold computeEquivariantPadding
        rw [eb, extra_eq_zero _ _ _ (by omega)]
        refine ⟨by omega, ?_⟩
        have hd := Nat.div_add_mod (nth n i) (nth strides i)
        have hlt := Nat.mod_lt (nth n i) hsp
        unfold sameTotal
        split
        · rename_i hz
          have : ((nth n i : Int) + ((nth K i - nth strides i : Nat) : Int) - nth K i) =
              (nth strides i : Int) * ((nth n i / nth strides i : Nat) - 1) := by
            rw [hz] at hd
            have : ((nth n i : Nat) : Int) = ((nth strides i * (nth n i / nth strides i) : Nat) : Int) := by omega
            push_cast [Nat.cast_sub hks] at *
            linear_combination this
          rw [this, Int.mul_emod_right]
        · have : ((nth n i : Int) + ((nth K i - nth n i % nth strides i : Nat) : Int) - nth K i) =
              (nth strides i : Int) * (nth n i / nth strides i : Nat) := by
            have h5 : ((nth n i : Nat) : Int) = ((nth strides i * (nth n i / nth strides i) + nth n i % nth strides i : Nat) : Int) := by omega
            rw [Nat.cast_sub (by omega)]
            rw [Nat.cast_add, Nat.cast_mul] at h5
            linear_combination h5
          rw [this, Int.mul_emod_right]
      exact ⟨by rw [this]; rfl, fun _ => this⟩
    · refine ⟨?_, fun h => absurd h hsame⟩
      have eb : computeBuiltInPadding o true (nth n i) (nth K i) (nth strides i) = 0 := by
        cases o
        · exact absurd (Or.inl rfl) hsame
        · simp only [computeBuiltInPadding, if_true, relu]; omega
        · exact absurd (Or.inr rfl) hsame
        · simp only [computeBuiltInPadding, if_true, relu]; omega
      have : (computeEquivariantPadding o true (nth n i) (nth K i) (nth strides i)).2 =
          (computeEquivariantPadding o true (nth n i) (nth K i) (nth strides i)).1 := by
        unfold computeEquivariantPadding
        rw [eb, extra_total, add_zero]
      rw [← this]
      exact h2
  generalize (computeEquivariantPadding o true (nth n i) (nth K i) (nth strides i)).1 = v at *
  refine ⟨_, rfl, ?_, fun h => ?_⟩
  · simp only [Prod.mk.injEq]
    omega
  · have := hev.2 h
    omega

theorem transpose_geo {o : PadOption} {n k s r e : Nat} (hk : 0 < k) (hok : TransposeOk o n k s r)
    (he : o = .same ∨ o = .sameEquiv → e = 0) :
    (transposeOut (kerasOf o) (n + 2 * e) (dilated k r) s).1 + 2 * (transposeOut (kerasOf o) (n + 2 * e) (dilated k r) s).2 + s =
      (n + 2 * e) * s + (k - 1) * r + 1 := by
  obtain ⟨hks, hr, hopt⟩ := hok
  have hdil : s ≤ (k - 1) * r + 1 ∧ ((k - s) % 2 = 0 → ((k - 1) * r + 1 - s) % 2 = 0) := by
    rcases hr with rfl | rfl
    · omega
    · refine ⟨by omega, fun h => ?_⟩
      rw [Nat.add_sub_cancel, Nat.mul_mod, h]
      simp
  unfold dilated
  cases o
  · have := hdil.2 (by simpa using (by simpa using hopt : _ ∧ _).1)
    simp only [kerasOf, transposeOut]
    omega
  · simp only [kerasOf, transposeOut]
    omega
  · have := hdil.2 (by simpa using (by simpa using hopt : _ ∧ _).1)
    simp only [kerasOf, transposeOut]
    omega
  · simp only [kerasOf, transposeOut]
    omega

/-- sizes of the output of a transposed layer, and where the windows are -/
theorem convT_geo [Semiring α] {a : ConvArgs α} {bt : Option Nat} {n : List Nat} {g : Option Nat} {C : Nat}
    {k0 b0 : List Nat → α} {H A D : List Nat} {l : GroupConv α} (hl : BuiltConv a true bt n g C k0 b0 H l)
    {opt : PadOption} {kp : KerasPadding} (hagree : kp = kerasOf opt) (f : ConvFacts a true g C k0 b0 A D l kp)
    {ps : List (Nat × Nat)} (hel : ps.length = a.group.dim)
    (hok : ∀ i, i < a.group.dim → TransposeOk opt (nth n i) (nth a.kernelSize i) (nth a.strides i) (nth a.dilation i))
    (hep : ∀ i, i < a.group.dim →
      ∃ e, e = (computeEquivariantPadding opt true (nth n i) (nth a.kernelSize i) (nth a.strides i)).1.toNat / 2 ∧
        ps.getD i (0, 0) = (e, e) ∧ (opt = .same ∨ opt = .sameEquiv → e = 0)) :
    (∀ i j, i < a.group.dim → j < a.group.dim → nth n i = nth n j → nth a.strides i = nth a.strides j →
      nth a.dilation i = nth a.dilation j → nth a.kernelSize i = nth a.kernelSize j →
      nth (befores ps) i = nth (befores ps) j ∧
      nth (upSizes kp a.strides a.dilation a.kernelSize (grow n ps)) i =
        nth (upSizes kp a.strides a.dilation a.kernelSize (grow n ps)) j ∧
      nth (upCrop kp a.strides a.dilation a.kernelSize (grow n ps)) i =
        nth (upCrop kp a.strides a.dilation a.kernelSize (grow n ps)) j) ∧
    ∀ i, i < a.group.dim → nth (upSizes kp a.strides a.dilation a.kernelSize (grow n ps)) i +
      2 * nth (upCrop kp a.strides a.dilation a.kernelSize (grow n ps)) i + nth a.strides i =
      (nth n i + 2 * nth (befores ps) i) * nth a.strides i + (nth a.kernelSize i - 1) * nth a.dilation i + 1 := by
  have hbefl : ∀ i, i < a.group.dim → nth (befores ps) i =
      (computeEquivariantPadding opt true (nth n i) (nth a.kernelSize i) (nth a.strides i)).1.toNat / 2 := by
    intro i hi
    obtain ⟨e, rfl, h1, _⟩ := hep i hi
    rw [nth_befores, h1]
  have hgrow : ∀ i, i < a.group.dim → nth (grow n ps) i = nth n i + 2 * nth (befores ps) i := by
    intro i hi
    obtain ⟨e, _, h1, _⟩ := hep i hi
    rw [nth_grow (by rw [hl.dims]; exact hi) (by rw [hel, hl.dims]), nth_befores, h1]
    simp only
    omega
  have houtn : ∀ i, i < a.group.dim → nth (upSizes kp a.strides a.dilation a.kernelSize (grow n ps)) i =
      (transposeOut kp (nth (grow n ps) i) (dilated (nth a.kernelSize i) (nth a.dilation i)) (nth a.strides i)).1 := by
    intro i hi
    rw [upSizes, nth_map_range, if_pos (by rw [f.stridesLen]; exact hi)]
  have hcropn : ∀ i, i < a.group.dim → nth (upCrop kp a.strides a.dilation a.kernelSize (grow n ps)) i =
      (transposeOut kp (nth (grow n ps) i) (dilated (nth a.kernelSize i) (nth a.dilation i)) (nth a.strides i)).2 := by
    intro i hi
    rw [upCrop, nth_map_range, if_pos (by rw [f.stridesLen]; exact hi)]
  have hgeo : ∀ i, i < a.group.dim → nth (upSizes kp a.strides a.dilation a.kernelSize (grow n ps)) i +
      2 * nth (upCrop kp a.strides a.dilation a.kernelSize (grow n ps)) i + nth a.strides i =
      (nth n i + 2 * nth (befores ps) i) * nth a.strides i + (nth a.kernelSize i - 1) * nth a.dilation i + 1 := by
    intro i hi
    obtain ⟨e, _, h1, h2⟩ := hep i hi
    have hb : nth (befores ps) i = e := by rw [nth_befores, h1]
    rw [houtn i hi, hcropn i hi, hgrow i hi, hb, hagree]
    exact transpose_geo (Nat.pos_of_ne_zero fun h => f.kernelPos (h ▸ nth_mem _ _ (by rw [f.kernelLen]; exact hi))) (hok i hi) h2
  refine ⟨fun i j hi hj l1 l2 l3 l4 => ?_, hgeo⟩
  have hb : nth (befores ps) i = nth (befores ps) j := by rw [hbefl i hi, hbefl j hj, l1, l2, l4]
  rw [houtn i hi, houtn j hj, hcropn i hi, hcropn j hj, hgrow i hi, hgrow j hj, hb, l1, l2, l3, l4]
  exact ⟨rfl, rfl, rfl⟩

theorem convT_commutes [Semiring α] {a : ConvArgs α} {bt : Option Nat} {n : List Nat} {g : Option Nat} {C : Nat}
    {k0 b0 : List Nat → α} {H : List Nat} {l : GroupConv α} (hl : BuiltConv a true bt n g C k0 b0 H l)
    (hf : a.dataFormat = .channelsLast) (hallow : a.allowNonEquivariance = false)
    {opt : PadOption} (hopt : formatPaddingOption a.padding = .ok opt) (hn : a.group.Grid n)
    (hs : a.group.Grid a.strides) (hd : a.group.Grid a.dilation)
    (hok : ∀ i, i < a.group.dim → TransposeOk opt (nth n i) (nth a.kernelSize i) (nth a.strides i) (nth a.dilation i))
    {x : Tensor α} {B : Nat} (hx : x.shape = sigShape .channelsLast B n g C) {y : Tensor α} (hy : (l.call x).2 = .ok y) :
    Commutes a.group.group a.group.dim .channelsLast a.subgroup H.length (g.map fun _ => a.subgroup.getD "") (some "")
      (fun x => (l.call x).2) x y := by
  have S := a.group.sym
  obtain ⟨opt', kp, hopt', hkp, f, hst⟩ := hl.facts_last hf
  rw [hopt] at hopt'
  cases hopt'
  have hA' : actingOf a.group true H = List.range a.group.group.order := rfl
  have hD' : domainOf a.group true H = H := rfl
  rw [hA', hD'] at f
  have hagree := padding_agree hopt hkp
  obtain ⟨sH, hsH, hH⟩ := parse_sub hl.elements
  have hAD : ∀ e ∈ H, e ∈ List.range a.group.group.order := fun e he => List.mem_range.2 (S.sub_lt hH he)
  have hel := length_epads l.transforms.padState a.group.dim
  rw [hallow] at hst
  have hep := fun i (hi : i < a.group.dim) => epads_transpose hl.dims f.kernelLen f.stridesLen f.stridesPos hst hi (hok i hi)
  generalize hPS : epads l.transforms.padState a.group.dim = ps at *
  obtain ⟨hlink', hgeo⟩ := convT_geo hl hagree f hel hok hep
  have hbf : a.group.Grid (befores ps) := a.group.grid_of (by rw [length_befores, hel]) fun i j hi hj hlink =>
    (hlink' i j hi hj (hlink _ hn) (hlink _ hs) (hlink _ hd) (hlink _ f.grid)).1
  have hO : a.group.Grid (upSizes kp a.strides a.dilation a.kernelSize (grow n ps)) :=
    a.group.grid_of (by rw [length_upSizes, f.stridesLen]) fun i j hi hj hlink =>
      (hlink' i j hi hj (hlink _ hn) (hlink _ hs) (hlink _ hd) (hlink _ f.grid)).2.1
  have hcr : a.group.Grid (upCrop kp a.strides a.dilation a.kernelSize (grow n ps)) :=
    a.group.grid_of (by simp [upCrop, f.stridesLen]) fun i j hi hj hlink =>
      (hlink' i j hi hj (hlink _ hn) (hlink _ hs) (hlink _ hd) (hlink _ f.grid)).2.2
  obtain ⟨gx, egx, hgx, hgxg⟩ := act_last a.group x hx hn (D := H) (td := g.map fun _ => a.subgroup.getD "")
    hsH hH (by
      cases g with
      | none => rfl
      | some g' =>
        refine ⟨f.size g' rfl, sH, ?_, hH⟩
        cases hsub : a.subgroup with
        | none => rw [hsub] at hsH; exact absurd hsH (by simp [GroupData.parseSubgroup])
        | some s => rw [hsub] at hsH; exact hsH) (fun e he => he)
  obtain ⟨y2, hy2, hs2, hyg⟩ := convT_call_last f hf hx hl.dims
  rw [hy2] at hy
  cases hy
  rw [hPS] at hs2 hyg
  have hys : y.shape = sigShape .channelsLast B (upSizes kp a.strides a.dilation a.kernelSize (grow n ps))
      (some a.group.group.order) a.filters := by
    rw [hs2]; simp [sigShape]
  obtain ⟨gy, egy, hgy, hgyg⟩ := act_last a.group y hys hO (D := List.range a.group.group.order) (td := some "") hsH hH
    ⟨by simp, _, rfl, S.tab.own⟩ hAD
  refine ⟨gx, gy, egx, hgx, egy, hgy, ?_⟩
  intro i hi
  obtain ⟨h1, h2⟩ := hgxg i hi
  obtain ⟨y', hy', hys', hyg'⟩ := convT_call_last f hf (h1.trans hx) hl.dims
  rw [hPS] at hys' hyg'
  refine ⟨y', congrArg Prod.snd hy', ?_⟩
  obtain ⟨k1, k2⟩ := hgyg i hi
  have hsh : y'.shape = y.shape := by rw [hs2, hys']
  refine ⟨by rw [hsh, k1], ?_⟩
  intro idx hv
  rw [hys'] at hv
  obtain ⟨bp, r, rfl, hbp, hr⟩ := valid_append_split hv
  have hhH := nth_mem _ _ hi
  have hh' := S.sub_lt hH hhH
  match bp, hbp, r, hr with
  | b :: q, ⟨hb, hq⟩, [j, o], ⟨hj, ho, _⟩ =>
    have hj2 := S.turn_lt S.tab.own (hAD _ hhH) hj
    have e1 := formulaT_equiv (b0 := b0) f (hn.kept hh') (hs.kept hh') (hd.kept hh') (hO.kept hh') (hbf.kept hh')
      (hcr.kept hh') hgeo hhH (hAD _ hhH) h2 o hb hq hj
    unfold convTFormula at e1
    rw [hyg' b q j o hb hq hj ho, e1]
    rw [List.length_range] at hj
    have e2 := k2 b q (j * a.filters + o) hb hq (mul_add_lt hj ho)
    simp only [restIdx, turnChan, div_of ho, mod_of ho] at e2
    rw [e2, hyg b _ _ o hb (S.valid_back hO hh' hq) hj2 ho]

/-- reading an index computed for the last two axes in one order from an array with these axes in the other order -/
theorem unravel_swap {K k : List Nat} {C F c o : Nat} (hk : Valid K k) (hc : c < C) (ho : o < F) :
    unravel (K ++ [F, C]) (ravel (K ++ [C, F]) (k ++ [c, o])) = k ++ [(c * F + o) / C, (c * F + o) % C] := by
  have hu := mul_add_lt hc ho
  have hC : 0 < C := by omega
  have e : ravel (K ++ [C, F]) (k ++ [c, o]) = ravel (K ++ [F * C]) (k ++ [c * F + o]) := by
    rw [ravel_append hk.length, ravel_append hk.length]
    simp [ravel, Nat.mul_comm]
  rw [e, unravel_merge (B := []) (j := []) hk trivial (by rw [Nat.mul_comm F C]; exact hu)]

theorem unravel_zero (s : List Nat) : unravel s 0 = List.replicate s.length 0 := by
  induction s with
  | nil => rfl
  | cons n s ih => simp [unravel, ih, List.replicate_succ]

theorem build_nonneg {o : PadOption} {allow tr : Bool} {d : Nat} {strides K n : List Nat} {b c : Option Nat} {st : PadState}
    (hn : n.length = d) (hK : K.length = d) (hs : strides.length = d) (h0 : 0 ∉ strides)
    (h : (EquivariantPadding.mk o allow d strides K true tr).build (signalShape true b c n) = .ok st) {i : Nat} (hi : i < d) :
    0 ≤ (st.amount (i + 1)).1 ∧ 0 ≤ (st.amount (i + 1)).2 := by
  have hf := signal_fits (o := o) (allow := allow) (l := true) (tr := tr) hn hK hs h0
  by_cases hp : (o = .same ∨ o = .valid) ∧ allow = true
  · have := EquivariantPadding.build_eq ⟨o, allow, d, strides, K, true, tr⟩ b c hf
    rw [if_pos hp, h] at this
    cases this
    exact ⟨le_refl 0, le_refl 0⟩
  · have h1 := (build_amount hf h hp).1 i (by omega)
    obtain ⟨h1, _, h3⟩ := h1
    simp only [spatialAxis, if_true] at h1
    rw [h1]
    simp only
    omega

end GroCo
