import Verif.AdjointLemmas
import Verif.RectLemmas

/-
Helper lemmas: reading the weights of a convolution off its values on signals with a single non-zero entry.
-/

namespace GroCo
open Tensor

variable {α : Type}

/-- the signal that is one at one place -/
def single [Zero α] [One α] (shape idx : List Nat) : Tensor α := ⟨shape, fun i => if i = idx then 1 else 0⟩

theorem valid_rest {g : Option Nat} {C c : Nat} (hc : c < chanO g C) : Valid (g.toList ++ [C]) (restIdx g C c) := by
  cases g with
  | none => simpa [restIdx, chanO] using hc
  | some g' =>
    obtain ⟨h1, h2, _⟩ := split_lt (m := g') (n := C) (by simpa [chanO] using hc)
    simp [restIdx, h1, h2]

theorem restIdx_inj {g : Option Nat} {C c c' : Nat} (h : restIdx g C c = restIdx g C c') : c = c' := by
  cases g with
  | none => simpa [restIdx] using h
  | some g' =>
    simp only [restIdx, List.cons.injEq, and_true] at h
    have e1 := Nat.div_add_mod c C
    have e2 := Nat.div_add_mod c' C
    rw [h.1, h.2] at e1
    exact e1.symm.trans e2

theorem sum_rest [AddCommMonoid α] (g : Option Nat) (C : Nat) (F : List Nat → α) :
    ((indices (g.toList ++ [C])).map F).sum = ((List.range (chanO g C)).map fun c => F (restIdx g C c)).sum := by
  cases g with
  | none =>
    simp only [Option.toList, List.nil_append, restIdx, chanO]
    rw [sum_indices_cons]
    simp [indices]
  | some g' =>
    simp only [Option.toList, List.cons_append, List.nil_append, restIdx, chanO]
    rw [sum_indices_cons, sum_range_mul]
    apply sum_congr
    intro j _
    rw [sum_indices_cons]
    apply sum_congr
    intro c hc
    rw [List.mem_range] at hc
    simp [indices, div_of hc, mod_of hc]

/-- positions read by a window -/
def winN (strides dil p k : List Nat) : List Nat :=
  (List.range strides.length).map fun i => nth p i * nth strides i + nth k i * nth dil i

theorem length_winN (strides dil p k : List Nat) : (winN strides dil p k).length = strides.length := by simp [winN]

theorem winN_cast (strides dil p k : List Nat) :
    (winN strides dil p k).map Int.ofNat = winZ (List.replicate strides.length 0) strides dil p k := by
  unfold winN winZ
  rw [List.map_map]
  apply List.map_congr_left
  intro i hi
  rw [List.mem_range] at hi
  simp [nth_replicate, hi]

theorem winN_valid {strides dil K m p k : List Nat} (hm : m.length = strides.length) (hK : K.length = strides.length)
    (hfit : FitsIn strides dil K m) (hp : Valid (outSizes strides dil K m) p) (hk : Valid K k) : Valid m (winN strides dil p k) := by
  rw [valid_iff]
  refine ⟨by rw [length_winN, hm], fun i hi => ?_⟩
  have hi' : i < strides.length := by omega
  rw [winN, nth_map_range, if_pos hi']
  have h1 := hp.lt (i := i) (by rw [length_outSizes]; exact hi')
  have h2 := hk.lt (i := i) (by rw [hK]; exact hi')
  rw [outSizes, nth_map_range, if_pos hi'] at h1
  obtain ⟨h3, h4, h5⟩ := hfit i hi'
  have e1 : nth p i * nth strides i ≤ nth m i - dilated (nth K i) (nth dil i) :=
    (Nat.mul_le_mul_right _ (Nat.le_of_lt_succ h1)).trans (Nat.div_mul_le_self _ _)
  have e2 : nth k i * nth dil i ≤ (nth K i - 1) * nth dil i := Nat.mul_le_mul_right _ (by omega)
  unfold dilated at e1 h5
  omega

theorem winN_inj {strides dil K p k k' : List Nat} (hK : K.length = strides.length) (hd : ∀ i, i < strides.length → 0 < nth dil i)
    (hk : Valid K k) (hk' : Valid K k') (h : winN strides dil p k = winN strides dil p k') : k = k' := by
  apply ext_nth (by rw [hk.length, hk'.length])
  intro i hi
  rw [hk.length, hK] at hi
  have := congrArg (nth · i) h
  simp only [winN, nth_map_range, if_pos hi] at this
  exact Nat.eq_of_mul_eq_mul_right (hd i hi) (by omega)

/-- the value of a convolution on a signal with a single non-zero entry -/
theorem sum_single [Semiring α] {strides dil K m p k shape : List Nat} {g : Option Nat} {C c b : Nat} (V : List Nat → Nat → α)
    (hK : K.length = strides.length) (hd : ∀ i, i < strides.length → 0 < nth dil i) (hk : Valid K k) (hc : c < chanO g C) :
    ((indices K).map fun k' => ((List.range (chanO g C)).map fun c' =>
      (single (α := α) shape (b :: winN strides dil p k ++ restIdx g C c)).get (b :: winN strides dil p k' ++ restIdx g C c') *
        V k' c').sum).sum = V k c := by
  have key : ∀ k' ∈ indices K, ((List.range (chanO g C)).map fun c' =>
      (single (α := α) shape (b :: winN strides dil p k ++ restIdx g C c)).get (b :: winN strides dil p k' ++ restIdx g C c') *
        V k' c').sum = if k' = k then V k c else 0 := by
    intro k' hk'
    rw [mem_indices] at hk'
    have e : ∀ c', (b :: winN strides dil p k' ++ restIdx g C c' = b :: winN strides dil p k ++ restIdx g C c) ↔ k' = k ∧ c' = c := by
      intro c'
      constructor
      · intro h
        simp only [List.cons_append, List.cons.injEq, true_and] at h
        obtain ⟨h1, h2⟩ := List.append_inj h (by simp [length_winN])
        exact ⟨winN_inj hK hd hk' hk h1, restIdx_inj h2⟩
      · rintro ⟨rfl, rfl⟩; rfl
    simp only [single, e]
    by_cases h : k' = k
    · subst h
      rw [if_pos rfl]
      have := sum_ite_one (List.nodup_range (n := chanO g C)) (P := fun c' => c' = c) (F := fun c' => V k' c') (c := c)
        (List.mem_range.2 hc) (fun _ _ => Iff.rfl)
      rw [← this]
      apply sum_congr
      intro c' _
      by_cases h : c' = c <;> simp [h]
    · rw [if_neg h]
      simp [h]
  rw [sum_congr key, sum_ite_one (nodup_indices K) (P := fun k' => k' = k) (F := fun _ => V k c) ((mem_indices _ _).2 hk) (fun _ _ => Iff.rfl)]

theorem movedBy_of {n : GroupName} {s : String} {D : List Nat} (hD : lookup n.group.subgroup s = .ok D)
    {h : Nat} (hh : h ∈ D) {B : Nat} {m : List Nat} (hm : n.Kept h m) {g : Option Nat} (hg : ∀ g', g = some g' → g' = D.length)
    {C : Nat} {x x' : Tensor α} (h1 : x'.shape = x.shape) (h2 : ∀ b p c, b < B → Valid m p → c < chanO g C →
      x'.get (b :: p ++ restIdx g C c) = x.get (b :: back n.els m h p ++ restIdx g C (turnChan n.group.toGroupData D g C h c))) :
    MovedBy n h .channelsLast (g.map fun _ => D) B m C x x' := by
  cases g with
  | none => exact (movedBy_grid (n.sym.sub_lt hD hh) hm).2 ⟨h1, h2⟩
  | some g' =>
    have := hg g' rfl
    subst this
    refine (movedBy_group hD hh hm).2 ⟨h1, fun b p j c hb hp hj hc => ?_⟩
    have := h2 b p (j * C + c) hb hp (mul_add_lt hj hc)
    simpa only [restIdx, turnChan, div_of hc, mod_of hc, sigIndex] using this

theorem plain_exists [Semiring α] (K strides dil : List Nat) (W : List Nat → α) (order F B : Nat) (m : List Nat) (g : Option Nat)
    (C : Nat) (x : Tensor α) : ∃ y, PlainConv K strides dil W order F B m g C x y := by
  refine ⟨⟨_, fun idx => ((indices K).map fun k => ((indices (g.toList ++ [C])).map fun r =>
      x.get (nth idx 0 :: ((List.range m.length).map fun i => nth ((idx.drop 1).take m.length) i * nth strides i + nth k i * nth dil i) ++ r) *
        W (k ++ r ++ [nth idx (m.length + 1), nth idx (m.length + 2)])).sum).sum⟩, rfl, ?_⟩
  intro b p i o hv
  have hv : Valid (B :: ((List.range m.length).map fun i => (nth m i - dilated (nth K i) (nth dil i)) / nth strides i + 1) ++ [order, F])
      (b :: p ++ [i, o]) := hv
  have hl : p.length = m.length := by
    have := hv.length
    simp at this
    omega
  have e1 : nth (b :: p ++ [i, o]) 0 = b := by simp
  have e2 : ((b :: p ++ [i, o]).drop 1).take m.length = p := by simp [← hl]
  have e3 : nth (b :: p ++ [i, o]) (m.length + 1) = i := by simp [nth, ← hl]
  have e4 : nth (b :: p ++ [i, o]) (m.length + 2) = o := by simp [nth, ← hl]
  simp only [e1, e2, e3, e4]

/-- values of a plain convolution, in terms of merged channels -/
theorem PlainConv.value [Semiring α] {K strides dil m : List Nat} {W : List Nat → α} {order F B : Nat} {g : Option Nat}
    {C : Nat} {x y : Tensor α} (h : PlainConv K strides dil W order F B m g C x y) (hm : m.length = strides.length) :
    y.shape = B :: outSizes strides dil K m ++ [order, F] ∧
    ∀ b p i o, b < B → Valid (outSizes strides dil K m) p → i < order → o < F → y.get (b :: p ++ [i, o]) =
      ((indices K).map fun k => ((List.range (chanO g C)).map fun c =>
        x.get (b :: winN strides dil p k ++ restIdx g C c) * W (k ++ restIdx g C c ++ [i, o])).sum).sum := by
  obtain ⟨h1, h2⟩ := h
  rw [hm] at h1 h2
  refine ⟨h1, fun b p i o hb hp hi ho => ?_⟩
  rw [h2 b p i o (by
    rw [h1]
    have : Valid (B :: outSizes strides dil K m ++ [order, F]) (b :: p ++ [i, o]) := valid_two.2 ⟨⟨hb, hp⟩, hi, ho⟩
    exact this)]
  apply sum_congr
  intro k _
  rw [sum_rest]
  rfl

theorem compat_out {n : GroupName} {h : Nat} (hh : h < n.group.order) {K strides dil m : List Nat} (hs : n.Kept h strides)
    (hK : n.Kept h K) (hd : n.Kept h dil) (hm : n.Kept h m) : n.Kept h (outSizes strides dil K m) := by
  apply n.kept_of hh (by rw [length_outSizes, hs.1])
  intro i j hi hj hlink
  rw [outSizes, nth_map_range, nth_map_range, if_pos (by rw [hs.1]; exact hi), if_pos (by rw [hs.1]; exact hj),
    hlink _ hs, hlink _ hK, hlink _ hd, hlink _ hm]

/-- windows are moved into each other -/
theorem back_winN {n : GroupName} {h : Nat} (hh : h < n.group.order) {K strides dil m p k : List Nat} (hs : n.Kept h strides)
    (hK : n.Kept h K) (hd : n.Kept h dil) (hm : n.Kept h m) (hfit : FitsIn strides dil K m)
    (hmod : ∀ i, i < n.dim → (nth m i - dilated (nth K i) (nth dil i)) % nth strides i = 0)
    (hp : Valid (outSizes strides dil K m) p) (hk : Valid K k) :
    back n.els m h (winN strides dil p k) = winN strides dil (back n.els (outSizes strides dil K m) h p) (back n.els K h k) := by
  have S := n.sym
  have hO := compat_out hh hs hK hd hm
  have hml : m.length = strides.length := by rw [hm.1, hs.1]
  have hKl : K.length = strides.length := by rw [hK.1, hs.1]
  have hgeo : ∀ i, i < n.dim → (nth (outSizes strides dil K m) i - 1) * nth strides i + (nth K i - 1) * nth dil i + 1 =
      nth m i + 2 * nth (List.replicate strides.length 0) i := by
    intro i hi
    have hi' : i < strides.length := by rw [hs.1]; exact hi
    rw [outSizes, nth_map_range, if_pos hi', nth_replicate, if_pos hi', Nat.add_sub_cancel,
      Nat.div_mul_cancel (Nat.dvd_of_mod_eq_zero (hmod i hi))]
    have := (hfit i hi').2.2
    unfold dilated at this ⊢
    omega
  have e := pullZ_winZ (S.wf hh) (m := m) (before := List.replicate strides.length 0) hs.1 hO.1 hK.1 hm.2 hO.2 hK.2 hs.2 hd.2 hgeo hp hk
  rw [← winN_cast] at e
  have hv := winN_valid hml hKl hfit hp hk
  have e2 := SPerm.toNat_pullZ (S.wf hh) hm.1 hm.2 (inBox_cast.2 hv)
  have e3 : ((winN strides dil p k).map Int.ofNat).map Int.toNat = winN strides dil p k := by simp [Function.comp_def]
  rw [e, e3] at e2
  have e4 : (winN strides dil (back n.els (outSizes strides dil K m) h p) (back n.els K h k)).map Int.ofNat =
    winZ (List.replicate strides.length 0) strides dil (back n.els (outSizes strides dil K m) h p) (back n.els K h k) := winN_cast _ _ _ _
  have e5 := congrArg (List.map Int.toNat) e4
  have e6 : ((winN strides dil (back n.els (outSizes strides dil K m) h p) (back n.els K h k)).map Int.ofNat).map Int.toNat =
      winN strides dil (back n.els (outSizes strides dil K m) h p) (back n.els K h k) := by simp [Function.comp_def]
  rw [e6] at e5
  exact (e5.trans e2).symm

/-- The weights of a convolution that commutes with an element are unchanged by it. -/
theorem plain_covariant [Semiring α] {n : GroupName} {sH : String} {H : List Nat} (hH : lookup n.group.subgroup sH = .ok H) {h : Nat}
    (hh : h ∈ H) {K strides dil m : List Nat} (hs : n.Kept h strides) (hK : n.Kept h K) (hd : n.Kept h dil) (hm : n.Kept h m)
    (hdp : ∀ i, i < n.dim → 0 < nth dil i) (hfit : FitsIn strides dil K m)
    (hmod : ∀ i, i < n.dim → (nth m i - dilated (nth K i) (nth dil i)) % nth strides i = 0)
    {W : List Nat → α} {F : Nat} {g : Option Nat} (hg : ∀ g', g = some g' → g' = n.group.order) {C : Nat}
    (heq : ∀ x x' y y' : Tensor α, x.shape = sigShape .channelsLast 1 m g C →
      MovedBy n h .channelsLast (g.map fun _ => List.range n.group.order) 1 m C x x' →
      PlainConv K strides dil W H.length F 1 m g C x y → PlainConv K strides dil W H.length F 1 m g C x' y' →
      MovedBy n h .channelsLast (some H) 1 (outSizes strides dil K m) F y y')
    {k : List Nat} {c i o : Nat} (hk : Valid K k) (hc : c < chanO g C) (hi : i < H.length) (ho : o < F) :
    W (k ++ restIdx g C c ++ [i, o]) = W (back n.els K h k ++
      restIdx g C (turnChan n.group.toGroupData (List.range n.group.order) g C h c) ++ [turn n.group.toGroupData H h i, o]) := by
  have S := n.sym
  have hh' := S.sub_lt hH hh
  have hhr : h ∈ List.range n.group.order := List.mem_range.2 hh'
  have hg' : ∀ g', g = some g' → g' = (List.range n.group.order).length := by simpa using hg
  have hO := compat_out hh' hs hK hd hm
  have hml : m.length = strides.length := by rw [hm.1, hs.1]
  have hKl : K.length = strides.length := by rw [hK.1, hs.1]
  have hdp' : ∀ i, i < strides.length → 0 < nth dil i := by rw [hs.1]; exact hdp
  -- the first window
  have hp : Valid (outSizes strides dil K m) (List.replicate strides.length 0) := by
    rw [valid_iff]
    refine ⟨by rw [length_outSizes]; simp, fun j hj => ?_⟩
    rw [length_outSizes] at hj
    rw [nth_replicate, if_pos hj, outSizes, nth_map_range, if_pos hj]
    exact Nat.succ_pos _
  have hpb := hO.valid hh' hp
  generalize List.replicate strides.length 0 = p at hp hpb
  have hkb := hK.valid hh' hk
  have hcb := S.turnChan_lt S.tab.own hg' hhr hc
  have hib := S.turn_lt hH hh hi
  have hwin := back_winN hh' hs hK hd hm hfit hmod hp hk
  have hpos := winN_valid hml hKl hfit hp hk
  have hmv := movedBy_of (α := α) (B := 1) (C := C) S.tab.own hhr hm hg'
    (x := single (sigShape .channelsLast 1 m g C) (0 :: winN strides dil (back n.els (outSizes strides dil K m) h p) (back n.els K h k) ++
      restIdx g C (turnChan n.group.toGroupData (List.range n.group.order) g C h c)))
    (x' := single (sigShape .channelsLast 1 m g C) (0 :: winN strides dil p k ++ restIdx g C c)) rfl (by
      intro b q c' hb hq hc'
      have hb : b = 0 := by omega
      subst hb
      simp only [single]
      refine if_congr ?_ rfl rfl
      rw [← hwin]
      constructor
      · intro e
        simp only [List.cons_append, List.cons.injEq, true_and] at e ⊢
        obtain ⟨e1, e2⟩ := List.append_inj e (by rw [hq.length, hpos.length])
        rw [e1, restIdx_inj e2]
      · intro e
        simp only [List.cons_append, List.cons.injEq, true_and] at e ⊢
        obtain ⟨e1, e2⟩ := List.append_inj e (by rw [(hm.valid hh' hq).length, (hm.valid hh' hpos).length])
        rw [hm.inj hh' hq hpos e1, S.turnChan_inj S.tab.own hg' hhr hc' hc (restIdx_inj e2)])
  obtain ⟨y, hy⟩ := plain_exists (α := α) K strides dil W H.length F 1 m g C (single (sigShape .channelsLast 1 m g C)
    (0 :: winN strides dil (back n.els (outSizes strides dil K m) h p) (back n.els K h k) ++
      restIdx g C (turnChan n.group.toGroupData (List.range n.group.order) g C h c)))
  obtain ⟨y', hy'⟩ := plain_exists (α := α) K strides dil W H.length F 1 m g C (single (sigShape .channelsLast 1 m g C)
    (0 :: winN strides dil p k ++ restIdx g C c))
  have hres := (movedBy_group hH hh hO).1 (heq _ _ y y' rfl hmv hy hy')
  have h1 := hres.2 0 p i o (by omega) hp hi ho
  simp only [sigIndex] at h1
  rw [(hy'.value hml).2 0 p i o (by omega) hp hi ho, (hy.value hml).2 0 _ _ o (by omega) hpb hib ho] at h1
  rw [sum_single (m := m) (fun k c => W (k ++ restIdx g C c ++ [i, o])) hKl hdp' hk hc] at h1
  rw [sum_single (m := m) (fun k c => W (k ++ restIdx g C c ++ [turn n.group.toGroupData H h i, o])) hKl hdp' hkb hcb] at h1
  exact h1

theorem padded_valid {d : Nat} {strides dil K m : List Nat} (hs : strides.length = d) (hm : m.length = d) :
    padded ⟨false, []⟩ .valid strides dil K m = m ∧
    totalBefore ⟨false, []⟩ .valid strides dil K m = List.replicate strides.length 0 := by
  have hel : ∀ d, ∀ p ∈ epads ⟨false, []⟩ d, p = (0, 0) := by
    intro d p hp
    simp only [epads, List.mem_map] at hp
    obtain ⟨i, _, rfl⟩ := hp
    simp
  have hkl : ∀ sp, ∀ p ∈ kpads .valid strides dil K sp, p = (0, 0) := by
    intro sp p hp
    simp only [kpads, List.mem_map] at hp
    obtain ⟨i, _, rfl⟩ := hp
    rfl
  have hb : ∀ ps : List (Nat × Nat), (∀ p ∈ ps, p = (0, 0)) → ∀ i, nth (befores ps) i = 0 := by
    intro ps hz i
    rw [nth_befores, List.getD_eq_getElem?_getD]
    by_cases hi : i < ps.length
    · rw [List.getElem?_eq_getElem hi, Option.getD_some, hz _ (List.getElem_mem _)]
    · rw [List.getElem?_eq_none (by omega)]; rfl
  have hgrow : grow m (epads ⟨false, []⟩ strides.length) = m := grow_zeros (by rw [length_epads, hs, hm]) (hel _)
  constructor
  · unfold padded
    rw [hgrow]
    exact grow_zeros (by simp [kpads, hs, hm]) (hkl _)
  · unfold totalBefore
    rw [hgrow]
    apply ext_nth
    · simp
    · intro i hi
      have hi : i < strides.length := by simpa using hi
      rw [nth_map_range, if_pos hi, nth_replicate, if_pos hi, hb _ (hkl _), hb _ (hel _)]

theorem valid_state {p : EquivariantPadding} {shape : List (Option Nat)} {st : PadState} (ho : p.paddingOption = .valid)
    (h : p.build shape = .ok st) : st = ⟨false, []⟩ := by
  unfold EquivariantPadding.build at h
  split at h
  · cases h; rfl
  · obtain ⟨sp, hsp, h⟩ := bind_eq_ok h
    split at h
    · exact absurd h (by simp)
    · simp only at h
      split at h
      · cases h; rfl
      · rw [if_pos (Or.inr ho)] at h
        exact absurd h (by simp)

theorem conv_valid_facts [Semiring α] {a : ConvArgs α} {bt : Option Nat} {n : List Nat} {g : Option Nat} {C : Nat}
    {k0 b0 : List Nat → α} {H : List Nat} {l : GroupConv α} (hl : BuiltConv a false bt n g C k0 b0 H l)
    (hf : a.dataFormat = .channelsLast) (hpad : a.padding = "valid") :
    ConvFacts a false g C k0 b0 H (List.range a.group.group.order) l .valid ∧ l.transforms.padState = ⟨false, []⟩ := by
  obtain ⟨opt, kp, h1, h2, f, hst⟩ := hl.facts_last hf
  rw [hpad] at h1 h2
  have ho : opt = .valid := by
    have e : formatPaddingOption "valid" = .ok .valid := rfl
    rw [e] at h1; cases h1; rfl
  have hk : kp = .valid := by
    have e : standardizePadding (builtInPaddingOption "valid") = .ok .valid := rfl
    rw [e] at h2; cases h2; rfl
  subst ho hk
  exact ⟨f, valid_state rfl hst⟩

theorem conv_valid_fits [Semiring α] {a : ConvArgs α} {bt : Option Nat} {n : List Nat} {g : Option Nat} {C : Nat}
    {k0 b0 : List Nat → α} {H : List Nat} {l : GroupConv α} (hl : BuiltConv a false bt n g C k0 b0 H l)
    (hf : a.dataFormat = .channelsLast) (hpad : a.padding = "valid") {B : Nat} {m : List Nat} (hm : m.length = a.group.dim)
    {x y : Tensor α} (hx : x.shape = sigShape .channelsLast B m g C) (hy : (l.call x).2 = .ok y) :
    FitsIn a.strides a.dilation a.kernelSize m := by
  obtain ⟨f, hst⟩ := conv_valid_facts hl hf hpad
  obtain ⟨e1, e2⟩ := padded_valid (strides := a.strides) (dil := a.dilation) (K := a.kernelSize) f.stridesLen hm
  obtain ⟨c1, -⟩ := conv_call_last f hf hx hm
  rw [hst, e1] at c1
  exact c1 y hy

/-- a linear layer that pads nothing on an image that is large enough -/
theorem conv_valid [Semiring α] {a : ConvArgs α} {bt : Option Nat} {n : List Nat} {g : Option Nat} {C : Nat}
    {k0 b0 : List Nat → α} {H : List Nat} {l : GroupConv α} (hl : BuiltConv a false bt n g C k0 b0 H l)
    (hf : a.dataFormat = .channelsLast) (hact : a.activation = id) (hb : a.useBias = false) (hpad : a.padding = "valid")
    {B : Nat} {m : List Nat} (hm : m.length = a.group.dim) (hfit : FitsIn a.strides a.dilation a.kernelSize m) {x : Tensor α}
    (hx : x.shape = sigShape .channelsLast B m g C) :
    ∃ y, (l.call x).2 = .ok y ∧ y.shape = B :: outSizes a.strides a.dilation a.kernelSize m ++ [H.length, a.filters] ∧
      ∀ b p i o, b < B → Valid (outSizes a.strides a.dilation a.kernelSize m) p → i < H.length → o < a.filters →
        y.get (b :: p ++ [i, o]) = ((indices a.kernelSize).map fun k => ((List.range (chanO g C)).map fun c =>
          x.get (b :: winN a.strides a.dilation p k ++ restIdx g C c) *
            weightOf a false g C k0 (List.range a.group.group.order) (nth H i) k c o).sum).sum := by
  obtain ⟨f, hst⟩ := conv_valid_facts hl hf hpad
  obtain ⟨e1, e2⟩ := padded_valid (strides := a.strides) (dil := a.dilation) (K := a.kernelSize) f.stridesLen hm
  obtain ⟨-, c2⟩ := conv_call_last f hf hx hm
  rw [hst, e1, e2] at c2
  obtain ⟨y, ey, hys, hyg⟩ := c2 hfit
  refine ⟨y, by rw [ey], hys, fun b p i o hb' hp hi ho => ?_⟩
  rw [hyg b p i o hb' hp hi ho, hact, hb]
  simp only [id, Bool.false_eq_true, if_false, add_zero]
  apply sum_congr
  intro k hk
  rw [mem_indices] at hk
  apply sum_congr
  intro c _
  have hv := winN_valid (by rw [hm, f.stridesLen]) (by rw [f.kernelLen, f.stridesLen]) hfit hp hk
  rw [← winN_cast, readAt, if_pos (inBox_cast.2 hv)]
  have e3 : ((winN a.strides a.dilation p k).map Int.ofNat).map Int.toNat = winN a.strides a.dilation p k := by simp [Function.comp_def]
  rw [e3]

/-- all weights a layer uses, as weights of an ordinary convolution -/
def layerWeights (a : ConvArgs α) (g : Option Nat) (C : Nat) (k0 : List Nat → α) (H idx : List Nat) : α :=
  let d := a.group.dim
  match g with
  | none => weightOf a false g C k0 (List.range a.group.group.order) (nth H (nth idx (d + 1))) (idx.take d) (nth idx d) (nth idx (d + 2))
  | some _ => weightOf a false g C k0 (List.range a.group.group.order) (nth H (nth idx (d + 2))) (idx.take d)
    (nth idx d * C + nth idx (d + 1)) (nth idx (d + 3))

theorem layerWeights_eq {a : ConvArgs α} {g : Option Nat} {C : Nat} {k0 : List Nat → α} {H k : List Nat} {c i o : Nat}
    (hk : k.length = a.group.dim) : layerWeights a g C k0 H (k ++ restIdx g C c ++ [i, o]) =
      weightOf a false g C k0 (List.range a.group.group.order) (nth H i) k c o := by
  cases g with
  | none => simp [layerWeights, restIdx, nth, ← hk]
  | some g' => simp [layerWeights, restIdx, nth, ← hk, Nat.div_add_mod']

/-- A convolution whose weights are unchanged by an element commutes with it. -/
theorem covariant_plain [Semiring α] {n : GroupName} {sH : String} {H : List Nat} (hH : lookup n.group.subgroup sH = .ok H) {h : Nat}
    (hh : h ∈ H) {K strides dil m : List Nat} (hs : n.Grid strides) (hK : n.Grid K) (hd : n.Grid dil) (hm : n.Grid m)
    (hfit : FitsIn strides dil K m)
    (hmod : ∀ i, i < n.dim → (nth m i - dilated (nth K i) (nth dil i)) % nth strides i = 0)
    {W : List Nat → α} {F : Nat} {g : Option Nat} (hg : ∀ g', g = some g' → g' = n.group.order) {C : Nat}
    (hW : ∀ k c i o, Valid K k → c < chanO g C → i < H.length → o < F → W (k ++ restIdx g C c ++ [i, o]) = W (back n.els K h k ++
      restIdx g C (turnChan n.group.toGroupData (List.range n.group.order) g C h c) ++ [turn n.group.toGroupData H h i, o]))
    {x x' y y' : Tensor α} (hmv : MovedBy n h .channelsLast (g.map fun _ => List.range n.group.order) 1 m C x x')
    (hy : PlainConv K strides dil W H.length F 1 m g C x y) (hy' : PlainConv K strides dil W H.length F 1 m g C x' y') :
    MovedBy n h .channelsLast (some H) 1 (outSizes strides dil K m) F y y' := by
  have S := n.sym
  have hh' := S.sub_lt hH hh
  have hhr : h ∈ List.range n.group.order := List.mem_range.2 hh'
  have hg' : ∀ g', g = some g' → g' = (List.range n.group.order).length := by simpa using hg
  have hO := compat_out hh' (hs.kept hh') (hK.kept hh') (hd.kept hh') (hm.kept hh')
  have hml : m.length = strides.length := by rw [S.okLen m hm, S.okLen strides hs]
  have hKl : K.length = strides.length := by rw [S.okLen K hK, S.okLen strides hs]
  have hx := movedBy_last S.tab.own hhr (hm.kept hh') hg' hmv
  refine (movedBy_group hH hh hO).2 ⟨by rw [(hy.value hml).1, (hy'.value hml).1], fun b p i o hb hp hi ho => ?_⟩
  simp only [sigIndex]
  rw [(hy'.value hml).2 b p i o hb hp hi ho, (hy.value hml).2 b _ _ o hb (hO.valid hh' hp) (S.turn_lt hH hh hi) ho]
  refine Eq.trans ?_ (S.sum_back hK hh' _)
  apply sum_congr
  intro k hk
  rw [mem_indices] at hk
  refine Eq.trans ?_ (S.sum_turnChan S.tab.own hg' hhr _)
  apply sum_congr
  intro c hc
  rw [List.mem_range] at hc
  rw [hx.2 b _ c hb (winN_valid hml hKl hfit hp hk) hc, hW k c i o hk hc hi ho,
    back_winN hh' (hs.kept hh') (hK.kept hh') (hd.kept hh') (hm.kept hh') hfit hmod hp hk]

end GroCo
