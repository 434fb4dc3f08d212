import Verif.PoolLemmas

/-
Helper lemmas: pooling layers commute with the action of the group.
-/

namespace GroCo
open Tensor

variable {α : Type}

/-- windows are symmetric in the configurations of `PoolOk` -/
theorem pool_num {opt : PadOption} {n k e : Nat} {so : Option Nat} (ok : PoolOk opt n k so) (hk : 0 < k)
    (h1 : Symmetric n k (so.getD 1) (e + builtIn opt n k (so.getD 1)))
    (h0 : (opt = .same ∨ opt = .valid) → e = 0)
    (hmin : (opt = .sameEquiv ∨ opt = .validEquiv) →
      ∀ e', Symmetric n k (so.getD 1) (e' + builtIn opt n k (so.getD 1)) → e ≤ e')
    (h2 : builtIn opt (n + e) k (so.getD 1) = builtIn opt n k (so.getD 1))
    (hfit : k ≤ n + e + builtIn opt (n + e) k (so.getD k)) :
    e % 2 = 0 ∧ builtIn opt (n + e) k (so.getD k) % 2 = 0 ∧ so.getD k ∣ n + e + builtIn opt (n + e) k (so.getD k) - k := by
  cases so with
  | some s =>
    simp only [Option.getD_some] at *
    rw [h2] at hfit ⊢
    obtain ⟨p1, p2⟩ := h1
    have hT : e % 2 = 0 ∧ builtIn opt n k s % 2 = 0 := by
      cases opt with
      | same => have := h0 (Or.inl rfl); omega
      | valid => have : builtIn .valid n k s = 0 := rfl; omega
      | sameEquiv => have := ok rfl; simp only [builtIn] at *; omega
      | validEquiv => have : builtIn .validEquiv n k s = 0 := rfl; omega
    refine ⟨hT.1, hT.2, ?_⟩
    rw [Nat.dvd_iff_mod_eq_zero]
    have : ((n + e + builtIn opt n k s - k : Nat) : Int) = (n : Int) + ((e + builtIn opt n k s : Nat) : Int) - k := by omega
    have h4 : ((n + e + builtIn opt n k s - k : Nat) : Int) % s = 0 := by rw [this]; exact p2
    exact_mod_cast h4
  | none =>
    simp only [Option.getD_none] at *
    have hs1 : sameTotal n k 1 = k - 1 := by simp [sameTotal, Nat.mod_one]
    have he : e = 0 := by
      cases opt with
      | same => exact h0 (Or.inl rfl)
      | valid => exact h0 (Or.inr rfl)
      | sameEquiv =>
        obtain ⟨o1, o2⟩ : k % 2 = 1 ∧ sameTotal n k k % 2 = 0 := ok
        have := hmin (Or.inl rfl) 0 ⟨by simp only [builtIn, hs1]; omega, by simp [Int.emod_one]⟩
        omega
      | validEquiv =>
        have := hmin (Or.inr rfl) 0 ⟨by simp [builtIn], by simp [Int.emod_one]⟩
        omega
    subst he
    refine ⟨rfl, ?_⟩
    rw [Nat.add_zero] at hfit ⊢
    have hval : n % k = 0 → k ≤ n → 0 % 2 = 0 ∧ k ∣ n - k := fun h1 h2 => ⟨rfl, (Nat.dvd_sub (Nat.dvd_of_mod_eq_zero h1) (Nat.dvd_refl k))⟩
    have hsame : k % 2 = 1 ∧ sameTotal n k k % 2 = 0 → sameTotal n k k % 2 = 0 ∧ k ∣ n + sameTotal n k k - k := by
      rintro ⟨_, h⟩
      refine ⟨h, ?_⟩
      unfold sameTotal
      split
      · rename_i hz
        rw [Nat.sub_self, Nat.add_zero]
        exact Nat.dvd_sub (Nat.dvd_of_mod_eq_zero hz) (Nat.dvd_refl k)
      · have hlt := Nat.mod_lt n hk
        have : n + (k - n % k) - k = n - n % k := by omega
        rw [this]
        exact Nat.dvd_sub_mod n
    cases opt with
    | same => exact hsame ok
    | valid => exact hval ok hfit
    | sameEquiv => exact hsame ok
    | validEquiv => exact hval ok hfit

theorem poolValue_equiv [Field α] [LinearOrder α] {a : PoolArgs} {H cos : List Nat} {s : String}
    (hH : lookup a.group.group.subgroup s = .ok H) (hcos : lookup a.group.group.cosets s = .ok cos) {x x' : Tensor α}
    {B C : Nat} {m : List Nat} {h : Nat} (hm : a.group.Kept h m) (hh : h ∈ H)
    (hxx : ∀ b p j c, b < B → Valid m p → j < a.group.group.order → c < C → x'.get (b :: p ++ [j, c]) =
      x.get (b :: back a.group.els m h p ++ [a.group.group.comp (nth a.group.group.inverses h) j, c]))
    {b : Nat} {q : List Int} {i c : Nat} (hb : b < B) (hq : q.length = a.group.dim) (hi : i < H.length) (hc : c < C) :
    poolValue a H cos x' m b q i c =
      poolValue a H cos x m b ((a.group.els.getD h []).pullZ m q) (turn a.group.group.toGroupData H h i) c := by
  have S := a.group.sym
  have hml := hm.1
  have hh' := S.sub_lt hH hh
  have hHi := S.sub_nth_lt hH hi
  obtain ⟨_, _, h3, _⟩ := S.tab.cosets _ (lookup_mem hcos) H hH
  unfold poolValue
  by_cases hin : InBox m q
  · rw [if_pos hin, if_pos ((SPerm.inBox_pullZ (S.wf hh') hml hm.2 hq).2 hin)]
    congr 1
    apply List.map_congr_left
    intro t ht
    rw [S.nth_turn hH hh hi, hxx b _ _ c hb (inBox_toNat hin) (S.tab.laws.closed _ _ hHi (h3 _ ht)) hc,
      SPerm.toNat_pullZ (S.wf hh') hml hm.2 hin, S.tab.laws.assoc _ _ _ (S.inv_lt hh') hHi (h3 _ ht)]
    rfl
  · rw [if_neg hin, if_neg (fun h' => hin ((SPerm.inBox_pullZ (S.wf hh') hml hm.2 hq).1 h'))]

theorem poolFormula_equiv [Field α] [LinearOrder α] {a : PoolArgs} {H cos : List Nat} {l : GroupPooling} {kp : KerasPadding}
    (f : PoolFacts a H cos l kp) {x x' : Tensor α} {B C : Nat} {m N out skip tot : List Nat} {h : Nat} (hm : a.group.Kept h m)
    (hN : a.group.Kept h N) (hO : a.group.Kept h out) (hK : a.group.Kept h a.poolSize) (hs : a.group.Kept h a.windowStrides)
    (hgN : ∀ i, i < a.group.dim → (nth out i - 1) * nth a.windowStrides i + (nth a.poolSize i - 1) * nth (ones a.group.dim) i + 1 =
      nth N i + 2 * nth skip i)
    (hgm : ∀ i, i < a.group.dim → (nth out i - 1) * nth a.windowStrides i + (nth a.poolSize i - 1) * nth (ones a.group.dim) i + 1 =
      nth m i + 2 * nth tot i) (hh : h ∈ H)
    (hxx : ∀ b p j c, b < B → Valid m p → j < a.group.group.order → c < C → x'.get (b :: p ++ [j, c]) =
      x.get (b :: back a.group.els m h p ++ [a.group.group.comp (nth a.group.group.inverses h) j, c]))
    {b : Nat} {p : List Nat} {i c : Nat} (hb : b < B) (hp : Valid out p) (hi : i < H.length) (hc : c < C) :
    poolFormula a H cos skip tot N x' m b p i c =
      poolFormula a H cos skip tot N x m b (back a.group.els out h p) (turn a.group.group.toGroupData H h i) c := by
  have S := a.group.sym
  obtain ⟨s, _, hH, hcos⟩ := f.sub
  have hh' := S.sub_lt hH hh
  have hones : a.group.Grid (ones a.group.dim) := a.group.grid_of (by simp [ones]) fun i j hi hj _ => by
    rw [nth_ones hi, nth_ones hj]
  unfold poolFormula
  rw [reduce_perm a.poolType ((hK.perm hh').symm.filterMap (fun k =>
    if InBox N (winZ skip a.windowStrides (ones a.group.dim) (back a.group.els out h p) k) then
      some (poolValue a H cos x m b (winZ tot a.windowStrides (ones a.group.dim) (back a.group.els out h p) k)
        (turn a.group.group.toGroupData H h i) c)
    else none)), List.filterMap_map]
  refine congrArg a.poolType.reduce ?_
  apply List.filterMap_congr
  intro k hk
  rw [mem_indices] at hk
  have g1 := pullZ_winZ (S.wf hh') f.stridesLen hO.1 f.sizeLen hN.2 hO.2 hK.2
    hs.2 (hones.kept hh').2 hgN hp hk
  have g2 := pullZ_winZ (S.wf hh') f.stridesLen hO.1 f.sizeLen hm.2 hO.2 hK.2
    hs.2 (hones.kept hh').2 hgm hp hk
  have hv := poolValue_equiv hH hcos hm hh hxx (q := winZ tot a.windowStrides (ones a.group.dim) p k) hb
    (by rw [length_winZ, f.stridesLen]) hi hc
  rw [g2] at hv
  have hbox := SPerm.inBox_pullZ (S.wf hh') hN.1 hN.2
    (q := winZ skip a.windowStrides (ones a.group.dim) p k) (by rw [length_winZ, f.stridesLen])
  rw [g1] at hbox
  by_cases hin : InBox N (winZ skip a.windowStrides (ones a.group.dim) p k)
  · exact Eq.trans (if_pos hin) (Eq.trans (congrArg some hv) (if_pos (hbox.2 hin)).symm)
  · exact Eq.trans (if_neg hin) (if_neg fun h' => hin (hbox.1 h')).symm

/-- sizes of the output of a pooling layer, and where the windows are -/
theorem pool_geo {a : PoolArgs} {bt : Option Nat} {n : List Nat} {g C : Nat} {H cos : List Nat}
    {l : GroupPooling} (hl : BuiltPool a bt n g C H l) (hallow : a.allowNonEquivariance = false) {opt : PadOption}
    {kp : KerasPadding} (hagree : kp = kerasOf opt) (f : PoolFacts a H cos l kp) {C' : Option Nat}
    (hst : (EquivariantPadding.mk opt a.allowNonEquivariance a.group.dim a.paddingStrides a.poolSize true false).build
      (signalShape true bt C' n) = .ok l.transforms.padState)
    (hok : ∀ i, i < a.group.dim → PoolOk opt (nth n i) (nth a.poolSize i) (a.strides.map fun s => nth s i))
    (hfit : PoolFits a.windowStrides a.poolSize (grow (poolGrid a l n) (poolSkip a kp (poolGrid a l n)))) :
    (poolGrid a l n).length = a.group.dim ∧
    (∀ i j, i < a.group.dim → j < a.group.dim → nth n i = nth n j → nth a.poolSize i = nth a.poolSize j →
      nth a.windowStrides i = nth a.windowStrides j → nth (poolGrid a l n) i = nth (poolGrid a l n) j ∧
        nth (poolOut a.windowStrides a.poolSize (grow (poolGrid a l n) (poolSkip a kp (poolGrid a l n)))) i =
        nth (poolOut a.windowStrides a.poolSize (grow (poolGrid a l n) (poolSkip a kp (poolGrid a l n)))) j) ∧
    (∀ i, i < a.group.dim → (nth (poolOut a.windowStrides a.poolSize
      (grow (poolGrid a l n) (poolSkip a kp (poolGrid a l n)))) i - 1) * nth a.windowStrides i +
        (nth a.poolSize i - 1) * nth (ones a.group.dim) i + 1 =
      nth (poolGrid a l n) i + 2 * nth (befores (poolSkip a kp (poolGrid a l n))) i) ∧
    ∀ i, i < a.group.dim → (nth (poolOut a.windowStrides a.poolSize
      (grow (poolGrid a l n) (poolSkip a kp (poolGrid a l n)))) i - 1) * nth a.windowStrides i +
        (nth a.poolSize i - 1) * nth (ones a.group.dim) i + 1 =
      nth n i + 2 * nth (poolTot a l kp n) i := by
  have hps : a.paddingStrides.length = a.group.dim ∧ 0 ∉ a.paddingStrides := by
    unfold PoolArgs.paddingStrides
    have h1 := f.stridesLen
    have h2 := f.stridesPos
    unfold PoolArgs.windowStrides at h1 h2
    cases hst : a.strides with
    | none => simp
    | some s =>
      rw [hst] at h1 h2
      exact ⟨h1, h2⟩
  have hw : ∀ i, i < a.group.dim → nth a.windowStrides i = (a.strides.map fun s => nth s i).getD (nth a.poolSize i) ∧
      nth a.paddingStrides i = (a.strides.map fun s => nth s i).getD 1 := by
    intro i hi
    unfold PoolArgs.windowStrides PoolArgs.paddingStrides
    cases a.strides with
    | none => exact ⟨rfl, nth_ones hi⟩
    | some s => exact ⟨rfl, rfl⟩
  have hNl : (poolGrid a l n).length = a.group.dim := by
    unfold poolGrid
    rw [length_grow (by rw [length_epads, hl.dims]), hl.dims]
  have key : ∀ i, i < a.group.dim → ∃ e T, e % 2 = 0 ∧ T % 2 = 0 ∧ nth (poolGrid a l n) i = nth n i + e ∧
      T = builtIn opt (nth n i + e) (nth a.poolSize i) (nth a.windowStrides i) ∧
      nth (befores (poolSkip a kp (poolGrid a l n))) i = T / 2 ∧ nth (poolTot a l kp n) i = T / 2 + e / 2 ∧
      nth (grow (poolGrid a l n) (poolSkip a kp (poolGrid a l n))) i = nth n i + e + T ∧
      nth a.windowStrides i ∣ nth n i + e + T - nth a.poolSize i ∧ nth a.poolSize i ≤ nth n i + e + T ∧
      0 < nth a.poolSize i := by
    intro i hi
    obtain ⟨e, h1, h2, h3⟩ := epads_spec hl.dims f.sizeLen hps.1 hps.2 hst hi
    have hsym : Symmetric (nth n i) (nth a.poolSize i) (nth a.paddingStrides i)
        (e + builtIn opt (nth n i) (nth a.poolSize i) (nth a.paddingStrides i)) := by
      cases opt
      · rw [h1.1, Nat.zero_add]; exact h1.2 hallow
      · rw [h1.1, Nat.zero_add]; exact h1.2 hallow
      · exact h1.1
      · exact h1.1
    have hN : nth (poolGrid a l n) i = nth n i + e := by
      unfold poolGrid
      rw [nth_grow (by rw [hl.dims]; exact hi) (by rw [length_epads, hl.dims]), h3]
      simp only
      omega
    have hi' : i < a.windowStrides.length := by rw [f.stridesLen]; exact hi
    have hpp := getD_ppads hagree (strides := a.windowStrides) (K := a.poolSize) (n := poolGrid a l n) hi'
    have hG : nth (grow (poolGrid a l n) (poolSkip a kp (poolGrid a l n))) i = nth n i + e +
        builtIn opt (nth n i + e) (nth a.poolSize i) (nth a.windowStrides i) := by
      unfold poolSkip
      rw [nth_grow (by rw [hNl]; exact hi) (by rw [length_ppads, hNl, f.stridesLen]), hpp, hN]
      simp only
      omega
    have hft := hfit i hi'
    rw [hG] at hft
    obtain ⟨w1, w2⟩ := hw i hi
    rw [w2] at hsym h1 h2
    rw [w1] at hft
    obtain ⟨q1, q2, q3⟩ := pool_num (e := e) (hok i hi) hft.2.1 hsym
      (by rintro (rfl | rfl) <;> exact h1.1) (by rintro (rfl | rfl) <;> exact h1.2) h2 hft.2.2
    rw [← w1] at q2 q3 hft
    have hsk : nth (befores (poolSkip a kp (poolGrid a l n))) i =
        builtIn opt (nth n i + e) (nth a.poolSize i) (nth a.windowStrides i) / 2 := by
      rw [nth_befores]
      unfold poolSkip
      rw [hpp, hN]
    refine ⟨e, _, q1, q2, hN, rfl, hsk, ?_, hG, q3, hft.2.2, hft.2.1⟩
    unfold poolTot
    rw [nth_map_range, if_pos hi, hsk, nth_befores, h3]
    simp only
    omega
  have hlinkN : ∀ i j, i < a.group.dim → j < a.group.dim → nth n i = nth n j → nth a.poolSize i = nth a.poolSize j →
      nth a.windowStrides i = nth a.windowStrides j → nth (poolGrid a l n) i = nth (poolGrid a l n) j := by
    intro i j hi hj l1 l2 l3
    have hp2 : nth a.paddingStrides i = nth a.paddingStrides j := by
      unfold PoolArgs.paddingStrides
      have := l3
      unfold PoolArgs.windowStrides at this
      cases hst : a.strides with
      | none =>
        show nth (ones _) i = nth (ones _) j
        rw [nth_ones hi, nth_ones hj]
      | some s => rw [hst] at this; exact this
    have h1 := padsTo_ok (dil := ones a.group.dim) (m := n) hl.dims hl.dims f.sizeLen hps.1 hps.2 hagree hst hi
    have h2 := padsTo_ok (dil := ones a.group.dim) (m := n) hl.dims hl.dims f.sizeLen hps.1 hps.2 hagree hst hj
    obtain ⟨e, h1, h2, h3⟩ := epads_spec hl.dims f.sizeLen hps.1 hps.2 hst hi
    obtain ⟨e', h1', h2', h3'⟩ := epads_spec hl.dims f.sizeLen hps.1 hps.2 hst hj
    rw [l1, l2, hp2] at h1
    have he : e = e' := by
      cases opt
      · rw [h1.1, h1'.1]
      · rw [h1.1, h1'.1]
      · exact Nat.le_antisymm (h1.2 _ h1'.1) (h1'.2 _ h1.1)
      · exact Nat.le_antisymm (h1.2 _ h1'.1) (h1'.2 _ h1.1)
    unfold poolGrid
    rw [nth_grow (by rw [hl.dims]; exact hi) (by rw [length_epads, hl.dims]),
      nth_grow (by rw [hl.dims]; exact hj) (by rw [length_epads, hl.dims]), h3, h3', he, l1]
  have houtn : ∀ i, i < a.group.dim → nth (poolOut a.windowStrides a.poolSize
      (grow (poolGrid a l n) (poolSkip a kp (poolGrid a l n)))) i =
      (nth (grow (poolGrid a l n) (poolSkip a kp (poolGrid a l n))) i - nth a.poolSize i) / nth a.windowStrides i + 1 := by
    intro i hi
    rw [poolOut, nth_map_range, if_pos (by rw [f.stridesLen]; exact hi)]
  have hgeoN : ∀ i, i < a.group.dim → (nth (poolOut a.windowStrides a.poolSize
      (grow (poolGrid a l n) (poolSkip a kp (poolGrid a l n)))) i - 1) * nth a.windowStrides i +
        (nth a.poolSize i - 1) * nth (ones a.group.dim) i + 1 =
      nth (poolGrid a l n) i + 2 * nth (befores (poolSkip a kp (poolGrid a l n))) i := by
    intro i hi
    obtain ⟨e, T, p1, p2, k1, k2, k4, k5, k3, k6, k7, k8⟩ := key i hi
    rw [houtn i hi, nth_ones hi, k4, k3, k1, Nat.add_sub_cancel, Nat.div_mul_cancel k6]
    omega
  have hgeom : ∀ i, i < a.group.dim → (nth (poolOut a.windowStrides a.poolSize
      (grow (poolGrid a l n) (poolSkip a kp (poolGrid a l n)))) i - 1) * nth a.windowStrides i +
        (nth a.poolSize i - 1) * nth (ones a.group.dim) i + 1 =
      nth n i + 2 * nth (poolTot a l kp n) i := by
    intro i hi
    obtain ⟨e, T, p1, p2, k1, k2, k4, k5, k3, k6, k7, k8⟩ := key i hi
    rw [hgeoN i hi, k4, k5, k1]
    omega
  refine ⟨hNl, fun i j hi hj l1 l2 l3 => ⟨hlinkN i j hi hj l1 l2 l3, ?_⟩, hgeoN, hgeom⟩
  rw [houtn i hi, houtn j hj]
  obtain ⟨e, T, _, _, k1, k2, _, _, k3, _⟩ := key i hi
  obtain ⟨e', T', _, _, k1', k2', _, _, k3', _⟩ := key j hj
  have := hlinkN i j hi hj l1 l2 l3
  rw [k1, k1'] at this
  rw [k3, k3', k2, k2', this, l2, l3]

theorem pool_commutes [Field α] [LinearOrder α] {a : PoolArgs} {bt : Option Nat} {n : List Nat} {g C : Nat} {H : List Nat}
    {l : GroupPooling} (hl : BuiltPool a bt n g C H l) (hf : a.dataFormat = .channelsLast)
    (hallow : a.allowNonEquivariance = false) {opt : PadOption} (hopt : formatPaddingOption a.padding = .ok opt)
    (hn : a.group.Grid n) (hK : a.group.Grid a.poolSize) (hs : a.group.Grid a.windowStrides)
    (hok : ∀ i, i < a.group.dim → PoolOk opt (nth n i) (nth a.poolSize i) (a.strides.map fun s => nth s i))
    {x : Tensor α} {B : Nat} (hx : x.shape = sigShape .channelsLast B n (some g) C) {y : Tensor α} (hy : l.call x = .ok y) :
    Commutes a.group.group a.group.dim .channelsLast a.subgroup H.length (some "") a.subgroup l.call x y := by
  have S := a.group.sym
  obtain ⟨opt', kp, cos, hopt', hkp, f, rfl, hst⟩ := hl.facts hf
  rw [hopt] at hopt'
  cases hopt'
  have hagree := padding_agree hopt hkp
  obtain ⟨sH, hsH, hH, hcos⟩ := f.sub
  obtain ⟨c1, c2⟩ := pool_call_last f hx hl.dims
  have hfit := c1 y hy
  obtain ⟨y2, hy2, hys, hyg⟩ := c2 hfit
  rw [hy2] at hy
  cases hy
  obtain ⟨hNl, hlink', hgeoN, hgeom⟩ := pool_geo hl hallow hagree f hst hok hfit
  have hN : a.group.Grid (poolGrid a l n) := a.group.grid_of hNl fun i j hi hj hlink =>
    (hlink' i j hi hj (hlink _ hn) (hlink _ hK) (hlink _ hs)).1
  have hO : a.group.Grid (poolOut a.windowStrides a.poolSize (grow (poolGrid a l n) (poolSkip a kp (poolGrid a l n)))) :=
    a.group.grid_of (by rw [length_poolOut, f.stridesLen]) fun i j hi hj hlink =>
      (hlink' i j hi hj (hlink _ hn) (hlink _ hK) (hlink _ hs)).2
  have hown : a.group.group.parseSubgroup (some "") = some a.group.group.name := rfl
  have hAD : ∀ e ∈ H, e ∈ List.range a.group.group.order := fun e he => List.mem_range.2 (S.sub_lt hH he)
  obtain ⟨gx, egx, hgx, hgxg⟩ := act_last a.group x hx hn (D := List.range a.group.group.order) (td := some "")
    hsH hH ⟨by simp, _, hown, S.tab.own⟩ hAD
  obtain ⟨gy, egy, hgy, hgyg⟩ := act_last a.group y (C := C) (g := some H.length) hys hO (D := H) (td := a.subgroup) hsH hH
    ⟨rfl, sH, hsH, hH⟩ (fun e he => he)
  refine ⟨gx, gy, egx, hgx, egy, hgy, ?_⟩
  intro i hi
  obtain ⟨h1, h2⟩ := hgxg i hi
  obtain ⟨_, d2⟩ := pool_call_last f (x := slice gx 0 i) (h1.trans hx) hl.dims
  obtain ⟨y', hy', hys', hyg'⟩ := d2 hfit
  refine ⟨y', hy', ?_⟩
  obtain ⟨k1, k2⟩ := hgyg i hi
  refine ⟨by rw [k1, hys, hys'], ?_⟩
  intro idx hv
  rw [hys'] at hv
  obtain ⟨bp, r, rfl, hbp, hr⟩ := valid_append_split hv
  match bp, hbp, r, hr with
  | b :: p, ⟨hb, hp⟩, [j, c], ⟨hj, hc, _⟩ =>
    have hh := nth_mem _ _ hi
    rw [hyg' b p j c hb hp hj hc]
    have := k2 b p (j * C + c) hb hp (mul_add_lt hj hc)
    simp only [restIdx, turnChan, div_of hc, mod_of hc] at this
    refine Eq.trans ?_ this.symm
    rw [hyg b _ _ c hb (S.valid_back hO (S.sub_lt hH hh) hp) (S.turn_lt hH hh hj) hc]
    have hh' := S.sub_lt hH hh
    refine poolFormula_equiv f (hn.kept hh') (hN.kept hh') (hO.kept hh') (hK.kept hh') (hs.kept hh') hgeoN hgeom hh ?_ hb hp hj hc
    intro b p j c hb hp hj hc
    have e1 := h2 b p (j * C + c) hb hp (mul_add_lt hj hc)
    simp only [restIdx, turnChan, div_of hc, mod_of hc] at e1
    have e2 : turn a.group.group.toGroupData (List.range a.group.group.order) (nth H i) j =
        a.group.group.comp (nth a.group.group.inverses (nth H i)) j := by
      have e3 := S.nth_turn S.tab.own (hAD _ hh) (j := j) (by simpa using hj)
      have e4 := S.turn_lt S.tab.own (hAD _ hh) (j := j) (by simpa using hj)
      rw [List.length_range] at e4
      have nr : ∀ j, j < a.group.group.order → nth (List.range a.group.group.order) j = j := fun j hj => by simp [nth, hj]
      rwa [nr _ e4, nr _ hj] at e3
    rw [e2] at e1
    exact e1

end GroCo
