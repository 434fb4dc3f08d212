import Verif.MovedSpec
import Verif.TransposeEquiv
import Verif.GlobalPoolLemmas

/-
Helper lemmas: layers on grids kept by one element of the group.
-/

namespace GroCo
open Tensor

variable {α : Type}

theorem keeps_iff (n : GroupName) {h : Nat} (hh : h < n.group.order) (u : List Nat) :
    KeepsSizes (n.motion h) u ↔ n.Kept h u := by
  have hw := n.sym.wf hh
  constructor
  · rintro ⟨hl, hk⟩
    refine ⟨hl, fun a ha => ?_⟩
    have had : a < n.dim := by rw [← hw.1]; exact ha
    have := hk ⟨_, hw.src_lt had⟩ ⟨a, had⟩ (by
      simp only [GroupName.motion, SPerm.mat, if_true]
      split <;> simp)
    exact this.symm
  · rintro ⟨hl, hk⟩
    refine ⟨hl, fun j k hjk => ?_⟩
    have : (n.els.getD h []).src k = j := by
      by_contra hc
      exact hjk (if_neg hc)
    rw [← this]
    exact (hk k (by rw [hw.1]; exact k.2)).symm

theorem coords_all {d : Nat} {K : List Nat} (hl : K.length = d) : coords (spAxes 0 d) K = K := by
  have := coords_spAxes (a := []) (p := K) (r := []) (m := 0) rfl hl
  simpa using this

theorem pullIdx_all (n : GroupName) {e : Nat} (he : e < n.group.order) {K k : List Nat} (hl : K.length = n.dim)
    (hk : Valid K k) : (n.els.getD e []).pullIdx (spAxes 0 n.dim) (coords (spAxes 0 n.dim) K) k = back n.els K e k := by
  rw [coords_all hl]
  have h2 := elPull_spAxes (els := n.els) (a := []) (p := k) (r := []) (n := K) (g := e) (m := 0) (d := n.dim) rfl
    (by rw [hk.length, hl]) (n.sym.tab.wfi he).1
  simpa [elPull] using h2

/-- where a position comes from -/
theorem Kept.moves {n : GroupName} {h : Nat} (hh : h < n.group.order) {m : List Nat} (hm : n.Kept h m) {q : List Nat}
    (hq : Valid m q) : MovesTo (n.motion h) (List.range n.dim) m (back n.els m h q) q := by
  have hax : AxesOk n.dim m.length (spAxes 0 n.dim) := axesOk_spAxes (by rw [hm.1]; omega)
  have := SPerm.moves_pull (n.sym.tab.wfi hh) hax.1 hax.2.1 hax.2.2.1 (by rw [coords_all hm.1]; exact hm.2) hq
  rw [pullIdx_all n hh hm.1 hq] at this
  rw [show List.range n.dim = spAxes 0 n.dim from List.range_eq_range']
  exact this

theorem Kept.of_moves {n : GroupName} {h : Nat} (hh : h < n.group.order) {m : List Nat} (hm : n.Kept h m) {p q : List Nat}
    (hp : Valid m p) (hq : Valid m q) (hpq : MovesTo (n.motion h) (List.range n.dim) m p q) : p = back n.els m h q := by
  have hax : AxesOk n.dim m.length (spAxes 0 n.dim) := axesOk_spAxes (by rw [hm.1]; omega)
  rw [show List.range n.dim = spAxes 0 n.dim from List.range_eq_range'] at hpq
  have := SPerm.moves (n.sym.tab.wfi hh) hax.1 hax.2.1 hax.2.2.1 (by rw [coords_all hm.1]; exact hm.2) hp hq hpq
  rw [pullIdx_all n hh hm.1 hq] at this
  exact this.symm

theorem comp_turn {n : GroupName} {s : String} {D : List Nat} (hD : lookup n.group.subgroup s = .ok D) {h i j : Nat} (hh : h ∈ D)
    (hi : i < D.length) (hj : j < D.length) :
    nth D j = n.group.comp h (nth D i) ↔ i = turn n.group.toGroupData D h j := by
  have S := n.sym
  have L := S.tab.laws
  have hh' := S.sub_lt hD hh
  have hDi := S.sub_nth_lt hD hi
  have hDj := S.sub_nth_lt hD hj
  constructor
  · intro e
    have h1 : nth D (turn n.group.toGroupData D h j) = nth D i := by
      rw [S.nth_turn hD hh hj, e, ← L.assoc _ _ _ (S.inv_lt hh') hh' hDi, L.inv_mul _ hh', L.one_mul _ hDi]
    have ht := S.turn_lt hD hh hj
    rw [nth_eq_getElem _ _ ht, nth_eq_getElem _ _ hi] at h1
    exact ((S.sub_nodup hD).getElem_inj_iff.1 h1).symm
  · rintro rfl
    rw [S.nth_turn hD hh hj, ← L.assoc _ _ _ hh' (S.inv_lt hh') hDj, L.mul_inv _ hh', L.one_mul _ hDj]

theorem movedBy_grid {n : GroupName} {h : Nat} (hh : h < n.group.order) {B : Nat} {m : List Nat} (hm : n.Kept h m) {C : Nat}
    {x x' : Tensor α} : MovedBy n h .channelsLast none B m C x x' ↔ x'.shape = x.shape ∧
      ∀ b p c, b < B → Valid m p → c < C → x'.get (b :: p ++ [c]) = x.get (b :: back n.els m h p ++ [c]) := by
  constructor
  · rintro ⟨h1, h2⟩
    refine ⟨h1, fun b p c hb hp hc => ?_⟩
    exact h2 b c _ p hb hc (hm.valid hh hp) hp (Kept.moves hh hm hp)
  · rintro ⟨h1, h2⟩
    refine ⟨h1, fun b c p q hb hc hp hq hpq => ?_⟩
    have := Kept.of_moves hh hm hp hq hpq
    subst this
    exact h2 b q c hb hq hc

theorem movedBy_group {n : GroupName} {fmt : DataFormat} {s : String} {D : List Nat} (hD : lookup n.group.subgroup s = .ok D)
    {h : Nat} (hh : h ∈ D) {B : Nat} {m : List Nat} (hm : n.Kept h m) {C : Nat} {x x' : Tensor α} :
    MovedBy n h fmt (some D) B m C x x' ↔ x'.shape = x.shape ∧ ∀ b p j c, b < B → Valid m p → j < D.length → c < C →
      x'.get (sigIndex fmt b p j c) = x.get (sigIndex fmt b (back n.els m h p) (turn n.group.toGroupData D h j) c) := by
  have S := n.sym
  have hh' := S.sub_lt hD hh
  constructor
  · rintro ⟨h1, h2⟩
    refine ⟨h1, fun b p j c hb hp hj hc => ?_⟩
    have h3 := h2 b c _ p hb hc (hm.valid hh' hp) hp (Kept.moves hh' hm hp)
    have ht := S.turn_lt hD hh hj
    cases fmt
    · exact h3 _ j ht hj ((comp_turn hD hh ht hj).2 rfl)
    · exact h3 _ j ht hj ((comp_turn hD hh ht hj).2 rfl)
  · rintro ⟨h1, h2⟩
    refine ⟨h1, fun b c p q hb hc hp hq hpq => ?_⟩
    have := Kept.of_moves hh' hm hp hq hpq
    subst this
    cases fmt
    all_goals
      intro i j hi hj hij
      have := (comp_turn hD hh hi hj).1 hij
      subst this
      exact h2 b q j c hb hq hj hc

/-- moved signals, in terms of merged channels -/
theorem movedBy_last {n : GroupName} {s : String} {D : List Nat} (hD : lookup n.group.subgroup s = .ok D)
    {h : Nat} (hh : h ∈ D) {B : Nat} {m : List Nat} (hm : n.Kept h m) {g : Option Nat} (hg : ∀ g', g = some g' → g' = D.length)
    {C : Nat} {x x' : Tensor α} (hx : MovedBy n h .channelsLast (g.map fun _ => D) B m C x x') :
    x'.shape = x.shape ∧ ∀ b p c, b < B → Valid m p → c < chanO g C → x'.get (b :: p ++ restIdx g C c) =
      x.get (b :: back n.els m h p ++ restIdx g C (turnChan n.group.toGroupData D g C h c)) := by
  cases g with
  | none => exact (movedBy_grid (n.sym.sub_lt hD hh) hm).1 hx
  | some g' =>
    have := hg g' rfl
    subst this
    obtain ⟨h1, h2⟩ := (movedBy_group hD hh hm).1 hx
    refine ⟨h1, fun b p c hb hp hc => ?_⟩
    obtain ⟨q1, q2, q3⟩ := split_lt (m := D.length) (n := C) hc
    have := h2 b p (c / C) (c % C) hb hp q1 q2
    simp only [restIdx, turnChan, div_of q2, mod_of q2]
    exact this

theorem conv_moves [Semiring α] {a : ConvArgs α} {bt : Option Nat} {n : List Nat} {g : Option Nat} {C : Nat}
    {k0 b0 : List Nat → α} {H : List Nat} {l : GroupConv α} (hl : BuiltConv a false bt n g C k0 b0 H l)
    (hf : a.dataFormat = .channelsLast) (hallow : a.allowNonEquivariance = false)
    {opt : PadOption} (hopt : formatPaddingOption a.padding = .ok opt) {h : Nat} (hh : h ∈ H) (hn : a.group.Kept h n)
    (hs : a.group.Kept h a.strides) (hd : a.group.Kept h a.dilation)
    (hdil : ∀ i, i < a.group.dim → DilationOk opt (nth a.kernelSize i) (nth a.strides i) (nth a.dilation i))
    {x x' : Tensor α} {B : Nat} (hx : x.shape = sigShape .channelsLast B n g C)
    (hx' : MovedBy a.group h .channelsLast (g.map fun _ => List.range a.group.group.order) B n C x x')
    {y : Tensor α} (hy : (l.call x).2 = .ok y) :
    ∃ m y', y.shape = sigShape .channelsLast B m (some H.length) a.filters ∧ a.group.Kept h m ∧ (l.call x').2 = .ok y' ∧
      MovedBy a.group h .channelsLast (some H) B m a.filters y y' := by
  have S := a.group.sym
  obtain ⟨opt', kp, hopt', hkp, f, hst⟩ := hl.facts_last hf
  rw [hopt] at hopt'
  cases hopt'
  have hA' : actingOf a.group false H = H := rfl
  have hD' : domainOf a.group false H = List.range a.group.group.order := rfl
  rw [hA', hD'] at f
  have hagree := padding_agree hopt hkp
  obtain ⟨sH, hsH, hH⟩ := parse_sub hl.elements
  have hh' := S.sub_lt hH hh
  have hAD : ∀ e ∈ H, e ∈ List.range a.group.group.order := fun e he => List.mem_range.2 (S.sub_lt hH he)
  have hfit := (conv_call_last f hf hx hl.dims).1 y hy
  obtain ⟨hlink', hgeo⟩ := conv_geo hl hallow hagree f hst hdil hfit
  have hO : a.group.Kept h (outSizes a.strides a.dilation a.kernelSize
      (padded l.transforms.padState kp a.strides a.dilation a.kernelSize n)) := by
    apply a.group.kept_of hh' (by rw [length_outSizes, f.stridesLen])
    intro i j hi hj hlink
    exact hlink' i j hi hj (hlink _ hn) (hlink _ hs) (hlink _ hd) (hlink _ (f.grid.kept hh'))
  obtain ⟨h1, h2⟩ := movedBy_last S.tab.own (hAD _ hh) hn f.size hx'
  obtain ⟨y', _, hy', hys, hys', hyg'⟩ := conv_equiv_core f hf hAD hx (h1.trans hx) hn hs hd rfl rfl hO hgeo hh h2 hy
  refine ⟨_, y', hys, hO, congrArg Prod.snd hy', (movedBy_group hH hh hO).2 ⟨hys'.trans hys.symm, ?_⟩⟩
  intro b p j c hb hp hj hc
  exact hyg' b p j c hb hp hj hc

theorem convT_moves [Semiring α] {a : ConvArgs α} {bt : Option Nat} {n : List Nat} {g : Option Nat} {C : Nat}
    {k0 b0 : List Nat → α} {H : List Nat} {l : GroupConv α} (hl : BuiltConv a true bt n g C k0 b0 H l)
    (hf : a.dataFormat = .channelsLast) (hallow : a.allowNonEquivariance = false)
    {opt : PadOption} (hopt : formatPaddingOption a.padding = .ok opt) {h : Nat} (hh : h ∈ H) (hn : a.group.Kept h n)
    (hs : a.group.Kept h a.strides) (hd : a.group.Kept h a.dilation)
    (hok : ∀ i, i < a.group.dim → TransposeOk opt (nth n i) (nth a.kernelSize i) (nth a.strides i) (nth a.dilation i))
    {x x' : Tensor α} {B : Nat} (hx : x.shape = sigShape .channelsLast B n g C)
    (hx' : MovedBy a.group h .channelsLast (g.map fun _ => H) B n C x x')
    {y : Tensor α} (hy : (l.call x).2 = .ok y) :
    ∃ m y', y.shape = sigShape .channelsLast B m (some a.group.group.order) a.filters ∧ a.group.Kept h m ∧
      (l.call x').2 = .ok y' ∧
      MovedBy a.group h .channelsLast (some (List.range a.group.group.order)) B m a.filters y y' := by
  have S := a.group.sym
  obtain ⟨opt', kp, hopt', hkp, f, hst⟩ := hl.facts_last hf
  rw [hopt] at hopt'
  cases hopt'
  have hA' : actingOf a.group true H = List.range a.group.group.order := rfl
  have hD' : domainOf a.group true H = H := rfl
  rw [hA', hD'] at f
  have hagree := padding_agree hopt hkp
  obtain ⟨sH, hsH, hH⟩ := parse_sub hl.elements
  have hh' := S.sub_lt hH hh
  have hAD : ∀ e ∈ H, e ∈ List.range a.group.group.order := fun e he => List.mem_range.2 (S.sub_lt hH he)
  have hel := length_epads l.transforms.padState a.group.dim
  rw [hallow] at hst
  have hep := fun i (hi : i < a.group.dim) => epads_transpose hl.dims f.kernelLen f.stridesLen f.stridesPos hst hi (hok i hi)
  generalize hPS : epads l.transforms.padState a.group.dim = ps at *
  obtain ⟨hlink', hgeo⟩ := convT_geo hl hagree f hel hok hep
  have hbf : a.group.Kept h (befores ps) := a.group.kept_of hh' (by rw [length_befores, hel]) fun i j hi hj hlink =>
    (hlink' i j hi hj (hlink _ hn) (hlink _ hs) (hlink _ hd) (hlink _ (f.grid.kept hh'))).1
  have hO : a.group.Kept h (upSizes kp a.strides a.dilation a.kernelSize (grow n ps)) :=
    a.group.kept_of hh' (by rw [length_upSizes, f.stridesLen]) fun i j hi hj hlink =>
      (hlink' i j hi hj (hlink _ hn) (hlink _ hs) (hlink _ hd) (hlink _ (f.grid.kept hh'))).2.1
  have hcr : a.group.Kept h (upCrop kp a.strides a.dilation a.kernelSize (grow n ps)) :=
    a.group.kept_of hh' (by simp [upCrop, f.stridesLen]) fun i j hi hj hlink =>
      (hlink' i j hi hj (hlink _ hn) (hlink _ hs) (hlink _ hd) (hlink _ (f.grid.kept hh'))).2.2
  obtain ⟨h1, h2⟩ := movedBy_last hH hh hn f.size hx'
  obtain ⟨y2, hy2, hs2, hyg⟩ := convT_call_last f hf hx hl.dims
  rw [hy2] at hy
  cases hy
  rw [hPS] at hs2 hyg
  have hys : y.shape = sigShape .channelsLast B (upSizes kp a.strides a.dilation a.kernelSize (grow n ps))
      (some a.group.group.order) a.filters := by
    rw [hs2]; simp [sigShape]
  obtain ⟨y', hy', hys', hyg'⟩ := convT_call_last f hf (h1.trans hx) hl.dims
  rw [hPS] at hys' hyg'
  refine ⟨_, y', hys, hO, congrArg Prod.snd hy', (movedBy_group S.tab.own (hAD _ hh) hO).2 ⟨hys'.trans hs2.symm, ?_⟩⟩
  intro b q j o hb hq hj ho
  have hj2 := S.turn_lt S.tab.own (hAD _ hh) hj
  have e1 := formulaT_equiv (b0 := b0) f hn hs hd hO hbf hcr hgeo hh (hAD _ hh) h2 o hb hq hj
  unfold convTFormula at e1
  exact (hyg' b q j o hb hq hj ho).trans (e1.trans (hyg b _ _ o hb (hO.valid hh' hq) hj2 ho).symm)

theorem pool_moves [Field α] [LinearOrder α] {a : PoolArgs} {bt : Option Nat} {n : List Nat} {g C : Nat} {H : List Nat}
    {l : GroupPooling} (hl : BuiltPool a bt n g C H l) (hf : a.dataFormat = .channelsLast)
    (hallow : a.allowNonEquivariance = false) {opt : PadOption} (hopt : formatPaddingOption a.padding = .ok opt)
    {h : Nat} (hh : h ∈ H) (hn : a.group.Kept h n) (hK : a.group.Kept h a.poolSize) (hs : a.group.Kept h a.windowStrides)
    (hok : ∀ i, i < a.group.dim → PoolOk opt (nth n i) (nth a.poolSize i) (a.strides.map fun s => nth s i))
    {x x' : Tensor α} {B : Nat} (hx : x.shape = sigShape .channelsLast B n (some g) C)
    (hx' : MovedBy a.group h .channelsLast (some (List.range a.group.group.order)) B n C x x')
    {y : Tensor α} (hy : l.call x = .ok y) :
    ∃ m y', y.shape = sigShape .channelsLast B m (some H.length) C ∧ a.group.Kept h m ∧ l.call x' = .ok y' ∧
      MovedBy a.group h .channelsLast (some H) B m C y y' := by
  have S := a.group.sym
  obtain ⟨opt', kp, cos, hopt', hkp, f, rfl, hst⟩ := hl.facts hf
  rw [hopt] at hopt'
  cases hopt'
  have hagree := padding_agree hopt hkp
  obtain ⟨sH, hsH, hH, hcos⟩ := f.sub
  have hh' := S.sub_lt hH hh
  have hown : h ∈ List.range a.group.group.order := List.mem_range.2 hh'
  obtain ⟨c1, c2⟩ := pool_call_last f hx hl.dims
  have hfit := c1 y hy
  obtain ⟨y2, hy2, hys, hyg⟩ := c2 hfit
  rw [hy2] at hy
  cases hy
  obtain ⟨hNl, hlink', hgeoN, hgeom⟩ := pool_geo hl hallow hagree f hst hok hfit
  have hN : a.group.Kept h (poolGrid a l n) := a.group.kept_of hh' hNl fun i j hi hj hlink =>
    (hlink' i j hi hj (hlink _ hn) (hlink _ hK) (hlink _ hs)).1
  have hO : a.group.Kept h (poolOut a.windowStrides a.poolSize (grow (poolGrid a l n) (poolSkip a kp (poolGrid a l n)))) :=
    a.group.kept_of hh' (by rw [length_poolOut, f.stridesLen]) fun i j hi hj hlink =>
      (hlink' i j hi hj (hlink _ hn) (hlink _ hK) (hlink _ hs)).2
  obtain ⟨h1, h2⟩ := (movedBy_group S.tab.own hown hn).1 hx'
  obtain ⟨_, d2⟩ := pool_call_last f (x := x') (h1.trans hx) hl.dims
  obtain ⟨y', hy', hys', hyg'⟩ := d2 hfit
  refine ⟨_, y', hys, hO, hy', (movedBy_group hH hh hO).2 ⟨hys'.trans hys.symm, ?_⟩⟩
  intro b p j c hb hp hj hc
  refine (hyg' b p j c hb hp hj hc).trans (Eq.trans ?_ (hyg b _ _ c hb (hO.valid hh' hp) (S.turn_lt hH hh hj) hc).symm)
  refine poolFormula_equiv f hn hN hO hK hs hgeoN hgeom hh ?_ hb hp hj hc
  intro b p j c hb hp hj hc
  have e1 := h2 b p j c hb hp (by simpa using hj) hc
  have e2 : turn a.group.group.toGroupData (List.range a.group.group.order) h j =
      a.group.group.comp (nth a.group.group.inverses h) j := by
    have e3 := S.nth_turn S.tab.own hown (j := j) (by simpa using hj)
    have e4 := S.turn_lt S.tab.own hown (j := j) (by simpa using hj)
    rw [List.length_range] at e4
    have nr : ∀ j, j < a.group.group.order → nth (List.range a.group.group.order) j = j := fun j hj => by simp [nth, hj]
    rwa [nr _ e4, nr _ hj] at e3
  rw [e2] at e1
  exact e1

end GroCo
