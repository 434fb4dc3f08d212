import Mathlib.Algebra.Field.Rat
import Mathlib.Algebra.Order.Ring.Unbundled.Rat
import Verif.GlobalPoolLemmas
import Verif.Props.Equivariance

/-
Properties C33, C34, C35 and C42: group pooling and global group pooling. The vocabulary is in LayerSpec and PoolSpec.
`PoolType.reduce` is the maximum (see `C33_maximum`) or the mean of a list.
-/

namespace GroCo
open Tensor

variable {α : Type}

/-- C33: pooling over a subgroup gives at its `i`-th element the maximum (mean) of the input over the products of this
element with the cosets, and these products tile the group; in both data formats. -/
theorem C33_subgroup_pooling [Field α] [LinearOrder α] {a : PoolArgs} {bt : Option Nat} {n : List Nat} {g C : Nat} {H : List Nat}
    {l : GroupPooling} (hl : BuiltPool a bt n g C H l) :
    ∃ cos, Tiles a.group.group.order a.group.group.comp H cos ∧ g = a.group.group.order ∧
      ∀ (x : Tensor α) (B : Nat) (m : List Nat), m.length = a.group.dim → x.shape = sigShape a.dataFormat B m (some g) C →
        ∃ z, l.transforms.subgroupPooling a.poolType.reduce x = .ok z ∧
          z.shape = sigShape a.dataFormat B m (some H.length) C ∧
          ∀ b p i c, b < B → Valid m p → i < H.length → c < C → z.get (sigIndex a.dataFormat b p i c) =
            a.poolType.reduce (cos.map fun t =>
              x.get (sigIndex a.dataFormat b p (a.group.group.comp (nth H i) t) c)) := by
  obtain ⟨s, cos, I, hH, hcos, hI, hIs, hIg, hg, hax⟩ := hl.coset_facts
  obtain ⟨cos', hcos', ht⟩ := C10_cosets a.group s H hH
  rw [hcos] at hcos'
  cases hcos'
  refine ⟨cos, ht, hg, ?_⟩
  subst hg
  intro x B m hm hx
  cases hf : a.dataFormat with
  | channelsLast =>
    rw [hf] at hx hax
    obtain ⟨z, e1, e2, e3⟩ := subgroupPooling_ok hH hcos hI hIs hIg a.poolType.reduce (P := B :: m) (R := [C]) hx
      (by rw [hax]; simp [groupAxis, hm])
    exact ⟨z, e1, e2, fun b p i c _ hp _ _ => e3 (b :: p) i [c] (by simp [hp.length])⟩
  | channelsFirst =>
    rw [hf] at hx hax
    obtain ⟨z, e1, e2, e3⟩ := subgroupPooling_ok hH hcos hI hIs hIg a.poolType.reduce (P := B :: C :: m) (R := []) hx
      (by rw [hax]; simp [groupAxis, hm])
    exact ⟨z, e1, e2, fun b p i c _ hp _ _ => e3 (b :: c :: p) i [] (by simp [hp.length])⟩

/-- C33: what a channels_last group pooling layer computes from signals with grid sizes `m`. `lo` and `hi` zeros are put around
the grid, the windows start `skip` positions before it, and positions outside are left out. The call returns exactly if the
windows fit. The cosets, zeros and windows do not depend on the signal. -/
theorem C33_uniform [Field α] [LinearOrder α] {a : PoolArgs} {bt : Option Nat} {n : List Nat} {g C : Nat} {H : List Nat}
    {l : GroupPooling} (hl : BuiltPool a bt n g C H l) (hf : a.dataFormat = .channelsLast) (opt : PadOption)
    (hopt : formatPaddingOption a.padding = .ok opt) (m : List Nat) (hm : m.length = a.group.dim) :
    ∃ cos lo hi skip skip' : List Nat,
      Tiles a.group.group.order a.group.group.comp H cos ∧
      (∀ i, i < a.group.dim → PoolPads opt (nth n i) (nth m i) (nth a.poolSize i) (nth a.windowStrides i)
        (nth a.paddingStrides i) (nth lo i) (nth hi i) (nth skip i) (nth skip' i)) ∧
      ∀ (x : Tensor α) (B : Nat), x.shape = sigShape .channelsLast B m (some g) C → ((∃ y, l.call x = .ok y) ↔
        ∀ i, i < a.group.dim → nth a.poolSize i ≤ nth skip i + (nth lo i + nth m i + nth hi i) + nth skip' i) ∧
      ∀ y, l.call x = .ok y →
        y.shape = sigShape .channelsLast B ((List.range a.group.dim).map fun i =>
          (nth skip i + (nth lo i + nth m i + nth hi i) + nth skip' i - nth a.poolSize i) / nth a.windowStrides i + 1)
          (some H.length) C ∧
        ∀ (b : Nat) (p : List Nat) (i c : Nat), Valid y.shape (b :: p ++ [i, c]) → ∃ qs : List (List Int),
          qs = ((indices a.poolSize).map fun k => window ((List.range a.group.dim).map fun i => nth skip i + nth lo i)
            a.windowStrides (List.replicate a.group.dim 1) p k).filter (fun q => InExtended lo m hi q) ∧ qs ≠ [] ∧
          y.get (b :: p ++ [i, c]) = a.poolType.reduce (qs.map fun q =>
            if InBox m q then a.poolType.reduce (cos.map fun t =>
              x.get (b :: q.map Int.toNat ++ [a.group.group.comp (nth H i) t, c]))
            else 0) := by
  obtain ⟨opt', kp, cos, hopt', hkp, f, rfl, hst⟩ := hl.facts hf
  rw [hopt] at hopt'
  cases hopt'
  have hagree := padding_agree hopt hkp
  obtain ⟨sH, hsH, hH, hcos⟩ := f.sub
  obtain ⟨cos', hcos', ht⟩ := C10_cosets a.group sH H hH
  rw [hcos] at hcos'
  cases hcos'
  have hps : a.paddingStrides.length = a.group.dim ∧ 0 ∉ a.paddingStrides := by
    unfold PoolArgs.paddingStrides
    have h1 := f.stridesLen
    have h2 := f.stridesPos
    unfold PoolArgs.windowStrides at h1 h2
    cases hst : a.strides with
    | none => simp
    | some s =>
      rw [hst] at h1 h2
      exact ⟨h1, h2⟩
  have hpos : ∀ i, i < a.group.dim → 0 < nth a.windowStrides i ∧ 0 < nth a.poolSize i := fun i hi =>
    ⟨Nat.pos_of_ne_zero fun h => f.stridesPos (h ▸ nth_mem _ _ (by rw [f.stridesLen]; exact hi)),
      Nat.pos_of_ne_zero fun h => f.sizePos (h ▸ nth_mem _ _ (by rw [f.sizeLen]; exact hi))⟩
  have hNl : (poolGrid a l m).length = a.group.dim := by
    unfold poolGrid
    rw [length_grow (by rw [length_epads, hm]), hm]
  have hN : ∀ i, i < a.group.dim → nth (poolGrid a l m) i =
      nth ((epads l.transforms.padState a.group.dim).map Prod.fst) i + nth m i +
        nth ((epads l.transforms.padState a.group.dim).map Prod.snd) i := by
    intro i hi
    have hl' := length_epads l.transforms.padState a.group.dim
    unfold poolGrid
    rw [nth_grow (by omega) (by omega)]
    simp [nth, hl', hi]
  have hpp : ∀ i, i < a.group.dim → (poolSkip a kp (poolGrid a l m)).getD i (0, 0) =
      (builtIn opt (nth (poolGrid a l m) i) (nth a.poolSize i) (nth a.windowStrides i) / 2,
        builtIn opt (nth (poolGrid a l m) i) (nth a.poolSize i) (nth a.windowStrides i) -
          builtIn opt (nth (poolGrid a l m) i) (nth a.poolSize i) (nth a.windowStrides i) / 2) := fun i hi =>
    getD_ppads hagree (strides := a.windowStrides) (K := a.poolSize) (n := poolGrid a l m) (by rw [f.stridesLen]; exact hi)
  have hsl : (poolSkip a kp (poolGrid a l m)).length = a.group.dim := by
    unfold poolSkip; rw [length_ppads, f.stridesLen]
  have hsk : ∀ i, i < a.group.dim → nth ((poolSkip a kp (poolGrid a l m)).map Prod.fst) i =
        builtIn opt (nth (poolGrid a l m) i) (nth a.poolSize i) (nth a.windowStrides i) / 2 ∧
      nth ((poolSkip a kp (poolGrid a l m)).map Prod.snd) i =
        builtIn opt (nth (poolGrid a l m) i) (nth a.poolSize i) (nth a.windowStrides i) -
          builtIn opt (nth (poolGrid a l m) i) (nth a.poolSize i) (nth a.windowStrides i) / 2 := by
    intro i hi
    have := hpp i hi
    have e1 : nth ((poolSkip a kp (poolGrid a l m)).map Prod.fst) i = ((poolSkip a kp (poolGrid a l m)).getD i (0, 0)).1 := by
      simp [nth, hsl, hi]
    have e2 : nth ((poolSkip a kp (poolGrid a l m)).map Prod.snd) i = ((poolSkip a kp (poolGrid a l m)).getD i (0, 0)).2 := by
      simp [nth, hsl, hi]
    rw [e1, e2, this]
    exact ⟨rfl, rfl⟩
  have hG : ∀ i, i < a.group.dim → nth (grow (poolGrid a l m) (poolSkip a kp (poolGrid a l m))) i =
      nth ((poolSkip a kp (poolGrid a l m)).map Prod.fst) i +
        (nth ((epads l.transforms.padState a.group.dim).map Prod.fst) i + nth m i +
          nth ((epads l.transforms.padState a.group.dim).map Prod.snd) i) +
        nth ((poolSkip a kp (poolGrid a l m)).map Prod.snd) i := by
    intro i hi
    rw [nth_grow (by omega) (by omega), hpp i hi, (hsk i hi).1, (hsk i hi).2, ← hN i hi]
  refine ⟨cos, (epads l.transforms.padState a.group.dim).map Prod.fst, (epads l.transforms.padState a.group.dim).map Prod.snd,
    (poolSkip a kp (poolGrid a l m)).map Prod.fst, (poolSkip a kp (poolGrid a l m)).map Prod.snd, ht, ?_, ?_⟩
  · intro i hi
    obtain ⟨e, h1, h2, h3⟩ := epads_spec hl.dims f.sizeLen hps.1 hps.2 hst hi
    have hl' := length_epads l.transforms.padState a.group.dim
    have e1 : nth ((epads l.transforms.padState a.group.dim).map Prod.fst) i = (e + 1) / 2 := by
      have : nth ((epads l.transforms.padState a.group.dim).map Prod.fst) i =
          ((epads l.transforms.padState a.group.dim).getD i (0, 0)).1 := by simp [nth, hl', hi]
      rw [this, h3]
    have e2 : nth ((epads l.transforms.padState a.group.dim).map Prod.snd) i = e / 2 := by
      have : nth ((epads l.transforms.padState a.group.dim).map Prod.snd) i =
          ((epads l.transforms.padState a.group.dim).getD i (0, 0)).2 := by simp [nth, hl', hi]
      rw [this, h3]
    have e3 : nth (poolGrid a l m) i = nth m i + e := by rw [hN i hi, e1, e2]; omega
    refine ⟨e, ?_, e1, by rw [e1, e2]; omega, by rw [(hsk i hi).1, e3], by rw [(hsk i hi).1, (hsk i hi).2, e3]; omega⟩
    cases opt
    · exact h1.1
    · exact h1.1
    · exact h1
    · exact h1
  intro x B hx
  obtain ⟨c1, c2⟩ := pool_call_last f hx hm
  constructor
  · constructor
    · rintro ⟨y, hy⟩ i hi
      have := (c1 y hy i (by rw [f.stridesLen]; exact hi)).2.2
      rwa [hG i hi] at this
    · intro h
      obtain ⟨y, hy, _⟩ := c2 fun i hi => by
        rw [f.stridesLen] at hi
        rw [hG i hi]
        exact ⟨(hpos i hi).1, (hpos i hi).2, h i hi⟩
      exact ⟨y, hy⟩
  · intro y hy
    have hfit := c1 y hy
    obtain ⟨y', hy', hs, hg⟩ := c2 hfit
    rw [hy'] at hy
    cases hy
    have hout : poolOut a.windowStrides a.poolSize (grow (poolGrid a l m) (poolSkip a kp (poolGrid a l m))) =
        (List.range a.group.dim).map fun i =>
          (nth ((poolSkip a kp (poolGrid a l m)).map Prod.fst) i +
        (nth ((epads l.transforms.padState a.group.dim).map Prod.fst) i + nth m i +
          nth ((epads l.transforms.padState a.group.dim).map Prod.snd) i) +
        nth ((poolSkip a kp (poolGrid a l m)).map Prod.snd) i - nth a.poolSize i) / nth a.windowStrides i + 1 := by
      unfold poolOut
      rw [f.stridesLen]
      apply List.map_congr_left
      intro i hi
      rw [hG i (List.mem_range.1 hi)]
    refine ⟨by rw [hs, hout]; rfl, ?_⟩
    intro b p i c hv
    rw [hs] at hv
    have hpl : (b :: p).length = (B :: poolOut a.windowStrides a.poolSize
        (grow (poolGrid a l m) (poolSkip a kp (poolGrid a l m)))).length := by
      have := hv.length
      simp only [List.length_append, List.length_cons, List.length_nil] at this
      simp only [List.length_cons]
      omega
    obtain ⟨⟨hb, hp⟩, hi, hc, _⟩ := (valid_append _ _ _ _ hpl).1 hv
    have hwin : ∀ k, window ((List.range a.group.dim).map fun i => nth ((poolSkip a kp (poolGrid a l m)).map Prod.fst) i +
        nth ((epads l.transforms.padState a.group.dim).map Prod.fst) i) a.windowStrides (List.replicate a.group.dim 1) p k =
        winZ (poolTot a l kp m) a.windowStrides (ones a.group.dim) p k := fun k => rfl
    have hbox : ∀ k, InExtended ((epads l.transforms.padState a.group.dim).map Prod.fst) m
        ((epads l.transforms.padState a.group.dim).map Prod.snd) (winZ (poolTot a l kp m) a.windowStrides (ones a.group.dim) p k) ↔
        InBox (poolGrid a l m) (winZ (befores (poolSkip a kp (poolGrid a l m))) a.windowStrides (ones a.group.dim) p k) := by
      intro k
      rw [inBox_iff]
      unfold InExtended
      rw [length_winZ, length_winZ, f.stridesLen, hm, hNl]
      have : ∀ j, j < a.group.dim → (winZ (poolTot a l kp m) a.windowStrides (ones a.group.dim) p k).getD j 0 =
          (winZ (befores (poolSkip a kp (poolGrid a l m))) a.windowStrides (ones a.group.dim) p k).getD j 0 -
            nth ((epads l.transforms.padState a.group.dim).map Prod.fst) j := by
        intro j hj
        have hj' : j < a.windowStrides.length := by rw [f.stridesLen]; exact hj
        simp only [winZ, List.getD_eq_getElem?_getD, List.getElem?_map, List.getElem?_range hj', Option.map_some,
          Option.getD_some]
        unfold poolTot
        rw [nth_map_range, if_pos hj]
        unfold befores
        push_cast
        ring
      simp only [true_and]
      apply forall_congr'
      intro j
      apply forall_congr'
      intro hj
      rw [this j hj, hN j hj]
      push_cast
      constructor <;> intro h <;> constructor <;> omega
    refine ⟨_, rfl, ?_, ?_⟩
    · have hex : ∀ j, ∃ k, j < a.group.dim → k < nth a.poolSize j ∧
          (0 : Int) ≤ (nth p j * nth a.windowStrides j + k * 1 : Int) -
            (builtIn opt (nth (poolGrid a l m) j) (nth a.poolSize j) (nth a.windowStrides j) / 2 : Nat) ∧
          (nth p j * nth a.windowStrides j + k * 1 : Int) -
            (builtIn opt (nth (poolGrid a l m) j) (nth a.poolSize j) (nth a.windowStrides j) / 2 : Nat) <
            nth (poolGrid a l m) j := by
        intro j
        by_cases hj : j < a.group.dim
        · have hft := hfit j (by rw [f.stridesLen]; exact hj)
          have hp' := hp.lt (i := j) (by rw [length_poolOut, f.stridesLen]; exact hj)
          rw [poolOut, nth_map_range, if_pos (by rw [f.stridesLen]; exact hj)] at hp'
          have hgj : nth (grow (poolGrid a l m) (poolSkip a kp (poolGrid a l m))) j = nth (poolGrid a l m) j +
              builtIn opt (nth (poolGrid a l m) j) (nth a.poolSize j) (nth a.windowStrides j) := by
            rw [nth_grow (by omega) (by omega), hpp j hj]
            simp only
            omega
          rw [hgj] at hft hp'
          obtain ⟨k, hk⟩ := window_meets hft.1 hft.2.1 hft.2.2 hp'
          exact ⟨k, fun _ => hk⟩
        · exact ⟨0, fun h => absurd h hj⟩
      obtain ⟨kf, hkf⟩ := Classical.axiomOfChoice hex
      have hk : Valid a.poolSize ((List.range a.group.dim).map kf) := by
        rw [valid_iff]
        refine ⟨by simp [f.sizeLen], fun j hj => ?_⟩
        rw [f.sizeLen] at hj
        rw [nth_map_range, if_pos hj]
        exact (hkf j hj).1
      refine List.ne_nil_of_mem (a := winZ (poolTot a l kp m) a.windowStrides (ones a.group.dim) p ((List.range a.group.dim).map kf)) ?_
      rw [List.mem_filter]
      refine ⟨List.mem_map.2 ⟨_, (mem_indices _ _).2 hk, hwin _⟩, ?_⟩
      rw [decide_eq_true_eq, hbox, inBox_iff]
      refine ⟨by rw [length_winZ, hNl, f.stridesLen], fun j hj => ?_⟩
      rw [hNl] at hj
      have hj' : j < a.windowStrides.length := by rw [f.stridesLen]; exact hj
      simp only [winZ, List.getD_eq_getElem?_getD, List.getElem?_map, List.getElem?_range hj', Option.map_some,
          Option.getD_some]
      rw [nth_map_range, if_pos hj, nth_ones hj]
      have := (hkf j hj).2
      rw [← (hsk j hj).1] at this
      exact_mod_cast this
    · rw [hg b p i c hb hp hi hc]
      unfold poolFormula
      refine congrArg a.poolType.reduce ?_
      rw [List.filter_map, List.map_map, ← List.filterMap_eq_map, List.filterMap_filter]
      symm
      apply List.filterMap_congr
      intro k _
      by_cases hin : InBox (poolGrid a l m)
        (winZ (befores (poolSkip a kp (poolGrid a l m))) a.windowStrides (ones a.group.dim) p k)
      · rw [if_pos hin, if_pos (by simpa [hwin] using (hbox k).2 hin)]
        rfl
      · rw [if_neg hin, if_neg (by simpa [hwin] using fun h => hin ((hbox k).1 h))]

/-- C33: a channels_last group pooling layer called on a signal with grid sizes `m`. `lo` and `hi` zeros are put around the
grid, the windows start `skip` positions before it, and positions outside are left out. The call returns exactly if the
windows fit. -/
theorem C33_group_pooling [Field α] [LinearOrder α] {a : PoolArgs} {bt : Option Nat} {n : List Nat} {g C : Nat} {H : List Nat}
    {l : GroupPooling} (hl : BuiltPool a bt n g C H l) (hf : a.dataFormat = .channelsLast) (opt : PadOption)
    (hopt : formatPaddingOption a.padding = .ok opt) (x : Tensor α) (B : Nat) (m : List Nat) (hm : m.length = a.group.dim)
    (hx : x.shape = sigShape .channelsLast B m (some g) C) :
    ∃ cos lo hi skip skip' : List Nat,
      Tiles a.group.group.order a.group.group.comp H cos ∧
      (∀ i, i < a.group.dim → PoolPads opt (nth n i) (nth m i) (nth a.poolSize i) (nth a.windowStrides i)
        (nth a.paddingStrides i) (nth lo i) (nth hi i) (nth skip i) (nth skip' i)) ∧
      ((∃ y, l.call x = .ok y) ↔
        ∀ i, i < a.group.dim → nth a.poolSize i ≤ nth skip i + (nth lo i + nth m i + nth hi i) + nth skip' i) ∧
      ∀ y, l.call x = .ok y →
        y.shape = sigShape .channelsLast B ((List.range a.group.dim).map fun i =>
          (nth skip i + (nth lo i + nth m i + nth hi i) + nth skip' i - nth a.poolSize i) / nth a.windowStrides i + 1)
          (some H.length) C ∧
        ∀ (b : Nat) (p : List Nat) (i c : Nat), Valid y.shape (b :: p ++ [i, c]) → ∃ qs : List (List Int),
          qs = ((indices a.poolSize).map fun k => window ((List.range a.group.dim).map fun i => nth skip i + nth lo i)
            a.windowStrides (List.replicate a.group.dim 1) p k).filter (fun q => InExtended lo m hi q) ∧ qs ≠ [] ∧
          y.get (b :: p ++ [i, c]) = a.poolType.reduce (qs.map fun q =>
            if InBox m q then a.poolType.reduce (cos.map fun t =>
              x.get (b :: q.map Int.toNat ++ [a.group.group.comp (nth H i) t, c]))
            else 0) := by
  obtain ⟨cos, lo, hi, skip, skip', h1, h2, h3⟩ := C33_uniform (α := α) hl hf opt hopt m hm
  exact ⟨cos, lo, hi, skip, skip', h1, h2, h3 x B hx⟩

/-- The maximum of a list is one of its entries and no entry is larger. -/
theorem C33_maximum [Field α] [LinearOrder α] (l : List α) (hl : l ≠ []) :
    PoolType.max.reduce l ∈ l ∧ ∀ a ∈ l, a ≤ PoolType.max.reduce l :=
  ⟨maxOf_mem hl, fun _ ha => le_maxOf ha⟩

/-- The mean of a list is the sum of its entries divided by their number. -/
theorem C33_average [Field α] [LinearOrder α] (l : List α) : PoolType.average.reduce l = l.sum / l.length := rfl

/-- a P4 layer pooling to the subgroup P2; 5x5 signals are padded to 7x7 -/
def examplePool : PoolArgs :=
  { group := .P4, subgroup := some "P2", poolType := .max, poolSize := [3, 3], strides := some [4, 4],
    padding := "valid_equiv", allowNonEquivariance := false, dataFormat := .channelsLast }

/-- the same in the other data format, on sizes that need no padding -/
def examplePoolFirst : PoolArgs :=
  { group := .P4, subgroup := some "P2", poolType := .max, poolSize := [2, 2], strides := some [2, 2],
    padding := "valid", allowNonEquivariance := false, dataFormat := .channelsFirst }

set_option maxRecDepth 8000 in
/-- hypotheses of C33 and C34 are met -/
example : (∃ l y, BuiltPool examplePool none [5, 5] 4 3 [0, 2] l ∧
      l.call (⟨[1, 5, 5, 4, 3], fun _ => 1⟩ : Tensor ℚ) = .ok y) ∧
    (∃ l, BuiltPool examplePoolFirst none [4, 4] 4 2 [0, 2] l) ∧
    examplePool.dataFormat = .channelsLast ∧ examplePool.allowNonEquivariance = false ∧
    formatPaddingOption examplePool.padding = .ok .validEquiv ∧ examplePool.group.Grid [5, 5] ∧
    examplePool.group.Grid examplePool.poolSize ∧ examplePool.group.Grid examplePool.windowStrides ∧
    ∀ i, i < examplePool.group.dim →
      PoolOk .validEquiv (nth [5, 5] i) (nth examplePool.poolSize i) (examplePool.strides.map fun s => nth s i) :=
  ⟨⟨_, _, ⟨⟨_, rfl, rfl⟩, rfl, rfl⟩, rfl⟩, ⟨_, ⟨⟨_, rfl, rfl⟩, rfl, rfl⟩⟩, rfl, rfl, rfl, ⟨rfl, rfl⟩, ⟨rfl, rfl⟩, ⟨rfl, rfl⟩,
    fun i _ => by simp [PoolOk, examplePool]⟩

/-! ### C34 -/

/-- C34, the part that holds: a channels_last group pooling layer that builds with allow_non_equivariance=False is
equivariant if its pool sizes and strides agree on axes exchanged by the group and its windows are symmetric (`PoolOk`).
Missing: the remaining configurations, for which it fails (see below), and channels_first. -/
theorem C34_pooling_equivariant_partial [Field α] [LinearOrder α] {a : PoolArgs} {bt : Option Nat} {n : List Nat} {g C : Nat}
    {H : List Nat} {l : GroupPooling} (hl : BuiltPool a bt n g C H l) (hf : a.dataFormat = .channelsLast)
    (hallow : a.allowNonEquivariance = false) (opt : PadOption) (hopt : formatPaddingOption a.padding = .ok opt)
    (hn : a.group.Grid n) (hK : a.group.Grid a.poolSize) (hs : a.group.Grid a.windowStrides)
    (hok : ∀ i, i < a.group.dim → PoolOk opt (nth n i) (nth a.poolSize i) (a.strides.map fun s => nth s i))
    (x : Tensor α) (B : Nat) (hx : x.shape = sigShape .channelsLast B n (some g) C) (y : Tensor α) (hy : l.call x = .ok y) :
    Commutes a.group.group a.group.dim .channelsLast a.subgroup H.length (some "") a.subgroup l.call x y :=
  pool_commutes hl hf hallow hopt hn hK hs hok hx hy

/-- C34 as stated -/
def PoolingEquivariant : Prop :=
  ∀ (a : PoolArgs) (bt : Option Nat) (n : List Nat) (g C : Nat) (H : List Nat) (l : GroupPooling),
    BuiltPool a bt n g C H l → a.allowNonEquivariance = false → a.group.Grid n →
  ∀ (x : Tensor ℚ) (B : Nat), x.shape = sigShape a.dataFormat B n (some g) C → ∀ y, l.call x = .ok y →
    Commutes a.group.group a.group.dim a.dataFormat a.subgroup H.length (some "") a.subgroup l.call x y

/-- a P2 layer with pool size 2 and padding 'valid_equiv' whose strides are not given -/
def defaultStridesPool : PoolArgs :=
  { group := .P2, subgroup := some "", poolType := .max, poolSize := [2, 2], strides := none, padding := "valid_equiv",
    allowNonEquivariance := false, dataFormat := .channelsLast }

/-- C34 fails: without strides the padding is computed for strides 1 while the windows move by the pool size. On a 3x3
signal the last row and column are ignored. -/
theorem C34_violation_default_strides : ¬ PoolingEquivariant := by
  intro h
  have := (h defaultStridesPool none [3, 3] 2 1 [0, 1] _ ⟨⟨_, rfl, rfl⟩, rfl, rfl⟩ rfl ⟨rfl, trivial⟩
    ⟨[1, 3, 3, 2, 1], fun i => if i = [0, 0, 0, 0, 0] then 1 else 0⟩ 1 rfl _ rfl).not_differ rfl (i := 1) (by decide)
      [0, 0, 0, 1, 0]
  revert this
  decide +kernel

/-- a P2 layer with pool size 2, strides 1 and padding 'same_equiv' -/
def evenSamePool : PoolArgs :=
  { group := .P2, subgroup := some "", poolType := .max, poolSize := [2, 2], strides := some [1, 1], padding := "same_equiv",
    allowNonEquivariance := false, dataFormat := .channelsLast }

/-- C34 fails: the zeros added before the signal take part in the maximum while the positions that Keras adds after it do
not. -/
theorem C34_violation_same_equiv : ¬ PoolingEquivariant := by
  intro h
  have := (h evenSamePool none [2, 2] 2 1 [0, 1] _ ⟨⟨_, rfl, rfl⟩, rfl, rfl⟩ rfl ⟨rfl, trivial⟩
    ⟨[1, 2, 2, 2, 1], fun _ => -1⟩ 1 rfl _ rfl).not_differ rfl (i := 1) (by decide) [0, 0, 0, 0, 0]
  revert this
  decide +kernel

/-- a P4 layer with pool size 1 by 2 -/
def oblongPool : PoolArgs :=
  { group := .P4, subgroup := some "", poolType := .max, poolSize := [1, 2], strides := some [1, 1], padding := "valid",
    allowNonEquivariance := false, dataFormat := .channelsLast }

/-- C34 fails: pool sizes that differ along exchanged axes are accepted. -/
theorem C34_violation_oblong : ¬ PoolingEquivariant := by
  intro h
  have := (h oblongPool none [3, 3] 4 1 [0, 1, 2, 3] _ ⟨⟨_, rfl, rfl⟩, rfl, rfl⟩ rfl ⟨rfl, rfl⟩
    ⟨[1, 3, 3, 4, 1], fun _ => 1⟩ 1 rfl _ rfl).not_differ rfl (i := 0) (by decide) []
  revert this
  decide +kernel

/-! ### C35 -/

/-- C35: global group pooling returns the maximum (mean) over all positions and group elements. -/
theorem C35_value [Field α] [LinearOrder α] (l : GlobalGroupPooling) (x : Tensor α) (B C g : Nat) (m : List Nat)
    (hm : m.length = l.dimensions) (hx : x.shape = sigShape l.dataFormat B m (some g) C) (hg : g ≠ 0) (h0 : 0 ∉ m) :
    ∃ y, l.call x = .ok y ∧ y.shape = globalShape l.dataFormat l.dimensions l.keepdims B C ∧
      ∀ b c, b < B → c < C → y.get (globalIndex l.dataFormat l.dimensions l.keepdims b c) =
        l.poolType.reduce (allEntries l.dataFormat m g x b c) := by
  obtain ⟨y, e1, e2, e3⟩ := global_call hx hm hg h0
  exact ⟨y, e1, e2, fun b c _ _ => e3 b c⟩

/-- every multi-index of the result is one of those of `C35_value` -/
theorem C35_indices (fmt : DataFormat) (d B C : Nat) (keepdims : Bool) (idx : List Nat)
    (h : Valid (globalShape fmt d keepdims B C) idx) : ∃ b c, b < B ∧ c < C ∧ idx = globalIndex fmt d keepdims b c := by
  have rep : ∀ d p, Valid (List.replicate d 1) p → p = List.replicate d 0 := by
    intro d
    induction d with
    | zero => intro p hp; cases p <;> simp_all [Valid]
    | succ d ih =>
      intro p hp
      cases p with
      | nil => simp [List.replicate_succ, Valid] at hp
      | cons a p =>
        simp only [List.replicate_succ, Valid] at hp ⊢
        rw [ih p hp.2, show a = 0 by omega]
  cases keepdims with
  | false =>
    obtain ⟨b, c, rfl⟩ : ∃ b c, idx = [b, c] := by
      have := h.length
      simp only [globalShape] at this
      match idx, this with
      | [b, c], _ => exact ⟨b, c, rfl⟩
    exact ⟨b, c, h.1, h.2.1, rfl⟩
  | true =>
    cases fmt with
    | channelsLast =>
      change Valid (B :: List.replicate d 1 ++ [1, C]) idx at h
      obtain ⟨p, q, e, h1, h2⟩ := valid_append_split h
      subst e
      match p, h1 with
      | b :: p, h1 =>
      match q, h2 with
      | [j, c], h2 =>
        refine ⟨b, c, h1.1, h2.2.1, ?_⟩
        rw [rep d p h1.2, show j = 0 from Nat.lt_one_iff.1 h2.1]
        rfl
    | channelsFirst =>
      change Valid (B :: C :: List.replicate d 1 ++ [1]) idx at h
      obtain ⟨p, q, e, h1, h2⟩ := valid_append_split h
      subst e
      match p, h1 with
      | b :: c :: p, h1 =>
      match q, h2 with
      | [j], h2 =>
        refine ⟨b, c, h1.1, h1.2.1, ?_⟩
        rw [rep d p h1.2.2, show j = 0 from Nat.lt_one_iff.1 h2.1]
        rfl

/-- C35: transforming a signal on the subgroup `domain` with any of the elements of the subgroup `acting` does not change
the result of global group pooling. -/
theorem C35_invariant [Field α] [LinearOrder α] (l : GlobalGroupPooling) (n : GroupName) (hd : l.dimensions = n.dim)
    (acting domain : Option String) (A D : List Nat) (hA : n.group.sub (n.group.parseSubgroup acting) = .ok A)
    (hD : n.group.sub (n.group.parseSubgroup domain) = .ok D) (hAD : ∀ e ∈ A, e ∈ D)
    (m : List Nat) (hm : n.Grid m) (h0 : 0 ∉ m) (x : Tensor α) (B C : Nat)
    (hx : x.shape = sigShape l.dataFormat B m (some D.length) C) :
    ∃ y hx, l.call x = .ok y ∧
      n.group.action x (spatialAxes l.dataFormat n.dim) 0 (some (groupAxis l.dataFormat n.dim)) acting domain = .ok hx ∧
      hx.shape = A.length :: x.shape ∧
      ∀ i, i < A.length → ∃ z, l.call (slice hx 0 i) = .ok z ∧ z.Same y := by
  obtain ⟨sA, pA, hA'⟩ := parse_sub hA
  obtain ⟨sD, pD, hD'⟩ := parse_sub hD
  have hml : m.length = l.dimensions := by rw [hd]; exact n.sym.okLen _ hm
  obtain ⟨hx', e1, e2, e3⟩ := act_sig n l.dataFormat x hx hm pA hA' rfl pD hD' hAD
  by_cases hg : D.length = 0
  · have : D ≠ [] := fun h => by
      have := ((C09_all_groups n).2 sD D hD').2.1
      rw [h] at this
      cases this
    exact absurd (List.length_eq_zero_iff.1 hg) this
  · obtain ⟨y, c1, c2, c3⟩ := C35_value l x B C D.length m hml hx hg h0
    refine ⟨y, hx', c1, e1, e2, ?_⟩
    intro i hi
    obtain ⟨s1, s2⟩ := e3 i hi
    obtain ⟨z, d1, d2, d3⟩ := C35_value l (slice hx' 0 i) B C D.length m hml (s1.trans hx) hg h0
    refine ⟨z, d1, d2.trans c2.symm, ?_⟩
    intro idx hidx
    rw [d2] at hidx
    obtain ⟨b, c, hb, hc, rfl⟩ := C35_indices _ _ _ _ _ _ hidx
    rw [d3 b c hb hc, c3 b c hb hc]
    refine reduce_perm _ (allEntries_perm (hm.kept (n.sym.sub_nth_lt hA' hi)) hD' (hAD _ (nth_mem _ _ hi)) ?_)
    intro p j hp hj
    exact s2 b p j c hb hp hj hc

/-- C35: a global group pooling layer builds exactly on shapes with a group axis; otherwise Python raises
UnboundLocalError. -/
theorem C35_build (l : GlobalGroupPooling) (shape : List (Option Nat)) (hpos : 0 < l.dimensions)
    (hb : ∀ i, i ≠ 0 → i < shape.length → ∃ n, shape[i]? = some (some n)) :
    l.build shape = if shape.length = l.dimensions + 3 then .ok () else .error .unbound := by
  unfold GlobalGroupPooling.build
  by_cases h : shape.length = l.dimensions + 3
  · rw [if_pos h, if_pos h]
    unfold GlobalGroupPooling.groupAxis GlobalGroupPooling.channelsAxis mergeShapes
    cases l.dataFormat with
    | channelsLast =>
      obtain ⟨u, hu⟩ := hb (l.dimensions + 1) (by omega) (by omega)
      obtain ⟨v, hv⟩ := hb (l.dimensions + 2) (by omega) (by omega)
      have e1 : pyIndex shape.length ((l.dimensions : Int) + 1) = .ok (l.dimensions + 1) := by
        unfold pyIndex; grind
      have e2 : pyIndex shape.length (-1) = .ok (l.dimensions + 2) := by
        unfold pyIndex; grind
      simp only [e1, e2, res_bind_ok, hu, hv]
      rfl
    | channelsFirst =>
      obtain ⟨u, hu⟩ := hb (l.dimensions + 2) (by omega) (by omega)
      obtain ⟨v, hv⟩ := hb 1 (by omega) (by omega)
      have e1 : pyIndex shape.length ((l.dimensions : Int) + 2) = .ok (l.dimensions + 2) := by
        unfold pyIndex; grind
      have e2 : pyIndex shape.length 1 = .ok 1 := by
        unfold pyIndex; grind
      simp only [e1, e2, res_bind_ok, hu, hv]
      rfl
  · rw [if_neg h, if_neg h]

/-- hypotheses of C35 are met: a signal on the subgroup P2 of P4 -/
example : (GlobalGroupPooling.mk 2 .max true .channelsFirst).dimensions = GroupName.P4.dim ∧
    GroupName.P4.group.sub (GroupName.P4.group.parseSubgroup (some "P2")) = .ok [0, 2] ∧
    (∀ e ∈ [0, 2], e ∈ [0, 2]) ∧ GroupName.P4.Grid [3, 3] ∧ 0 ∉ [3, 3] ∧
    (⟨[1, 3, 3, 3, 2], fun _ => 1⟩ : Tensor ℚ).shape = sigShape .channelsFirst 1 [3, 3] (some [0, 2].length) 3 :=
  ⟨rfl, rfl, by simp, ⟨rfl, rfl⟩, by simp, rfl⟩

/-! ### C42 -/

/-- C42 as stated: a group pooling layer cannot be built on signals on the grid. -/
def PoolingRefusesGridSignals : Prop :=
  ∀ (a : PoolArgs) (b : Option Nat) (n : List Nat) (C : Nat) (l0 l : GroupPooling),
    GroupPooling.init a a.group.dim = .ok l0 → n.length = a.group.dim →
    l0.build (inputShape a.dataFormat b n none C) ≠ .ok l

/-- a P2 layer pooling over the whole group -/
def imagePool : PoolArgs :=
  { group := .P2, subgroup := some "P1", poolType := .max, poolSize := [2, 2], strides := some [2, 2], padding := "valid",
    allowNonEquivariance := false, dataFormat := .channelsLast }

set_option maxRecDepth 8000 in
/-- C42 fails: images with three channels are accepted. -/
theorem C42_violation : ¬ PoolingRefusesGridSignals := fun h =>
  h imagePool none [4, 4] 3 _ _ rfl rfl rfl

/-- What happens then: the channels are taken for group elements, here the first two of three, and the third one, the only
one that is not zero in this image, is ignored. -/
theorem C42_channels_pooled :
    (do
      let l0 ← GroupPooling.init imagePool 2
      let l ← l0.build (inputShape .channelsLast none [4, 4] none 3)
      let y ← l.call (⟨[1, 4, 4, 3], fun i => if nth i 3 = 2 then 1 else 0⟩ : Tensor ℚ)
      return (y.shape, decide (∀ i ∈ indices y.shape, y.get i = 0)) : Res (List Nat × Bool)) = .ok ([1, 2, 2, 1, 1], true) := by
  decide +kernel

end GroCo
