import Mathlib.Order.Lattice
import Mathlib.Order.MinMax
import Verif.ConvEquiv
import Verif.PoolSpec
import Verif.Props.Derived

/-
Helper lemmas: what pooling layers compute.
-/

namespace GroCo
open Tensor

variable {α : Type}

/-! ### maxima and means -/

theorem foldl_max_mem [LinearOrder α] (l : List α) (a : α) : l.foldl Max.max a ∈ a :: l := by
  induction l generalizing a with
  | nil => simp
  | cons b l ih =>
    rw [List.foldl_cons]
    have := ih (Max.max a b)
    rw [List.mem_cons] at this
    rcases this with h | h
    · rw [h]
      rcases max_choice a b with h | h <;> rw [h] <;> simp
    · simp [h]

theorem le_foldl_max [LinearOrder α] (l : List α) (a : α) : ∀ b ∈ a :: l, b ≤ l.foldl Max.max a := by
  induction l generalizing a with
  | nil => simp
  | cons c l ih =>
    intro b hb
    rw [List.foldl_cons]
    rw [List.mem_cons, List.mem_cons] at hb
    have h1 := ih (Max.max a c) (Max.max a c) (by simp)
    rcases hb with rfl | rfl | hb
    · exact le_trans (le_max_left _ _) h1
    · exact le_trans (le_max_right _ _) h1
    · exact ih _ _ (by simp [hb])

theorem maxOf_mem [LinearOrder α] [Zero α] {l : List α} (h : l ≠ []) : maxOf l ∈ l := by
  cases l with
  | nil => exact absurd rfl h
  | cons a l => exact foldl_max_mem l a

theorem le_maxOf [LinearOrder α] [Zero α] {l : List α} {b : α} (h : b ∈ l) : b ≤ maxOf l := by
  cases l with
  | nil => exact absurd h (by simp)
  | cons a l => exact le_foldl_max l a b h

theorem maxOf_perm [LinearOrder α] [Zero α] {l l' : List α} (h : l.Perm l') : maxOf l = maxOf l' := by
  by_cases hl : l = []
  · subst hl
    rw [List.nil_perm.1 h]
  · have hl' : l' ≠ [] := fun h' => hl (by rw [h'] at h; exact List.perm_nil.1 h)
    exact le_antisymm (le_maxOf (h.mem_iff.1 (maxOf_mem hl))) (le_maxOf (h.mem_iff.2 (maxOf_mem hl')))

theorem reduce_perm [Field α] [LinearOrder α] (t : PoolType) {l l' : List α} (h : l.Perm l') : t.reduce l = t.reduce l' := by
  cases t with
  | max => exact maxOf_perm h
  | average => simp only [PoolType.reduce, meanOf, h.sum_eq, h.length_eq]

/-! ### Keras -/

def ones (d : Nat) : List Nat := List.replicate d 1

theorem nth_ones {d i : Nat} (hi : i < d) : nth (ones d) i = 1 := by simp [ones, nth, hi]

/-- positions Keras leaves out along each axis -/
def ppads (kp : KerasPadding) (strides K n : List Nat) : List (Nat × Nat) :=
  (List.range strides.length).map fun i => poolPads kp (nth n i) (nth K i) (nth strides i)

theorem length_ppads (kp : KerasPadding) (strides K n : List Nat) : (ppads kp strides K n).length = strides.length := by
  simp [ppads]

theorem getD_ppads {kp : KerasPadding} {opt : PadOption} (hk : kp = kerasOf opt) {strides K n : List Nat} {i : Nat}
    (hi : i < strides.length) : (ppads kp strides K n).getD i (0, 0) =
      (builtIn opt (nth n i) (nth K i) (nth strides i) / 2,
        builtIn opt (nth n i) (nth K i) (nth strides i) - builtIn opt (nth n i) (nth K i) (nth strides i) / 2) := by
  subst hk
  have : (ppads (kerasOf opt) strides K n).getD i (0, 0) = poolPads (kerasOf opt) (nth n i) (nth K i) (nth strides i) := by
    simp [ppads, hi]
  rw [this]
  cases opt <;> simp [poolPads, samePads, builtIn, kerasOf]

/-- the windows fit into a grid -/
def PoolFits (strides K N : List Nat) : Prop :=
  ∀ i, i < strides.length → 0 < nth strides i ∧ 0 < nth K i ∧ nth K i ≤ nth N i

def poolOut (strides K N : List Nat) : List Nat :=
  (List.range strides.length).map fun i => (nth N i - nth K i) / nth strides i + 1

theorem length_poolOut (strides K N : List Nat) : (poolOut strides K N).length = strides.length := by simp [poolOut]

theorem poolLast_ok (reduce : List α → α) (kp : KerasPadding) {strides K n : List Nat} {B C : Nat} {x : Tensor α}
    (hx : x.shape = B :: n ++ [C]) (hn : n.length = strides.length) (hK : K.length = strides.length) :
    (∀ y, poolLast reduce kp K strides x = .ok y → PoolFits strides K (grow n (ppads kp strides K n))) ∧
    (PoolFits strides K (grow n (ppads kp strides K n)) → ∃ y, poolLast reduce kp K strides x = .ok y ∧
      y.shape = B :: poolOut strides K (grow n (ppads kp strides K n)) ++ [C] ∧
      ∀ b p c, p.length = strides.length → y.get (b :: p ++ [c]) =
        reduce ((indices K).filterMap fun k =>
          if InBox n (winZ (befores (ppads kp strides K n)) strides (ones strides.length) p k) then
            some (x.get (b :: (winZ (befores (ppads kp strides K n)) strides (ones strides.length) p k).map Int.toNat ++ [c]))
          else none)) := by
  have hxr : x.rank = strides.length + 2 := by simp [Tensor.rank, hx, hn]
  have h1 : spatialPart strides.length x.shape = n := by rw [hx]; exact spatialPart_cons hn
  have h4 : nth x.shape (strides.length + 1) = C := by
    rw [hx]; exact nth_app0 (a := B :: n) (by simp [hn])
  have h6 : nth x.shape 0 = B := by rw [hx]; simp
  have hgr : ∀ i, i < strides.length → nth (grow n (ppads kp strides K n)) i =
      ((ppads kp strides K n).getD i (0, 0)).1 + nth n i + ((ppads kp strides K n).getD i (0, 0)).2 := fun i hi =>
    nth_grow (by omega) (by rw [length_ppads, hn])
  unfold poolLast
  simp only [h1, h4, h6, hxr, hK, true_and]
  have hp : (List.range strides.length).map (fun i => poolPads kp (nth n i) (nth K i) (nth strides i)) = ppads kp strides K n := rfl
  simp only [hp]
  constructor
  · intro y hy
    split at hy
    · rename_i hc
      intro i hi
      rw [hgr i hi]
      exact hc i hi
    · exact absurd hy (by simp)
  · intro hf
    rw [if_pos (fun i hi => by rw [← hgr i hi]; exact hf i hi)]
    refine ⟨_, rfl, ?_, ?_⟩
    · simp only [List.cons_append, List.cons.injEq, true_and]
      congr 1
      apply List.map_congr_left
      intro i hi
      rw [hgr i (List.mem_range.1 hi)]
    · intro b p c hp
      have g1 : nth (b :: p ++ [c]) (strides.length + 1) = c := nth_app0 (a := b :: p) (by simp [hp])
      have hw : ∀ k, ((List.range strides.length).map fun i =>
          (nth (b :: p ++ [c]) (i + 1) * nth strides i + nth k i : Int) - (((ppads kp strides K n).getD i (0, 0)).1 : Int)) =
          winZ (befores (ppads kp strides K n)) strides (ones strides.length) p k := by
        intro k
        unfold winZ
        apply List.map_congr_left
        intro i hi
        rw [List.mem_range] at hi
        rw [nth_befores, nth_ones hi]
        have : nth (b :: p ++ [c]) (i + 1) = nth p i := by
          simp [nth, List.getElem?_append, hp, hi]
        rw [this]
        simp
      simp only [g1, hw]
      simp

/-- every window meets the signal -/
theorem window_meets {opt : PadOption} {N k s p : Nat} (hs : 0 < s) (hk : 0 < k) (hfit : k ≤ N + builtIn opt N k s)
    (hp : p < (N + builtIn opt N k s - k) / s + 1) :
    ∃ j, j < k ∧ (0 : Int) ≤ (p * s + j * 1 : Int) - (builtIn opt N k s / 2 : Nat) ∧
      (p * s + j * 1 : Int) - (builtIn opt N k s / 2 : Nat) < N := by
  have hT : builtIn opt N k s < k := by
    have : sameTotal N k s < k := by
      unfold sameTotal
      split <;> omega
    cases opt <;> simp only [builtIn] <;> assumption
  have h1 : p * s ≤ N + builtIn opt N k s - k :=
    le_trans (Nat.mul_le_mul_right _ (by omega)) (Nat.div_mul_le_self _ s)
  have h2 : ((p * s : Nat) : Int) = (p : Int) * s := by push_cast; rfl
  refine ⟨if builtIn opt N k s / 2 ≤ p * s then 0 else builtIn opt N k s / 2 - p * s, ?_⟩
  rw [← h2]
  split <;> omega

/-! ### the layer -/

/-- attributes of a built channels_last pooling layer -/
structure PoolFacts (a : PoolArgs) (H cos : List Nat) (l : GroupPooling) (kp : KerasPadding) : Prop where
  last : LastFacts l.transforms a.group.dim true H.length
  sizeLen : a.poolSize.length = a.group.dim
  stridesLen : a.windowStrides.length = a.group.dim
  sizePos : 0 ∉ a.poolSize
  stridesPos : 0 ∉ a.windowStrides
  sub : ∃ s, a.group.group.parseSubgroup a.subgroup = some s ∧ lookup a.group.group.subgroup s = .ok H ∧
    lookup a.group.group.cosets s = .ok cos
  indices : ∃ I, l.transforms.poolingIndices = some I ∧ I.shape = [H.length, cos.length] ∧
    ∀ i j, I.get [i, j] = a.group.group.comp (nth H i) (nth cos j)
  poolType : l.poolType = a.poolType
  poolSize : l.poolSize = a.poolSize
  strides : l.strides = a.windowStrides
  padding : l.padding = kp
  fmt : l.dataFormat = .channelsLast

theorem pool_init_inv {a : PoolArgs} {d : Nat} {l : GroupPooling} (h : GroupPooling.init a d = .ok l) :
    ∃ s m opt kp, a.group.group.parseSubgroup a.subgroup = some s ∧ groupDict s = .ok m ∧
      formatPaddingOption a.padding = .ok opt ∧ standardizePadding (builtInPaddingOption a.padding) = .ok kp ∧
      a.poolSize.length = d ∧ a.windowStrides.length = d ∧ 0 ∉ a.poolSize ∧ 0 ∉ a.windowStrides ∧
      l = { transforms := initTransforms ⟨a.group, a.subgroup, a.poolSize, a.strides.getD (List.replicate d 1), a.padding,
              a.allowNonEquivariance, a.dataFormat⟩ m opt d false
            poolType := a.poolType
            poolSize := a.poolSize
            strides := a.windowStrides
            padding := kp
            dataFormat := a.dataFormat } := by
  unfold GroupPooling.init at h
  obtain ⟨t, ht, h⟩ := bind_eq_ok h
  obtain ⟨s, m, opt, h1, h2, h3, rfl⟩ := transforms_init_inv ht
  obtain ⟨kp, hk, h⟩ := bind_eq_ok h
  dsimp only at h
  split at h
  · exact absurd h (by simp)
  · rename_i hc
    simp only [not_or, not_not] at hc
    exact ⟨s, m, opt, kp, h1, h2, h3, hk, hc.1, hc.2.1, hc.2.2.1, hc.2.2.2, by cases h; rfl⟩

theorem buildPool_ok {t t' : GroupTransforms} (h : t.buildPool = .ok t') (hg : GoodGroup t.group.group.toGroupData) :
    ∃ H cos I, lookup t.group.group.subgroup t.subgroup.group.name = .ok H ∧
      lookup t.group.group.cosets t.subgroup.group.name = .ok cos ∧ t' = { t with poolingIndices := some I } ∧
      I.shape = [H.length, cos.length] ∧ ∀ i j, I.get [i, j] = t.group.group.comp (nth H i) (nth cos j) := by
  unfold GroupTransforms.buildPool at h
  obtain ⟨cos, hc, h⟩ := bind_eq_ok h
  obtain ⟨I1, h1, h⟩ := bind_eq_ok h
  obtain ⟨H, hH, h⟩ := bind_eq_ok h
  obtain ⟨I, h2, h⟩ := bind_eq_ok h
  refine ⟨H, cos, I, hH, hc, by cases h; rfl, ?_⟩
  unfold take at h1 h2
  rw [show normAxis (tableTensor t.group.group.composition t.group.group.order).rank 1 = .ok 1 from rfl] at h1
  simp only [res_bind_ok] at h1
  split at h1
  · cases h1
    rw [show normAxis (Tensor.rank (⟨_, _⟩ : Tensor Nat)) 0 = .ok 0 from rfl] at h2
    simp only [res_bind_ok] at h2
    split at h2
    · cases h2
      exact ⟨rfl, fun i j => rfl⟩
    · exact absurd h2 (by simp)
  · exact absurd h1 (by simp)

theorem BuiltPool.facts {a : PoolArgs} {b : Option Nat} {n : List Nat} {g C : Nat} {H : List Nat} {l : GroupPooling}
    (hl : BuiltPool a b n g C H l) (hf : a.dataFormat = .channelsLast) :
    ∃ opt kp cos, formatPaddingOption a.padding = .ok opt ∧ standardizePadding (builtInPaddingOption a.padding) = .ok kp ∧
      PoolFacts a H cos l kp ∧ g = a.group.group.order ∧
      EquivariantPadding.build ⟨opt, a.allowNonEquivariance, a.group.dim, a.paddingStrides, a.poolSize, true, false⟩
        (signalShape true b (some (g * C)) n) = .ok l.transforms.padState := by
  obtain ⟨l0, h0, h1⟩ := hl.built
  obtain ⟨s', hs', hH⟩ := parse_sub hl.elements
  obtain ⟨s, m, opt, kp, e1, e2, e3, e4, e5, e6, e7, e8, rfl⟩ := pool_init_inv h0
  have : s = s' := by
    rw [e1] at hs'
    cases hs'; rfl
  subst this
  have hm := groupDict_name e2
  unfold GroupPooling.build at h1
  rw [show inputShape a.dataFormat b n (some g) C = inputShape .channelsLast b n (some g) C by rw [hf]] at h1
  obtain ⟨t, ht, h1⟩ := bind_eq_ok h1
  obtain ⟨t', ht', h1⟩ := bind_eq_ok h1
  cases h1
  obtain ⟨st, hst, hord, ht⟩ := transforms_build_last (by exact hf) hl.dims ht
  have hgrp : t.group = a.group := by rw [ht]; rfl
  have hsub : t.subgroup = m := by rw [ht]; rfl
  have hgood : GoodGroup a.group.group.toGroupData := by
    have T := a.group.sym.tab
    exact ⟨T.laws, ⟨T.compLen, T.rowLen⟩, T.invLen, T.subNames, by rw [T.cosNames]; exact T.subNames⟩
  obtain ⟨H', cos, I, hH', hcos, rfl, hI, hIg⟩ := buildPool_ok ht' (by rw [hgrp]; exact hgood)
  rw [hgrp, hsub, hm] at hH' hcos
  rw [hH] at hH'
  cases hH'
  rw [hgrp] at hIg
  have hact : t.actingGroup = s := by rw [ht]; exact hm
  have hg := hord g rfl
  have hgo : g = a.group.group.order := by
    have e : (initTransforms ⟨a.group, a.subgroup, a.poolSize, a.strides.getD (List.replicate a.group.dim 1), a.padding,
              a.allowNonEquivariance, a.dataFormat⟩ m opt a.group.dim false).orderOf
        (some a.group.group.name) = .ok a.group.group.order := by
      unfold GroupTransforms.orderOf
      have : a.group.group.sub (some a.group.group.name) = .ok (List.range a.group.group.order) := a.group.sym.tab.own
      show (a.group.group.sub (some a.group.group.name) >>= _) = _
      rw [this]
      simp [res_bind_ok, res_pure]
    have hg' : Except.ok g = Except.ok a.group.group.order := hg.symm.trans e
    cases hg'; rfl
  refine ⟨opt, kp, cos, e3, e4, ?_, hgo, ?_⟩
  · have hord' : t.orderOf (some t.actingGroup) = .ok H.length := by
      unfold GroupTransforms.orderOf
      rw [hgrp, hact]
      show (lookup a.group.group.subgroup s >>= _) = _
      rw [hH]
      rfl
    refine ⟨⟨?_, ?_, ?_, ?_, ?_, hord', sub_pos a.group.sym.tab hH⟩, e5, e6, e7, e8, ⟨s, e1, hH, hcos⟩, ⟨I, rfl, hI, hIg⟩,
      rfl, rfl, rfl, rfl, hf⟩
    · show t.groupValuedInput = _
      rw [ht]; rfl
    · show t.dataFormat = _
      rw [ht]; exact hf
    · show t.channelsAxis = _
      rw [ht]; rfl
    · show t.groupAxis = _
      rw [ht]
      simp [initTransforms, hf]
    · show t.padState.OnGrid _
      rw [ht]
      exact EquivariantPadding.build_onGrid (d := a.group.dim) rfl e5 hst
  · have : t.padState = st := by rw [ht]
    rw [this]
    exact hst

theorem map_nth_range (l : List Nat) : (List.range l.length).map (nth l) = l := by
  apply List.ext_getElem
  · simp
  · intro i h1 h2
    simp [nth, h2]

/-- pooling over cosets -/
theorem subgroupPooling_ok {G : GroupName} {t : GroupTransforms} {H cos : List Nat} {I : Tensor Nat} {s : String}
    (hH : lookup G.group.subgroup s = .ok H) (hcos : lookup G.group.cosets s = .ok cos)
    (hI : t.poolingIndices = some I) (hIs : I.shape = [H.length, cos.length])
    (hIg : ∀ i j, I.get [i, j] = G.group.comp (nth H i) (nth cos j)) (reduce : List α → α) {x : Tensor α} {P R : List Nat}
    (hx : x.shape = P ++ G.group.order :: R) (hax : t.groupAxis = P.length) :
    ∃ z, t.subgroupPooling reduce x = .ok z ∧ z.shape = P ++ H.length :: R ∧
      ∀ p i r, p.length = P.length →
        z.get (p ++ i :: r) = reduce (cos.map fun t => x.get (p ++ G.group.comp (nth H i) t :: r)) := by
  have T := G.sym.tab
  obtain ⟨_, h2, h3, _⟩ := T.cosets _ (lookup_mem hcos) H hH
  have hcp : cos.length ≠ 0 := by
    cases cos with
    | nil => simp at h2
    | cons a l => simp
  have hHl := (T.subs _ (lookup_mem hH)).2.2.2.1
  have hr : x.rank = P.length + 1 + R.length := by simp [Tensor.rank, hx]; omega
  have hsz : nth x.shape P.length = G.group.order := by simp [nth, hx]
  unfold GroupTransforms.subgroupPooling
  rw [hI, hax]
  simp only
  have hall : ∀ i ∈ indices I.shape, I.get i < nth x.shape P.length := by
    intro i hi
    rw [mem_indices, hIs] at hi
    match i, hi with
    | [i, j], ⟨h1, h2, _⟩ =>
      rw [hIg, hsz]
      exact T.laws.closed _ _ (hHl _ (nth_mem _ _ h1)) (h3 _ (nth_mem _ _ h2))
  obtain ⟨y, ey, hy, hyg⟩ : ∃ y, takeT x I (P.length : Int) = .ok y ∧
      y.shape = P ++ H.length :: cos.length :: R ∧
      ∀ p i j r, p.length = P.length → y.get (p ++ i :: j :: r) = x.get (p ++ G.group.comp (nth H i) (nth cos j) :: r) := by
    unfold takeT
    rw [normAxis_nat (by omega)]
    simp only [res_bind_ok]
    rw [if_pos hall]
    refine ⟨_, rfl, ?_, ?_⟩
    · simp [hx, hIs]
    · intro p i j r hp
      have hIr : I.rank = 2 := by simp [Tensor.rank, hIs]
      simp only [hIr]
      rw [← hp]
      simp [hIg]
  rw [ey]
  simp only [res_bind_ok]
  have hyr : y.rank = P.length + 2 + R.length := by simp [Tensor.rank, hy]; omega
  have hys : nth y.shape (P.length + 1) = cos.length := by simp [nth, hy]
  unfold reduceAxis
  rw [show (P.length : Int) + 1 = ((P.length + 1 : Nat) : Int) by push_cast; rfl,
    normAxis_nat (by omega)]
  simp only [res_bind_ok, hys, if_neg hcp, res_pure]
  refine ⟨_, rfl, ?_, ?_⟩
  · simp only [hy]
    rw [erase_app rfl]
    rfl
  · intro p i r hp
    simp only
    have : ∀ j, (p ++ i :: r).insertIdx (P.length + 1) j = p ++ i :: j :: r := by
      intro j
      rw [insert_app hp]
      rfl
    simp only [this]
    congr 1
    rw [show cos.map (fun t => x.get (p ++ G.group.comp (nth H i) t :: r)) =
      ((List.range cos.length).map (nth cos)).map (fun t => x.get (p ++ G.group.comp (nth H i) t :: r)) by
        congr 1; exact (map_nth_range cos).symm, List.map_map]
    apply List.map_congr_left
    intro j hj
    rw [hyg p i j r hp]
    rfl

theorem subgroupPooling_last {a : PoolArgs} {H cos : List Nat} {l : GroupPooling} {kp : KerasPadding}
    (f : PoolFacts a H cos l kp) (reduce : List α → α) {x : Tensor α} {B C : Nat} {m : List Nat}
    (hx : x.shape = sigShape .channelsLast B m (some a.group.group.order) C) (hm : m.length = a.group.dim) :
    ∃ z, l.transforms.subgroupPooling reduce x = .ok z ∧ z.shape = sigShape .channelsLast B m (some H.length) C ∧
      ∀ b p i c, b < B → Valid m p → i < H.length → c < C →
        z.get (b :: p ++ [i, c]) = reduce (cos.map fun t => x.get (b :: p ++ [a.group.group.comp (nth H i) t, c])) := by
  obtain ⟨s, _, hH, hcos⟩ := f.sub
  obtain ⟨I, hI, hIs, hIg⟩ := f.indices
  obtain ⟨z, e1, e2, e3⟩ := subgroupPooling_ok hH hcos hI hIs hIg reduce (P := B :: m) (R := [C]) hx
    (by rw [f.last.gaxis]; simp [hm])
  exact ⟨z, e1, e2, fun b p i c _ hp _ _ => e3 (b :: p) i [c] (by simp [hp.length])⟩

/-- what the pooling over cosets depends on, both data formats -/
theorem BuiltPool.coset_facts {a : PoolArgs} {b : Option Nat} {n : List Nat} {g C : Nat} {H : List Nat} {l : GroupPooling}
    (hl : BuiltPool a b n g C H l) : ∃ s cos I, lookup a.group.group.subgroup s = .ok H ∧
      lookup a.group.group.cosets s = .ok cos ∧ l.transforms.poolingIndices = some I ∧ I.shape = [H.length, cos.length] ∧
      (∀ i j, I.get [i, j] = a.group.group.comp (nth H i) (nth cos j)) ∧ g = a.group.group.order ∧
      l.transforms.groupAxis = groupAxis a.dataFormat a.group.dim := by
  obtain ⟨l0, h0, h1⟩ := hl.built
  obtain ⟨s', hs', hH⟩ := parse_sub hl.elements
  obtain ⟨s, m, opt, kp, e1, e2, e3, e4, e5, e6, e7, e8, rfl⟩ := pool_init_inv h0
  have : s = s' := by
    rw [e1] at hs'
    cases hs'; rfl
  subst this
  have hm := groupDict_name e2
  unfold GroupPooling.build at h1
  obtain ⟨t, ht, h1⟩ := bind_eq_ok h1
  obtain ⟨t', ht', h1⟩ := bind_eq_ok h1
  cases h1
  have hgood : GoodGroup a.group.group.toGroupData := by
    have T := a.group.sym.tab
    exact ⟨T.laws, ⟨T.compLen, T.rowLen⟩, T.invLen, T.subNames, by rw [T.cosNames]; exact T.subNames⟩
  have e : (initTransforms ⟨a.group, a.subgroup, a.poolSize, a.strides.getD (List.replicate a.group.dim 1), a.padding,
            a.allowNonEquivariance, a.dataFormat⟩ m opt a.group.dim false).orderOf
      (some a.group.group.name) = .ok a.group.group.order := by
    unfold GroupTransforms.orderOf
    have : a.group.group.sub (some a.group.group.name) = .ok (List.range a.group.group.order) := a.group.sym.tab.own
    show (a.group.group.sub (some a.group.group.name) >>= _) = _
    rw [this]
    simp [res_bind_ok, res_pure]
  have key : t.group = a.group ∧ t.subgroup = m ∧ g = a.group.group.order ∧ t.groupAxis = groupAxis a.dataFormat a.group.dim := by
    cases hf : a.dataFormat with
    | channelsLast =>
      rw [show inputShape a.dataFormat b n (some g) C = inputShape .channelsLast b n (some g) C by rw [hf]] at ht
      obtain ⟨st, hst, hord, ht⟩ := transforms_build_last (by exact hf) hl.dims ht
      refine ⟨by rw [ht]; rfl, by rw [ht]; rfl, ?_, by rw [ht]; simp [initTransforms, hf, groupAxis]⟩
      have hg' : Except.ok g = Except.ok a.group.group.order := (hord g rfl).symm.trans e
      cases hg'; rfl
    | channelsFirst =>
      rw [show inputShape a.dataFormat b n (some g) C = inputShape .channelsFirst b n (some g) C by rw [hf]] at ht
      obtain ⟨st, hst, hord, ht⟩ := transforms_build_first (by exact hf) hl.dims ht
      refine ⟨by rw [ht]; rfl, by rw [ht]; rfl, ?_, by rw [ht]; simp [initTransforms, hf, groupAxis]⟩
      have hg' : Except.ok g = Except.ok a.group.group.order := (hord g rfl).symm.trans e
      cases hg'; rfl
  obtain ⟨hgrp, hsub, hgo, hax⟩ := key
  obtain ⟨H', cos, I, hH', hcos, rfl, hI, hIg⟩ := buildPool_ok ht' (by rw [hgrp]; exact hgood)
  rw [hgrp, hsub, hm] at hH' hcos
  rw [hH] at hH'
  cases hH'
  rw [hgrp] at hIg
  exact ⟨s, cos, I, hH, hcos, rfl, hI, hIg, hgo, hax⟩

/-- entry at an integer position of the signal pooled over cosets, zero outside the grid -/
def poolValue [Field α] [LinearOrder α] (a : PoolArgs) (H cos : List Nat) (x : Tensor α) (m : List Nat) (b : Nat) (q : List Int)
    (i c : Nat) : α :=
  if InBox m q then
    a.poolType.reduce (cos.map fun t => x.get (b :: q.map Int.toNat ++ [a.group.group.comp (nth H i) t, c]))
  else 0

/-- the value a pooling layer computes -/
def poolFormula [Field α] [LinearOrder α] (a : PoolArgs) (H cos skip tot N : List Nat) (x : Tensor α) (m : List Nat) (b : Nat)
    (p : List Nat) (i c : Nat) : α :=
  a.poolType.reduce ((indices a.poolSize).filterMap fun k =>
    if InBox N (winZ skip a.windowStrides (ones a.group.dim) p k) then
      some (poolValue a H cos x m b (winZ tot a.windowStrides (ones a.group.dim) p k) i c)
    else none)

/-- grid sizes after the padding layer -/
def poolGrid (a : PoolArgs) (l : GroupPooling) (m : List Nat) : List Nat := grow m (epads l.transforms.padState a.group.dim)

/-- positions left out by Keras -/
def poolSkip (a : PoolArgs) (kp : KerasPadding) (N : List Nat) : List (Nat × Nat) := ppads kp a.windowStrides a.poolSize N

/-- zeros and positions left out before each axis -/
def poolTot (a : PoolArgs) (l : GroupPooling) (kp : KerasPadding) (m : List Nat) : List Nat :=
  (List.range a.group.dim).map fun i => nth (befores (poolSkip a kp (poolGrid a l m))) i +
    nth (befores (epads l.transforms.padState a.group.dim)) i

theorem pool_call_last [Field α] [LinearOrder α] {a : PoolArgs} {H cos : List Nat} {l : GroupPooling} {kp : KerasPadding}
    (f : PoolFacts a H cos l kp) {x : Tensor α} {B C : Nat} {m : List Nat}
    (hx : x.shape = sigShape .channelsLast B m (some a.group.group.order) C) (hm : m.length = a.group.dim) :
    (∀ y, l.call x = .ok y → PoolFits a.windowStrides a.poolSize (grow (poolGrid a l m) (poolSkip a kp (poolGrid a l m)))) ∧
    (PoolFits a.windowStrides a.poolSize (grow (poolGrid a l m) (poolSkip a kp (poolGrid a l m))) →
      ∃ y, l.call x = .ok y ∧ y.shape = B :: poolOut a.windowStrides a.poolSize
          (grow (poolGrid a l m) (poolSkip a kp (poolGrid a l m))) ++ [H.length, C] ∧
        ∀ b p i c, b < B → Valid (poolOut a.windowStrides a.poolSize
            (grow (poolGrid a l m) (poolSkip a kp (poolGrid a l m)))) p → i < H.length → c < C →
          y.get (b :: p ++ [i, c]) = poolFormula a H cos (befores (poolSkip a kp (poolGrid a l m))) (poolTot a l kp m)
            (poolGrid a l m) x m b p i c) := by
  obtain ⟨z, ez, hz, hzg⟩ := subgroupPooling_last f a.poolType.reduce hx hm
  obtain ⟨u, eu, hu, hug⟩ := f.last.mergePad (g := some H.length) (C := C) z hz hm
  have hNl : (poolGrid a l m).length = a.windowStrides.length := by
    rw [f.stridesLen]
    unfold poolGrid
    rw [length_grow (by rw [length_epads, hm]), hm]
  have hNl' : (poolGrid a l m).length = a.group.dim := by rw [hNl, f.stridesLen]
  obtain ⟨k1, k2⟩ := poolLast_ok a.poolType.reduce kp (strides := a.windowStrides) (K := a.poolSize) (n := poolGrid a l m) (B := B)
    (C := H.length * C) (x := u) hu hNl (by rw [f.sizeLen, f.stridesLen])
  have hcall : l.call x = (poolLast a.poolType.reduce kp a.poolSize a.windowStrides u >>= fun y =>
      l.transforms.restoreGroupAxis y) := by
    unfold GroupPooling.call
    rw [f.poolType, ez]
    simp only [res_bind_ok, eu, f.fmt, f.padding, f.poolSize, f.strides, kerasPool]
  rw [hcall]
  constructor
  · intro y hy
    obtain ⟨w, hw, _⟩ := bind_eq_ok hy
    exact k1 w hw
  · intro hfit
    obtain ⟨w, ew, hw, hwg⟩ := k2 hfit
    obtain ⟨y, ey, hy, hyg⟩ := f.last.restore w hw (by rw [length_poolOut, f.stridesLen])
    refine ⟨y, by rw [ew]; simp only [res_bind_ok, ey], hy, ?_⟩
    intro b p i c hb hp hi hc
    rw [hyg b p i c hb hp hi hc, hwg b p _ (by rw [hp.length, length_poolOut])]
    unfold poolFormula
    refine congrArg a.poolType.reduce ?_
    rw [f.stridesLen]
    apply List.filterMap_congr
    intro k hk
    by_cases hin : InBox (poolGrid a l m)
        (winZ (befores (poolSkip a kp (poolGrid a l m))) a.windowStrides (ones a.group.dim) p k)
    · refine Eq.trans (if_pos hin) (Eq.trans (congrArg some ?_) (if_pos hin).symm)
      have e1 := hug b (winZ (befores (poolSkip a kp (poolGrid a l m))) a.windowStrides (ones a.group.dim) p k) (i * C + c) hb
        (by rw [length_winZ, f.stridesLen]) (mul_add_lt hi hc)
      have e2 : readAt u (grow m (epads l.transforms.padState a.group.dim)) b
          (winZ (befores (poolSkip a kp (poolGrid a l m))) a.windowStrides (ones a.group.dim) p k) [i * C + c] =
          u.get (b :: (winZ (befores (poolSkip a kp (poolGrid a l m))) a.windowStrides (ones a.group.dim) p k).map Int.toNat ++
            [i * C + c]) := if_pos hin
      rw [e2] at e1
      refine Eq.trans e1 ?_
      rw [shiftBack_winZ (by rw [length_epads, f.stridesLen])]
      simp only [restIdx, div_of hc, mod_of hc]
      unfold readAt poolValue poolTot
      rw [f.stridesLen]
      split
      · rename_i hin2
        exact hzg b _ i c hb (inBox_toNat hin2) hi hc
      · rfl
    · exact Eq.trans (if_neg hin) (if_neg hin).symm

end GroCo
