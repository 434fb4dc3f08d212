import Verif.GlobalPoolLemmas
import Verif.Props.Derived
import Verif.PoolEquiv
import Verif.MovedLemmas

/-
Helper lemmas: pooling layers whose windows are single positions; chains of subgroups.
-/

namespace GroCo

variable {α : Type}

/-- the elements of `T` times the representatives of its cosets, by way of `S` and directly -/
def chainOk (G S T : GroupName) : Bool :=
  match lookup G.group.subgroup S.group.name, lookup G.group.subgroup T.group.name, lookup S.group.subgroup T.group.name,
    lookup G.group.cosets S.group.name, lookup G.group.cosets T.group.name, lookup S.group.cosets T.group.name with
  | .ok HS, .ok HT, .ok HTS, .ok cGS, .ok cGT, .ok cST =>
    HTS.length == HT.length && (List.range HT.length).all fun i =>
      List.isPerm (cST.flatMap fun u => cGS.map fun c => G.group.comp (nth HS (S.group.comp (nth HTS i) u)) c)
        (cGT.map fun c => G.group.comp (nth HT i) c)
  | _, _, _, _, _, _ => true

/-- chains whose representatives do not match -/
def oddChain (G S T : GroupName) : Bool :=
  (G == .P4M && S == .P2MM && (T == .PMw || T == .PMh)) || (G == .Oh && S == .D4h && T == .D4)

def groupNames : List GroupName := [.P1, .P2, .PMw, .PMh, .P2MM, .P4, .P4M, .Oh, .O, .D4h, .D4]

theorem mem_groupNames (G : GroupName) : G ∈ groupNames := by cases G <;> decide

theorem chain_table_all : ∀ G ∈ groupNames, ∀ S ∈ groupNames, ∀ T ∈ groupNames, oddChain G S T = false →
    chainOk G S T = true := by
  decide +kernel

theorem chain_table (G S T : GroupName) (h : oddChain G S T = false) : chainOk G S T = true :=
  chain_table_all G (mem_groupNames G) S (mem_groupNames S) T (mem_groupNames T) h

/-- a pooling layer with windows of one position only pools over the group -/
theorem pool_single [Field α] [LinearOrder α] {a : PoolArgs} {H cos : List Nat} {l : GroupPooling}
    (f : PoolFacts a H cos l .valid) (hst : l.transforms.padState = ⟨false, []⟩) (hK : a.poolSize = ones a.group.dim)
    (hS : a.windowStrides = ones a.group.dim) {x y : Tensor α} {B C : Nat} {m : List Nat}
    (hx : x.shape = sigShape .channelsLast B m (some a.group.group.order) C) (hm : m.length = a.group.dim)
    (hy : l.call x = .ok y) :
    y.shape = B :: m ++ [H.length, C] ∧ ∀ b p i c, b < B → Valid m p → i < H.length → c < C →
      y.get (b :: p ++ [i, c]) = a.poolType.reduce (cos.map fun t => x.get (b :: p ++ [a.group.group.comp (nth H i) t, c])) := by
  obtain ⟨c1, d1⟩ := pool_call_last f hx hm
  obtain ⟨z, hz, hs, hg⟩ := d1 (c1 y hy)
  rw [hz] at hy
  cases hy
  have hgrid : poolGrid a l m = m := by unfold poolGrid; rw [hst]; exact grow_none hm
  have hskip : ∀ p ∈ poolSkip a .valid m, p = (0, 0) := by
    intro p hp
    simp only [poolSkip, ppads, poolPads, List.mem_map] at hp
    obtain ⟨_, _, rfl⟩ := hp
    rfl
  have hgrow : grow m (poolSkip a .valid m) = m := by
    refine grow_zeros ?_ hskip
    unfold poolSkip
    rw [length_ppads, f.stridesLen, hm]
  have hfit := c1 y hz
  have hout : poolOut a.windowStrides a.poolSize (grow (poolGrid a l m) (poolSkip a .valid (poolGrid a l m))) = m := by
    rw [hgrid, hgrow] at hfit ⊢
    apply ext_nth
    · rw [length_poolOut, f.stridesLen, hm]
    · intro i hi
      rw [length_poolOut] at hi
      have hi' : i < a.group.dim := by rw [← f.stridesLen]; exact hi
      have h1 := hfit i hi
      unfold poolOut
      rw [nth_map_range, if_pos hi]
      rw [hK, hS, nth_ones hi'] at h1 ⊢
      simp
      omega
  rw [hout] at hs hg
  refine ⟨hs, fun b p i c hb hp hi hc => ?_⟩
  rw [hg b p i c hb hp hi hc, hgrid]
  have hpl := hp.length
  have hwin : ∀ (q : List Nat) k, (∀ j, j < a.group.dim → nth q j = 0) → k ∈ indices (ones a.group.dim) →
      winZ q a.windowStrides (ones a.group.dim) p k = p.map Int.ofNat := by
    intro q k hq hk
    rw [mem_indices] at hk
    apply List.ext_getElem
    · rw [length_winZ, hS]; simp [ones, hpl, hm]
    · intro j h1 h2
      rw [length_winZ, f.stridesLen] at h1
      have hkj := hk.lt (i := j) (by simp [ones, h1])
      rw [nth_ones h1] at hkj
      have hkj' : nth k j = 0 := by omega
      simp only [winZ, List.getElem_map, List.getElem_range]
      rw [hq j h1, hS, nth_ones h1, hkj', nth_eq_getElem p j (by omega)]
      simp
  have hb0 : ∀ j, j < a.group.dim → nth (befores (poolSkip a .valid m)) j = 0 := by
    intro j _
    unfold nth befores poolSkip ppads poolPads
    simp only [List.map_map, List.getD_eq_getElem?_getD, List.getElem?_map]
    cases (List.range a.windowStrides.length)[j]? <;> rfl
  have ht0 : ∀ j, j < a.group.dim → nth (poolTot a l .valid m) j = 0 := by
    intro j hj
    unfold poolTot
    rw [nth_map_range, if_pos hj, hgrid, hb0 j hj, hst]
    simp [befores, epads, nth, hj]
  have hbox : InBox m (p.map Int.ofNat) := by
    rw [inBox_iff]
    refine ⟨by simp [hpl], fun j hj => ?_⟩
    have := hp.lt hj
    rw [nth_eq_getElem p j (by omega)] at this
    simp only [List.getD_eq_getElem?_getD, List.getElem?_map, List.getElem?_eq_getElem (show j < p.length by omega),
      Option.map_some, Option.getD_some, Int.ofNat_eq_natCast]
    omega
  unfold poolFormula
  rw [hK]
  have hone : indices (ones a.group.dim) = [List.replicate a.group.dim 0] := by
    generalize a.group.dim = d
    induction d with
    | zero => rfl
    | succ d ih =>
      show indices (1 :: ones d) = _
      simp only [indices, ih]
      simp [List.replicate_succ]
  have hmem : List.replicate a.group.dim 0 ∈ indices (ones a.group.dim) := by rw [hone]; simp
  rw [hone]
  simp only [List.filterMap_cons, List.filterMap_nil]
  rw [hwin _ _ hb0 hmem, hwin _ _ ht0 hmem, if_pos hbox]
  unfold poolValue
  rw [if_pos hbox]
  have h1 : ∀ v : α, a.poolType.reduce [v] = v := by
    intro v
    cases a.poolType with
    | max => rfl
    | average => simp [PoolType.reduce, meanOf]
  rw [h1]
  simp [Function.comp_def]

end GroCo
