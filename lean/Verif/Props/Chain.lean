import Verif.ChainLemmas
import Verif.BuildLemmas
import Verif.Props.SubgroupLayer

/-!
C58: pooling down a chain of subgroups.
-/

namespace GroCo

variable {α : Type}

/-- the first layer of a chain: windows of one position, from the group of `a` to `S` -/
def firstStage (a : PoolArgs) (S : GroupName) : PoolArgs :=
  { a with subgroup := some S.group.name, poolSize := List.replicate a.group.dim 1, strides := some (List.replicate a.group.dim 1),
           padding := "valid" }

/-- the second layer of a chain: from `S` to the subgroup of `a`, with the windows of `a` -/
def secondStage (a : PoolArgs) (S : GroupName) : PoolArgs := { a with group := S }

/-- the full statement of C58, for one type of entries: pooling to `S` and from there to `T` is pooling to `T`. -/
def PoolsInStages (α : Type) [Field α] [LinearOrder α] (a : PoolArgs) (S : GroupName) : Prop :=
  ∀ (bt : Option Nat) (n : List Nat) (C : Nat) (HS HT HTS : List Nat) (l l₁ l₂ : GroupPooling),
    BuiltPool a bt n a.group.group.order C HT l →
    BuiltPool (firstStage a S) bt n a.group.group.order C HS l₁ →
    BuiltPool (secondStage a S) bt n S.group.order C HTS l₂ →
  ∀ (x y : Tensor α) (B : Nat) (m : List Nat), m.length = a.group.dim →
    x.shape = sigShape .channelsLast B m (some a.group.group.order) C → l₁.call x = .ok y →
    ((∃ z, l₂.call y = .ok z) ↔ ∃ w, l.call x = .ok w) ∧
    ∀ z w, l₂.call y = .ok z → l.call x = .ok w → z.Same w

theorem reduce_stages [Field α] [LinearOrder α] (t : PoolType) {β : Type} {u : List Nat} {c : List β} {F : Nat → β → α}
    (hu : u ≠ []) (hc : c ≠ []) : t.reduce (u.map fun i => t.reduce (c.map fun j => F i j)) =
      t.reduce (u.flatMap fun i => c.map fun j => F i j) :=
  reduce_flatMap t hu (g := c.length) (by simpa using hc) (by simp)

/-- C58, the part that holds: for every chain except P4M - P2MM - PMw, P4M - P2MM - PMh and Oh - D4h - D4, pooling from a group to
a subgroup `S` and from `S` to a smaller subgroup `T` is the same as pooling from the group to `T`. -/
theorem C58_stages_partial [Field α] [LinearOrder α] (a : PoolArgs) (S T : GroupName) (hT : a.subgroup = some T.group.name)
    (hf : a.dataFormat = .channelsLast)
    (hodd : (a.group, S, T) ∉ [(.P4M, .P2MM, .PMw), (.P4M, .P2MM, .PMh), (.Oh, .D4h, .D4)]) :
    PoolsInStages α a S := by
  intro bt n C HS HT HTS l l₁ l₂ hl hl₁ hl₂ x y B m hm hx hy
  obtain ⟨opt, kp, cGT, e1, e2, f, -, hp⟩ := hl.facts hf
  obtain ⟨opt₁, kp₁, cGS, e3, e4, f₁, -, hp₁⟩ := hl₁.facts hf
  obtain ⟨opt₂, kp₂, cST, e5, e6, f₂, -, hp₂⟩ := hl₂.facts hf
  have hopt₁ : opt₁ = .valid := by
    have : formatPaddingOption "valid" = .ok .valid := by decide
    cases e3.symm.trans this; rfl
  have hkp₁ : kp₁ = .valid := by rw [padding_agree e3 e4, hopt₁]; rfl
  subst hopt₁ hkp₁
  have hopt : opt₂ = opt := by cases e5.symm.trans e1; rfl
  have hkp : kp₂ = kp := by cases e6.symm.trans e2; rfl
  subst hopt hkp
  have hne : ∀ N : GroupName, N.group.name ≠ "" := by intro N; cases N <;> decide +kernel
  have hHS : lookup a.group.group.subgroup S.group.name = .ok HS := by
    have : a.group.group.sub (a.group.group.parseSubgroup (some S.group.name)) = .ok HS := hl₁.elements
    rwa [parse_nonempty _ (hne S)] at this
  have hHT : lookup a.group.group.subgroup T.group.name = .ok HT := by
    have := hl.elements
    rwa [hT, parse_nonempty _ (hne T)] at this
  have hHTS : lookup S.group.subgroup T.group.name = .ok HTS := by
    have : S.group.sub (S.group.parseSubgroup a.subgroup) = .ok HTS := hl₂.elements
    rwa [hT, parse_nonempty _ (hne T)] at this
  have hcGS : lookup a.group.group.cosets S.group.name = .ok cGS := by
    obtain ⟨s, h1, -, h3⟩ := f₁.sub
    have : a.group.group.parseSubgroup (some S.group.name) = some s := h1
    rw [parse_nonempty _ (hne S)] at this
    cases this
    exact h3
  have hcGT : lookup a.group.group.cosets T.group.name = .ok cGT := by
    obtain ⟨s, h1, -, h3⟩ := f.sub
    rw [hT, parse_nonempty _ (hne T)] at h1
    cases h1
    exact h3
  have hcST : lookup S.group.cosets T.group.name = .ok cST := by
    obtain ⟨s, h1, -, h3⟩ := f₂.sub
    have : S.group.parseSubgroup a.subgroup = some s := h1
    rw [hT, parse_nonempty _ (hne T)] at this
    cases this
    exact h3
  have hodd' : oddChain a.group S T = false := by
    revert hodd
    generalize a.group = G
    cases G <;> cases S <;> cases T <;> decide
  have hchain := chain_table a.group S T hodd'
  unfold chainOk at hchain
  rw [hHS, hHT, hHTS, hcGS, hcGT, hcST] at hchain
  simp only [Bool.and_eq_true, beq_iff_eq, List.all_eq_true, List.mem_range, List.isPerm_iff] at hchain
  obtain ⟨hlen, hperm⟩ := hchain
  obtain ⟨hd, -⟩ := sub_embed a.group S hHS
  obtain ⟨hoS, -⟩ := sub_embed_els hHS
  obtain ⟨cos', hc', htile⟩ := C10_cosets a.group _ _ hHS
  rw [hcGS] at hc'
  cases hc'
  obtain ⟨cos', hc', htile'⟩ := C10_cosets S _ _ hHTS
  rw [hcST] at hc'
  cases hc'
  have hnGS : cGS ≠ [] := by
    rintro rfl
    obtain ⟨_, _, c, hc, _⟩ := htile.2.2.1 0 (a.group.sym.tab.laws.pos)
    exact absurd hc (by simp)
  have hnST : cST ≠ [] := by
    rintro rfl
    obtain ⟨_, _, c, hc, _⟩ := htile'.2.2.1 0 S.sym.tab.laws.pos
    exact absurd hc (by simp)
  have hst₁ : l₁.transforms.padState = ⟨false, []⟩ := by
    have := EquivariantPadding.build_eq ⟨.valid, a.allowNonEquivariance, a.group.dim, List.replicate a.group.dim 1,
      List.replicate a.group.dim 1, true, false⟩ bt (some (a.group.group.order * C)) (sp := n)
      (signal_fits hl.dims (by simp) (by simp) (by simp))
    simp only [or_true, true_and, if_true] at this
    have h' := hp₁.symm.trans this
    split at h'
    · exact Except.ok.inj h'
    · split at h'
      · exact Except.ok.inj h'
      · exact absurd h' (by simp)
  have hst : l₂.transforms.padState = l.transforms.padState := by
    have hfit : (EquivariantPadding.mk opt₂ a.allowNonEquivariance a.group.dim a.paddingStrides a.poolSize true false).Fits n := by
      refine signal_fits hl.dims f.sizeLen ?_ ?_
      · unfold PoolArgs.paddingStrides
        cases hs : a.strides with
        | none => simp
        | some s => have := f.stridesLen; unfold PoolArgs.windowStrides at this; rw [hs] at this; exact this
      · unfold PoolArgs.paddingStrides
        cases hs : a.strides with
        | none => simp
        | some s => have := f.stridesPos; unfold PoolArgs.windowStrides at this; rw [hs] at this; exact this
    have h1 := EquivariantPadding.build_eq _ bt (some (a.group.group.order * C)) hfit
    have h2 := EquivariantPadding.build_eq _ bt (some (S.group.order * C)) hfit
    have h3 : (secondStage a S).paddingStrides = a.paddingStrides := by
      unfold PoolArgs.paddingStrides secondStage
      simp [hd]
    rw [h3] at hp₂
    have h4 : (secondStage a S).group.dim = a.group.dim := hd
    rw [h4] at hp₂
    exact Except.ok.inj ((hp₂.symm.trans h2).trans (h1.symm.trans hp))
  obtain ⟨hys, hyg⟩ := pool_single f₁ hst₁ rfl rfl hx hm hy
  have hy' : y.shape = sigShape .channelsLast B m (some (secondStage a S).group.group.order) C := by
    rw [hys]
    show _ = B :: m ++ [S.group.order, C]
    rw [hoS]
  obtain ⟨c1, d1⟩ := pool_call_last f hx hm
  obtain ⟨c2, d2⟩ := pool_call_last f₂ hy' (hm.trans hd.symm)
  have hgrid : poolGrid (secondStage a S) l₂ m = poolGrid a l m := by
    unfold poolGrid
    rw [hst]
    show grow m (epads _ S.dim) = _
    rw [hd]
  have hskip : ∀ N, poolSkip (secondStage a S) kp₂ N = poolSkip a kp₂ N := fun _ => rfl
  have htot : poolTot (secondStage a S) l₂ kp₂ m = poolTot a l kp₂ m := by
    unfold poolTot
    rw [hgrid, hskip, hst]
    show (List.range S.dim).map (fun i => _ + nth (befores (epads _ S.dim)) i) = _
    rw [hd]
  rw [hgrid, hskip] at c2 d2
  have hw : (secondStage a S).windowStrides = a.windowStrides := rfl
  have hk : (secondStage a S).poolSize = a.poolSize := rfl
  rw [hw, hk] at c2 d2
  refine ⟨⟨?_, ?_⟩, ?_⟩
  · rintro ⟨z, hz⟩
    obtain ⟨w, hw, -⟩ := d1 (c2 z hz)
    exact ⟨w, hw⟩
  · rintro ⟨w, hw⟩
    obtain ⟨z, hz, -⟩ := d2 (c1 w hw)
    exact ⟨z, hz⟩
  intro z w hz hw
  obtain ⟨z', hz', hs₁, hg₁⟩ := d2 (c2 z hz)
  obtain ⟨w', hw', hs₂, hg₂⟩ := d1 (c1 w hw)
  rw [hz'] at hz
  rw [hw'] at hw
  cases hz
  cases hw
  rw [hlen] at hs₁ hg₁
  refine ⟨hs₁.trans hs₂.symm, ?_⟩
  intro idx hv
  rw [hs₁] at hv
  obtain ⟨b, p, i, c, rfl, hb, hpv, hi, hc⟩ := layer_index hv
  rw [hg₁ b p i c hb hpv hi hc, hg₂ b p i c hb hpv hi hc, htot]
  unfold poolFormula
  have hv : ∀ q, poolValue (secondStage a S) HTS cST y m b q i c = poolValue a HT cGT x m b q i c := by
    intro q
    unfold poolValue
    split
    · rename_i hq
      have hqv : Valid m (q.map Int.toNat) := hq.valid
      have h1 : ∀ t ∈ cST, y.get (b :: q.map Int.toNat ++ [S.group.comp (nth HTS i) t, c]) =
          a.poolType.reduce (cGS.map fun u => x.get (b :: q.map Int.toNat ++
            [a.group.group.comp (nth HS (S.group.comp (nth HTS i) t)) u, c])) := by
        intro t ht
        refine hyg b _ _ c hb hqv ?_ hc
        rw [← hoS]
        exact S.sym.tab.laws.closed _ _ (S.sym.sub_lt hHTS (nth_mem _ _ (by rw [hlen]; exact hi))) (htile'.2.1 t ht)
      show a.poolType.reduce (cST.map fun t => y.get (b :: q.map Int.toNat ++ [S.group.comp (nth HTS i) t, c])) = _
      rw [List.map_congr_left h1, reduce_stages _ hnST hnGS]
      have h2 := (hperm i hi).map fun e => x.get (b :: q.map Int.toNat ++ [e, c])
      rw [List.map_flatMap, List.map_map] at h2
      simp only [List.map_map] at h2
      exact reduce_perm _ h2
    · rfl
  simp only [hv]
  show a.poolType.reduce ((indices a.poolSize).filterMap fun k =>
    if InBox _ (winZ _ a.windowStrides (ones S.dim) p k) then some (poolValue a HT cGT x m b (winZ _ a.windowStrides (ones S.dim) p k) i c)
    else none) = _
  rw [hd]

/-- maximum pooling from `G` to `T` -/
def chainPool (G T : GroupName) : PoolArgs :=
  { group := G, subgroup := some T.group.name, poolType := .max, poolSize := List.replicate G.dim 1, strides := none,
    padding := "valid", allowNonEquivariance := false, dataFormat := .channelsLast }

/-- a signal whose value is the number of the group element, on axis `k` -/
def counting (shape : List Nat) (k : Nat) : Tensor ℚ := ⟨shape, fun i => nth i k⟩

set_option maxRecDepth 8000 in
/-- C58 fails for the chain P4M - P2MM - PMw. -/
theorem C58_violation_PMw : ¬ PoolsInStages ℚ (chainPool .P4M .PMw) .P2MM := by
  intro h
  have := (h none [1, 1] 1 _ _ _ _ _ _ ⟨⟨_, rfl, rfl⟩, rfl, rfl⟩ ⟨⟨_, rfl, rfl⟩, rfl, rfl⟩ ⟨⟨_, rfl, rfl⟩, rfl, rfl⟩
    (counting [1, 1, 1, 8, 1] 3) _ 1 [1, 1] rfl rfl rfl).2 _ _ rfl rfl
  have := this.2 [0, 0, 0, 0, 0] (by decide +kernel)
  revert this
  decide +kernel

set_option maxRecDepth 8000 in
/-- C58 fails for the chain P4M - P2MM - PMh. -/
theorem C58_violation_PMh : ¬ PoolsInStages ℚ (chainPool .P4M .PMh) .P2MM := by
  intro h
  have := (h none [1, 1] 1 _ _ _ _ _ _ ⟨⟨_, rfl, rfl⟩, rfl, rfl⟩ ⟨⟨_, rfl, rfl⟩, rfl, rfl⟩ ⟨⟨_, rfl, rfl⟩, rfl, rfl⟩
    (counting [1, 1, 1, 8, 1] 3) _ 1 [1, 1] rfl rfl rfl).2 _ _ rfl rfl
  have := this.2 [0, 0, 0, 0, 0] (by decide +kernel)
  revert this
  decide +kernel

set_option maxRecDepth 100000 in
/-- C58 fails for the chain Oh - D4h - D4. -/
theorem C58_violation_D4 : ¬ PoolsInStages ℚ (chainPool .Oh .D4) .D4h := by
  intro h
  have := (h none [1, 1, 1] 1 _ _ _ _ _ _ ⟨⟨_, rfl, rfl⟩, rfl, rfl⟩ ⟨⟨_, rfl, rfl⟩, rfl, rfl⟩ ⟨⟨_, rfl, rfl⟩, rfl, rfl⟩
    (counting [1, 1, 1, 1, 48, 1] 4) _ 1 [1, 1, 1] rfl rfl rfl).2 _ _ rfl rfl
  have := this.2 [0, 0, 0, 0, 0, 0] (by decide +kernel)
  revert this
  decide +kernel

set_option maxRecDepth 8000 in
/-- hypotheses are met -/
example : (∃ l, BuiltPool (chainPool .P4 .P1) none [1, 1] 4 1 [0] l) ∧
    (∃ l y, BuiltPool (firstStage (chainPool .P4 .P1) .P2) none [1, 1] 4 1 [0, 2] l ∧ l.call (counting [1, 1, 1, 4, 1] 3) = .ok y) ∧
    (∃ l, BuiltPool (secondStage (chainPool .P4 .P1) .P2) none [1, 1] 2 1 [0] l) :=
  ⟨⟨_, ⟨_, rfl, rfl⟩, rfl, rfl⟩, ⟨_, _, ⟨⟨_, rfl, rfl⟩, rfl, rfl⟩, rfl⟩, ⟨_, ⟨_, rfl, rfl⟩, rfl, rfl⟩⟩

end GroCo
