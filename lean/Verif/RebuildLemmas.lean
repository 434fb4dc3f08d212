import Verif.BuildLemmas
import Verif.PoolLemmas

/-
Helper lemmas: building an already built layer again.
-/

namespace GroCo

variable {α : Type}

/-- the shape after merging the group axis -/
def reshapedOf (G : GroupName) (domain : Option String) (ga ca d : Nat) (shape : List (Option Nat)) :
    Res (List (Option Nat)) :=
  if shape.length = d + 3 then
    G.group.sub domain >>= fun H => getIdx shape ga >>= fun size =>
      if size = some H.length then mergeShapes shape ga ca else .error .assertion
  else .ok shape

theorem transforms_build_eq (t : GroupTransforms) (shape : List (Option Nat)) :
    t.build shape = (reshapedOf t.group (if shape.length = t.dimensions + 3 then t.domainGroup else none) t.groupAxis
        (if t.dataFormat = .channelsLast ∧ shape.length = t.dimensions + 3 then t.channelsAxis + 1 else t.channelsAxis)
        t.dimensions shape) >>= fun r => t.equivariantPadding.build r >>= fun st =>
      .ok { t with
        groupValuedInput := decide (shape.length = t.dimensions + 3)
        domainGroup := if shape.length = t.dimensions + 3 then t.domainGroup else none
        channelsAxis := if t.dataFormat = .channelsLast ∧ shape.length = t.dimensions + 3 then t.channelsAxis + 1
          else t.channelsAxis
        reshapedInput := r
        padState := st } := by
  unfold GroupTransforms.build reshapedOf GroupTransforms.orderOf
  simp only [decide_eq_true_eq]
  by_cases hg : shape.length = t.dimensions + 3
  · simp only [hg, if_true, and_true]
    cases t.group.group.sub t.domainGroup with
    | error e => rfl
    | ok H =>
      simp only [res_bind_ok, res_pure]
      cases getIdx shape t.groupAxis with
      | error e => rfl
      | ok size =>
        simp only [res_bind_ok]
        by_cases hs : size = some H.length
        · simp only [hs, if_true]
        · simp only [hs, if_false]
  · simp only [hg, if_false]
    rfl

/-- what a build changes -/
theorem transforms_build_inv {t t1 : GroupTransforms} {shape : List (Option Nat)} (h : t.build shape = .ok t1) :
    ∃ r st, t1 = { t with
      groupValuedInput := decide (shape.length = t.dimensions + 3)
      domainGroup := if shape.length = t.dimensions + 3 then t.domainGroup else none
      channelsAxis := if t.dataFormat = .channelsLast ∧ shape.length = t.dimensions + 3 then t.channelsAxis + 1
        else t.channelsAxis
      reshapedInput := r
      padState := st } := by
  rw [transforms_build_eq] at h
  obtain ⟨r, -, h⟩ := bind_eq_ok h
  obtain ⟨st, -, h⟩ := bind_eq_ok h
  exact ⟨r, st, by cases h; rfl⟩

/-- building on another shape of the same length forgets the first -/
theorem transforms_rebuild {t t1 : GroupTransforms} {s1 s2 : List (Option Nat)} (h : t.build s1 = .ok t1)
    (hl : s1.length = s2.length) (hf : t.dataFormat = .channelsFirst ∨ s1.length ≠ t.dimensions + 3) :
    t1.build s2 = t.build s2 := by
  obtain ⟨r, st, rfl⟩ := transforms_build_inv h
  have hn : ¬ (t.dataFormat = .channelsLast ∧ s2.length = t.dimensions + 3) := by
    rintro ⟨h1, h2⟩
    rcases hf with h3 | h3
    · rw [h1] at h3; cases h3
    · exact h3 (hl.trans h2)
  rw [hl]
  rw [transforms_build_eq, transforms_build_eq]
  simp only [hn, if_false]
  by_cases hg : s2.length = t.dimensions + 3 <;> simp only [hg, if_true, if_false]

/-- the number of places of the channel axis is wrong after the first build -/
theorem transforms_rebuild_last {t t1 : GroupTransforms} {s : List (Option Nat)} (h : t.build s = .ok t1)
    (hf : t.dataFormat = .channelsLast) (hl : s.length = t.dimensions + 3) (hc : t.channelsAxis = t.dimensions + 1) :
    t1.build s = .error .index := by
  obtain ⟨r, st, rfl⟩ := transforms_build_inv h
  rw [transforms_build_eq] at h ⊢
  simp only [hf, hl, true_and, if_true, hc] at h ⊢
  obtain ⟨r', h, -⟩ := bind_eq_ok h
  unfold reshapedOf at *
  rw [if_pos hl] at h ⊢
  obtain ⟨H, ho, h⟩ := bind_eq_ok h
  obtain ⟨sz, hs, h⟩ := bind_eq_ok h
  split at h
  · rename_i he
    rw [ho, res_bind_ok, hs, res_bind_ok, if_pos he]
    unfold mergeShapes at h ⊢
    obtain ⟨m, hm, h⟩ := bind_eq_ok h
    rw [hm, res_bind_ok]
    have : pyIndex s.length ((t.dimensions + 1 + 1 + 1 : Nat) : Int) = .error .index := by
      unfold pyIndex
      rw [if_neg (by rw [hl]; omega), if_neg (by omega)]
    rw [this]
    rfl
  · exact absurd h (by simp)

theorem pool_build_inv {l l1 : GroupPooling} {shape : List (Option Nat)} (h : l.build shape = .ok l1) :
    ∃ t I, l.transforms.build shape = .ok t ∧ l1 = { l with transforms := { t with poolingIndices := I } } := by
  unfold GroupPooling.build at h
  obtain ⟨t, ht, h⟩ := bind_eq_ok h
  obtain ⟨t', ht', h⟩ := bind_eq_ok h
  unfold GroupTransforms.buildPool at ht'
  obtain ⟨_, -, ht'⟩ := bind_eq_ok ht'
  obtain ⟨_, -, ht'⟩ := bind_eq_ok ht'
  obtain ⟨_, -, ht'⟩ := bind_eq_ok ht'
  obtain ⟨I, -, ht'⟩ := bind_eq_ok ht'
  exact ⟨t, some I, ht, by cases ht'; cases h; rfl⟩

/-- the pooling indices play no role in a build -/
theorem build_poolingIndices (t : GroupTransforms) (I : Option (Tensor Nat)) (shape : List (Option Nat)) :
    ({ t with poolingIndices := I } : GroupTransforms).build shape =
      (t.build shape).map fun u => { u with poolingIndices := I } := by
  rw [transforms_build_eq, transforms_build_eq]
  dsimp only
  cases reshapedOf _ _ _ _ _ _ with
  | error e => rfl
  | ok r =>
    simp only [res_bind_ok]
    cases t.equivariantPadding.build r <;> rfl

theorem buildPool_again (t : GroupTransforms) (I : Option (Tensor Nat)) :
    ({ t with poolingIndices := I } : GroupTransforms).buildPool = t.buildPool := rfl

theorem conv_build_inv {l l1 : GroupConv α} {shape : List (Option Nat)} {k0 b0 : List Nat → α}
    (h : l.build shape k0 b0 = .ok l1) :
    ∃ t I J, l.transforms.build shape = .ok t ∧
      l1.transforms = { t with repeatedBiasIndices := I, transformedKernelIndices := J } := by
  unfold GroupConv.build at h
  obtain ⟨t, ht, h⟩ := bind_eq_ok h
  obtain ⟨_, -, h⟩ := bind_eq_ok h
  obtain ⟨_, -, h⟩ := bind_eq_ok h
  obtain ⟨t', ht', h⟩ := bind_eq_ok h
  unfold GroupTransforms.buildConv at ht'
  dsimp only at ht'
  split at ht'
  all_goals
    obtain ⟨b, -, ht'⟩ := bind_eq_ok ht'
    obtain ⟨k, -, ht'⟩ := bind_eq_ok ht'
    exact ⟨t, b, some k, ht, by cases ht'; cases h; rfl⟩

/-- nor do the other indices -/
theorem build_convIndices (t : GroupTransforms) (I J : Option (Tensor Nat)) (shape : List (Option Nat)) :
    ({ t with repeatedBiasIndices := I, transformedKernelIndices := J } : GroupTransforms).build shape =
      (t.build shape).map fun u => { u with repeatedBiasIndices := I, transformedKernelIndices := J } := by
  rw [transforms_build_eq, transforms_build_eq]
  dsimp only
  cases reshapedOf _ _ _ _ _ _ with
  | error e => rfl
  | ok r =>
    simp only [res_bind_ok]
    cases t.equivariantPadding.build r <;> rfl

end GroCo
