import Verif.RebuildLemmas

/-
Helper lemmas: nothing but the check of the group axis raises AssertionError.
-/

namespace GroCo
open Tensor

variable {α : Type}

/-- the result is not an AssertionError -/
def NoAssert {β : Type} (r : Res β) : Prop := r ≠ .error .assertion

theorem NoAssert.bind {β γ : Type} {r : Res β} {f : β → Res γ} (h : NoAssert r) (hf : ∀ b, NoAssert (f b)) :
    NoAssert (r >>= f) := by
  cases r with
  | ok b => exact hf b
  | error e => intro h'; exact h (by cases h'; rfl)

theorem NoAssert.map {β γ : Type} {r : Res β} {f : β → γ} (h : NoAssert r) : NoAssert (r.map f) := by
  cases r with
  | ok b => exact fun h => by cases h
  | error e => intro h'; exact h (by cases h'; rfl)

theorem NoAssert.ok {β : Type} (b : β) : NoAssert (.ok b : Res β) := fun h => by cases h
theorem NoAssert.pure {β : Type} (b : β) : NoAssert (pure b : Res β) := fun h => by cases h
theorem NoAssert.err {β : Type} {e : Err} (h : e ≠ .assertion) : NoAssert (.error e : Res β) := fun h' => h (by cases h'; rfl)

theorem NoAssert.mapM {β γ : Type} {f : β → Res γ} (hf : ∀ b, NoAssert (f b)) : ∀ l : List β, NoAssert (l.mapM f)
  | [] => by rw [List.mapM_nil]; exact NoAssert.pure _
  | b :: l => by
    rw [List.mapM_cons]
    exact (hf b).bind fun c => (NoAssert.mapM hf l).bind fun _ => NoAssert.pure _

theorem NoAssert.foldlM {β γ : Type} {f : γ → β → Res γ} (hf : ∀ c b, NoAssert (f c b)) : ∀ (l : List β) (c : γ), NoAssert (l.foldlM f c)
  | [], c => by rw [List.foldlM_nil]; exact NoAssert.pure _
  | b :: l, c => by
    rw [List.foldlM_cons]
    exact (hf c b).bind fun c => NoAssert.foldlM hf l c

/-- splits binds and case distinctions -/
macro "noassert" "[" ls:term,* "]" : tactic => `(tactic|
  repeat' first
    | with_reducible exact NoAssert.ok _
    | with_reducible exact NoAssert.pure _
    | with_reducible exact NoAssert.err (by decide)
    $[| with_reducible exact $ls]*
    | with_reducible apply NoAssert.map
    | with_reducible refine NoAssert.bind ?_ (fun _ => ?_)
    | split
    | dsimp only)

theorem na_normAxis (r : Nat) (a : Int) : NoAssert (normAxis r a) := by unfold normAxis; noassert []
theorem na_pyIndex (r : Nat) (a : Int) : NoAssert (pyIndex r a) := by unfold pyIndex; noassert []
theorem na_lookup {β : Type} (l : List (String × β)) (k : String) : NoAssert (lookup l k) := by unfold lookup; noassert []
theorem na_getIdx {β : Type} (l : List β) (k : Nat) : NoAssert (getIdx l k) := by unfold getIdx; noassert []
theorem na_sub (G : GroupData) (s : Option String) : NoAssert (G.sub s) := by
  unfold GroupData.sub; noassert [na_lookup _ _]
theorem na_expandDims (x : Tensor α) (a : Int) : NoAssert (expandDims x a) := by unfold expandDims; noassert [na_normAxis _ _]
theorem na_flip (x : Tensor α) (a : Int) : NoAssert (flip x a) := by unfold flip; noassert [na_normAxis _ _]
theorem na_transpose (x : Tensor α) (a : List Nat) : NoAssert (transpose x a) := by unfold transpose; noassert []
theorem na_concatenate (x : List (Tensor α)) (a : Int) : NoAssert (concatenate x a) := by
  unfold concatenate; noassert [na_normAxis _ _]
theorem na_take (x : Tensor α) (l : List Nat) (a : Int) : NoAssert (take x l a) := by unfold take; noassert [na_normAxis _ _]
theorem na_reshape (x : Tensor α) (s : List Int) : NoAssert (reshape x s) := by
  unfold reshape resolveShape reshapeN; dsimp only; noassert []
theorem na_moveaxis (x : Tensor α) (a b : Int) : NoAssert (moveaxis x a b) := by
  unfold moveaxis; noassert [na_normAxis _ _, na_transpose _ _]
theorem na_swapaxes (x : Tensor α) (a b : Int) : NoAssert (swapaxes x a b) := by
  unfold swapaxes; noassert [na_normAxis _ _, na_transpose _ _]
theorem na_mergeShapes (s : List (Option Nat)) (a b : Int) : NoAssert (mergeShapes s a b) := by
  unfold mergeShapes; noassert [na_pyIndex _ _]
theorem na_splitShapes (s : List (Option Nat)) (n : Nat) (a : Int) : NoAssert (splitShapes s n a) := by
  unfold splitShapes; noassert [na_pyIndex _ _]
theorem na_mergeAxes (x : Tensor α) (a b : Int) : NoAssert (mergeAxes x a b) := by
  unfold mergeAxes mergeAxesS moveAxisToLeftOf
  noassert [na_mergeShapes _ _ _, na_moveaxis _ _ _, na_reshape _ _]
theorem na_splitAxes (x : Tensor α) (n : Nat) (a : Int) : NoAssert (splitAxes x n a) := by
  unfold splitAxes splitAxesS; noassert [na_splitShapes _ _ _, na_reshape _ _]
theorem na_unpack2 (l : List Int) : NoAssert (unpack2 l) := by unfold unpack2; noassert []
theorem na_swappedAxes (r : Nat) (a b : Int) : NoAssert (swappedAxes r a b) := by
  unfold swappedAxes; noassert [na_pyIndex _ _]

theorem na_oh (x : Tensor α) (l : List Int) (a : Int) : NoAssert (Oh_action x l a) := by
  unfold Oh_action
  noassert [na_concatenate _ _, NoAssert.mapM (fun _ => NoAssert.bind (NoAssert.foldlM (fun _ _ => na_flip _ _) _ _)
    fun _ => NoAssert.bind (na_transpose _ _) fun _ => na_expandDims _ _) _]

theorem na_subgroupAction (G : Group) (h : ∀ (x : Tensor α) l a, NoAssert (G.act α x l a)) (n : String) (x : Tensor α)
    (l : List Int) (a : Int) : NoAssert (subgroupAction G n α x l a) := by
  unfold subgroupAction
  noassert [h _ _ _, na_lookup _ _, na_take _ _ _]

theorem na_act (n : GroupName) (x : Tensor α) (l : List Int) (a : Int) : NoAssert (n.group.act α x l a) := by
  cases n
  case Oh => exact na_oh x l a
  case O => exact na_subgroupAction Oh na_oh _ x l a
  case D4h => exact na_subgroupAction Oh na_oh _ x l a
  case D4 => exact na_subgroupAction Oh na_oh _ x l a
  case P4M =>
    change NoAssert (P4M_action x l a)
    unfold P4M_action
    noassert [na_unpack2 _, na_expandDims _ _, na_flip _ _, na_concatenate _ _, na_swappedAxes _ _ _, na_transpose _ _,
      na_take _ _ _]
  case P4 =>
    change NoAssert (P4_action x l a)
    unfold P4_action
    noassert [na_unpack2 _, na_expandDims _ _, na_flip _ _, na_concatenate _ _, na_swappedAxes _ _ _, na_transpose _ _,
      na_take _ _ _]
  case P2MM =>
    change NoAssert (P2MM_action x l a)
    unfold P2MM_action
    noassert [na_unpack2 _, na_expandDims _ _, na_flip _ _, na_concatenate _ _, na_swappedAxes _ _ _, na_transpose _ _,
      na_take _ _ _]
  case PMh =>
    change NoAssert (PMh_action x l a)
    unfold PMh_action
    noassert [na_unpack2 _, na_expandDims _ _, na_flip _ _, na_concatenate _ _, na_swappedAxes _ _ _, na_transpose _ _,
      na_take _ _ _]
  case PMw =>
    change NoAssert (PMw_action x l a)
    unfold PMw_action
    noassert [na_unpack2 _, na_expandDims _ _, na_flip _ _, na_concatenate _ _, na_swappedAxes _ _ _, na_transpose _ _,
      na_take _ _ _]
  case P2 =>
    change NoAssert (P2_action x l a)
    unfold P2_action
    noassert [na_unpack2 _, na_expandDims _ _, na_flip _ _, na_concatenate _ _, na_swappedAxes _ _ _, na_transpose _ _,
      na_take _ _ _]
  case P1 =>
    change NoAssert (P1_action x l a)
    unfold P1_action
    noassert [na_unpack2 _, na_expandDims _ _, na_flip _ _, na_concatenate _ _, na_swappedAxes _ _ _, na_transpose _ _,
      na_take _ _ _]

theorem na_actionOnGrid (n : GroupName) (x : Tensor α) (a : Int) (l : List Int) (s : Option String) :
    NoAssert (n.group.actionOnGrid x a l s) := by
  unfold Group.actionOnGrid
  noassert [na_act _ _ _ _, na_sub _ _, na_take _ _ _]

theorem na_upsample [Zero α] (G : GroupData) (x : Tensor α) (a : Int) (s : Option String) : NoAssert (G.upsample x a s) := by
  unfold GroupData.upsample
  refine (na_sub _ _).bind fun _ => (NoAssert.mapM (fun _ => ?_) _).bind fun _ => na_concatenate _ _
  noassert [na_take _ _ _]

theorem na_flatIndices (G : GroupData) (s t : Option String) : NoAssert (G.compositionFlatIndices s t) := by
  unfold GroupData.compositionFlatIndices
  noassert [na_sub _ _, NoAssert.mapM (fun _ => na_getIdx _ _) _,
    NoAssert.mapM (fun _ => NoAssert.mapM (fun _ => na_getIdx _ _) _) _]

theorem na_actionOnGroup [Zero α] (n : GroupName) (x : Tensor α) (a : Int) (l : List Int) (s t : Option String) (g : Int) :
    NoAssert (n.group.actionOnGroup x a l s g t) := by
  unfold Group.actionOnGroup
  noassert [na_sub _ _, na_upsample _ _ _ _, na_actionOnGrid _ _ _ _ _, na_mergeAxes _ _ _, na_flatIndices _ _ _,
    na_take _ _ _, na_splitAxes _ _ _, na_moveaxis _ _ _]

theorem na_action [Zero α] (n : GroupName) (x : Tensor α) (a : Int) (l : List Int) (s t : Option String) (g : Option Int) :
    NoAssert (n.group.action x l a g s t) := by
  unfold Group.action
  dsimp only
  noassert [na_actionOnGrid _ _ _ _ _, na_actionOnGroup _ _ _ _ _ _ _, na_sub _ _]

theorem na_orderOf (t : GroupTransforms) (s : Option String) : NoAssert (t.orderOf s) := by
  unfold GroupTransforms.orderOf; noassert [na_sub _ _]

theorem na_buildConv (t : GroupTransforms) (k : Tensor α) (b : Option (Tensor α)) : NoAssert (t.buildConv k b) := by
  have hk : NoAssert (t.computeTransformedKernelIndices k) := by
    unfold GroupTransforms.computeTransformedKernelIndices
    dsimp only
    noassert [na_swapaxes _ _ _, na_orderOf _ _, na_splitAxes _ _ _, na_action _ _ _ _ _ _ _, na_mergeAxes _ _ _]
  have hb : ∀ b : Tensor α, NoAssert (t.computeRepeatedBiasIndices b) := by
    intro b
    unfold GroupTransforms.computeRepeatedBiasIndices
    noassert [na_orderOf _ _, na_concatenate _ _]
  unfold GroupTransforms.buildConv
  noassert [hk, hb _]

theorem na_buildPool (t : GroupTransforms) : NoAssert t.buildPool := by
  unfold GroupTransforms.buildPool
  noassert [na_lookup _ _, na_take _ _ _]

theorem na_padBuild (p : EquivariantPadding) (s : List (Option Nat)) : NoAssert (p.build s) := by
  have h : NoAssert (p.spatialShape s) := by
    unfold EquivariantPadding.spatialShape
    refine NoAssert.mapM (fun n => ?_) _
    noassert []
  have he : ∀ o, paddingException o ≠ .assertion := by intro o; cases o <;> decide
  unfold EquivariantPadding.build
  dsimp only
  noassert [h, NoAssert.err (he _)]

theorem na_outputShape (l : GroupConv α) (s : List (Option Nat)) : NoAssert (l.computeOutputShape s) := by
  have h : ∀ p n k s r, NoAssert (convOutSize p n k s r) := by
    intro p n k s r
    unfold convOutSize
    noassert []
  unfold GroupConv.computeOutputShape convTransposeOutputShape convOutputShape
  dsimp only
  noassert [NoAssert.mapM (fun _ => h _ _ _ _ _) _]

theorem na_channelsOf (f : DataFormat) (s : List (Option Nat)) : NoAssert (channelsOf f s) := by
  unfold channelsOf; noassert []

/-- when building the transforms is an AssertionError -/
theorem transforms_build_assert (t : GroupTransforms) (shape : List (Option Nat)) (H : List Nat)
    (hH : t.group.group.sub t.domainGroup = .ok H) (hg : t.groupAxis < t.dimensions + 3) :
    t.build shape = .error .assertion ↔
      shape.length = t.dimensions + 3 ∧ shape[t.groupAxis]? ≠ some (some H.length) := by
  rw [transforms_build_eq]
  unfold reshapedOf
  by_cases hl : shape.length = t.dimensions + 3
  · simp only [hl, if_true, hH, res_bind_ok, true_and, and_true]
    have hi : t.groupAxis < shape.length := by omega
    have hgi : getIdx shape t.groupAxis = .ok shape[t.groupAxis] := by
      unfold getIdx; rw [List.getElem?_eq_getElem hi]
    rw [hgi, res_bind_ok, List.getElem?_eq_getElem hi]
    by_cases he : shape[t.groupAxis] = some H.length
    · rw [if_pos he, he]
      simp only [ne_eq, not_true_eq_false, iff_false]
      refine (na_mergeShapes _ _ _).bind fun _ => (na_padBuild _ _).bind fun _ => NoAssert.ok _
    · rw [if_neg he]
      simp only [res_bind_error, true_iff]
      simpa using he
  · simp only [hl, if_false, false_and, iff_false, res_bind_ok]
    exact (na_padBuild _ _).bind fun _ => NoAssert.ok _

theorem bind_assert {β γ : Type} {r : Res β} {f : β → Res γ} (hf : ∀ b, NoAssert (f b)) :
    (r >>= f) = .error .assertion ↔ r = .error .assertion := by
  cases r with
  | ok b => exact ⟨fun h => absurd h (hf b), fun h => by cases h⟩
  | error e => exact ⟨fun h => by cases h; rfl, fun h => by cases h; rfl⟩

theorem conv_build_assert (l : GroupConv α) (shape : List (Option Nat)) (k0 b0 : List Nat → α) :
    l.build shape k0 b0 = .error .assertion ↔ l.transforms.build shape = .error .assertion := by
  unfold GroupConv.build
  refine bind_assert fun t => ?_
  dsimp only
  noassert [na_channelsOf _ _, na_outputShape _ _, na_buildConv _ _ _]

theorem pool_build_assert (l : GroupPooling) (shape : List (Option Nat)) :
    l.build shape = .error .assertion ↔ l.transforms.build shape = .error .assertion := by
  unfold GroupPooling.build
  refine bind_assert fun t => ?_
  noassert [na_buildPool _]

end GroCo
