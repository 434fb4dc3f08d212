import Verif.Padding
import Verif.Spec

/-
Model of groco/layers/group_transforms.py, function by function. Tensors are handled in eager mode.
-/

namespace GroCo
open Tensor

variable {α : Type}

/-- groco/groups/__init__.py:5 `group_dict[name]`, with wallpaper_groups.py:191-199 and space_groups.py:2494 -/
def groupDict (s : String) : Res GroupName :=
  lookup [("P1", .P1), ("P2", .P2), ("PMw", .PMw), ("PMh", .PMh), ("P2MM", .P2MM), ("P4", .P4), ("P4M", .P4M),
    ("Oh", .Oh), ("O", .O), ("D4h", .D4h), ("D4", .D4)] s

/-- groco/groups/__init__.py:5 `group_dict`, the two dictionaries (with no key in common) put together -/
def libraryDict : List (String × Group) := wallpaperGroupDict ++ spaceGroupDict

/-- The attributes of `GroupTransforms` (group_transforms.py:42-73). The separable flag is unused in /repo. The group
objects are the eleven of `group_dict`: for another group the lookup in line 47 fails unless its subgroup has the name of one
of them (Verif/UserGroup.lean). -/
structure GroupTransforms where
  dimensions : Nat
  transpose : Bool
  group : GroupName
  subgroup : GroupName
  domainGroup : Option String
  actingGroup : String
  equivariantPadding : EquivariantPadding
  builtInPaddingOption : String
  dataFormat : DataFormat
  channelsAxis : Nat
  groupAxis : Nat
  -- set during build
  groupValuedInput : Bool := false
  reshapedInput : List (Option Nat) := []
  padState : PadState := ⟨false, []⟩
  repeatedBiasIndices : Option (Tensor Nat) := none
  transformedKernelIndices : Option (Tensor Nat) := none
  poolingIndices : Option (Tensor Nat) := none

/-- Arguments shared by the group layers; integer kernel sizes and strides are already broadcast to one per dimension. -/
structure GroupArgs where
  group : GroupName
  subgroup : Option String
  kernelSize : List Nat
  strides : List Nat
  padding : String
  allowNonEquivariance : Bool
  dataFormat : DataFormat

/-- group_transforms.py:28-73 `__init__`. `data_format` is not among the arguments passed on to `EquivariantPadding`
(nor is `dilation_rate` used by it), which therefore assumes channels_last. -/
def GroupTransforms.init (a : GroupArgs) (dimensions : Nat) (transpose : Bool) : Res GroupTransforms := do
  let subgroup ← match a.group.group.parseSubgroup a.subgroup with
    | none => .error .key
    | some s => groupDict s
  let domain := a.group.group.name
  let acting := subgroup.group.name
  let option ← formatPaddingOption a.padding
  return {
    dimensions := dimensions
    transpose := transpose
    group := a.group
    subgroup := subgroup
    domainGroup := some (if transpose then acting else domain)
    actingGroup := if transpose then domain else acting
    equivariantPadding := ⟨option, a.allowNonEquivariance, dimensions, a.strides, a.kernelSize, true, transpose⟩
    builtInPaddingOption := GroCo.builtInPaddingOption a.padding
    dataFormat := a.dataFormat
    channelsAxis := if a.dataFormat = .channelsFirst then 1 else dimensions + 1
    groupAxis := dimensions + 1 + (if a.dataFormat = .channelsFirst then 1 else 0) }

/-- `len(self.group.subgroup[name])` -/
def GroupTransforms.orderOf (t : GroupTransforms) (name : Option String) : Res Nat := do
  let H ← t.group.group.sub name
  return H.length

/-- group_transforms.py:75-89 -/
def GroupTransforms.mergeGroupAxisAndPad [Zero α] (t : GroupTransforms) (x : Tensor α) : Res (Tensor α) := do
  let x ← if t.groupValuedInput then mergeAxes x t.groupAxis t.channelsAxis else .ok x
  t.padState.call x

/-- group_transforms.py:91-93; without indices (before build) `ops.take` fails -/
def GroupTransforms.repeatBias (t : GroupTransforms) (bias : Tensor α) : Res (Tensor α) :=
  match t.repeatedBiasIndices with
  | none => .error .value
  | some is => takeT bias is 0

/-- group_transforms.py:95-103 -/
def GroupTransforms.transformKernel (t : GroupTransforms) (kernel : Tensor α) : Res (Tensor α) :=
  match t.transformedKernelIndices with
  | none => .error .value
  | some is => do
    let flat ← reshape kernel [-1]
    takeT flat is 0

/-- group_transforms.py:105-119 -/
def GroupTransforms.restoreGroupAxis (t : GroupTransforms) (y : Tensor α) : Res (Tensor α) := do
  let groupChannelsAxis : Int :=
    if t.groupValuedInput ∧ t.dataFormat = .channelsLast then (t.channelsAxis : Int) - 1 else t.channelsAxis
  let factor ← t.orderOf (some t.actingGroup)
  let out ← splitAxes y factor groupChannelsAxis
  moveaxis out groupChannelsAxis t.groupAxis

/-- group_transforms.py:121-131; `reduce` is `ops.max` or `ops.mean` on the entries along an axis -/
def GroupTransforms.subgroupPooling (t : GroupTransforms) (reduce : List α → α) (x : Tensor α) : Res (Tensor α) :=
  match t.poolingIndices with
  | none => .error .value
  | some is => do
    let y ← takeT x is t.groupAxis
    reduceAxis reduce y (t.groupAxis + 1)

/-- group_transforms.py:133-155 -/
def GroupTransforms.build (t : GroupTransforms) (shape : List (Option Nat)) : Res GroupTransforms := do
  let gv := decide (shape.length = t.dimensions + 3)
  let domain := if gv then t.domainGroup else none
  let channelsAxis := if t.dataFormat = .channelsLast ∧ gv then t.channelsAxis + 1 else t.channelsAxis
  let reshaped ← if gv then do
      let order ← t.orderOf domain
      let size ← getIdx shape t.groupAxis
      if size = some order then mergeShapes shape t.groupAxis channelsAxis else .error .assertion
    else .ok shape
  let st ← t.equivariantPadding.build reshaped
  return { t with
    groupValuedInput := gv
    domainGroup := domain
    channelsAxis := channelsAxis
    reshapedInput := reshaped
    padState := st }

/-- group_transforms.py:169-174 -/
def GroupTransforms.computeRepeatedBiasIndices (t : GroupTransforms) (bias : Tensor α) : Res (Tensor Nat) := do
  let indices := getIndexTensor bias
  let order ← t.orderOf (some t.actingGroup)
  concatenate (List.replicate order indices) 0

/-- group_transforms.py:176-215 -/
def GroupTransforms.computeTransformedKernelIndices (t : GroupTransforms) (kernel : Tensor α) :
    Res (Tensor Nat) := do
  let kernel ← if t.transpose then swapaxes kernel (-1) (-2) else .ok kernel
  let indices := getIndexTensor kernel
  let spatialAxes := (List.range t.dimensions).map Int.ofNat
  let indices ← if ¬ t.groupValuedInput then
      t.group.group.action indices spatialAxes t.dimensions none (some t.actingGroup) t.domainGroup
    else do
      let factor ← t.orderOf t.domainGroup
      let indices ← splitAxes indices factor (-2)
      let indices ← t.group.group.action indices spatialAxes t.dimensions (some (t.dimensions : Int))
        (some t.actingGroup) t.domainGroup
      mergeAxes indices (-3) (-2)
  let indices ← mergeAxes indices (-3) (-1)
  if t.transpose then swapaxes indices (-1) (-2) else .ok indices

/-- group_transforms.py:157-160 -/
def GroupTransforms.buildConv (t : GroupTransforms) (kernel : Tensor α) (bias : Option (Tensor α)) :
    Res GroupTransforms := do
  let b ← match bias with
    | none => .ok t.repeatedBiasIndices
    | some b => (t.computeRepeatedBiasIndices b).map some
  let k ← t.computeTransformedKernelIndices kernel
  return { t with repeatedBiasIndices := b, transformedKernelIndices := some k }

/-- A tensor holding a table. -/
def tableTensor (rows : List (List Nat)) (width : Nat) : Tensor Nat :=
  ⟨[rows.length, width], fun idx => nth (rows.getD (nth idx 0) []) (nth idx 1)⟩

/-- group_transforms.py:162-167 -/
def GroupTransforms.buildPool (t : GroupTransforms) : Res GroupTransforms := do
  let G := t.group.group
  let cosets ← lookup G.cosets t.subgroup.group.name
  let is ← take (tableTensor G.composition G.order) cosets 1
  let H ← lookup G.subgroup t.subgroup.group.name
  let is ← take is H 0
  return { t with poolingIndices := some is }

/-- group_transforms.py:217-222 -/
def GroupTransforms.correctOutputShape (t : GroupTransforms) (shape : List (Option Nat)) : List (Option Nat) :=
  shape.take t.groupAxis ++ [some t.group.group.order] ++ shape.drop t.groupAxis

/-- group_transforms.py:229-236 `prepare_call`: (kernel, bias, filters, inputs) -/
def GroupTransforms.prepareCall [Zero α] (t : GroupTransforms) (kernel : Tensor α) (bias : Option (Tensor α))
    (filters : Nat) (inputs : Tensor α) : Res (Tensor α × Option (Tensor α) × Nat × Tensor α) := do
  let inputs ← t.mergeGroupAxisAndPad inputs
  let kernel ← t.transformKernel kernel
  let bias ← match bias with
    | none => .ok none
    | some b => (t.repeatBias b).map some
  let factor ← t.orderOf (some t.actingGroup)
  return (kernel, bias, filters * factor, inputs)

end GroCo
