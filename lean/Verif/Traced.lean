import Verif.Layers
import Verif.Pooling

/-
The layers in a traced graph (groco/layers/conv2d.py, conv3d.py, conv2d_transpose.py, conv3d_transpose.py, pooling.py and
group_transforms.py once more): the code runs while some sizes of the input are not known, the tensor operations it
requests are executed later. Only the reshapes depend on sizes (tensor_manips.py:41-128). Definitions ending in `T` differ
from those without only in the shape that `split_axes` and `merge_axes` see. Simplification: the axes of unknown size
are the same before and after padding, convolving and pooling.
-/

namespace GroCo
open Tensor

variable {α : Type}

/-- `tensor.shape` while tracing: the sizes of the axes in `unknown` are `None` -/
def staticShape (unknown shape : List Nat) : List (Option Nat) :=
  (List.range shape.length).map fun i => if i ∈ unknown then none else some (nth shape i)

/-- group_transforms.py:75-89. The axes left of the group axis keep their number when it is merged. -/
def GroupTransforms.mergeGroupAxisAndPadT [Zero α] (t : GroupTransforms) (unknown : List Nat) (x : Tensor α) :
    Res (Tensor α) := do
  let x ← if t.groupValuedInput then mergeAxesS (staticShape unknown x.shape) x t.groupAxis t.channelsAxis else .ok x
  t.padState.call x

/-- group_transforms.py:105-119 -/
def GroupTransforms.restoreGroupAxisT (t : GroupTransforms) (unknown : List Nat) (y : Tensor α) : Res (Tensor α) := do
  let groupChannelsAxis : Int :=
    if t.groupValuedInput ∧ t.dataFormat = .channelsLast then (t.channelsAxis : Int) - 1 else t.channelsAxis
  let factor ← t.orderOf (some t.actingGroup)
  let out ← splitAxesS (staticShape unknown y.shape) y factor groupChannelsAxis
  moveaxis out groupChannelsAxis t.groupAxis

/-- group_transforms.py:229-236 `prepare_call` -/
def GroupTransforms.prepareCallT [Zero α] (t : GroupTransforms) (unknown : List Nat) (kernel : Tensor α)
    (bias : Option (Tensor α)) (filters : Nat) (inputs : Tensor α) :
    Res (Tensor α × Option (Tensor α) × Nat × Tensor α) := do
  let inputs ← t.mergeGroupAxisAndPadT unknown inputs
  let kernel ← t.transformKernel kernel
  let bias ← match bias with
    | none => .ok none
    | some b => (t.repeatBias b).map some
  let factor ← t.orderOf (some t.actingGroup)
  return (kernel, bias, filters * factor, inputs)

/-- conv2d.py:60-65 (and the same method of the other three classes) -/
def GroupConv.bodyT [Semiring α] (unknown : List Nat) (l : GroupConv α) (x : Tensor α) : GroupConv α × Res (Tensor α) :=
  match l.kernel with
  | none => (l, .error .attribute)
  | some k =>
    match l.transforms.prepareCallT unknown k l.bias l.filters x with
    | .error e => (l, .error e)
    | .ok (k, b, f, x) =>
      let l' := { l with kernel := some k, bias := b, filters := f }
      (l', do
        let y ← l'.superCall x
        l'.transforms.restoreGroupAxisT unknown y)

/-- Tracing a call of a built layer (conv2d.py:59-65) and executing it on `x`; the checks of `Layer.__call__` concern the
number of axes and the channels, which are known. -/
def GroupConv.callT [Semiring α] (l : GroupConv α) (unknown : List Nat) (x : Tensor α) : GroupConv α × Res (Tensor α) :=
  match l.checkInput x with
  | .error e => (l, .error e)
  | .ok _ => backupAndRestore (GroupConv.bodyT unknown) l x

/-- pooling.py:60-64 `call` -/
def GroupPooling.callT [Field α] [LinearOrder α] (l : GroupPooling) (unknown : List Nat) (x : Tensor α) : Res (Tensor α) := do
  let x ← l.transforms.subgroupPooling l.poolType.reduce x
  let x ← l.transforms.mergeGroupAxisAndPadT unknown x
  let y ← kerasPool l.dataFormat l.poolType.reduce l.padding l.poolSize l.strides x
  l.transforms.restoreGroupAxisT unknown y

/-- The number `u` of an axis that runs over the batch or along a spatial direction, with `d` dimensions. -/
def BatchOrSpatial (fmt : DataFormat) (d u : Nat) : Prop :=
  match fmt with
  | .channelsLast => u ≤ d
  | .channelsFirst => u = 0 ∨ 2 ≤ u ∧ u ≤ d + 1

end GroCo
