import Mathlib.Algebra.Field.Defs
import Mathlib.Order.Defs.LinearOrder
import Verif.Transforms

/-
Model of groco/layers/pooling.py and of the Keras pooling layers it wraps. Entries are elements of a field with a linear
order. The classes for one, two and three dimensions differ only in `dimensions`.
-/

namespace GroCo
open Tensor

variable {α : Type}

/-- the argument `pool_type` -/
inductive PoolType where
  | max | average
  deriving DecidableEq, Repr

/-- the largest entry of a list -/
def maxOf [LinearOrder α] [Zero α] : List α → α
  | [] => 0
  | a :: l => l.foldl Max.max a

/-- the mean of the entries of a list -/
def meanOf [Field α] (l : List α) : α := l.sum / l.length

/-- `ops.max` or `ops.mean` (group_transforms.py:129, pooling.py:107-110): any type other than 'max' is an average -/
def PoolType.reduce [Field α] [LinearOrder α] : PoolType → List α → α
  | .max => maxOf
  | .average => meanOf

/-! ### Keras -/

/-- Positions around the input that Keras leaves out of the windows along an axis: it acts as if the input were padded
like in a convolution, but takes the maximum or mean over the positions inside the input only (`ops.max_pool`,
`ops.average_pool` with the TensorFlow and JAX backends). -/
def poolPads (padding : KerasPadding) (n k s : Nat) : Nat × Nat :=
  match padding with
  | .valid => (0, 0)
  | .same => samePads n k s

/-- `MaxPooling2D/3D`, `AveragePooling2D/3D` on a channels_last input. Simplification: an axis on which no window fits is an
error. -/
def poolLast (reduce : List α → α) (padding : KerasPadding) (pool strides : List Nat) (x : Tensor α) : Res (Tensor α) :=
  let d := strides.length
  let sp := spatialPart d x.shape
  let pads := (List.range d).map fun i => poolPads padding (nth sp i) (nth pool i) (nth strides i)
  let total := fun i => (pads.getD i (0, 0)).1 + nth sp i + (pads.getD i (0, 0)).2
  if x.rank = d + 2 ∧ pool.length = d ∧ ∀ i, i < d → 0 < nth strides i ∧ 0 < nth pool i ∧ nth pool i ≤ total i then
    .ok ⟨nth x.shape 0 :: ((List.range d).map fun i => (total i - nth pool i) / nth strides i + 1) ++ [nth x.shape (d + 1)],
      fun idx => reduce ((indices pool).filterMap fun k =>
        let q := (List.range d).map fun i =>
          (nth idx (i + 1) * nth strides i + nth k i : Int) - ((pads.getD i (0, 0)).1 : Int)
        if InBox sp q then some (x.get (nth idx 0 :: q.map Int.toNat ++ [nth idx (d + 1)])) else none)⟩
  else .error .value

/-- The Keras pooling layer in either data format: channels_first is channels_last with the channel axis moved. -/
def kerasPool (fmt : DataFormat) (reduce : List α → α) (padding : KerasPadding) (pool strides : List Nat) (x : Tensor α) :
    Res (Tensor α) :=
  match fmt with
  | .channelsLast => poolLast reduce padding pool strides x
  | .channelsFirst => do
    let x ← moveaxis x 1 (-1)
    let y ← poolLast reduce padding pool strides x
    moveaxis y (-1) 1

/-- `GlobalMaxPooling2D/3D`, `GlobalAveragePooling2D/3D`: reduction over the `d` spatial axes, which are dropped or kept
with size one. An empty axis is an error. -/
def kerasGlobalPool (fmt : DataFormat) (d : Nat) (reduce : List α → α) (keepdims : Bool) (x : Tensor α) : Res (Tensor α) :=
  let sp := spatialShapeOf fmt d x.shape
  let B := nth x.shape 0
  if x.rank ≠ d + 2 ∨ 0 ∈ sp then .error .value
  else
    match fmt with
    | .channelsLast => .ok ⟨B :: (if keepdims then List.replicate d 1 else []) ++ [nth x.shape (d + 1)], fun idx =>
        reduce ((indices sp).map fun p => x.get (nth idx 0 :: p ++ [nth idx (if keepdims then d + 1 else 1)]))⟩
    | .channelsFirst => .ok ⟨B :: nth x.shape 1 :: (if keepdims then List.replicate d 1 else []), fun idx =>
        reduce ((indices sp).map fun p => x.get (nth idx 0 :: nth idx 1 :: p))⟩

/-! ### GroupPooling -/

/-- Arguments of the group pooling layers; integer sizes and strides are already broadcast to one per dimension, and
strides that are not given are `none`. -/
structure PoolArgs where
  group : GroupName
  subgroup : Option String
  poolType : PoolType
  poolSize : List Nat
  strides : Option (List Nat)
  padding : String
  allowNonEquivariance : Bool
  dataFormat : DataFormat

/-- Attributes of a group pooling layer, including those of the Keras layer `self.pooling`. -/
structure GroupPooling where
  transforms : GroupTransforms
  poolType : PoolType
  poolSize : List Nat
  strides : List Nat
  padding : KerasPadding
  dataFormat : DataFormat

/-- pooling.py:27-58 `__init__`. Strides that are not given default to 1 in `EquivariantPadding` (padding.py:36) and to the
pool size in the Keras layer. Includes the checks of the Keras constructor; strides zero are an error only later in the
code. -/
def GroupPooling.init (a : PoolArgs) (dimensions : Nat) : Res GroupPooling := do
  let t ← GroupTransforms.init {
    group := a.group
    subgroup := a.subgroup
    kernelSize := a.poolSize
    strides := a.strides.getD (List.replicate dimensions 1)
    padding := a.padding
    allowNonEquivariance := a.allowNonEquivariance
    dataFormat := a.dataFormat } dimensions false
  let padding ← standardizePadding t.builtInPaddingOption
  let strides := a.strides.getD a.poolSize
  if a.poolSize.length ≠ dimensions ∨ strides.length ≠ dimensions ∨ 0 ∈ a.poolSize ∨ 0 ∈ strides then .error .value
  else return {
    transforms := t
    poolType := a.poolType
    poolSize := a.poolSize
    strides := strides
    padding := padding
    dataFormat := a.dataFormat }

/-- pooling.py:66-69 `build`; building the Keras layer does nothing -/
def GroupPooling.build (l : GroupPooling) (shape : List (Option Nat)) : Res GroupPooling := do
  let t ← l.transforms.build shape
  let t ← t.buildPool
  return { l with transforms := t }

/-- pooling.py:60-64 `call` -/
def GroupPooling.call [Field α] [LinearOrder α] (l : GroupPooling) (x : Tensor α) : Res (Tensor α) := do
  let x ← l.transforms.subgroupPooling l.poolType.reduce x
  let x ← l.transforms.mergeGroupAxisAndPad x
  let y ← kerasPool l.dataFormat l.poolType.reduce l.padding l.poolSize l.strides x
  l.transforms.restoreGroupAxis y

/-! ### GlobalGroupPooling -/

/-- Attributes of a global group pooling layer (pooling.py:82-99). -/
structure GlobalGroupPooling where
  dimensions : Nat
  poolType : PoolType
  keepdims : Bool
  dataFormat : DataFormat

/-- pooling.py:94-99 -/
def GlobalGroupPooling.groupAxis (l : GlobalGroupPooling) : Int :=
  match l.dataFormat with
  | .channelsFirst => l.dimensions + 2
  | .channelsLast => l.dimensions + 1

/-- pooling.py:94-99 -/
def GlobalGroupPooling.channelsAxis (l : GlobalGroupPooling) : Int :=
  match l.dataFormat with
  | .channelsFirst => 1
  | .channelsLast => -1

/-- pooling.py:118-125 `build`: without a group axis `reshaped_input` is unbound -/
def GlobalGroupPooling.build (l : GlobalGroupPooling) (shape : List (Option Nat)) : Res Unit :=
  if shape.length = l.dimensions + 3 then do
    let _ ← mergeShapes shape l.groupAxis l.channelsAxis
    return ()
  else .error .unbound

/-- pooling.py:106-110 `pool_group` -/
def GlobalGroupPooling.poolGroup [Field α] [LinearOrder α] (l : GlobalGroupPooling) (x : Tensor α) : Res (Tensor α) :=
  reduceAxis l.poolType.reduce x l.groupAxis

/-- pooling.py:112-116 `restore_group_axis` -/
def GlobalGroupPooling.restoreGroupAxis (l : GlobalGroupPooling) (y : Tensor α) : Res (Tensor α) :=
  if l.keepdims then expandDims y l.groupAxis else .ok y

/-- pooling.py:101-104 `call` -/
def GlobalGroupPooling.call [Field α] [LinearOrder α] (l : GlobalGroupPooling) (x : Tensor α) : Res (Tensor α) := do
  let x ← l.poolGroup x
  let y ← kerasGlobalPool l.dataFormat l.dimensions l.poolType.reduce l.keepdims x
  l.restoreGroupAxis y

end GroCo
