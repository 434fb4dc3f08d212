import Verif.Transforms

/-
Model of groco/layers/conv2d.py, conv3d.py, conv2d_transpose.py, conv3d_transpose.py and groco/utils/misc.py.
The two- and three-dimensional classes differ only in `dimensions`. A layer is a record of its attributes; methods that
change attributes return the new record. Weights are arbitrary: `build` receives the entries the initializers produce.
-/

namespace GroCo
open Tensor

variable {α : Type}

/-- Arguments of GroupConv2D/3D and GroupConv2DTranspose/3DTranspose. -/
structure ConvArgs (α : Type) extends GroupArgs where
  filters : Nat
  dilation : List Nat
  useBias : Bool
  activation : α → α

/-- Attributes of a convolution layer. -/
structure GroupConv (α : Type) where
  transforms : GroupTransforms
  kernelSize : List Nat
  strides : List Nat
  dilation : List Nat
  padding : KerasPadding
  dataFormat : DataFormat
  useBias : Bool
  activation : α → α
  filters : Nat
  -- set during build
  kernel : Option (Tensor α) := none
  bias : Option (Tensor α) := none
  /-- `input_spec.axes`: required size of the channel axis, and minimal number of axes -/
  inputSpec : Option (Nat × Option Nat) := none

/-- conv2d.py:42-57, conv3d.py:42-57, conv2d_transpose.py:40-55, conv3d_transpose.py:46-61 `__init__`, including the checks of
the Keras constructor it calls: one positive kernel size, stride and dilation rate per dimension, at least one filter, no
strides above one together with dilation rates above one (BaseConv.__init__, BaseConvTranspose.__init__). -/
def GroupConv.init (a : ConvArgs α) (dimensions : Nat) (transpose : Bool) : Res (GroupConv α) := do
  let t ← GroupTransforms.init a.toGroupArgs dimensions transpose
  let padding ← standardizePadding t.builtInPaddingOption
  if a.kernelSize.length ≠ dimensions ∨ a.strides.length ≠ dimensions ∨ a.dilation.length ≠ dimensions ∨
      0 ∈ a.kernelSize ∨ 0 ∈ a.strides ∨ a.filters = 0 ∨ 0 ∈ a.dilation ∨
      ((∃ s ∈ a.strides, 1 < s) ∧ ∃ r ∈ a.dilation, 1 < r) then .error .value
  else return {
    transforms := t
    kernelSize := a.kernelSize
    strides := a.strides
    dilation := a.dilation
    padding := padding
    dataFormat := a.dataFormat
    useBias := a.useBias
    activation := a.activation
    filters := a.filters }

/-- conv2d.py:83-86 `compute_output_shape` (and the same method of the other three classes) -/
def GroupConv.computeOutputShape (l : GroupConv α) (_inputShape : List (Option Nat)) : Res (List (Option Nat)) := do
  let out ← if l.transforms.transpose then
      convTransposeOutputShape l.dataFormat l.padding l.kernelSize l.strides l.dilation l.filters l.transforms.reshapedInput
    else convOutputShape l.dataFormat l.padding l.kernelSize l.strides l.dilation l.filters l.transforms.reshapedInput
  return l.transforms.correctOutputShape out

/-- Size of the channel axis of a shape, TypeError if unknown (BaseConv.build). -/
def channelsOf (fmt : DataFormat) (shape : List (Option Nat)) : Res Nat :=
  match shape.getD (channelAxis fmt shape.length) none with
  | some c => .ok c
  | none => .error .typ

/-- conv2d.py:67-76 `build` (and the same method of the other three classes), including BaseConv.build, which validates
the shapes by calling the overridden `compute_output_shape` and then creates the weights, here with entries `k0`, `b0`.
-/
def GroupConv.build (l : GroupConv α) (shape : List (Option Nat)) (k0 b0 : List Nat → α) : Res (GroupConv α) := do
  let t ← l.transforms.build shape
  let l : GroupConv α := { l with transforms := t }
  let channels ← channelsOf l.dataFormat t.reshapedInput
  let _ ← l.computeOutputShape t.reshapedInput
  let kernel : Tensor α :=
    ⟨l.kernelSize ++ (if t.transpose then [l.filters, channels] else [channels, l.filters]), k0⟩
  let bias : Option (Tensor α) := if l.useBias then some ⟨[l.filters], b0⟩ else none
  let t ← t.buildConv kernel bias
  let spec := if t.groupValuedInput then shape.getD t.channelsAxis none else some channels
  return { l with
    transforms := t
    kernel := some kernel
    bias := bias
    inputSpec := some (t.dimensions + 2, spec) }

/-- `super().call(inputs)`: the Keras layer with the current values of `kernel`, `bias` and `filters` -/
def GroupConv.superCall [Semiring α] (l : GroupConv α) (x : Tensor α) : Res (Tensor α) :=
  match l.kernel with
  | none => .error .attribute
  | some k =>
    if l.transforms.transpose then
      baseConvTransposeCall l.dataFormat l.padding l.strides l.dilation l.filters l.activation k l.bias x
    else baseConvCall l.dataFormat l.padding l.strides l.dilation l.filters l.activation k l.bias x

/-- Layer.__call__ before `call`: checks of `input_spec` (minimal number of axes and size of the channel axis). -/
def GroupConv.checkInput (l : GroupConv α) (x : Tensor α) : Res Unit :=
  match l.inputSpec with
  | none => .error .value
  | some (minDim, channels) =>
    if x.rank < minDim then .error .value
    else
      match channels with
      | none => .ok ()
      | some c => if nth x.shape (channelAxis l.dataFormat x.rank) = c then .ok () else .error .value

/-- The state and result after running the body of `call` (conv2d.py:60-65): an exception in `prepare_call` comes before
the assignment of the attributes, one in `super().call` or `restore_group_axis` after it. -/
def GroupConv.body [Semiring α] (l : GroupConv α) (x : Tensor α) : GroupConv α × Res (Tensor α) :=
  match l.kernel with
  | none => (l, .error .attribute)
  | some k =>
    match l.transforms.prepareCall k l.bias l.filters x with
    | .error e => (l, .error e)
    | .ok (k, b, f, x) =>
      let l' := { l with kernel := some k, bias := b, filters := f }
      (l', do
        let y ← l'.superCall x
        l'.transforms.restoreGroupAxis y)

/-- misc.py:1-17 `backup_and_restore(("kernel", "bias", "filters"))`: the attributes are restored when the function
returned, not when it raised. -/
def backupAndRestore (function : GroupConv α → Tensor α → GroupConv α × Res (Tensor α)) (l : GroupConv α)
    (x : Tensor α) : GroupConv α × Res (Tensor α) :=
  match function l x with
  | (l', .ok y) => ({ l' with kernel := l.kernel, bias := l.bias, filters := l.filters }, .ok y)
  | (l', .error e) => (l', .error e)

/-- Calling a built layer: `Layer.__call__`, then the decorated `call` (conv2d.py:59-65). -/
def GroupConv.call [Semiring α] (l : GroupConv α) (x : Tensor α) : GroupConv α × Res (Tensor α) :=
  match l.checkInput x with
  | .error e => (l, .error e)
  | .ok _ => backupAndRestore GroupConv.body l x

/-- Calling a layer on a sequence of inputs, carrying its attributes along. -/
def GroupConv.calls [Semiring α] (l : GroupConv α) : List (Tensor α) → GroupConv α × List (Res (Tensor α))
  | [] => (l, [])
  | x :: xs =>
    let (l1, r) := l.call x
    let (l2, rs) := l1.calls xs
    (l2, r :: rs)

end GroCo
