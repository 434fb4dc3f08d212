import Verif.LayerSpec

/-
The Keras argument `output_padding` of GroupConv2DTranspose/3DTranspose, which reaches the Keras layer through `**kwargs`
(conv2d_transpose.py:40-55, conv3d_transpose.py:46-61; the docstrings promise "all Conv2DTranspose args") and which no function of
/repo looks at: `GroupTransforms.__init__` and `EquivariantPadding.__init__` take it as one of the ignored keyword arguments
(group_transforms.py:28-39, padding.py:32-43).
-/

namespace GroCo
open Tensor

variable {α : Type}

/-- Output size along an axis of a transposed convolution with kernel extent `k` if `output_padding` is given, and the number of
positions cropped at its start (keras/src/backend/common/backend_utils.py, `_get_output_shape_given_tf_padding` and
`_convert_conv_transpose_padding_args_from_keras_to_jax`). Simplification: axes of size zero are treated as those of size one. -/
def transposeOutPadded (padding : KerasPadding) (n k s op : Nat) : Nat × Nat :=
  match padding with
  | .valid => ((n - 1) * s + k + op, 0)
  | .same => ((n - 1) * s + k % 2 + op, (k - k % 2 - op) / 2)

/-- `ops.conv_transpose` with `output_padding`, channels last; otherwise as `convTransposeLast`. Output positions to which no input
entry contributes are zero. Not modelled: backends that refuse an `output_padding` that is not below the stride. -/
def convTransposeLastPadded [Semiring α] (padding : KerasPadding) (op strides dil : List Nat) (x w : Tensor α) : Res (Tensor α) :=
  let d := strides.length
  let sp := spatialPart d x.shape
  let K := w.shape.take d
  let C := nth w.shape (d + 1)
  let outs := (List.range d).map fun i =>
    transposeOutPadded padding (nth sp i) (dilated (nth K i) (nth dil i)) (nth strides i) (nth op i)
  if x.rank = d + 2 ∧ w.rank = d + 2 ∧ nth x.shape (d + 1) = C ∧ (∀ i, i < d → 0 < nth strides i ∧ 0 < nth K i) then
    .ok ⟨nth x.shape 0 :: outs.map Prod.fst ++ [nth w.shape d],
      fun idx => ((indices K).map fun k => ((List.range C).map fun c =>
        (match upPos strides dil (outs.map Prod.snd) (spatialPart d idx) k sp with
          | some p => x.get (nth idx 0 :: p ++ [c])
          | none => 0) * w.get (k ++ [nth idx (d + 1), c])).sum).sum⟩
  else .error .value

/-- `ops.conv_transpose` with `output_padding` in either data format -/
def convTransposePadded [Semiring α] (fmt : DataFormat) (padding : KerasPadding) (op strides dil : List Nat) (x w : Tensor α) :
    Res (Tensor α) :=
  match fmt with
  | .channelsLast => convTransposeLastPadded padding op strides dil x w
  | .channelsFirst => do
    let x ← moveaxis x 1 (-1)
    let y ← convTransposeLastPadded padding op strides dil x w
    moveaxis y (-1) 1

/-- `super().call(inputs)` of a transposed layer constructed with `output_padding` (BaseConvTranspose.call) -/
def GroupConv.superCallPadded [Semiring α] (op : List Nat) (l : GroupConv α) (x : Tensor α) : Res (Tensor α) :=
  match l.kernel with
  | none => .error .attribute
  | some k => do
    let y ← convTransposePadded l.dataFormat l.padding op l.strides l.dilation x k
    let y ← match l.bias with
      | none => .ok y
      | some b => addBias l.dataFormat l.filters y b
    return mapT l.activation y

/-- The body of `call` (conv2d_transpose.py:57-63) of a layer constructed with `output_padding`; as `GroupConv.body`. -/
def GroupConv.bodyPadded [Semiring α] (op : List Nat) (l : GroupConv α) (x : Tensor α) : GroupConv α × Res (Tensor α) :=
  match l.kernel with
  | none => (l, .error .attribute)
  | some k =>
    match l.transforms.prepareCall k l.bias l.filters x with
    | .error e => (l, .error e)
    | .ok (k, b, f, x) =>
      let l' := { l with kernel := some k, bias := b, filters := f }
      (l', do
        let y ← l'.superCallPadded op x
        l'.transforms.restoreGroupAxis y)

/-- Calling a built transposed layer constructed with `output_padding`; as `GroupConv.call`. -/
def GroupConv.callPadded [Semiring α] (op : List Nat) (l : GroupConv α) (x : Tensor α) : GroupConv α × Res (Tensor α) :=
  match l.checkInput x with
  | .error e => (l, .error e)
  | .ok _ => backupAndRestore (GroupConv.bodyPadded op) l x

/-- Size of the output along an axis, after zeros are added to a size of `m`, for kernel extent `k`, stride `s` and `op` further
positions. -/
def sizeWith (opt : PadOption) (m k s op : Nat) : Nat :=
  match opt with
  | .same | .sameEquiv => (m - 1) * s + k % 2 + op
  | .valid | .validEquiv => (m - 1) * s + k + op

/-- Positions cut off at the start of the output. -/
def cutWith (opt : PadOption) (k op : Nat) : Nat :=
  match opt with
  | .same | .sameEquiv => (k - k % 2 - op) / 2
  | .valid | .validEquiv => 0

end GroCo
