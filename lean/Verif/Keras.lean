import Mathlib.Algebra.BigOperators.Group.List.Basic
import Mathlib.Algebra.Ring.Defs
import Verif.Tensor

/-
Model of the parts of Keras 3 (not in /repo) that the layers of /repo subclass or wrap: the padding it applies,
convolution, transposed convolution, and the bookkeeping of the convolution layers. These definitions state the
documented semantics the library relies on, channels of any semiring. Not modelled: regularizers, dtypes.
-/

namespace GroCo
open Tensor

variable {α : Type}

/-- Keras's own padding argument. -/
inductive KerasPadding where
  | same | valid
  deriving DecidableEq, Repr

inductive DataFormat where
  | channelsFirst | channelsLast
  deriving DecidableEq, Repr

/-- Zeros Keras adds in total along an axis of size `n` for padding='same', kernel `k`, stride `s`: enough for
⌈n / s⌉ windows, i.e. max((⌈n/s⌉ - 1) s + k - n, 0). -/
def sameTotal (n k s : Nat) : Nat := if n % s = 0 then k - s else k - n % s

/-- Keras puts the odd zero at the end. -/
def samePads (n k s : Nat) : Nat × Nat := (sameTotal n k s / 2, sameTotal n k s - sameTotal n k s / 2)

/-- Extent of a kernel of size `k` with dilation rate `r`. -/
def dilated (k r : Nat) : Nat := (k - 1) * r + 1

/-- spatial part of a multi-index of a channels_last signal -/
def spatialPart {β : Type} (d : Nat) (idx : List β) : List β := (idx.drop 1).take d

/-- Position read by the window at `p` for kernel offset `k`. -/
def windowPos (strides dil p k : List Nat) : List Nat :=
  (List.range strides.length).map fun i => nth p i * nth strides i + nth k i * nth dil i

/-- The first input channel read by output channel `f`: `ops.conv` divides the `Cx` channels of the input and the `F` output
channels into as many groups as the `C` channels of the kernel go into `Cx`. One group: 0. -/
def groupStart (Cx C F f : Nat) : Nat := f / (F / (Cx / C)) * C

/-- Convolution (cross-correlation) without padding, channels last: `x` has shape (batch, *spatial, C), `w` has shape
(*kernel, C, F). If the input has more channels than the kernel it is a grouped convolution, which needs the numbers to
be multiples (`ops.conv` has no argument for the number of groups, the backends compute it from the shapes).
Simplification: an axis on which no window fits is an error. -/
def convValid [Semiring α] (strides dil : List Nat) (x w : Tensor α) : Res (Tensor α) :=
  let d := strides.length
  let sp := spatialPart d x.shape
  let K := w.shape.take d
  let C := nth w.shape d
  let Cx := nth x.shape (d + 1)
  let F := nth w.shape (d + 1)
  if x.rank = d + 2 ∧ w.rank = d + 2 ∧ dil.length = d ∧ (Cx = C ∨ 0 < C ∧ Cx % C = 0 ∧ F % (Cx / C) = 0 ∧ 0 < Cx) ∧
      (∀ i, i < d → 0 < nth strides i ∧ 0 < nth K i ∧ dilated (nth K i) (nth dil i) ≤ nth sp i) then
    .ok ⟨nth x.shape 0 :: ((List.range d).map fun i =>
        (nth sp i - dilated (nth K i) (nth dil i)) / nth strides i + 1) ++ [F],
      fun idx => ((indices K).map fun k => ((List.range C).map fun c =>
        x.get (nth idx 0 :: windowPos strides dil (spatialPart d idx) k ++ [groupStart Cx C F (nth idx (d + 1)) + c]) *
          w.get (k ++ [c, nth idx (d + 1)])).sum).sum⟩
  else .error .value

/-- Zeros added by Keras before a convolution (channels last), for all axes. -/
def kerasPads (padding : KerasPadding) (strides dil K sp : List Nat) : List (Nat × Nat) :=
  match padding with
  | .valid => (0, 0) :: (List.range strides.length).map (fun _ => (0, 0)) ++ [(0, 0)]
  | .same => (0, 0) :: ((List.range strides.length).map fun i =>
      samePads (nth sp i) (dilated (nth K i) (nth dil i)) (nth strides i)) ++ [(0, 0)]

/-- `ops.conv`, channels last -/
def convLast [Semiring α] (padding : KerasPadding) (strides dil : List Nat) (x w : Tensor α) : Res (Tensor α) := do
  let x ← pad x (kerasPads padding strides dil (w.shape.take strides.length) (spatialPart strides.length x.shape))
  convValid strides dil x w

/-- `ops.conv` in either data format: channels_first is channels_last with the channel axis moved. -/
def conv [Semiring α] (fmt : DataFormat) (padding : KerasPadding) (strides dil : List Nat) (x w : Tensor α) :
    Res (Tensor α) :=
  match fmt with
  | .channelsLast => convLast padding strides dil x w
  | .channelsFirst => do
    let x ← moveaxis x 1 (-1)
    let y ← convLast padding strides dil x w
    moveaxis y (-1) 1

/-- The axis of the channels of an output, for adding the bias (BaseConv.call). -/
def channelAxis (fmt : DataFormat) (rank : Nat) : Nat :=
  match fmt with
  | .channelsFirst => 1
  | .channelsLast => rank - 1

/-- BaseConv.call: `outputs + reshape(bias, (1, …, filters))`. Simplification: the sizes must be equal (a bias or output
with a single channel, which would be broadcast, is not modelled). -/
def addBias [Semiring α] (fmt : DataFormat) (filters : Nat) (y b : Tensor α) : Res (Tensor α) := do
  let b ← reshape b [(filters : Int)]
  let a := channelAxis fmt y.rank
  if nth y.shape a = filters then return ⟨y.shape, fun idx => y.get idx + b.get [nth idx a]⟩ else .error .value

/-- applying an elementwise activation function -/
def mapT (f : α → α) (y : Tensor α) : Tensor α := ⟨y.shape, fun idx => f (y.get idx)⟩

/-- BaseConv.call (keras/src/layers/convolutional/base_conv.py) -/
def baseConvCall [Semiring α] (fmt : DataFormat) (padding : KerasPadding) (strides dil : List Nat) (filters : Nat)
    (activation : α → α) (kernel : Tensor α) (bias : Option (Tensor α)) (x : Tensor α) : Res (Tensor α) := do
  let y ← conv fmt padding strides dil x kernel
  let y ← match bias with
    | none => .ok y
    | some b => addBias fmt filters y b
  return mapT activation y

/-- Spatial output size Keras computes for an axis: a negative one is a ValueError, an unknown one stays unknown. -/
def convOutSize (padding : KerasPadding) (n : Option Nat) (k s r : Nat) : Res (Option Nat) :=
  match n with
  | none => .ok none
  | some n =>
    match padding with
    | .valid =>
      let o : Int := ((n : Int) - dilated k r) / s + 1
      if o < 0 then .error .value else .ok (some o.toNat)
    | .same => .ok (some ((n + s - 1) / s))

/-- spatial sizes of a shape -/
def spatialShapeOf {β : Type} (fmt : DataFormat) (d : Nat) (shape : List β) : List β :=
  match fmt with
  | .channelsLast => (shape.drop 1).take d
  | .channelsFirst => (shape.drop 2).take d

/-- BaseConv.compute_output_shape -/
def convOutputShape (fmt : DataFormat) (padding : KerasPadding) (K strides dil : List Nat) (filters : Nat)
    (shape : List (Option Nat)) : Res (List (Option Nat)) := do
  let d := strides.length
  if shape.length ≠ d + 2 then .error .value
  else
    let sp := spatialShapeOf fmt d shape
    let out ← (List.range d).mapM fun i => convOutSize padding (sp.getD i none) (nth K i) (nth strides i) (nth dil i)
    match fmt with
    | .channelsLast => return [shape.getD 0 none] ++ out ++ [some filters]
    | .channelsFirst => return [shape.getD 0 none, some filters] ++ out

/-! ### transposed convolution -/

/-- Output size along an axis of a transposed convolution with kernel extent `k`, and the number of positions cropped at
its start. -/
def transposeOut (padding : KerasPadding) (n k s : Nat) : Nat × Nat :=
  match padding with
  | .valid => (n * s + (k - s), 0)
  | .same => (n * s, (k - s) / 2)

/-- The position of the input that contributes to output position `q` through kernel offset `k`, if any. -/
def upPos (strides dil crop q k n : List Nat) : Option (List Nat) :=
  (List.range strides.length).mapM fun i =>
    let t := nth q i + nth crop i
    let e := nth k i * nth dil i
    if e ≤ t ∧ (t - e) % nth strides i = 0 ∧ (t - e) / nth strides i < nth n i
    then some ((t - e) / nth strides i) else none

/-- `ops.conv_transpose`, channels last: `x` has shape (batch, *spatial, C), `w` has shape (*kernel, F, C). Input entry
`p` contributes to output positions `p * stride + k * dilation`, cropped. Simplification: no output_padding. -/
def convTransposeLast [Semiring α] (padding : KerasPadding) (strides dil : List Nat) (x w : Tensor α) : Res (Tensor α) :=
  let d := strides.length
  let sp := spatialPart d x.shape
  let K := w.shape.take d
  let C := nth w.shape (d + 1)
  let outs := (List.range d).map fun i => transposeOut padding (nth sp i) (dilated (nth K i) (nth dil i)) (nth strides i)
  if x.rank = d + 2 ∧ w.rank = d + 2 ∧ nth x.shape (d + 1) = C ∧ (∀ i, i < d → 0 < nth strides i ∧ 0 < nth K i) then
    .ok ⟨nth x.shape 0 :: outs.map Prod.fst ++ [nth w.shape d],
      fun idx => ((indices K).map fun k => ((List.range C).map fun c =>
        (match upPos strides dil (outs.map Prod.snd) (spatialPart d idx) k sp with
          | some p => x.get (nth idx 0 :: p ++ [c])
          | none => 0) * w.get (k ++ [nth idx (d + 1), c])).sum).sum⟩
  else .error .value

/-- `ops.conv_transpose` in either data format -/
def convTranspose [Semiring α] (fmt : DataFormat) (padding : KerasPadding) (strides dil : List Nat) (x w : Tensor α) :
    Res (Tensor α) :=
  match fmt with
  | .channelsLast => convTransposeLast padding strides dil x w
  | .channelsFirst => do
    let x ← moveaxis x 1 (-1)
    let y ← convTransposeLast padding strides dil x w
    moveaxis y (-1) 1

/-- BaseConvTranspose.call -/
def baseConvTransposeCall [Semiring α] (fmt : DataFormat) (padding : KerasPadding) (strides dil : List Nat)
    (filters : Nat) (activation : α → α) (kernel : Tensor α) (bias : Option (Tensor α)) (x : Tensor α) :
    Res (Tensor α) := do
  let y ← convTranspose fmt padding strides dil x kernel
  let y ← match bias with
    | none => .ok y
    | some b => addBias fmt filters y b
  return mapT activation y

/-- BaseConvTranspose.compute_output_shape -/
def convTransposeOutputShape (fmt : DataFormat) (padding : KerasPadding) (K strides dil : List Nat) (filters : Nat)
    (shape : List (Option Nat)) : Res (List (Option Nat)) :=
  let d := strides.length
  if shape.length ≠ d + 2 then .error .value
  else
    let sp := spatialShapeOf fmt d shape
    let out := (List.range d).map fun i =>
      (sp.getD i none).map fun n => (transposeOut padding n (dilated (nth K i) (nth dil i)) (nth strides i)).1
    match fmt with
    | .channelsLast => .ok ([shape.getD 0 none] ++ out ++ [some filters])
    | .channelsFirst => .ok ([shape.getD 0 none, some filters] ++ out)

end GroCo
