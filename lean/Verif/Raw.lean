import Verif.Layers
import Verif.Pooling

/-
Arguments of the layers as the user writes them: sizes as an integer, a tuple or a list, groups by name or as an object,
arguments left out. GroCo and Keras each interpret them on their own: groco/layers/padding.py:32-66,
group_transforms.py:28-64, `standardize_tuple` and `standardize_data_format` in Keras.
-/

namespace GroCo
open Tensor

variable {α : Type}

/-- A size, stride or dilation rate as written. -/
inductive SizeArg where
  | int (n : Nat)
  | tuple (l : List Nat)
  | list (l : List Nat)
  deriving DecidableEq, Repr

/-- An array of integers: a vector if `rows` is `none`, else a matrix with that many rows, all equal to `entries`. -/
structure SizeArray where
  rows : Option Nat
  entries : List Nat
  deriving DecidableEq, Repr

/-- padding.py:47-58: `x if isinstance(x, tuple) else tuple(x for _ in range(dimensions))`; from a list this makes a tuple of
equal lists, cast to a matrix. -/
def SizeArg.cast (dimensions : Nat) : SizeArg → SizeArray
  | .int n => ⟨none, List.replicate dimensions n⟩
  | .tuple l => ⟨none, l⟩
  | .list l => ⟨some dimensions, l⟩

/-- Keras `standardize_tuple`; the length and the signs are checked where the result is used. -/
def SizeArg.standardize (dimensions : Nat) : SizeArg → List Nat
  | .int n => List.replicate dimensions n
  | .tuple l => l
  | .list l => l

def SizeArg.isList : SizeArg → Bool
  | .list _ => true
  | _ => false

/-- `EquivariantPadding` with the arrays made from the arguments (padding.py:43-64). -/
structure ArrayPadding where
  paddingOption : PadOption
  allowNonEquivariance : Bool
  dimensions : Nat
  strides : SizeArray
  kernelSizes : SizeArray
  transpose : Bool

/-- padding.py:43-64: the padding layer made from sizes as written -/
def makePadding (option : PadOption) (allow : Bool) (dimensions : Nat) (strides kernelSize : SizeArg) (transpose : Bool) :
    ArrayPadding :=
  ⟨option, allow, dimensions, strides.cast dimensions, kernelSize.cast dimensions, transpose⟩

/-- Number of rows of the arrays computed from strides and kernel sizes by broadcasting. -/
def ArrayPadding.rows (p : ArrayPadding) : Option Nat := p.kernelSizes.rows <|> p.strides.rows

/-- padding.py:74-95 `build` with arrays: a vector operates on every row of a matrix. `split_padding` (padding.py:119-133) can
not be used with a matrix: `ops.pad` is given paddings for one axis, and where this pads both axes the result has the wrong
number of axes for the `ops.pad` in `call`; the model has the error here. The data format is channels_last since it
is not passed on (group_transforms.py:51-57). Arrays of length one are not modelled. -/
def ArrayPadding.build (p : ArrayPadding) (shape : List (Option Nat)) : Res PadState := do
  if (p.paddingOption = .same ∨ p.paddingOption = .valid) ∧ p.allowNonEquivariance then return ⟨false, []⟩
  else
    let spatial ← ((shape.drop 1).take p.dimensions).mapM fun n =>
      match n with
      | some n => (.ok n : Res Nat)
      | none => .error .typ
    if spatial.length ≠ p.kernelSizes.entries.length ∨ spatial.length ≠ p.strides.entries.length then .error .value
    else
      let row := (List.range spatial.length).map fun i => computeEquivariantPadding p.paddingOption p.transpose
        (nth spatial i) (nth p.kernelSizes.entries i) (nth p.strides.entries i)
      let paddings := match p.rows with
        | none => row
        | some r => (List.range r).flatMap fun _ => row
      if ∀ e ∈ paddings, e.1 = 0 then return ⟨false, []⟩
      else if p.paddingOption = .same ∨ p.paddingOption = .valid then .error (paddingException p.paddingOption)
      else if ∃ e ∈ paddings, e.2 % 2 ≠ 0 then .error (paddingException p.paddingOption)
      else match p.rows with
        | none => return ⟨true, splitPadding true (paddings.map Prod.fst)⟩
        | some _ => .error .value

/-- The argument `group`: the name of a group or the object itself. -/
inductive GroupArg where
  | name (s : String)
  | object (g : GroupName)

/-- group_transforms.py:46 `group if isinstance(group, Group) else group_dict[group]` -/
def GroupArg.resolve : GroupArg → Res GroupName
  | .name s => groupDict s
  | .object g => .ok g

/-- Arguments of a convolution layer as written; `none` means left out. -/
structure RawConv (α : Type) where
  group : GroupArg
  kernelSize : SizeArg
  filters : Nat
  subgroup : Option (Option String) := none
  strides : Option SizeArg := none
  padding : Option String := none
  allowNonEquivariance : Option Bool := none
  dataFormat : Option DataFormat := none
  dilation : Option SizeArg := none
  useBias : Option Bool := none
  activation : Option (α → α) := none

/-- A convolution layer with the padding layer inside. -/
structure RawLayer (L : Type) where
  padding : ArrayPadding
  layer : L

/-- conv2d.py:42-57 (and the other three classes) with arguments as written. `image` is
`keras.config.image_data_format()`, which Keras uses if `data_format` is left out; GroCo uses channels_last
(group_transforms.py:33). The other defaults are those of group_transforms.py:34-35, padding.py:36-37 and of Keras. -/
def RawConv.init (r : RawConv α) (dimensions : Nat) (transpose : Bool) (image : DataFormat) : Res (RawLayer (GroupConv α)) := do
  let group ← r.group.resolve
  let l ← GroupConv.init {
    group := group
    subgroup := r.subgroup.getD (some "")
    kernelSize := r.kernelSize.standardize dimensions
    strides := (r.strides.getD (.int 1)).standardize dimensions
    padding := r.padding.getD "valid_equiv"
    allowNonEquivariance := r.allowNonEquivariance.getD false
    dataFormat := r.dataFormat.getD .channelsLast
    filters := r.filters
    dilation := (r.dilation.getD (.int 1)).standardize dimensions
    useBias := r.useBias.getD true
    activation := r.activation.getD id } dimensions transpose
  return {
    padding := makePadding l.transforms.equivariantPadding.paddingOption (r.allowNonEquivariance.getD false) dimensions
      (r.strides.getD (.int 1)) r.kernelSize transpose
    layer := { l with dataFormat := r.dataFormat.getD image } }

/-- `build` of a convolution layer with the padding layer it contains. Simplification: the padding layer is built last
instead of in group_transforms.py:152, which can only change which of several exceptions is raised. -/
def RawLayer.build (l : RawLayer (GroupConv α)) (shape : List (Option Nat)) (k0 b0 : List Nat → α) : Res (GroupConv α) := do
  let c ← l.layer.build shape k0 b0
  let st ← l.padding.build c.transforms.reshapedInput
  return { c with transforms := { c.transforms with padState := st } }

/-- Arguments of a pooling layer as written; `strides` may also be an explicit `None`. -/
structure RawPool where
  group : GroupArg
  poolType : PoolType
  poolSize : Option SizeArg := none
  subgroup : Option (Option String) := none
  strides : Option (Option SizeArg) := none
  padding : Option String := none
  allowNonEquivariance : Option Bool := none
  dataFormat : Option DataFormat := none

/-- The strides that reach padding.py:47, where an explicit `None` cannot be cast to integers. -/
def RawPool.givenStrides (r : RawPool) : Res (Option SizeArg) :=
  match r.strides with
  | none => .ok none
  | some none => .error .value
  | some (some s) => .ok (some s)

/-- pooling.py:27-58 with arguments as written -/
def RawPool.init (r : RawPool) (dimensions : Nat) (image : DataFormat) : Res (RawLayer GroupPooling) := do
  let group ← r.group.resolve
  let strides ← r.givenStrides
  let size := r.poolSize.getD (.int 2)
  let l ← GroupPooling.init {
    group := group
    subgroup := r.subgroup.getD (some "")
    poolType := r.poolType
    poolSize := size.standardize dimensions
    strides := strides.map (SizeArg.standardize dimensions)
    padding := r.padding.getD "valid_equiv"
    allowNonEquivariance := r.allowNonEquivariance.getD false
    dataFormat := r.dataFormat.getD .channelsLast } dimensions
  return {
    padding := makePadding l.transforms.equivariantPadding.paddingOption (r.allowNonEquivariance.getD false) dimensions
      (strides.getD (.int 1)) size false
    layer := { l with dataFormat := r.dataFormat.getD image } }

/-- `build` of a pooling layer with the padding layer it contains; same simplification as above -/
def RawLayer.buildPool (l : RawLayer GroupPooling) (shape : List (Option Nat)) : Res GroupPooling := do
  let c ← l.layer.build shape
  let st ← l.padding.build c.transforms.reshapedInput
  return { c with transforms := { c.transforms with padState := st } }

end GroCo
