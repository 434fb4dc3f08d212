import Verif.Layers
import Verif.Pooling

/-
Model of the get_config methods. A configuration is a list of keys with values.
-/

namespace GroCo

variable {α : Type}

/-- Values in a configuration. -/
inductive ConfigValue where
  | group (n : GroupName)
  | str (s : String)
  | bool (b : Bool)
  | nat (n : Nat)
  | ints (l : List Nat)
  | option (o : PadOption)
  | format (f : DataFormat)
  /-- an attribute set during build, not looked at here -/
  | other
  deriving DecidableEq

abbrev Config := List (String × ConfigValue)

/-- `getattr(self, name)` of an `EquivariantPadding`: the attributes assigned in padding.py:43-66. AttributeError otherwise.
Assumed: `keras.layers.Layer` itself has no attributes `kernel_size`, `strides` and `padding`. -/
def EquivariantPadding.getattr (p : EquivariantPadding) (name : String) : Res ConfigValue :=
  match lookup [("padding_option", ConfigValue.option p.paddingOption), ("built_in_padding_option", .other),
      ("allow_non_equivariance", .bool p.allowNonEquivariance), ("dimensions", .nat p.dimensions),
      ("strides", .ints p.strides), ("kernel_sizes", .ints p.kernelSizes), ("data_format", .other),
      ("transpose", .bool p.transpose), ("equivariant_padding", .other), ("needs_padding", .other)] name with
  | .ok v => .ok v
  | .error _ => .error .attribute

/-- A dictionary display: the values are computed in order, the first exception wins. -/
def dictOf (get : String → Res ConfigValue) : List (String × String) → Res Config
  | [] => .ok []
  | (key, attr) :: rest => do
    let v ← get attr
    let c ← dictOf get rest
    return (key, v) :: c

/-- padding.py:136-142: the keys of the configuration and the attributes they are read from -/
def paddingConfig : List (String × String) :=
  [("kernel_size", "kernel_size"), ("strides", "strides"), ("padding", "padding"),
    ("allow_non_equivariance", "allow_non_equivariance"), ("dimensions", "dimensions")]

/-- padding.py:135-142 `get_config` -/
def EquivariantPadding.getConfig (p : EquivariantPadding) : Res Config := dictOf p.getattr paddingConfig

/-- group_transforms.py:225: the entries of the configuration for the group -/
def GroupTransforms.groupConfig (t : GroupTransforms) : Config :=
  [("group", .group t.group), ("subgroup", .str t.subgroup.group.name)]

/-- group_transforms.py:224-227 `get_config`; `update` of a dictionary is written as concatenation, later keys win -/
def GroupTransforms.getConfig (t : GroupTransforms) : Res Config := do
  let padding ← t.equivariantPadding.getConfig
  return t.groupConfig ++ padding

/-- conv2d.py:78-81, conv3d.py:78-81, conv2d_transpose.py:76-79, conv3d_transpose.py:82-85 `get_config`; `keras` is the
configuration returned by the Keras base class -/
def GroupConv.getConfig (l : GroupConv α) (keras : Config) : Res Config := do
  let group ← l.transforms.getConfig
  return keras ++ group

/-- pooling.py:71-74 `get_config` -/
def GroupPooling.getConfig (l : GroupPooling) (keras : Config) : Res Config := do
  let group ← l.transforms.getConfig
  return keras ++ group

/-- pooling.py:127-129 `get_config` of a global pooling layer: that of the Keras layer `self.pooling`, which has (besides
name and dtype, not modelled) the arguments of its constructor. -/
def GlobalGroupPooling.getConfig (l : GlobalGroupPooling) : Config :=
  [("data_format", .format l.dataFormat), ("keepdims", .bool l.keepdims)]

/-- pooling.py:82-99 `__init__` called with a configuration; `dimensions` and `pool_type` are fixed by the class. The Keras
defaults are channels_last and False. -/
def GlobalGroupPooling.fromConfig (dimensions : Nat) (poolType : PoolType) (c : Config) : Res GlobalGroupPooling := do
  let fmt ← match lookup c "data_format" with
    | .ok (.format f) => .ok f
    | .ok _ => .error .typ
    | .error _ => .ok DataFormat.channelsLast
  let keepdims ← match lookup c "keepdims" with
    | .ok (.bool b) => .ok b
    | .ok _ => .error .typ
    | .error _ => .ok false
  return ⟨dimensions, poolType, keepdims, fmt⟩

end GroCo
