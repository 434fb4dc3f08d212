import Verif.Raw

/-
How the arguments of a call reach the constructors: Python's binding of positional and keyword arguments to parameters,
`functools.partial`, and the chains of `__init__` methods of the layers, which hand `**kwargs` on from one to the next:
groco/layers/conv2d.py:42-57 (and the other convolution classes), pooling.py:27-58, pooling.py:82-105, pooling.py:151-152,
group_transforms.py:28-57, padding.py:32-42. What the constructors do with the values is modelled in Transforms.lean, Layers.lean,
Pooling.lean and Raw.lean.
-/

namespace GroCo

/-- Python values as arguments; `other` stands for all further objects (initialisers, functions, ...). -/
inductive PyVal where
  | none
  | bool (b : Bool)
  | int (n : Nat)
  | str (s : String)
  | tuple (l : List Nat)
  | list (l : List Nat)
  | group (g : GroupName)
  | other (n : Nat)
  deriving DecidableEq, Repr

/-- A dictionary of keyword arguments; the first entry of a name counts. -/
abbrev Keywords := List (String × PyVal)

/-- `name in kwargs` -/
def Keywords.has (kw : Keywords) (n : String) : Bool := (kw.lookup n).isSome

/-- the value of a parameter inside a function; only used for parameters, which all have values -/
def Keywords.arg (kw : Keywords) (n : String) : PyVal := (kw.lookup n).getD .none

/-- The parameters of a function with their defaults, followed by `**kwargs`. -/
abbrev Params := List (String × Option PyVal)

/-- The positional arguments as keyword arguments. -/
def Params.positional (f : Params) (pos : List PyVal) : Keywords := (f.map Prod.fst).zip pos

/-- Python's binding of the arguments of a call to the parameters of a function ending in `**kwargs` (The Python Language
Reference, 6.3.4): TypeError if there are too many positional arguments, if a parameter is given twice, or if one
without default is not given. Returns the values of the parameters, and `kwargs`. -/
def Params.bind (f : Params) (pos : List PyVal) (kw : Keywords) : Res (Keywords × Keywords) :=
  if f.length < pos.length then .error .typ
  else if ∃ e ∈ f.positional pos, kw.has e.1 then .error .typ
  else if ∃ p ∈ f, (f.positional pos ++ kw).lookup p.1 = none ∧ p.2 = none then .error .typ
  else .ok (f.map fun p => (p.1, ((f.positional pos ++ kw).lookup p.1).getD (p.2.getD .none)),
    kw.filter fun e => e.1 ∉ f.map Prod.fst)

/-- The keyword arguments of a call `f(a=1, b=2, **kwargs)`: TypeError if one is given twice. -/
def callWith (given : Keywords) (kw : Keywords) : Res Keywords :=
  if ∃ e ∈ given, kw.has e.1 then .error .typ else .ok (given ++ kw)

/-- `kwargs[name] = value` -/
def Keywords.set (kw : Keywords) (n : String) (v : PyVal) : Keywords := (n, v) :: kw.filter fun e => e.1 ≠ n

/-- A Keras constructor called by keywords: the parameters without default are required (TypeError), and names that are not known
to it or to `keras.layers.Layer` are refused (ValueError). -/
def kerasInit (required known : List String) (kw : Keywords) : Res Keywords :=
  if ∃ n ∈ required, ¬ kw.has n then .error .typ
  else if ∃ e ∈ kw, e.1 ∉ known then .error .value
  else .ok kw

/-- `keras.layers.Layer.__init__` -/
def layerNames : List String := ["activity_regularizer", "trainable", "dtype", "autocast", "name", "input_shape"]

/-- `keras.layers.Conv2D.__init__` and the other convolution classes -/
def convNames : List String :=
  ["filters", "kernel_size", "strides", "padding", "data_format", "dilation_rate", "groups", "activation", "use_bias",
    "kernel_initializer", "bias_initializer", "kernel_regularizer", "bias_regularizer", "kernel_constraint",
    "bias_constraint"] ++ layerNames

/-- `keras.layers.Conv2DTranspose.__init__` and the other transposed convolution classes -/
def transposeNames : List String := convNames.filter (· ≠ "groups") ++ ["output_padding"]

/-- `keras.layers.MaxPooling2D.__init__` and the other pooling classes -/
def poolNames : List String := ["pool_size", "strides", "padding", "data_format"] ++ layerNames

/-- `keras.layers.GlobalMaxPooling2D.__init__` and the other global pooling classes -/
def globalNames : List String := ["data_format", "keepdims"] ++ layerNames

/-- padding.py:32-42 -/
def paddingParams : Params :=
  [("kernel_size", none), ("dimensions", none), ("strides", some (.int 1)), ("padding", some (.str "valid_equiv")),
    ("allow_non_equivariance", some (.bool false)), ("data_format", some (.str "channels_last")),
    ("transpose", some (.bool false))]

/-- group_transforms.py:28-39 -/
def transformsParams : Params :=
  [("group", none), ("kernel_size", none), ("dimensions", none), ("data_format", some (.str "channels_last")),
    ("allow_non_equivariance", some (.bool false)), ("subgroup", some (.str "")), ("transpose", some (.bool false)),
    ("separable", some (.bool false))]

/-- conv2d.py:42-44 and the other convolution classes -/
def convParams : Params :=
  [("group", none), ("kernel_size", none), ("allow_non_equivariance", some (.bool false)), ("subgroup", some (.str ""))]

/-- pooling.py:27-36 -/
def poolParams : Params :=
  [("group", none), ("dimensions", none), ("pool_type", none), ("allow_non_equivariance", some (.bool false)),
    ("subgroup", some (.str "")), ("pool_size", some (.int 2))]

/-- pooling.py:82 -/
def globalParams : Params := [("dimensions", none), ("pool_type", none)]

/-- padding.py:43-44 `built_in_padding_option`, with the exceptions of `format_padding_option` -/
def paddingOf : PyVal → Res PyVal
  | .str s => do
    let _ ← formatPaddingOption s
    return .str (builtInPaddingOption s)
  | _ => .error .typ

/-- Where the arguments of a layer end up. -/
structure Received where
  /-- parameters of `GroupTransforms.__init__` -/
  transforms : Keywords
  /-- parameters of `EquivariantPadding.__init__` -/
  padding : Keywords
  /-- arguments of the Keras constructor of the layer itself -/
  layer : Keywords
  /-- arguments of the Keras constructor of the pooling layer inside -/
  inner : Keywords

/-- group_transforms.py:28-58: the arguments of `GroupTransforms` and those it gives to `EquivariantPadding`, and the padding
option for Keras. -/
def transformsCall (kw : Keywords) : Res (Keywords × Keywords × PyVal) := do
  let t ← transformsParams.bind [] kw
  let args ← callWith [("allow_non_equivariance", Keywords.arg t.1 "allow_non_equivariance"),
    ("kernel_size", Keywords.arg t.1 "kernel_size"), ("dimensions", Keywords.arg t.1 "dimensions"),
    ("transpose", Keywords.arg t.1 "transpose")] t.2
  let p ← paddingParams.bind [] args
  let option ← paddingOf (Keywords.arg p.1 "padding")
  return (t.1, p.1, option)

/-- conv2d.py:42-57 and the other convolution classes: `GroupConv2D(*pos, **kw)`. The exceptions that depend on the values
of arguments other than `padding` are those of Raw.lean. -/
def callConv (dimensions : Nat) (transpose : Bool) (pos : List PyVal) (kw : Keywords) : Res Received := do
  let own ← convParams.bind pos kw
  let args ← callWith [("allow_non_equivariance", Keywords.arg own.1 "allow_non_equivariance"),
    ("kernel_size", Keywords.arg own.1 "kernel_size"), ("dimensions", .int dimensions), ("group", Keywords.arg own.1 "group"),
    ("subgroup", Keywords.arg own.1 "subgroup"), ("transpose", .bool transpose)] own.2
  let t ← transformsCall args
  let keras ← callWith [("kernel_size", Keywords.arg own.1 "kernel_size")] (Keywords.set own.2 "padding" t.2.2)
  let layer ← kerasInit ["filters", "kernel_size"] (if transpose then transposeNames else convNames) keras
  return ⟨t.1, t.2.1, layer, []⟩

/-- conv2d.py:89-95, conv3d.py:89-92: `P4Conv2D = partial(GroupConv2D, group=wallpaper_groups.P4)` and the others; keywords of
the call take precedence over those of the partial. -/
def callNamed (g : GroupName) (dimensions : Nat) (pos : List PyVal) (kw : Keywords) : Res Received :=
  callConv dimensions false pos (if Keywords.has kw "group" then kw else ("group", .group g) :: kw)

/-- pooling.py:151-152 (and the other classes) and pooling.py:27-58: `GroupMaxPooling2D(*pos, **kw)`; the class takes
keyword arguments only, and `Layer.__init__` is called without arguments (pooling.py:37). -/
def callPool (dimensions : Nat) (poolType : String) (pos : List PyVal) (kw : Keywords) : Res Received := do
  let outer ← Params.bind [] pos kw
  let args ← callWith [("pool_type", .str poolType), ("dimensions", .int dimensions)] outer.2
  let own ← poolParams.bind [] args
  let args ← callWith [("allow_non_equivariance", Keywords.arg own.1 "allow_non_equivariance"),
    ("kernel_size", Keywords.arg own.1 "pool_size"), ("dimensions", Keywords.arg own.1 "dimensions"),
    ("group", Keywords.arg own.1 "group"), ("subgroup", Keywords.arg own.1 "subgroup"), ("pooling", .bool true)] own.2
  let t ← transformsCall args
  let keras ← callWith [("pool_size", Keywords.arg own.1 "pool_size")] (Keywords.set own.2 "padding" t.2.2)
  let inner ← kerasInit [] poolNames keras
  return ⟨t.1, t.2.1, [], inner⟩

/-- pooling.py:273-274 (and the other classes) and pooling.py:82-92: `GlobalGroupMaxPooling2D(*pos, **kw)` -/
def callGlobal (dimensions : Nat) (poolType : String) (pos : List PyVal) (kw : Keywords) : Res Received := do
  let outer ← Params.bind [] pos kw
  let args ← callWith [("pool_type", .str poolType), ("dimensions", .int dimensions)] outer.2
  let own ← globalParams.bind [] args
  let inner ← kerasInit [] globalNames own.2
  return ⟨[], [], [], inner⟩

end GroCo
