import Verif.LayerSpec

/-
The Keras argument `groups` of GroupConv2D/3D, which reaches the Keras layer through `**kwargs` (conv2d.py:42-57,
conv3d.py:42-57) and which no function of /repo looks at. Transposed layers have no such argument.
-/

namespace GroCo

variable {α : Type}

/-- conv2d.py:42-57 `__init__` with `groups` among the keyword arguments: as `GroupConv.init`, and BaseConv.__init__ wants a
positive number of groups which divides the number of filters. -/
def GroupConv.initGroups (a : ConvArgs α) (groups dimensions : Nat) : Res (GroupConv α) := do
  let l ← GroupConv.init a dimensions false
  if groups = 0 ∨ a.filters % groups ≠ 0 then .error .value else return l

/-- conv2d.py:67-76 `build` of a layer constructed with `groups`: as `GroupConv.build`, and BaseConv.build wants the number
of channels, here including the merged group axis, to be a multiple of `groups` and makes a kernel for one part of them.
`call` does not use `groups`: the backends infer it from the kernel (see Keras.lean). -/
def GroupConv.buildGroups (l : GroupConv α) (groups : Nat) (shape : List (Option Nat)) (k0 b0 : List Nat → α) :
    Res (GroupConv α) := do
  let t ← l.transforms.build shape
  let l : GroupConv α := { l with transforms := t }
  let channels ← channelsOf l.dataFormat t.reshapedInput
  if channels % groups ≠ 0 then .error .value else
  let _ ← l.computeOutputShape t.reshapedInput
  let kernel : Tensor α := ⟨l.kernelSize ++ [channels / groups, l.filters], k0⟩
  let bias : Option (Tensor α) := if l.useBias then some ⟨[l.filters], b0⟩ else none
  let t ← t.buildConv kernel bias
  let spec := if t.groupValuedInput then shape.getD t.channelsAxis none else some channels
  return { l with
    transforms := t
    kernel := some kernel
    bias := bias
    inputSpec := some (t.dimensions + 2, spec) }

/-- As `BuiltConv`, for a layer constructed with `groups := q`. -/
structure BuiltGrouped (a : ConvArgs α) (q : Nat) (b : Option Nat) (n : List Nat) (g : Option Nat) (C : Nat)
    (k0 b0 : List Nat → α) (H : List Nat) (l : GroupConv α) : Prop where
  built : ∃ l0, GroupConv.initGroups a q a.group.dim = .ok l0 ∧
    l0.buildGroups q (inputShape a.dataFormat b n g C) k0 b0 = .ok l
  dims : n.length = a.group.dim
  elements : a.group.group.sub (a.group.group.parseSubgroup a.subgroup) = .ok H

end GroCo
