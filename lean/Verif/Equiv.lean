import Verif.Pooling

/-
Model of groco/utils/equivariance.py. A layer is any function of tensors that may fail. Entries are elements of a field
with a linear order.
-/

namespace GroCo
open Tensor

variable {α : Type}

/-- Shape of the result of an operation on two tensors, last axis first: sizes must agree or be 1, missing axes count as
size 1. -/
def broadcastRev : List Nat → List Nat → Res (List Nat)
  | [], t => .ok t
  | s, [] => .ok s
  | a :: s, b :: t =>
    if a = b ∨ a = 1 ∨ b = 1 then do
      let r ← broadcastRev s t
      return (if a = 1 then b else a) :: r
    else .error .value

/-- The multi-index of a tensor of shape `s` used for multi-index `idx` of the result. -/
def broadcastIdx (s idx : List Nat) : List Nat :=
  List.zipWith (fun n i => if n = 1 then 0 else i) s (idx.drop (idx.length - s.length))

/-- `x - y` with numpy broadcasting (equivariance.py:71) -/
def subT [Sub α] (x y : Tensor α) : Res (Tensor α) := do
  let s ← broadcastRev x.shape.reverse y.shape.reverse
  return ⟨s.reverse, fun idx => x.get (broadcastIdx x.shape idx) - y.get (broadcastIdx y.shape idx)⟩

/-- `ops.max(ops.absolute(x))` (equivariance.py:72). An empty tensor is an error (backends differ). -/
def maxAbs [Field α] [LinearOrder α] (x : Tensor α) : Res α :=
  if prod x.shape = 0 then .error .value
  else .ok (maxOf ((indices x.shape).map fun i => |x.get i|))

/-- equivariance.py:76-86 `_check_shape`. The message is computed before the assertion. Indexing a shape with `None` is a
TypeError. -/
def checkShape (G : GroupData) (x : Tensor α) (groupAxis : Option Int) (subgroup : Option String) : Res Unit :=
  match subgroup with
  | none => .ok ()
  | some s => do
    let H ← lookup G.subgroup s
    match groupAxis with
    | none => .error .typ
    | some ga =>
      let a ← pyIndex x.rank ga
      if nth x.shape a = H.length then .ok () else .error .assertion

/-- equivariance.py:89-95 `_act_on_batched_transform`; unpacking a shape with fewer than two axes is a ValueError -/
def actOnBatchedTransform (layer : Tensor α → Res (Tensor α)) (x : Tensor α) : Res (Tensor α) :=
  match x.shape with
  | g :: b :: rest => do
    let merged ← reshapeN x (g * b :: rest)
    let y ← layer merged
    reshapeN y (g :: b :: y.shape.drop 1)
  | _ => .error .value

/-- equivariance.py:4-73 `check_equivariance`, with `group` given or read off the layer -/
def checkEquivariance [Field α] [LinearOrder α] (layer : Tensor α → Res (Tensor α)) (x : Tensor α) (G : Group)
    (spatialAxes : List Int := [1, 2]) (groupAxis : Option Int := none) (acting : Option String := some "")
    (domain : Option String := some "") (target : Option String := some "") : Res α := do
  let acting := G.parseSubgroup acting
  let domain := G.parseSubgroup domain
  let target := G.parseSubgroup target
  checkShape G.toGroupData x groupAxis domain
  let y ← layer x
  checkShape G.toGroupData y groupAxis target
  let gx ← G.action x spatialAxes 0 groupAxis acting domain
  let lgx ← actOnBatchedTransform layer gx
  let gy ← G.action y spatialAxes 0 groupAxis acting target
  let diffs ← subT lgx gy
  maxAbs diffs

end GroCo
