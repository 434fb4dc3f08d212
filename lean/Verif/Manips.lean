import Verif.Tensor

/-
Model of groco/utils/tensor_manips.py, function by function. Axes are integers, negative ones as in Python.
A shape known at trace time is a list of `Option Nat`; `none` is the unknown batch size.
-/

namespace GroCo

variable {α : Type}

/-- Python `l[:i]` -/
def sliceTo {β : Type} (l : List β) (i : Int) : List β :=
  l.take (if i < 0 then (l.length + i).toNat else i.toNat)

/-- Python `l[i:]` -/
def sliceFrom {β : Type} (l : List β) (i : Int) : List β :=
  l.drop (if i < 0 then (l.length + i).toNat else i.toNat)

/-- Position of a Python list index, IndexError when out of range. -/
def pyIndex (len : Nat) (i : Int) : Res Nat :=
  if 0 ≤ i ∧ i < len then .ok i.toNat
  else if -(len : Int) ≤ i ∧ i < 0 then .ok (i + len).toNat
  else .error .index

/-- tensor_manips.py:4-19 `get_index_tensor`; int32 range not modelled. -/
def getIndexTensor (x : Tensor α) : Tensor Nat := ⟨x.shape, fun idx => ravel x.shape idx⟩

/-- tensor_manips.py:22-38 `move_axis_to_left_of` -/
def moveAxisToLeftOf (x : Tensor α) (moved target : Int) : Res (Tensor α) :=
  let target := if moved < target then target - 1 else target
  moveaxis x moved target

/-- tensor_manips.py:58-74 `split_shapes`. `None // factor` is a TypeError, `// 0` a ZeroDivisionError. -/
def splitShapes (shape : List (Option Nat)) (factor : Nat) (axis : Int) : Res (List (Option Nat)) := do
  let k ← pyIndex shape.length axis
  match shape[k]? with
  | some (some n) =>
    if factor = 0 then .error .zeroDiv
    else
      let shape := shape.set k (some (n / factor))
      return sliceTo shape axis ++ [some factor] ++ sliceFrom shape axis
  | _ => .error .typ

/-- tensor_manips.py:97-113 `merge_shapes`. Arithmetic with `None` is a TypeError. -/
def mergeShapes (shape : List (Option Nat)) (merged target : Int) : Res (List (Option Nat)) := do
  let m ← pyIndex shape.length merged
  let t ← pyIndex shape.length target
  match shape[t]?, shape[m]? with
  | some (some a), some (some b) => return (shape.set t (some (a * b))).eraseIdx m
  | _, _ => .error .typ

/-- tensor_manips.py:116-128 `format_batch_dim` -/
def formatBatchDim (shape : List (Option Nat)) : List Int :=
  shape.map fun s => match s with
    | some n => (n : Int)
    | none => -1

/-- tensor_manips.py:41-55 `split_axes`, on a tensor whose shape is known as `static` when the code runs: in eager mode
`static` is the full shape, in a traced graph the batch entry is `None` and the reshape is executed later on `x`. -/
def splitAxesS (static : List (Option Nat)) (x : Tensor α) (left : Nat) (axis : Int) : Res (Tensor α) := do
  let s ← splitShapes static left axis
  reshape x (formatBatchDim s)

/-- tensor_manips.py:77-94 `merge_axes`, with the same convention. -/
def mergeAxesS (static : List (Option Nat)) (x : Tensor α) (merged target : Int) : Res (Tensor α) := do
  let s ← mergeShapes static merged target
  let y ← moveAxisToLeftOf x merged target
  reshape y (formatBatchDim s)

/-- tensor_manips.py:41-55 in eager mode -/
def splitAxes (x : Tensor α) (left : Nat) (axis : Int) : Res (Tensor α) := splitAxesS (x.shape.map some) x left axis

/-- tensor_manips.py:77-94 in eager mode -/
def mergeAxes (x : Tensor α) (merged target : Int) : Res (Tensor α) := mergeAxesS (x.shape.map some) x merged target

end GroCo
