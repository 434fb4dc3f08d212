import Verif.Basic

/-
Model of the `keras.ops` functions that /repo calls. Keras itself is not part of /repo: each definition states the
numpy/Keras 3 semantics the repo relies on and cites the places in /repo where the function is used.
A tensor is its shape together with its entries; entries at indices that are not `Valid` for the shape are junk and are
never part of a statement. Dtypes are not modelled: entries have an arbitrary type `α`.
-/

namespace GroCo

structure Tensor (α : Type) where
  shape : List Nat
  get : List Nat → α

namespace Tensor

variable {α β : Type}

/-- Two tensors are the same tensor: same shape and same entries. -/
def Same (t u : Tensor α) : Prop := t.shape = u.shape ∧ ∀ idx, Valid t.shape idx → t.get idx = u.get idx

/-- `ops.ndim` (wallpaper_groups.py:16,36; space_groups.py:15). -/
abbrev rank (t : Tensor α) : Nat := t.shape.length

end Tensor

open Tensor

variable {α β : Type}

/-- Normalisation of a possibly negative axis, as done by every keras op taking an axis. -/
def normAxis (rank : Nat) (ax : Int) : Res Nat :=
  if 0 ≤ ax ∧ ax < rank then .ok ax.toNat
  else if -(rank : Int) ≤ ax ∧ ax < 0 then .ok (ax + rank).toNat
  else .error .value

/-- `ops.expand_dims` (wallpaper_groups.py:8; space_groups.py:25; padding.py:132; pooling.py:114). -/
def expandDims (x : Tensor α) (ax : Int) : Res (Tensor α) := do
  let a ← normAxis (x.rank + 1) ax
  return ⟨x.shape.insertIdx a 1, fun idx => x.get (idx.eraseIdx a)⟩

/-- `ops.flip` along one axis (wallpaper_groups.py:14; space_groups.py:24). -/
def flip (x : Tensor α) (ax : Int) : Res (Tensor α) := do
  let a ← normAxis x.rank ax
  return ⟨x.shape, fun idx => x.get (idx.set a (nth x.shape a - 1 - nth idx a))⟩

/-- `ops.transpose` (wallpaper_groups.py:18; space_groups.py:26): axis `j` of the result is axis `perm[j]` of `x`. -/
def transpose (x : Tensor α) (perm : List Nat) : Res (Tensor α) :=
  if perm.length = x.rank ∧ ∀ a ∈ List.range x.rank, a ∈ perm then
    .ok ⟨perm.map (nth x.shape), fun idx => x.get ((List.range x.rank).map fun a => nth idx (perm.idxOf a))⟩
  else .error .value

/-- Entries of a concatenation of `t :: ts` along axis `a`. -/
def concatGet (a : Nat) : Tensor α → List (Tensor α) → List Nat → α
  | t, [], idx => t.get idx
  | t, u :: us, idx =>
    if nth idx a < nth t.shape a then t.get idx
    else concatGet a u us (idx.set a (nth idx a - nth t.shape a))

/-- `ops.concatenate` (wallpaper_groups.py:14; space_groups.py:29; group.py:151; group_transforms.py:173):
all sizes except along the axis must agree. -/
def concatenate (ts : List (Tensor α)) (ax : Int) : Res (Tensor α) :=
  match ts with
  | [] => .error .value
  | t :: us => do
    let a ← normAxis t.rank ax
    if ∀ u ∈ us, u.shape.eraseIdx a = t.shape.eraseIdx a ∧ u.rank = t.rank then
      return ⟨t.shape.set a ((t :: us).map (fun u => nth u.shape a)).sum, concatGet a t us⟩
    else .error .value

/-- `ops.take` with a list of indices (wallpaper_groups.py:20; group.py:96,130,147,155,179).
Simplification: an out of range index is an error (backends differ: some clip, some raise); negative indices, which
/repo never passes, are not modelled. -/
def take (x : Tensor α) (is : List Nat) (ax : Int) : Res (Tensor α) := do
  let a ← normAxis x.rank ax
  if ∀ i ∈ is, i < nth x.shape a then
    return ⟨x.shape.set a is.length, fun idx => x.get (idx.set a (nth is (nth idx a)))⟩
  else .error .index

/-- `ops.take` with a tensor of indices (group_transforms.py:93,103,128): the indexed axis is replaced by the axes of
the index tensor. Same simplification as `take`. -/
def takeT (x : Tensor α) (is : Tensor Nat) (ax : Int) : Res (Tensor α) := do
  let a ← normAxis x.rank ax
  if ∀ i ∈ indices is.shape, is.get i < nth x.shape a then
    return ⟨x.shape.take a ++ is.shape ++ x.shape.drop (a + 1), fun idx =>
      x.get (idx.take a ++ [is.get ((idx.drop a).take is.rank)] ++ idx.drop (a + is.rank))⟩
  else .error .index

/-- `ops.reshape` to a fully known shape. -/
def reshapeN (x : Tensor α) (s : List Nat) : Res (Tensor α) :=
  if prod x.shape = prod s then .ok ⟨s, fun idx => x.get (unravel x.shape (ravel s idx))⟩ else .error .value

/-- Resolution of the single allowed `-1` in a target shape of `ops.reshape`. -/
def resolveShape (size : Nat) (s : List Int) : Res (List Nat) :=
  if s.all (fun n => decide (0 ≤ n)) then .ok (s.map Int.toNat)
  else
    let known := prod ((s.filter (fun n => decide (n ≠ -1))).map Int.toNat)
    if s.all (fun n => decide (-1 ≤ n)) ∧ s.count (-1) = 1 ∧ known ≠ 0 ∧ size % known = 0 then
      .ok (s.map fun n => if n = -1 then size / known else n.toNat)
    else .error .value

/-- `ops.reshape` (tensor_manips.py:18,55,94; group.py:163; group_transforms.py:103; equivariance.py:92,94). -/
def reshape (x : Tensor α) (s : List Int) : Res (Tensor α) := do
  let s ← resolveShape (prod x.shape) s
  reshapeN x s

/-- Axis order used by `ops.moveaxis`, as in numpy: remove the source, insert it at the destination. -/
def moveOrder (rank src dst : Nat) : List Nat := ((List.range rank).eraseIdx src).insertIdx dst src

/-- `ops.moveaxis` (tensor_manips.py:38; group.py:133; group_transforms.py:118). -/
def moveaxis (x : Tensor α) (src dst : Int) : Res (Tensor α) := do
  let s ← normAxis x.rank src
  let d ← normAxis x.rank dst
  transpose x (moveOrder x.rank s d)

/-- `list[i], list[j] = list[j], list[i]` on a list of axes. -/
def swapList (l : List Nat) (i j : Nat) : List Nat := (l.set i (nth l j)).set j (nth l i)

/-- `ops.swapaxes` (group_transforms.py:181,213). -/
def swapaxes (x : Tensor α) (i j : Int) : Res (Tensor α) := do
  let i ← normAxis x.rank i
  let j ← normAxis x.rank j
  transpose x (swapList (List.range x.rank) i j)

/-- Is `idx`, shifted back by the leading padding, inside the unpadded tensor? -/
def unpad : List Nat → List (Nat × Nat) → List Nat → Option (List Nat)
  | [], [], [] => some []
  | n :: s, (b, _) :: ps, i :: idx =>
    if b ≤ i ∧ i - b < n then (unpad s ps idx).map (fun r => (i - b) :: r) else none
  | _, _, _ => none

/-- `ops.pad` with zeros (padding.py:70). -/
def pad [Zero α] (x : Tensor α) (ps : List (Nat × Nat)) : Res (Tensor α) :=
  if ps.length = x.rank then
    .ok ⟨List.zipWith (fun n p => p.1 + n + p.2) x.shape ps, fun idx =>
      match unpad x.shape ps idx with
      | some i => x.get i
      | none => 0⟩
  else .error .value

/-- `ops.zeros` (group.py:139). -/
def zeros [Zero α] (s : List Nat) : Tensor α := ⟨s, fun _ => 0⟩

/-- Reduction along one axis by a function of the list of entries, e.g. `ops.max`, `ops.mean`
(group_transforms.py:129-130; pooling.py:108-110). An empty axis is an error. -/
def reduceAxis (f : List α → α) (x : Tensor α) (ax : Int) : Res (Tensor α) := do
  let a ← normAxis x.rank ax
  if nth x.shape a = 0 then .error .value
  else return ⟨x.shape.eraseIdx a, fun idx => f ((List.range (nth x.shape a)).map fun i => x.get (idx.insertIdx a i))⟩

end GroCo
