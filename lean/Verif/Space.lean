import Verif.Group

/-
Model of groco/groups/space_groups.py. The Oh tables are transcribed from the source; the tables of the derived groups
O, D4h, D4 are what `Group.__init__` computes from the parent, which is proved below.
-/

namespace GroCo

variable {α : Type}

/-- space_groups.py:7 `Oh_flip_axes` -/
def ohFlipAxes : List (List Nat) := [[], [1, 2], [0, 2], [0, 1], [2], [1], [0], [0, 1, 2]]

/-- space_groups.py:8 `Oh_permutation_tuples` -/
def ohPermutationTuples : List (List Nat) := [[0, 1, 2], [1, 2, 0], [2, 0, 1], [0, 2, 1], [2, 1, 0], [1, 0, 2]]

/-- space_groups.py:9 `Oh_parameters` -/
def ohParameters : List (List Nat × List Nat) :=
  ohPermutationTuples.flatMap fun p => ohFlipAxes.map fun f => (p, f)

/-- space_groups.py:12-30. Only `spatial_axes[0]` is looked at.
Simplification: the first spatial axis is non-negative (`range(offset)` of a negative offset is empty in Python and the
transpose then fails; modelled as a ValueError). -/
def Oh_action (x : Tensor α) (spatialAxes : List Int) (newAxis : Int) : Res (Tensor α) := do
  let offset ← (match spatialAxes with
    | o :: _ => if 0 ≤ o then .ok o.toNat else .error .value
    | [] => .error .index : Res Nat)
  let pre := List.range offset
  let suffix := (List.range x.rank).drop (offset + 3)
  let transformed ← ohParameters.mapM fun pf => do
    let y ← pf.2.foldlM (fun y f => flip y ((f + offset : Nat) : Int)) x
    let y ← transpose y (pre ++ pf.1.map (· + offset) ++ suffix)
    expandDims y newAxis
  concatenate transformed newAxis

/-- space_groups.py:36-2437 -/
def ohComposition : List (List Nat) := [
    [0, 1, 2, 3, 4, 5, 6, 7, 8, 9, 10, 11, 12, 13, 14, 15, 16, 17, 18, 19, 20, 21, 22, 23, 24, 25, 26, 27, 28, 29, 30, 31, 32, 33, 34, 35, 36, 37, 38, 39, 40, 41, 42, 43, 44, 45, 46, 47],
    [1, 0, 3, 2, 5, 4, 7, 6, 10, 11, 8, 9, 14, 15, 12, 13, 19, 18, 17, 16, 23, 22, 21, 20, 25, 24, 27, 26, 29, 28, 31, 30, 35, 34, 33, 32, 39, 38, 37, 36, 42, 43, 40, 41, 46, 47, 44, 45],
    [2, 3, 0, 1, 6, 7, 4, 5, 11, 10, 9, 8, 15, 14, 13, 12, 17, 16, 19, 18, 21, 20, 23, 22, 27, 26, 25, 24, 31, 30, 29, 28, 34, 35, 32, 33, 38, 39, 36, 37, 41, 40, 43, 42, 45, 44, 47, 46],
    [3, 2, 1, 0, 7, 6, 5, 4, 9, 8, 11, 10, 13, 12, 15, 14, 18, 19, 16, 17, 22, 23, 20, 21, 26, 27, 24, 25, 30, 31, 28, 29, 33, 32, 35, 34, 37, 36, 39, 38, 43, 42, 41, 40, 47, 46, 45, 44],
    [4, 5, 6, 7, 0, 1, 2, 3, 14, 15, 12, 13, 10, 11, 8, 9, 21, 20, 23, 22, 17, 16, 19, 18, 29, 28, 31, 30, 25, 24, 27, 26, 38, 39, 36, 37, 34, 35, 32, 33, 44, 45, 46, 47, 40, 41, 42, 43],
    [5, 4, 7, 6, 1, 0, 3, 2, 12, 13, 14, 15, 8, 9, 10, 11, 22, 23, 20, 21, 18, 19, 16, 17, 28, 29, 30, 31, 24, 25, 26, 27, 37, 36, 39, 38, 33, 32, 35, 34, 46, 47, 44, 45, 42, 43, 40, 41],
    [6, 7, 4, 5, 2, 3, 0, 1, 13, 12, 15, 14, 9, 8, 11, 10, 20, 21, 22, 23, 16, 17, 18, 19, 30, 31, 28, 29, 26, 27, 24, 25, 36, 37, 38, 39, 32, 33, 34, 35, 45, 44, 47, 46, 41, 40, 43, 42],
    [7, 6, 5, 4, 3, 2, 1, 0, 15, 14, 13, 12, 11, 10, 9, 8, 23, 22, 21, 20, 19, 18, 17, 16, 31, 30, 29, 28, 27, 26, 25, 24, 39, 38, 37, 36, 35, 34, 33, 32, 47, 46, 45, 44, 43, 42, 41, 40],
    [8, 9, 10, 11, 12, 13, 14, 15, 16, 17, 18, 19, 20, 21, 22, 23, 0, 1, 2, 3, 4, 5, 6, 7, 32, 33, 34, 35, 36, 37, 38, 39, 40, 41, 42, 43, 44, 45, 46, 47, 24, 25, 26, 27, 28, 29, 30, 31],
    [9, 8, 11, 10, 13, 12, 15, 14, 18, 19, 16, 17, 22, 23, 20, 21, 3, 2, 1, 0, 7, 6, 5, 4, 33, 32, 35, 34, 37, 36, 39, 38, 43, 42, 41, 40, 47, 46, 45, 44, 26, 27, 24, 25, 30, 31, 28, 29],
    [10, 11, 8, 9, 14, 15, 12, 13, 19, 18, 17, 16, 23, 22, 21, 20, 1, 0, 3, 2, 5, 4, 7, 6, 35, 34, 33, 32, 39, 38, 37, 36, 42, 43, 40, 41, 46, 47, 44, 45, 25, 24, 27, 26, 29, 28, 31, 30],
    [11, 10, 9, 8, 15, 14, 13, 12, 17, 16, 19, 18, 21, 20, 23, 22, 2, 3, 0, 1, 6, 7, 4, 5, 34, 35, 32, 33, 38, 39, 36, 37, 41, 40, 43, 42, 45, 44, 47, 46, 27, 26, 25, 24, 31, 30, 29, 28],
    [12, 13, 14, 15, 8, 9, 10, 11, 22, 23, 20, 21, 18, 19, 16, 17, 5, 4, 7, 6, 1, 0, 3, 2, 37, 36, 39, 38, 33, 32, 35, 34, 46, 47, 44, 45, 42, 43, 40, 41, 28, 29, 30, 31, 24, 25, 26, 27],
    [13, 12, 15, 14, 9, 8, 11, 10, 20, 21, 22, 23, 16, 17, 18, 19, 6, 7, 4, 5, 2, 3, 0, 1, 36, 37, 38, 39, 32, 33, 34, 35, 45, 44, 47, 46, 41, 40, 43, 42, 30, 31, 28, 29, 26, 27, 24, 25],
    [14, 15, 12, 13, 10, 11, 8, 9, 21, 20, 23, 22, 17, 16, 19, 18, 4, 5, 6, 7, 0, 1, 2, 3, 38, 39, 36, 37, 34, 35, 32, 33, 44, 45, 46, 47, 40, 41, 42, 43, 29, 28, 31, 30, 25, 24, 27, 26],
    [15, 14, 13, 12, 11, 10, 9, 8, 23, 22, 21, 20, 19, 18, 17, 16, 7, 6, 5, 4, 3, 2, 1, 0, 39, 38, 37, 36, 35, 34, 33, 32, 47, 46, 45, 44, 43, 42, 41, 40, 31, 30, 29, 28, 27, 26, 25, 24],
    [16, 17, 18, 19, 20, 21, 22, 23, 0, 1, 2, 3, 4, 5, 6, 7, 8, 9, 10, 11, 12, 13, 14, 15, 40, 41, 42, 43, 44, 45, 46, 47, 24, 25, 26, 27, 28, 29, 30, 31, 32, 33, 34, 35, 36, 37, 38, 39],
    [17, 16, 19, 18, 21, 20, 23, 22, 2, 3, 0, 1, 6, 7, 4, 5, 11, 10, 9, 8, 15, 14, 13, 12, 41, 40, 43, 42, 45, 44, 47, 46, 27, 26, 25, 24, 31, 30, 29, 28, 34, 35, 32, 33, 38, 39, 36, 37],
    [18, 19, 16, 17, 22, 23, 20, 21, 3, 2, 1, 0, 7, 6, 5, 4, 9, 8, 11, 10, 13, 12, 15, 14, 43, 42, 41, 40, 47, 46, 45, 44, 26, 27, 24, 25, 30, 31, 28, 29, 33, 32, 35, 34, 37, 36, 39, 38],
    [19, 18, 17, 16, 23, 22, 21, 20, 1, 0, 3, 2, 5, 4, 7, 6, 10, 11, 8, 9, 14, 15, 12, 13, 42, 43, 40, 41, 46, 47, 44, 45, 25, 24, 27, 26, 29, 28, 31, 30, 35, 34, 33, 32, 39, 38, 37, 36],
    [20, 21, 22, 23, 16, 17, 18, 19, 6, 7, 4, 5, 2, 3, 0, 1, 13, 12, 15, 14, 9, 8, 11, 10, 45, 44, 47, 46, 41, 40, 43, 42, 30, 31, 28, 29, 26, 27, 24, 25, 36, 37, 38, 39, 32, 33, 34, 35],
    [21, 20, 23, 22, 17, 16, 19, 18, 4, 5, 6, 7, 0, 1, 2, 3, 14, 15, 12, 13, 10, 11, 8, 9, 44, 45, 46, 47, 40, 41, 42, 43, 29, 28, 31, 30, 25, 24, 27, 26, 38, 39, 36, 37, 34, 35, 32, 33],
    [22, 23, 20, 21, 18, 19, 16, 17, 5, 4, 7, 6, 1, 0, 3, 2, 12, 13, 14, 15, 8, 9, 10, 11, 46, 47, 44, 45, 42, 43, 40, 41, 28, 29, 30, 31, 24, 25, 26, 27, 37, 36, 39, 38, 33, 32, 35, 34],
    [23, 22, 21, 20, 19, 18, 17, 16, 7, 6, 5, 4, 3, 2, 1, 0, 15, 14, 13, 12, 11, 10, 9, 8, 47, 46, 45, 44, 43, 42, 41, 40, 31, 30, 29, 28, 27, 26, 25, 24, 39, 38, 37, 36, 35, 34, 33, 32],
    [24, 25, 26, 27, 28, 29, 30, 31, 40, 41, 42, 43, 44, 45, 46, 47, 32, 33, 34, 35, 36, 37, 38, 39, 0, 1, 2, 3, 4, 5, 6, 7, 16, 17, 18, 19, 20, 21, 22, 23, 8, 9, 10, 11, 12, 13, 14, 15],
    [25, 24, 27, 26, 29, 28, 31, 30, 42, 43, 40, 41, 46, 47, 44, 45, 35, 34, 33, 32, 39, 38, 37, 36, 1, 0, 3, 2, 5, 4, 7, 6, 19, 18, 17, 16, 23, 22, 21, 20, 10, 11, 8, 9, 14, 15, 12, 13],
    [26, 27, 24, 25, 30, 31, 28, 29, 43, 42, 41, 40, 47, 46, 45, 44, 33, 32, 35, 34, 37, 36, 39, 38, 3, 2, 1, 0, 7, 6, 5, 4, 18, 19, 16, 17, 22, 23, 20, 21, 9, 8, 11, 10, 13, 12, 15, 14],
    [27, 26, 25, 24, 31, 30, 29, 28, 41, 40, 43, 42, 45, 44, 47, 46, 34, 35, 32, 33, 38, 39, 36, 37, 2, 3, 0, 1, 6, 7, 4, 5, 17, 16, 19, 18, 21, 20, 23, 22, 11, 10, 9, 8, 15, 14, 13, 12],
    [28, 29, 30, 31, 24, 25, 26, 27, 46, 47, 44, 45, 42, 43, 40, 41, 37, 36, 39, 38, 33, 32, 35, 34, 5, 4, 7, 6, 1, 0, 3, 2, 22, 23, 20, 21, 18, 19, 16, 17, 12, 13, 14, 15, 8, 9, 10, 11],
    [29, 28, 31, 30, 25, 24, 27, 26, 44, 45, 46, 47, 40, 41, 42, 43, 38, 39, 36, 37, 34, 35, 32, 33, 4, 5, 6, 7, 0, 1, 2, 3, 21, 20, 23, 22, 17, 16, 19, 18, 14, 15, 12, 13, 10, 11, 8, 9],
    [30, 31, 28, 29, 26, 27, 24, 25, 45, 44, 47, 46, 41, 40, 43, 42, 36, 37, 38, 39, 32, 33, 34, 35, 6, 7, 4, 5, 2, 3, 0, 1, 20, 21, 22, 23, 16, 17, 18, 19, 13, 12, 15, 14, 9, 8, 11, 10],
    [31, 30, 29, 28, 27, 26, 25, 24, 47, 46, 45, 44, 43, 42, 41, 40, 39, 38, 37, 36, 35, 34, 33, 32, 7, 6, 5, 4, 3, 2, 1, 0, 23, 22, 21, 20, 19, 18, 17, 16, 15, 14, 13, 12, 11, 10, 9, 8],
    [32, 33, 34, 35, 36, 37, 38, 39, 24, 25, 26, 27, 28, 29, 30, 31, 40, 41, 42, 43, 44, 45, 46, 47, 8, 9, 10, 11, 12, 13, 14, 15, 0, 1, 2, 3, 4, 5, 6, 7, 16, 17, 18, 19, 20, 21, 22, 23],
    [33, 32, 35, 34, 37, 36, 39, 38, 26, 27, 24, 25, 30, 31, 28, 29, 43, 42, 41, 40, 47, 46, 45, 44, 9, 8, 11, 10, 13, 12, 15, 14, 3, 2, 1, 0, 7, 6, 5, 4, 18, 19, 16, 17, 22, 23, 20, 21],
    [34, 35, 32, 33, 38, 39, 36, 37, 27, 26, 25, 24, 31, 30, 29, 28, 41, 40, 43, 42, 45, 44, 47, 46, 11, 10, 9, 8, 15, 14, 13, 12, 2, 3, 0, 1, 6, 7, 4, 5, 17, 16, 19, 18, 21, 20, 23, 22],
    [35, 34, 33, 32, 39, 38, 37, 36, 25, 24, 27, 26, 29, 28, 31, 30, 42, 43, 40, 41, 46, 47, 44, 45, 10, 11, 8, 9, 14, 15, 12, 13, 1, 0, 3, 2, 5, 4, 7, 6, 19, 18, 17, 16, 23, 22, 21, 20],
    [36, 37, 38, 39, 32, 33, 34, 35, 30, 31, 28, 29, 26, 27, 24, 25, 45, 44, 47, 46, 41, 40, 43, 42, 13, 12, 15, 14, 9, 8, 11, 10, 6, 7, 4, 5, 2, 3, 0, 1, 20, 21, 22, 23, 16, 17, 18, 19],
    [37, 36, 39, 38, 33, 32, 35, 34, 28, 29, 30, 31, 24, 25, 26, 27, 46, 47, 44, 45, 42, 43, 40, 41, 12, 13, 14, 15, 8, 9, 10, 11, 5, 4, 7, 6, 1, 0, 3, 2, 22, 23, 20, 21, 18, 19, 16, 17],
    [38, 39, 36, 37, 34, 35, 32, 33, 29, 28, 31, 30, 25, 24, 27, 26, 44, 45, 46, 47, 40, 41, 42, 43, 14, 15, 12, 13, 10, 11, 8, 9, 4, 5, 6, 7, 0, 1, 2, 3, 21, 20, 23, 22, 17, 16, 19, 18],
    [39, 38, 37, 36, 35, 34, 33, 32, 31, 30, 29, 28, 27, 26, 25, 24, 47, 46, 45, 44, 43, 42, 41, 40, 15, 14, 13, 12, 11, 10, 9, 8, 7, 6, 5, 4, 3, 2, 1, 0, 23, 22, 21, 20, 19, 18, 17, 16],
    [40, 41, 42, 43, 44, 45, 46, 47, 32, 33, 34, 35, 36, 37, 38, 39, 24, 25, 26, 27, 28, 29, 30, 31, 16, 17, 18, 19, 20, 21, 22, 23, 8, 9, 10, 11, 12, 13, 14, 15, 0, 1, 2, 3, 4, 5, 6, 7],
    [41, 40, 43, 42, 45, 44, 47, 46, 34, 35, 32, 33, 38, 39, 36, 37, 27, 26, 25, 24, 31, 30, 29, 28, 17, 16, 19, 18, 21, 20, 23, 22, 11, 10, 9, 8, 15, 14, 13, 12, 2, 3, 0, 1, 6, 7, 4, 5],
    [42, 43, 40, 41, 46, 47, 44, 45, 35, 34, 33, 32, 39, 38, 37, 36, 25, 24, 27, 26, 29, 28, 31, 30, 19, 18, 17, 16, 23, 22, 21, 20, 10, 11, 8, 9, 14, 15, 12, 13, 1, 0, 3, 2, 5, 4, 7, 6],
    [43, 42, 41, 40, 47, 46, 45, 44, 33, 32, 35, 34, 37, 36, 39, 38, 26, 27, 24, 25, 30, 31, 28, 29, 18, 19, 16, 17, 22, 23, 20, 21, 9, 8, 11, 10, 13, 12, 15, 14, 3, 2, 1, 0, 7, 6, 5, 4],
    [44, 45, 46, 47, 40, 41, 42, 43, 38, 39, 36, 37, 34, 35, 32, 33, 29, 28, 31, 30, 25, 24, 27, 26, 21, 20, 23, 22, 17, 16, 19, 18, 14, 15, 12, 13, 10, 11, 8, 9, 4, 5, 6, 7, 0, 1, 2, 3],
    [45, 44, 47, 46, 41, 40, 43, 42, 36, 37, 38, 39, 32, 33, 34, 35, 30, 31, 28, 29, 26, 27, 24, 25, 20, 21, 22, 23, 16, 17, 18, 19, 13, 12, 15, 14, 9, 8, 11, 10, 6, 7, 4, 5, 2, 3, 0, 1],
    [46, 47, 44, 45, 42, 43, 40, 41, 37, 36, 39, 38, 33, 32, 35, 34, 28, 29, 30, 31, 24, 25, 26, 27, 22, 23, 20, 21, 18, 19, 16, 17, 12, 13, 14, 15, 8, 9, 10, 11, 5, 4, 7, 6, 1, 0, 3, 2],
    [47, 46, 45, 44, 43, 42, 41, 40, 39, 38, 37, 36, 35, 34, 33, 32, 31, 30, 29, 28, 27, 26, 25, 24, 23, 22, 21, 20, 19, 18, 17, 16, 15, 14, 13, 12, 11, 10, 9, 8, 7, 6, 5, 4, 3, 2, 1, 0]]

/-- space_groups.py:2438-2468 -/
def ohSubgroup : List (String × List Nat) := [
    ("Oh", [0, 1, 2, 3, 4, 5, 6, 7, 8, 9, 10, 11, 12, 13, 14, 15, 16, 17, 18, 19, 20, 21, 22, 23, 24, 25, 26, 27, 28, 29, 30, 31, 32, 33, 34, 35, 36, 37, 38, 39, 40, 41, 42, 43, 44, 45, 46, 47]),
    ("O", [0, 1, 2, 3, 8, 9, 10, 11, 16, 17, 18, 19, 28, 29, 30, 31, 36, 37, 38, 39, 44, 45, 46, 47]),
    ("D4h", [0, 1, 2, 3, 4, 5, 6, 7, 40, 41, 42, 43, 44, 45, 46, 47]),
    ("D4", [0, 1, 2, 3, 44, 45, 46, 47])]

/-- space_groups.py:2469-2485 -/
def ohCosets : List (String × List Nat) := [
    ("Oh", [0]),
    ("O", [0, 4]),
    ("D4h", [0, 24, 32]),
    ("D4", [0, 24, 32, 4, 28, 36])]

/-- space_groups.py:33-2487. `inverses` is not given in the source; it is the list computed by `_compute_inverses`
(theorem `Oh_init`). -/
def OhData : GroupData where
  name := "Oh"
  order := 48
  composition := ohComposition
  inverses := [0, 1, 2, 3, 4, 5, 6, 7, 16, 19, 17, 18, 21, 22, 20, 23, 8, 10, 11, 9, 14, 12, 13, 15, 24, 25, 27, 26, 29, 28, 30, 31, 32, 35, 34, 33, 38, 37, 36, 39, 40, 42, 41, 43, 44, 46, 45, 47]
  subgroup := ohSubgroup
  cosets := ohCosets

theorem Oh_init : initData "Oh" 48 none (some ohComposition) (some ohSubgroup) (some ohCosets) none = .ok OhData := by
  decide +kernel

def Oh : Group := { OhData with act := fun _ => Oh_action }

/-- space_groups.py:2489; the tables are those computed by `Group.__init__` from the parent (theorem `O_init`). -/
def OData : GroupData where
  name := "O"
  order := 24
  composition := [
    [0, 1, 2, 3, 4, 5, 6, 7, 8, 9, 10, 11, 12, 13, 14, 15, 16, 17, 18, 19, 20, 21, 22, 23],
    [1, 0, 3, 2, 6, 7, 4, 5, 11, 10, 9, 8, 13, 12, 15, 14, 19, 18, 17, 16, 22, 23, 20, 21],
    [2, 3, 0, 1, 7, 6, 5, 4, 9, 8, 11, 10, 15, 14, 13, 12, 18, 19, 16, 17, 21, 20, 23, 22],
    [3, 2, 1, 0, 5, 4, 7, 6, 10, 11, 8, 9, 14, 15, 12, 13, 17, 16, 19, 18, 23, 22, 21, 20],
    [4, 5, 6, 7, 8, 9, 10, 11, 0, 1, 2, 3, 16, 17, 18, 19, 20, 21, 22, 23, 12, 13, 14, 15],
    [5, 4, 7, 6, 10, 11, 8, 9, 3, 2, 1, 0, 17, 16, 19, 18, 23, 22, 21, 20, 14, 15, 12, 13],
    [6, 7, 4, 5, 11, 10, 9, 8, 1, 0, 3, 2, 19, 18, 17, 16, 22, 23, 20, 21, 13, 12, 15, 14],
    [7, 6, 5, 4, 9, 8, 11, 10, 2, 3, 0, 1, 18, 19, 16, 17, 21, 20, 23, 22, 15, 14, 13, 12],
    [8, 9, 10, 11, 0, 1, 2, 3, 4, 5, 6, 7, 20, 21, 22, 23, 12, 13, 14, 15, 16, 17, 18, 19],
    [9, 8, 11, 10, 2, 3, 0, 1, 7, 6, 5, 4, 21, 20, 23, 22, 15, 14, 13, 12, 18, 19, 16, 17],
    [10, 11, 8, 9, 3, 2, 1, 0, 5, 4, 7, 6, 23, 22, 21, 20, 14, 15, 12, 13, 17, 16, 19, 18],
    [11, 10, 9, 8, 1, 0, 3, 2, 6, 7, 4, 5, 22, 23, 20, 21, 13, 12, 15, 14, 19, 18, 17, 16],
    [12, 13, 14, 15, 22, 23, 20, 21, 17, 16, 19, 18, 1, 0, 3, 2, 10, 11, 8, 9, 4, 5, 6, 7],
    [13, 12, 15, 14, 20, 21, 22, 23, 18, 19, 16, 17, 0, 1, 2, 3, 9, 8, 11, 10, 6, 7, 4, 5],
    [14, 15, 12, 13, 21, 20, 23, 22, 16, 17, 18, 19, 2, 3, 0, 1, 8, 9, 10, 11, 5, 4, 7, 6],
    [15, 14, 13, 12, 23, 22, 21, 20, 19, 18, 17, 16, 3, 2, 1, 0, 11, 10, 9, 8, 7, 6, 5, 4],
    [16, 17, 18, 19, 14, 15, 12, 13, 21, 20, 23, 22, 5, 4, 7, 6, 2, 3, 0, 1, 8, 9, 10, 11],
    [17, 16, 19, 18, 12, 13, 14, 15, 22, 23, 20, 21, 4, 5, 6, 7, 1, 0, 3, 2, 10, 11, 8, 9],
    [18, 19, 16, 17, 13, 12, 15, 14, 20, 21, 22, 23, 6, 7, 4, 5, 0, 1, 2, 3, 9, 8, 11, 10],
    [19, 18, 17, 16, 15, 14, 13, 12, 23, 22, 21, 20, 7, 6, 5, 4, 3, 2, 1, 0, 11, 10, 9, 8],
    [20, 21, 22, 23, 18, 19, 16, 17, 13, 12, 15, 14, 9, 8, 11, 10, 6, 7, 4, 5, 0, 1, 2, 3],
    [21, 20, 23, 22, 16, 17, 18, 19, 14, 15, 12, 13, 8, 9, 10, 11, 5, 4, 7, 6, 2, 3, 0, 1],
    [22, 23, 20, 21, 17, 16, 19, 18, 12, 13, 14, 15, 10, 11, 8, 9, 4, 5, 6, 7, 1, 0, 3, 2],
    [23, 22, 21, 20, 19, 18, 17, 16, 15, 14, 13, 12, 11, 10, 9, 8, 7, 6, 5, 4, 3, 2, 1, 0]]
  inverses := [0, 1, 2, 3, 8, 11, 9, 10, 4, 6, 7, 5, 13, 12, 14, 15, 18, 17, 16, 19, 20, 22, 21, 23]
  subgroup := [
    ("O", [0, 1, 2, 3, 4, 5, 6, 7, 8, 9, 10, 11, 12, 13, 14, 15, 16, 17, 18, 19, 20, 21, 22, 23]),
    ("D4", [0, 1, 2, 3, 20, 21, 22, 23])]
  cosets := [
    ("O", [0]),
    ("D4", [0, 12, 16])]

theorem O_init : initData "O" 24 none none none none (some OhData) = .ok OData := by
  decide +kernel

def O : Group := { OData with act := subgroupAction Oh "O" }

/-- space_groups.py:2490; the tables are those computed by `Group.__init__` from the parent (theorem `D4h_init`). -/
def D4hData : GroupData where
  name := "D4h"
  order := 16
  composition := [
    [0, 1, 2, 3, 4, 5, 6, 7, 8, 9, 10, 11, 12, 13, 14, 15],
    [1, 0, 3, 2, 5, 4, 7, 6, 10, 11, 8, 9, 14, 15, 12, 13],
    [2, 3, 0, 1, 6, 7, 4, 5, 9, 8, 11, 10, 13, 12, 15, 14],
    [3, 2, 1, 0, 7, 6, 5, 4, 11, 10, 9, 8, 15, 14, 13, 12],
    [4, 5, 6, 7, 0, 1, 2, 3, 12, 13, 14, 15, 8, 9, 10, 11],
    [5, 4, 7, 6, 1, 0, 3, 2, 14, 15, 12, 13, 10, 11, 8, 9],
    [6, 7, 4, 5, 2, 3, 0, 1, 13, 12, 15, 14, 9, 8, 11, 10],
    [7, 6, 5, 4, 3, 2, 1, 0, 15, 14, 13, 12, 11, 10, 9, 8],
    [8, 9, 10, 11, 12, 13, 14, 15, 0, 1, 2, 3, 4, 5, 6, 7],
    [9, 8, 11, 10, 13, 12, 15, 14, 2, 3, 0, 1, 6, 7, 4, 5],
    [10, 11, 8, 9, 14, 15, 12, 13, 1, 0, 3, 2, 5, 4, 7, 6],
    [11, 10, 9, 8, 15, 14, 13, 12, 3, 2, 1, 0, 7, 6, 5, 4],
    [12, 13, 14, 15, 8, 9, 10, 11, 4, 5, 6, 7, 0, 1, 2, 3],
    [13, 12, 15, 14, 9, 8, 11, 10, 6, 7, 4, 5, 2, 3, 0, 1],
    [14, 15, 12, 13, 10, 11, 8, 9, 5, 4, 7, 6, 1, 0, 3, 2],
    [15, 14, 13, 12, 11, 10, 9, 8, 7, 6, 5, 4, 3, 2, 1, 0]]
  inverses := [0, 1, 2, 3, 4, 5, 6, 7, 8, 10, 9, 11, 12, 14, 13, 15]
  subgroup := [
    ("D4h", [0, 1, 2, 3, 4, 5, 6, 7, 8, 9, 10, 11, 12, 13, 14, 15]),
    ("D4", [0, 1, 2, 3, 12, 13, 14, 15])]
  cosets := [
    ("D4h", [0]),
    ("D4", [0, 4])]

theorem D4h_init : initData "D4h" 16 none none none none (some OhData) = .ok D4hData := by
  decide +kernel

def D4h : Group := { D4hData with act := subgroupAction Oh "D4h" }

/-- space_groups.py:2491; the tables are those computed by `Group.__init__` from the parent (theorem `D4_init`). -/
def D4Data : GroupData where
  name := "D4"
  order := 8
  composition := [
    [0, 1, 2, 3, 4, 5, 6, 7],
    [1, 0, 3, 2, 6, 7, 4, 5],
    [2, 3, 0, 1, 5, 4, 7, 6],
    [3, 2, 1, 0, 7, 6, 5, 4],
    [4, 5, 6, 7, 0, 1, 2, 3],
    [5, 4, 7, 6, 2, 3, 0, 1],
    [6, 7, 4, 5, 1, 0, 3, 2],
    [7, 6, 5, 4, 3, 2, 1, 0]]
  inverses := [0, 1, 2, 3, 4, 6, 5, 7]
  subgroup := [
    ("D4", [0, 1, 2, 3, 4, 5, 6, 7])]
  cosets := [
    ("D4", [0])]

theorem D4_init : initData "D4" 8 none none none none (some OhData) = .ok D4Data := by
  decide +kernel

def D4 : Group := { D4Data with act := subgroupAction Oh "D4" }

/-- space_groups.py:2494 -/
def spaceGroupDict : List (String × Group) := [("Oh", Oh), ("O", O), ("D4h", D4h), ("D4", D4)]

end GroCo
