import Verif.Group

/- Model of groco/groups/wallpaper_groups.py, function by function and table by table. -/

namespace GroCo

variable {α : Type}

/-- `height_axis, width_axis = spatial_axes` (ValueError unless there are two). -/
def unpack2 (l : List Int) : Res (Int × Int) :=
  match l with
  | [a, b] => .ok (a, b)
  | _ => .error .value

/-- `axes = list(range(ndim)); axes[h], axes[w] = axes[w], axes[h]` (wallpaper_groups.py:16-17, 36-37). -/
def swappedAxes (rank : Nat) (h w : Int) : Res (List Nat) := do
  let h ← pyIndex rank h
  let w ← pyIndex rank w
  return swapList (List.range rank) h w

/-- wallpaper_groups.py:6-22 -/
def P4M_action (x : Tensor α) (spatialAxes : List Int) (newAxis : Int) : Res (Tensor α) := do
  let hw ← unpack2 spatialAxes
  let x ← expandDims x newAxis
  let h := if newAxis ≤ hw.1 then hw.1 + 1 else hw.1
  let w := if newAxis ≤ hw.2 then hw.2 + 1 else hw.2
  let y ← flip x w
  let x ← concatenate [x, y] newAxis
  let y ← flip x h
  let x ← concatenate [x, y] newAxis
  let axes ← swappedAxes x.rank h w
  let y ← transpose x axes
  let x ← concatenate [x, y] newAxis
  take x [0, 5, 3, 6, 1, 4, 2, 7] newAxis

/-- wallpaper_groups.py:25-42 -/
def P4_action (x : Tensor α) (spatialAxes : List Int) (newAxis : Int) : Res (Tensor α) := do
  let hw ← unpack2 spatialAxes
  let x ← expandDims x newAxis
  let h := if newAxis ≤ hw.1 then hw.1 + 1 else hw.1
  let w := if newAxis ≤ hw.2 then hw.2 + 1 else hw.2
  let y ← flip x w
  let y ← flip y h
  let x ← concatenate [x, y] newAxis
  let axes ← swappedAxes x.rank h w
  let y ← transpose x axes
  let y ← flip y h
  let x ← concatenate [x, y] newAxis
  take x [0, 2, 1, 3] newAxis

/-- wallpaper_groups.py:45-56 -/
def P2MM_action (x : Tensor α) (spatialAxes : List Int) (newAxis : Int) : Res (Tensor α) := do
  let hw ← unpack2 spatialAxes
  let x ← expandDims x newAxis
  let h := if newAxis ≤ hw.1 then hw.1 + 1 else hw.1
  let w := if newAxis ≤ hw.2 then hw.2 + 1 else hw.2
  let y ← flip x w
  let x ← concatenate [x, y] newAxis
  let y ← flip x h
  concatenate [x, y] newAxis

/-- wallpaper_groups.py:59-69 -/
def PMh_action (x : Tensor α) (spatialAxes : List Int) (newAxis : Int) : Res (Tensor α) := do
  let hw ← unpack2 spatialAxes
  let x ← expandDims x newAxis
  let h := if newAxis ≤ hw.1 then hw.1 + 1 else hw.1
  let y ← flip x h
  concatenate [x, y] newAxis

/-- wallpaper_groups.py:72-82 -/
def PMw_action (x : Tensor α) (spatialAxes : List Int) (newAxis : Int) : Res (Tensor α) := do
  let hw ← unpack2 spatialAxes
  let x ← expandDims x newAxis
  let w := if newAxis ≤ hw.2 then hw.2 + 1 else hw.2
  let y ← flip x w
  concatenate [x, y] newAxis

/-- wallpaper_groups.py:85-95 -/
def P2_action (x : Tensor α) (spatialAxes : List Int) (newAxis : Int) : Res (Tensor α) := do
  let hw ← unpack2 spatialAxes
  let x ← expandDims x newAxis
  let h := if newAxis ≤ hw.1 then hw.1 + 1 else hw.1
  let w := if newAxis ≤ hw.2 then hw.2 + 1 else hw.2
  let y ← flip x w
  let y ← flip y h
  concatenate [x, y] newAxis

/-- wallpaper_groups.py:98-100; the spatial axes are not looked at. -/
def P1_action (x : Tensor α) (_spatialAxes : List Int) (newAxis : Int) : Res (Tensor α) := do
  expandDims x newAxis

/-- wallpaper_groups.py:103-136 -/
def P4M : Group where
  name := "P4M"
  order := 8
  inverses := [0, 3, 2, 1, 4, 5, 6, 7]
  composition := [
    [0, 1, 2, 3, 4, 5, 6, 7],
    [1, 2, 3, 0, 5, 6, 7, 4],
    [2, 3, 0, 1, 6, 7, 4, 5],
    [3, 0, 1, 2, 7, 4, 5, 6],
    [4, 7, 6, 5, 0, 3, 2, 1],
    [5, 4, 7, 6, 1, 0, 3, 2],
    [6, 5, 4, 7, 2, 1, 0, 3],
    [7, 6, 5, 4, 3, 2, 1, 0]]
  subgroup := [
    ("P4M", [0, 1, 2, 3, 4, 5, 6, 7]),
    ("P4", [0, 1, 2, 3]),
    ("P2MM", [0, 4, 6, 2]),
    ("PMw", [0, 4]),
    ("PMh", [0, 6]),
    ("P2", [0, 2]),
    ("P1", [0])]
  cosets := [
    ("P4M", [0]),
    ("P4", [0, 4]),
    ("P2MM", [0, 1]),
    ("PMw", [0, 1, 2, 3]),
    ("PMh", [0, 1, 2, 3]),
    ("P2", [0, 1, 4, 5]),
    ("P1", [0, 1, 2, 3, 4, 5, 6, 7])]
  act := fun _ => P4M_action

/-- wallpaper_groups.py:137-145 -/
def P4 : Group where
  name := "P4"
  order := 4
  inverses := [0, 3, 2, 1]
  composition := [[0, 1, 2, 3], [1, 2, 3, 0], [2, 3, 0, 1], [3, 0, 1, 2]]
  subgroup := [("P4", [0, 1, 2, 3]), ("P2", [0, 2]), ("P1", [0])]
  cosets := [("P4", [0]), ("P2", [0, 1]), ("P1", [0, 1, 2, 3])]
  act := fun _ => P4_action

/-- wallpaper_groups.py:146-154 -/
def P2MM : Group where
  name := "P2MM"
  order := 4
  inverses := [0, 1, 2, 3]
  composition := [[0, 1, 2, 3], [1, 0, 3, 2], [2, 3, 0, 1], [3, 2, 1, 0]]
  subgroup := [("P2MM", [0, 1, 2, 3]), ("PMh", [0, 2]), ("PMw", [0, 1]), ("P1", [0])]
  cosets := [("P2MM", [0]), ("PMh", [0, 1]), ("PMw", [0, 2]), ("P1", [0, 1, 2, 3])]
  act := fun _ => P2MM_action

/-- wallpaper_groups.py:155-163 -/
def PMh : Group where
  name := "PMh"
  order := 2
  inverses := [0, 1]
  composition := [[0, 1], [1, 0]]
  subgroup := [("PMh", [0, 1]), ("P1", [0])]
  cosets := [("PMh", [0]), ("P1", [0, 1])]
  act := fun _ => PMh_action

/-- wallpaper_groups.py:164-172 -/
def PMw : Group where
  name := "PMw"
  order := 2
  inverses := [0, 1]
  composition := [[0, 1], [1, 0]]
  subgroup := [("PMw", [0, 1]), ("P1", [0])]
  cosets := [("PMw", [0]), ("P1", [0, 1])]
  act := fun _ => PMw_action

/-- wallpaper_groups.py:173-181 -/
def P2 : Group where
  name := "P2"
  order := 2
  inverses := [0, 1]
  composition := [[0, 1], [1, 0]]
  subgroup := [("P2", [0, 1]), ("P1", [0])]
  cosets := [("P2", [0]), ("P1", [0, 1])]
  act := fun _ => P2_action

/-- wallpaper_groups.py:182-190 -/
def P1 : Group where
  name := "P1"
  order := 1
  inverses := [0]
  composition := [[0]]
  subgroup := [("P1", [0])]
  cosets := [("P1", [0])]
  act := fun _ => P1_action

/-- wallpaper_groups.py:191-199 -/
def wallpaperGroupDict : List (String × Group) :=
  [("P1", P1), ("P2", P2), ("PMw", PMw), ("PMh", PMh), ("P2MM", P2MM), ("P4", P4), ("P4M", P4M)]

end GroCo
