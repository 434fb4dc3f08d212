import Verif.Manips

/-
Model of groco/groups/group.py, function by function.
Dictionaries are association lists in insertion order; `None` is `none`.
-/

namespace GroCo

variable {α : Type}

/-- `dict[key]` -/
def lookup {β : Type} (d : List (String × β)) (k : String) : Res β :=
  match d.find? (fun e => e.1 == k) with
  | some e => .ok e.2
  | none => .error .key

/-- `list[i]` for a non-negative index. -/
def getIdx {β : Type} (l : List β) (i : Nat) : Res β :=
  match l[i]? with
  | some x => .ok x
  | none => .error .index

/-- The data attributes of a `Group` (group.py:39-45). -/
structure GroupData where
  name : String
  order : Nat
  composition : List (List Nat)
  inverses : List Nat
  subgroup : List (String × List Nat)
  cosets : List (String × List Nat)
  deriving DecidableEq, Repr

/-- Type of the `_action` attribute: signal, spatial_axes, new_group_axis (group.py:46, 95). -/
abbrev ActionFn := (α : Type) → Tensor α → List Int → Int → Res (Tensor α)

/-- group.py:6-46. -/
structure Group extends GroupData where
  act : ActionFn

/-- Entry of the composition table, total version used in statements. -/
def GroupData.comp (G : GroupData) (r c : Nat) : Nat := nth (G.composition.getD r []) c

/-- `dict(zip(externals, range(order)))[e]` for a list of keys: later duplicates win (group.py:244-247). -/
def externalToInternal (externals : List Nat) (order : Nat) (es : List Nat) : Res (List Nat) :=
  es.mapM fun e =>
    match ((externals.zip (List.range order)).reverse).find? (fun p => p.1 == e) with
    | some p => .ok p.2
    | none => .error .key

/-- group.py:173-185 `_compute_composition` -/
def computeComposition (name : String) (order : Nat) (composition : Option (List (List Nat)))
    (parent : Option GroupData) : Res (List (List Nat)) :=
  match composition, parent with
  | some c, _ => .ok c
  | none, none => .error .attribute
  | none, some p => do
    let parentIndices ← lookup p.subgroup name
    let rows ← parentIndices.mapM (getIdx p.composition)
    let comp ← rows.mapM fun row => parentIndices.mapM (getIdx row)
    (List.range order).mapM fun r => do
      let row ← getIdx comp r
      externalToInternal parentIndices order row

/-- group.py:165-171 `_compute_inverses` -/
def computeInverses (order : Nat) (composition : List (List Nat)) (inverses : Option (List Nat)) : Res (List Nat) :=
  match inverses with
  | some i => .ok i
  | none =>
    (List.range order).mapM fun r => do
      let row ← getIdx composition r
      let entries ← (List.range order).mapM fun c => do
        let v ← getIdx row c
        return (c, v)
      match entries.find? (fun e => e.2 == 0) with
      | some e => .ok e.1
      | none => .error .index

/-- group.py:198-208 `_compute_subgroup` -/
def computeSubgroup (name : String) (order : Nat) (subgroup : Option (List (String × List Nat)))
    (parent : Option GroupData) : Res (List (String × List Nat)) :=
  match subgroup, parent with
  | some s, _ => .ok s
  | none, none => .error .attribute
  | none, some p => do
    let this ← lookup p.subgroup name
    (p.subgroup.filter (fun e => e.2.all (fun i => this.contains i))).mapM fun e => do
      let internal ← externalToInternal this order e.2
      return (e.1, internal)

/-- group.py:210-220 `_compute_cosets` -/
def computeCosets (name : String) (order : Nat) (cosets : Option (List (String × List Nat)))
    (ownSubgroup : List (String × List Nat)) (parent : Option GroupData) : Res (List (String × List Nat)) :=
  match cosets, parent with
  | some s, _ => .ok s
  | none, none => .error .attribute
  | none, some p => do
    let this ← lookup p.subgroup name
    (p.cosets.filter (fun e => (ownSubgroup.map Prod.fst).contains e.1)).mapM fun e => do
      let internal ← externalToInternal this order (e.2.filter (fun i => this.contains i))
      return (e.1, internal)

/-- group.py:28-45, the data part of `Group.__init__` -/
def initData (name : String) (order : Nat) (inverses : Option (List Nat)) (composition : Option (List (List Nat)))
    (subgroup cosets : Option (List (String × List Nat))) (parent : Option GroupData) : Res GroupData := do
  let comp ← computeComposition name order composition parent
  let inv ← computeInverses order comp inverses
  let sub ← computeSubgroup name order subgroup parent
  let cos ← computeCosets name order cosets sub parent
  return ⟨name, order, comp, inv, sub, cos⟩

/-- group.py:191-194, the closure `subgroup_action` of `_compute_action` -/
def subgroupAction (parent : Group) (name : String) : ActionFn := fun α x spatialAxes newAxis => do
  let x ← parent.act α x spatialAxes newAxis
  let is ← lookup parent.subgroup name
  take x is newAxis

/-- group.py:28-46 `Group.__init__`, with `_compute_action` (group.py:187-196): without action and parent the closure
fails when called. -/
def Group.init (name : String) (order : Nat) (inverses : Option (List Nat)) (composition : Option (List (List Nat)))
    (subgroup cosets : Option (List (String × List Nat))) (action : Option ActionFn) (parent : Option Group) :
    Res Group :=
  match initData name order inverses composition subgroup cosets (parent.map Group.toGroupData) with
  | .error e => .error e
  | .ok d =>
    .ok ⟨d, match action, parent with
      | some a, _ => a
      | none, some p => subgroupAction p name
      | none, none => fun _ _ _ _ => .error .attribute⟩

/-- group.py:250-252 `parse_subgroup`: `None` stays `None`, `""` becomes the group's own name. -/
def GroupData.parseSubgroup (G : GroupData) (s : Option String) : Option String :=
  match s with
  | none => none
  | some "" => some G.name
  | some s => some s

/-- `self.subgroup[name]` where name may be `None` -/
def GroupData.sub (G : GroupData) (s : Option String) : Res (List Nat) :=
  match s with
  | none => .error .key
  | some s => lookup G.subgroup s

/-- group.py:87-97 `_action_on_grid` -/
def Group.actionOnGrid (G : Group) (x : Tensor α) (newAxis : Int) (spatialAxes : List Int) (acting : Option String) :
    Res (Tensor α) := do
  let x ← G.act α x spatialAxes newAxis
  let is ← G.sub acting
  take x is newAxis

/-- `{val: index for index, val in enumerate(l)}[i]`: the last occurrence (group.py:144). -/
def lastIdxOf (l : List Nat) (i : Nat) : Nat := l.length - 1 - l.reverse.idxOf i

/-- group.py:137-151 `upsample` -/
def GroupData.upsample [Zero α] (G : GroupData) (x : Tensor α) (groupAxis : Int) (domain : Option String) :
    Res (Tensor α) := do
  let dom ← G.sub domain
  let z : Tensor α := zeros (sliceTo x.shape groupAxis ++ [1] ++ sliceFrom x.shape (groupAxis + 1))
  let parts ← (List.range G.order).mapM fun i =>
    if i ∈ dom then take x [lastIdxOf dom i] groupAxis else .ok z
  concatenate parts groupAxis

/-- group.py:153-163 `_composition_flat_indices` -/
def GroupData.compositionFlatIndices (G : GroupData) (acting domain : Option String) : Res (List Nat) := do
  let A ← G.sub acting
  let invs ← A.mapM (getIdx G.inverses)
  let rows ← invs.mapM (getIdx G.composition)
  let D ← G.sub domain
  let sub ← rows.mapM fun row => D.mapM (getIdx row)
  return (sub.mapIdx fun i row => row.map (fun c => i * G.order + c)).flatten

/-- group.py:99-135 `_action_on_group` -/
def Group.actionOnGroup [Zero α] (G : Group) (x : Tensor α) (newAxis : Int) (spatialAxes : List Int)
    (acting : Option String) (groupAxis : Int) (domain : Option String) : Res (Tensor α) := do
  let A ← G.sub acting
  let D ← G.sub domain
  let x ← if D.length < G.order then G.upsample x groupAxis domain else .ok x
  let x ← G.actionOnGrid x groupAxis spatialAxes acting
  let x ← mergeAxes x groupAxis (groupAxis + 1)
  let ci ← G.compositionFlatIndices acting domain
  let x ← take x ci groupAxis
  let x ← splitAxes x A.length groupAxis
  moveaxis x groupAxis newAxis

/-- group.py:48-85 `action`. A missing `group_axis` (`None`) for a signal on the group is a TypeError, after the two lookups of
group.py:115-116. -/
def Group.action [Zero α] (G : Group) (x : Tensor α) (spatialAxes : List Int := [1, 2]) (newAxis : Int := 0)
    (groupAxis : Option Int := none) (acting : Option String := some "") (domain : Option String := some "") :
    Res (Tensor α) :=
  let acting := G.parseSubgroup acting
  let domain := G.parseSubgroup domain
  match domain with
  | none => G.actionOnGrid x newAxis spatialAxes acting
  | some "" => G.actionOnGrid x newAxis spatialAxes acting
  | some d =>
    match groupAxis with
    | none => do
      let _ ← G.sub acting
      let _ ← G.sub (some d)
      .error .typ
    | some ga => G.actionOnGroup x newAxis spatialAxes acting ga (some d)

end GroCo
