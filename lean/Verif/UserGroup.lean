import Verif.Transforms

/-
Model of the argument `group` of the layers where it may also be a `Group` object that is not in the library
(group_transforms.py:46-48). Everywhere else in the model the group of a layer is one of the library.
-/

namespace GroCo

/-- `group_dict[name]` as an object (groco/groups/__init__.py:5); `group_dict[None]` is a KeyError as well. -/
def libraryObject (name : Option String) : Res Group :=
  match name with
  | none => .error .key
  | some s =>
    match libraryDict.find? (fun e => e.1 == s) with
    | some e => .ok e.2
    | none => .error .key

/-- The argument `group` of a layer: a string or any `Group` object. -/
inductive AnyGroup where
  | name (s : String)
  | object (G : Group)

/-- The attributes `group`, `subgroup`, `domain_group`, `acting_group` of `GroupTransforms`. -/
structure LayerGroups where
  group : Group
  subgroup : Group
  domainGroup : String
  actingGroup : String

/-- group_transforms.py:46-50 -/
def layerGroups (g : AnyGroup) (subgroup : Option String) (transpose : Bool) : Res LayerGroups := do
  let G ← match g with
    | .object G => .ok G
    | .name s => libraryObject (some s)
  let H ← libraryObject (G.parseSubgroup subgroup)
  if transpose then return ⟨G, H, H.name, G.name⟩ else return ⟨G, H, G.name, H.name⟩

end GroCo
