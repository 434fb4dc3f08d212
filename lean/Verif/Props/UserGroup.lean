import Verif.UserGroup
import Verif.GridAction
import Verif.Props.Dictionary

/-
Property C73: the argument `group` of a layer may be the name of a group or a `Group` object.
-/

namespace GroCo
open Tensor

variable {α : Type}

/-- an object of the library by its name -/
theorem libraryObject_eq (s : String) : libraryObject (some s) = (groupDict s).map GroupName.group := by
  cases h : groupDict s with
  | ok n =>
    rw [← groupDict_name h]
    cases n <;> rfl
  | error e =>
    have hn : ∀ n : GroupName, n.group.name ≠ s := by
      rintro n rfl
      have : groupDict n.group.name = .ok n := by cases n <;> rfl
      rw [this] at h
      cases h
    have hk := ((C51_group_dict s).2.2 hn)
    rw [h] at hk
    cases hk
    unfold libraryObject
    have : libraryDict.find? (fun e => e.1 == s) = none := by
      rw [List.find?_eq_none]
      rintro ⟨t, G⟩ he ht
      obtain ⟨n, -, h2⟩ := (C51_entries.2.1 t G).mp he
      simp only [beq_iff_eq] at ht
      exact hn n (h2.trans ht)
    simp only [this]
    rfl

/-- C73: the object of a library group and its name are the same argument, and give the groups of the model of the layers. -/
theorem C73_name_or_object (n : GroupName) (a : GroupArgs) (ha : a.group = n) (d : Nat) (transpose : Bool) :
    layerGroups (.name n.group.name) a.subgroup transpose = layerGroups (.object n.group) a.subgroup transpose ∧
      (∀ t, GroupTransforms.init a d transpose = .ok t →
        layerGroups (.object n.group) a.subgroup transpose =
          .ok ⟨t.group.group, t.subgroup.group, t.domainGroup.getD "", t.actingGroup⟩) ∧
      ∀ e, layerGroups (.object n.group) a.subgroup transpose = .error e → GroupTransforms.init a d transpose = .error e := by
  have h1 : libraryObject (some n.group.name) = .ok n.group := by cases n <;> rfl
  subst ha
  refine ⟨by simp only [layerGroups, h1], ?_, ?_⟩
  · intro t ht
    unfold GroupTransforms.init at ht
    cases hp : a.group.group.parseSubgroup a.subgroup with
    | none => rw [hp] at ht; cases ht
    | some s =>
      rw [hp] at ht
      simp only at ht
      cases hg : groupDict s with
      | error e => rw [hg] at ht; cases ht
      | ok m =>
        rw [hg] at ht
        simp only [res_bind_ok] at ht
        cases ho : formatPaddingOption a.padding with
        | error e => rw [ho] at ht; cases ht
        | ok o =>
          rw [ho] at ht
          cases ht
          have hl : libraryObject (a.group.group.parseSubgroup a.subgroup) = .ok m.group := by rw [hp, libraryObject_eq, hg]; rfl
          unfold layerGroups
          simp only [hl, res_bind_ok]
          cases transpose <;> rfl
  · intro e he
    unfold layerGroups at he
    unfold GroupTransforms.init
    cases hp : a.group.group.parseSubgroup a.subgroup with
    | none =>
      simp only [res_bind_ok, hp] at he
      cases he
      rfl
    | some s =>
      simp only [res_bind_ok, hp, libraryObject_eq] at he
      simp only
      cases hg : groupDict s with
      | error e' => rw [hg] at he; cases he; rfl
      | ok m => rw [hg] at he; cases transpose <;> cases he

/-- C73, the part that holds: a `Group` object is accepted exactly if its subgroup - the object itself, if the argument is left
out - has the name of a library group. That library group is then taken as the subgroup. Otherwise KeyError. -/
theorem C73_object_partial (G : Group) (subgroup : Option String) (transpose : Bool) :
    ((∃ n : GroupName, G.parseSubgroup subgroup = some n.group.name) →
      ∃ n : GroupName, G.parseSubgroup subgroup = some n.group.name ∧ layerGroups (.object G) subgroup transpose =
        .ok ⟨G, n.group, if transpose then n.group.name else G.name, if transpose then G.name else n.group.name⟩) ∧
      ((¬ ∃ n : GroupName, G.parseSubgroup subgroup = some n.group.name) →
        layerGroups (.object G) subgroup transpose = .error .key) := by
  constructor
  · rintro ⟨n, h⟩
    refine ⟨n, h, ?_⟩
    have h1 : libraryObject (some n.group.name) = .ok n.group := by cases n <;> rfl
    simp only [layerGroups, res_bind_ok, h, h1]
    cases transpose <;> rfl
  · intro h
    have hl : libraryObject (G.parseSubgroup subgroup) = .error .key := by
      cases hp : G.parseSubgroup subgroup with
      | none => rfl
      | some s =>
        have : groupDict s = .error .key := (C51_group_dict s).2.2 fun n hn => h ⟨n, by rw [hp, hn]⟩
        rw [libraryObject_eq, this]
        rfl
    simp only [layerGroups, res_bind_ok, hl]
    rfl

/-- The reflections of a line, written like the groups of the library. -/
def mirrorLine (α : Type) (x : Tensor α) (spatialAxes : List Int) (newAxis : Int) : Res (Tensor α) := do
  match spatialAxes with
  | [w] => do
    let x ← expandDims x newAxis
    let y ← flip x (if newAxis ≤ w then w + 1 else w)
    concatenate [x, y] newAxis
  | _ => .error .value

/-- the group of the reflections of a line as an object -/
def lineGroup : Group where
  name := "M"
  order := 2
  inverses := [0, 1]
  composition := [[0, 1], [1, 0]]
  subgroup := [("M", [0, 1])]
  cosets := [("M", [0])]
  act := mirrorLine

/-- C73 fails for objects that are not in the library: the group of reflections of a line can be made, satisfies the group laws and acts
on signals of every batch size, length and number of channels, but no layer accepts it, for instance no one-dimensional pooling
layer, for which the library has no group. -/
theorem C73_violation_line : ∃ M : Group,
    Group.init "M" 2 none (some [[0, 1], [1, 0]]) (some [("M", [0, 1])]) (some [("M", [0])]) (some mirrorLine) none = .ok M ∧
      GoodGroup M.toGroupData ∧
      (∀ (α : Type) (x : Tensor α) (B L C : Nat), x.shape = [B, L, C] → ∃ y, M.act α x [1] 0 = .ok y ∧ y.shape = [2, B, L, C] ∧
        ∀ b l c, b < B → l < L → c < C → y.get [0, b, l, c] = x.get [b, l, c] ∧ y.get [1, b, l, c] = x.get [b, L - 1 - l, c]) ∧
      (∀ transpose, layerGroups (.object M) (some "") transpose = .error .key) ∧
      (∀ transpose, layerGroups (.object M) (some "M") transpose = .error .key) ∧
      ∀ n : GroupName, n.dim ≠ 1 := by
  refine ⟨lineGroup, rfl, ⟨⟨by decide, ?_, ?_, ?_, ?_, ?_, ?_, ?_⟩, by decide, by decide, by decide⟩, ?_, fun _ => rfl, fun _ => rfl,
    by intro n; cases n <;> decide⟩
  · have h : ∀ a < 2, ∀ b < 2, lineGroup.comp a b < 2 := by decide
    exact fun a b ha hb => h a ha b hb
  · exact (by decide : ∀ a < 2, nth lineGroup.inverses a < 2)
  · have h : ∀ a < 2, ∀ b < 2, ∀ c < 2, lineGroup.comp (lineGroup.comp a b) c = lineGroup.comp a (lineGroup.comp b c) := by decide
    exact fun a b c ha hb hc => h a ha b hb c hc
  · exact (by decide : ∀ a < 2, lineGroup.comp 0 a = a)
  · exact (by decide : ∀ a < 2, lineGroup.comp a 0 = a)
  · exact (by decide : ∀ a < 2, lineGroup.comp (nth lineGroup.inverses a) a = 0)
  · exact (by decide : ∀ a < 2, lineGroup.comp a (nth lineGroup.inverses a) = 0)
  · rintro α ⟨sh, f⟩ B L C rfl
    obtain ⟨y1, e1, s1⟩ := stack_expand (⟨[B, L, C], f⟩ : Tensor α) (a := 0) (Nat.zero_le _)
    obtain ⟨y2, e2, s2⟩ := stack_flip s1 (Nat.zero_le _) (h := 1) (by simp [Tensor.rank])
    obtain ⟨y3, e3, s3⟩ := stack_concat2 s1 s2 (Nat.zero_le _)
    refine ⟨y3, ?_, s3.1, ?_⟩
    · show mirrorLine α _ [1] 0 = _
      have e1' : expandDims (⟨[B, L, C], f⟩ : Tensor α) 0 = .ok y1 := e1
      have e2' : flip y1 (if (0 : Int) ≤ 1 then 1 + 1 else 1) = .ok y2 := e2
      have e3' : concatenate [y1, y2] 0 = .ok y3 := e3
      simp only [mirrorLine, e1', e2', e3', res_bind_ok]
    · intro b l c hb hl hc
      have hs : y3.shape = [2, B, L, C] := s3.1
      refine ⟨?_, ?_⟩ <;> rw [s3.2 _ (by rw [hs]; simp [Valid, hb, hl, hc])] <;> rfl

/-- the same group under the name of a library group, or with a subgroup that has one, is accepted -/
example : ∃ M : Group,
    Group.init "M" 2 none (some [[0, 1], [1, 0]]) (some [("M", [0, 1]), ("P1", [0])]) (some [("M", [0]), ("P1", [0, 1])])
        (some mirrorLine) none = .ok M ∧
      ∃ g, layerGroups (.object M) (some "P1") false = .ok g ∧ g.actingGroup = "P1" ∧ g.domainGroup = "M" :=
  ⟨_, rfl, _, rfl, rfl, rfl⟩

/-- hypotheses of C73_name_or_object: a layer of P4M with subgroup P4 -/
example : (GroupTransforms.init ⟨.P4M, some "P4", [3, 3], [1, 1], "same_equiv", false, .channelsLast⟩ 2 false).isOk = true := rfl

end GroCo
