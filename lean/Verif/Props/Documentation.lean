import Verif.Props.Groups
import Verif.Props.Build
import Verif.Props.Conv
import Verif.Props.Transpose
import Verif.ChainLemmas
import Verif.Props.SpatialAxes

/-!
C63: what the documentation says about shapes, names and tables.
-/

namespace GroCo
open Tensor

variable {α : Type}

/-- the number of elements on the group axis of the input (first) and the output (second) according to the documentation of
GroupConv2D/3D and GroupConv2DTranspose/3DTranspose: `group.order` and `subgroup.order` (conv2d.py:25-37,
conv3d.py:25-37, conv2d_transpose.py:24-36, conv3d_transpose.py:30-42) -/
def documentedSizes (a : ConvArgs α) (H : List Nat) : Nat × Nat := (a.group.group.order, H.length)

/-- C63 for convolutions: a layer can only be built on inputs of the documented shape, and its output has the documented shape
(channels_last). -/
theorem C63_convolution [Semiring α] {a : ConvArgs α} {bt : Option Nat} {n : List Nat} {g : Option Nat} {C : Nat}
    {k0 b0 : List Nat → α} {H : List Nat} {l : GroupConv α} (hl : BuiltConv a false bt n g C k0 b0 H l)
    (hf : a.dataFormat = .channelsLast) :
    (∀ g', g = some g' → g' = (documentedSizes a H).1) ∧
    ∀ (x y : Tensor α) (B : Nat) (m : List Nat), m.length = a.group.dim → x.shape = sigShape .channelsLast B m g C →
      (l.call x).2 = .ok y →
      ∃ m', m'.length = a.group.dim ∧ y.shape = sigShape .channelsLast B m' (some (documentedSizes a H).2) a.filters := by
  obtain ⟨opt, kp, hopt, hkp, f, hst⟩ := hl.facts_last hf
  refine ⟨fun g' h => ?_, fun x y B m hm hx hy => ?_⟩
  · have := f.size g' h
    simpa [domainOf, documentedSizes] using this
  · obtain ⟨_, _, _, -, -, -, h⟩ := C22_group_convolution hl hf opt hopt x B m hm hx
    exact ⟨_, by simp, (h y hy).1⟩

/-- C63 fails for transposed layers with a proper subgroup: no layer can be built on an input of the documented shape, and the
output has the elements of the whole group and not of the subgroup. (Input and output are exchanged in the documentation.) -/
theorem C63_violation_transposed [Semiring α] (a : ConvArgs α) (H : List Nat)
    (hH : a.group.group.sub (a.group.group.parseSubgroup a.subgroup) = .ok H) (hne : H.length ≠ a.group.group.order) :
    (∀ (l0 : GroupConv α) (bt : Option Nat) (n : List Nat) (C : Nat) (k0 b0 : List Nat → α),
      GroupConv.init a a.group.dim true = .ok l0 → n.length = a.group.dim →
      l0.build (inputShape a.dataFormat bt n (some (documentedSizes a H).1) C) k0 b0 = .error .assertion) ∧
    ∀ (l : GroupConv α) (bt : Option Nat) (n : List Nat) (g : Option Nat) (C : Nat) (k0 b0 : List Nat → α),
      BuiltConv a true bt n g C k0 b0 H l → a.dataFormat = .channelsLast →
      ∀ (x : Tensor α) (B : Nat) (m : List Nat), m.length = a.group.dim → x.shape = sigShape .channelsLast B m g C →
      ∃ y, (l.call x).2 = .ok y ∧ nth y.shape (a.group.dim + 1) ≠ (documentedSizes a H).2 := by
  refine ⟨fun l0 bt n C k0 b0 h hn => ?_, fun l bt n g C k0 b0 hl hf x B m hm hx => ?_⟩
  · rw [C43_convolution a true l0 h H hH]
    refine ⟨?_, ?_⟩
    · cases hf : a.dataFormat <;> simp [inputShape, hn]
    · have e : (inputShape a.dataFormat bt n (some (documentedSizes a H).1) C)[groupAxis a.dataFormat a.group.dim]? =
          some (some a.group.group.order) := by
        cases hf : a.dataFormat <;> simp [inputShape, groupAxis, ← hn, documentedSizes, List.getElem?_append]
      rw [e]
      simpa using fun h => hne h.symm
  · obtain ⟨opt, before, after, crop, kernel, w, y, -, -, -, -, -, hy, hs, -⟩ := C41_transposed_convolution hl hf x B m hm hx
    refine ⟨y, hy, ?_⟩
    rw [hs]
    simpa [sigShape, nth, documentedSizes, List.getElem?_append, List.getD_eq_getElem?_getD] using fun h => hne h.symm

/-- the names and orders in the table of README.md -/
def readmeGroups : List (String × Nat) :=
  [("P4M", 8), ("P4", 4), ("P2MM", 4), ("PMh", 2), ("PMv", 2), ("P2", 2), ("P1", 1), ("Oh", 48), ("O", 24), ("D4h", 16), ("D4", 8)]

/-- C63: the groups listed in README.md can be used under their names and have the order given there, except for 'PMv'. -/
theorem C63_names_partial (s : String) (k : Nat) (h : (s, k) ∈ readmeGroups) (hs : s ≠ "PMv") :
    ∃ n, groupDict s = .ok n ∧ n.group.order = k := by
  have : ∀ e ∈ readmeGroups, e.1 ≠ "PMv" → (match groupDict e.1 with | .ok n => decide (n.group.order = e.2) | .error _ => false) = true := by
    decide +kernel
  have := this _ h hs
  simp only at this
  split at this
  · exact ⟨_, by assumption, by simpa using this⟩
  · cases this

/-- C63 fails for 'PMv': there is no such group (the reflections meant are those of PMw). -/
theorem C63_violation_name : ("PMv", 2) ∈ readmeGroups ∧ groupDict "PMv" = .error .key := by decide +kernel

/-- what the docstring of `Group` says about the table: `composition[r][c]` is the inverse of element `r` composed with element
`c` (group.py:14-15) -/
def DocumentedComposition (n : GroupName) : Prop :=
  ∀ r c, r < n.group.order → c < n.group.order → n.motion r * n.motion (n.group.comp r c) = n.motion c

/-- C63: the docstring is right exactly for the groups in which every element is its own inverse; in the others, the table
holds the composition of `r` and `c` themselves (see C03). -/
theorem C63_composition (n : GroupName) :
    DocumentedComposition n ↔ n = .P1 ∨ n = .P2 ∨ n = .PMw ∨ n = .PMh ∨ n = .P2MM := by
  have key : DocumentedComposition n ↔ ∀ r ∈ List.range n.group.order, ∀ c ∈ List.range n.group.order,
      n.group.comp r (n.group.comp r c) = c := by
    obtain ⟨-, hinj, hmul, -⟩ := C03_rigid_motion n
    have hcl := n.sym.tab.laws.closed
    simp only [List.mem_range]
    constructor
    · intro h r hr c hc
      refine hinj _ _ (hcl _ _ hr (hcl _ _ hr hc)) hc ?_
      rw [hmul _ _ hr (hcl _ _ hr hc)]
      exact h r c hr hc
    · intro h r c hr hc
      rw [← hmul _ _ hr (hcl _ _ hr hc), h r hr c hc]
  rw [key]
  cases n <;> decide +kernel

/-- C63 fails for the defaults of `Group.action`: according to its docstring `group_axis=None`, the default, means a signal on
the grid, but together with the default `domain_group=""` this is a TypeError for every signal (group.py:53-66), and so it is
with every other subgroup as `domain_group`. Only `domain_group=None` means a signal on the grid. -/
theorem C63_violation_defaults (n : GroupName) [Zero α] (x : Tensor α) (axs : List Int) (a : Int) :
    n.group.action x axs a none (some "") (some "") = .error .typ ∧
    ∀ (acting : Option String) (domain : String),
      (∃ e, n.group.action x axs a none acting (some domain) = .error e) ∧
      ∀ A D, n.group.sub (n.group.parseSubgroup acting) = .ok A → n.group.sub (n.group.parseSubgroup (some domain)) = .ok D →
        n.group.action x axs a none acting (some domain) = .error .typ := by
  have key : ∀ (acting : Option String) (domain : String),
      (∃ e, n.group.action x axs a none acting (some domain) = .error e) ∧
      ∀ A D, n.group.sub (n.group.parseSubgroup acting) = .ok A → n.group.sub (n.group.parseSubgroup (some domain)) = .ok D →
        n.group.action x axs a none acting (some domain) = .error .typ := by
    intro acting domain
    obtain ⟨d', e, h0⟩ := parse_some n domain
    unfold Group.action
    simp only [e]
    refine ⟨?_, fun A D hA hD => ?_⟩
    · cases n.group.sub (n.group.parseSubgroup acting) with
      | error e => exact ⟨e, rfl⟩
      | ok A =>
        cases n.group.sub (some d') with
        | error e => exact ⟨e, rfl⟩
        | ok D => exact ⟨.typ, rfl⟩
    · rw [hA, hD]; rfl
  refine ⟨?_, key⟩
  have hw : ∃ A, n.group.sub (n.group.parseSubgroup (some "")) = .ok A := by
    cases n <;> exact ⟨_, rfl⟩
  obtain ⟨A, hA⟩ := hw
  exact (key (some "") "").2 A A hA hA

/-- C63 fails for `acting_group=None`, according to the docstring the whole group (group.py:67-68): it is an error for every
signal. -/
theorem C63_violation_acting (n : GroupName) [Zero α] (x : Tensor α) (axs : List Int) (a : Int) (ga : Option Int)
    (domain : Option String) : ∃ e, n.group.action x axs a ga none domain = .error e := by
  have hs : n.group.sub none = .error .key := rfl
  have grid : ∃ e, n.group.actionOnGrid x a axs none = .error e := by
    unfold Group.actionOnGrid
    cases n.group.act α x axs a with
    | error e => exact ⟨e, rfl⟩
    | ok y => exact ⟨.key, by simp only [res_bind_ok, hs, res_bind_error]⟩
  have hp : n.group.parseSubgroup none = none := rfl
  unfold Group.action
  simp only [hp]
  split
  · exact grid
  · exact grid
  · cases ga with
    | none => exact ⟨.key, by simp only [hs, res_bind_error]⟩
    | some g => exact ⟨.key, by simp only [Group.actionOnGroup, hs, res_bind_error]⟩

set_option maxRecDepth 8000 in
/-- hypotheses are met -/
example : exampleTranspose.group.group.sub (exampleTranspose.group.group.parseSubgroup exampleTranspose.subgroup) = .ok [0, 2] ∧
    (∃ l0, GroupConv.init exampleTranspose exampleTranspose.group.dim true = .ok l0) ∧
    (∃ l, BuiltConv exampleTranspose true none [4, 4] (some 2) 3 (fun _ => 1) (fun _ => 0) [0, 2] l) ∧
    exampleTranspose.dataFormat = .channelsLast ∧ exampleTranspose.group.group.order = 4 ∧ ("P4", 4) ∈ readmeGroups ∧
    ∃ l, BuiltConv exampleTranspose false none [4, 4] (some 4) 3 (fun _ => 1) (fun _ => 0) [0, 2] l :=
  ⟨rfl, ⟨_, rfl⟩, ⟨_, ⟨_, rfl, rfl⟩, rfl, rfl⟩, rfl, rfl, by decide, ⟨_, ⟨_, rfl, rfl⟩, rfl, rfl⟩⟩

end GroCo
