import Mathlib.LinearAlgebra.Matrix.Determinant.Basic
import Verif.Wallpaper
import Verif.Space

/-
Independent specifications used in the statements of the property theorems. Nothing here refers to how the library
computes something; it only mentions tensors, indices, matrices and group laws.
-/

namespace GroCo
open Tensor

variable {α : Type}

/-- The eleven groups of the library. -/
inductive GroupName where
  | P1 | P2 | PMw | PMh | P2MM | P4 | P4M | Oh | O | D4h | D4
  deriving DecidableEq, Repr

/-- groco/groups/__init__.py: the group objects by name -/
def GroupName.group : GroupName → Group
  | .P1 => GroCo.P1 | .P2 => GroCo.P2 | .PMw => GroCo.PMw | .PMh => GroCo.PMh | .P2MM => GroCo.P2MM
  | .P4 => GroCo.P4 | .P4M => GroCo.P4M | .Oh => GroCo.Oh | .O => GroCo.O | .D4h => GroCo.D4h | .D4 => GroCo.D4

/-- number of spatial dimensions -/
def GroupName.dim : GroupName → Nat
  | .Oh | .O | .D4h | .D4 => 3
  | _ => 2

/-- Grid sizes on which the library's action is defined: square for P4 and P4M, cubic for the three-dimensional groups,
anything otherwise. -/
def GroupName.Grid (n : GroupName) (sizes : List Nat) : Prop :=
  sizes.length = n.dim ∧
  match n with
  | .P4 | .P4M => nth sizes 0 = nth sizes 1
  | .Oh | .O | .D4h | .D4 => nth sizes 0 = nth sizes 1 ∧ nth sizes 0 = nth sizes 2
  | _ => True

/-- Admissible spatial axes of a tensor of rank `r`: in range and distinct; consecutive in three dimensions. -/
def AxesOk (d r : Nat) (axs : List Nat) : Prop :=
  axs.length = d ∧ axs.Nodup ∧ (∀ a ∈ axs, a < r) ∧ (d = 3 → ∃ o, axs = [o, o + 1, o + 2])

/-- The integer `ax`, counted from the end if negative, denotes axis `k` of a tensor of rank `r`. -/
def IsAxis (r : Nat) (ax : Int) (k : Nat) : Prop := k < r ∧ (ax = k ∨ ax = (k : Int) - r)

/-- `ax` and `ax'` count from the same end. -/
def SameSign (ax ax' : Int) : Prop := (0 ≤ ax ∧ 0 ≤ ax') ∨ (ax < 0 ∧ ax' < 0)

/-- A shape known except for the size of one axis. -/
def unknownAt (shape : List Nat) (b : Option Nat) : List (Option Nat) :=
  match b with
  | none => shape.map some
  | some b => (shape.map some).set b none

/-- Laws of a finite group on {0, …, order-1} with identity 0. -/
structure GroupLaws (order : Nat) (mul : Nat → Nat → Nat) (inv : Nat → Nat) : Prop where
  pos : 0 < order
  closed : ∀ a b, a < order → b < order → mul a b < order
  inv_closed : ∀ a, a < order → inv a < order
  assoc : ∀ a b c, a < order → b < order → c < order → mul (mul a b) c = mul a (mul b c)
  one_mul : ∀ a, a < order → mul 0 a = a
  mul_one : ∀ a, a < order → mul a 0 = a
  inv_mul : ∀ a, a < order → mul (inv a) a = 0
  mul_inv : ∀ a, a < order → mul a (inv a) = 0

/-- Every element of {0, …, order-1} is `mul h c` for exactly one `h` in `H` and one `c` in `C`. -/
def Tiles (order : Nat) (mul : Nat → Nat → Nat) (H C : List Nat) : Prop :=
  C.Nodup ∧ (∀ c ∈ C, c < order) ∧ (∀ g, g < order → ∃ h ∈ H, ∃ c ∈ C, mul h c = g) ∧
  ∀ h ∈ H, ∀ h' ∈ H, ∀ c ∈ C, ∀ c' ∈ C, mul h c = mul h' c' → h = h' ∧ c = c'

/-- `H` lists the elements of a subgroup, starting with the identity: distinct and closed under composition. -/
def SubgroupList (order : Nat) (mul : Nat → Nat → Nat) (H : List Nat) : Prop :=
  H.Nodup ∧ H.head? = some 0 ∧ (∀ i ∈ H, i < order) ∧ ∀ i ∈ H, ∀ j ∈ H, mul i j ∈ H

/-- A group object satisfying the group laws, with square tables and dictionaries without repeated keys. -/
structure GoodGroup (G : GroupData) : Prop where
  laws : GroupLaws G.order G.comp (nth G.inverses)
  square : G.composition.length = G.order ∧ ∀ row ∈ G.composition, row.length = G.order
  invLen : G.inverses.length = G.order
  keys : (G.subgroup.map Prod.fst).Nodup ∧ (G.cosets.map Prod.fst).Nodup

/-- The sub-tensor at position `g` along axis `a`. -/
def slice (y : Tensor α) (a g : Nat) : Tensor α := ⟨y.shape.eraseIdx a, fun idx => y.get (idx.insertIdx a g)⟩

/-- The integer position `q` lies inside a tensor of this shape. -/
def InBox : List Nat → List Int → Prop
  | [], [] => True
  | n :: s, i :: q => (0 ≤ i ∧ i < n) ∧ InBox s q
  | _, _ => False

instance instDecidableInBox : (s : List Nat) → (q : List Int) → Decidable (InBox s q)
  | [], [] => isTrue trivial
  | n :: s, i :: q => by
      unfold InBox
      have := instDecidableInBox s q
      exact inferInstance
  | [], _ :: _ => isFalse (by simp [InBox])
  | _ :: _, [] => isFalse (by simp [InBox])

/-- The entry at an integer position of a tensor surrounded by zeros. -/
def read0 [Zero α] (x : Tensor α) (q : List Int) : α := if InBox x.shape q then x.get (q.map Int.toNat) else 0

/-- Twice the signed distance of position `p` from the centre of an axis of length `n`. -/
def centred (n p : Nat) : Int := 2 * p + 1 - n

/-- Integer orthogonal matrix. -/
def Orthogonal {d : Nat} (A : Matrix (Fin d) (Fin d) ℤ) : Prop := A * A.transpose = 1

/-- The symmetries a group is documented to contain (README, "Implemented groups"), as integer matrices.
Axis 0 is height (vertical), axis 1 width (horizontal), axis 2 depth. -/
def GroupName.Symmetry : (n : GroupName) → Matrix (Fin n.dim) (Fin n.dim) ℤ → Prop
  | .P1, (A : Matrix (Fin 2) (Fin 2) ℤ) => A = 1
  | .P2, (A : Matrix (Fin 2) (Fin 2) ℤ) => A = 1 ∨ A = -1
  | .PMh, (A : Matrix (Fin 2) (Fin 2) ℤ) => A = 1 ∨ A = !![-1, 0; 0, 1]
  | .PMw, (A : Matrix (Fin 2) (Fin 2) ℤ) => A = 1 ∨ A = !![1, 0; 0, -1]
  | .P2MM, (A : Matrix (Fin 2) (Fin 2) ℤ) => Orthogonal A ∧ A 0 1 = 0 ∧ A 1 0 = 0
  | .P4, (A : Matrix (Fin 2) (Fin 2) ℤ) => Orthogonal A ∧ A.det = 1
  | .P4M, (A : Matrix (Fin 2) (Fin 2) ℤ) => Orthogonal A
  | .Oh, (A : Matrix (Fin 3) (Fin 3) ℤ) => Orthogonal A
  | .O, (A : Matrix (Fin 3) (Fin 3) ℤ) => Orthogonal A ∧ A.det = 1
  | .D4h, (A : Matrix (Fin 3) (Fin 3) ℤ) => Orthogonal A ∧ A 2 0 = 0 ∧ A 2 1 = 0
  | .D4, (A : Matrix (Fin 3) (Fin 3) ℤ) => Orthogonal A ∧ A 2 0 = 0 ∧ A 2 1 = 0 ∧ A.det = 1

/-- The matrix `A` about the centre of the grid with axes `axs` of a tensor of shape `s` takes index `idx` to `jdx`;
coordinates along other axes are unchanged. -/
def MovesTo {d : Nat} (A : Matrix (Fin d) (Fin d) ℤ) (axs s idx jdx : List Nat) : Prop :=
  (∀ i, i ∉ axs → nth jdx i = nth idx i) ∧
  ∀ j : Fin d, centred (nth s (nth axs j)) (nth jdx (nth axs j)) =
    ∑ k : Fin d, A j k * centred (nth s (nth axs k)) (nth idx (nth axs k))

/-- Every symmetry of the group maps the grid with these sizes to itself. -/
def GroupName.PreservesGrid (n : GroupName) (sizes : List Nat) : Prop :=
  sizes.length = n.dim ∧ ∀ A, n.Symmetry A → ∀ j k : Fin n.dim, A j k ≠ 0 → nth sizes j = nth sizes k

end GroCo
