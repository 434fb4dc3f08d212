import Verif.Equiv
import Verif.PoolSpec

/-
Vocabulary of the statements about check_equivariance and about stacks of layers.
-/

namespace GroCo
open Tensor

variable {α : Type}

/-- `f` treats the entries of a batch of samples of shape `s` independently: whether it returns and the shape of a sample
of its result do not depend on the batch, and equal samples have equal results, wherever in whichever batch they are. -/
def Batchwise (f : Tensor α → Res (Tensor α)) (s : List Nat) : Prop :=
  ∀ (x x' y : Tensor α) (B B' : Nat), x.shape = B :: s → x'.shape = B' :: s → f x = .ok y →
    ∃ y' t, f x' = .ok y' ∧ y.shape = B :: t ∧ y'.shape = B' :: t ∧
      ∀ b b', b < B → b' < B' → (∀ idx, Valid s idx → x.get (b :: idx) = x'.get (b' :: idx)) →
        ∀ idx, Valid t idx → y.get (b :: idx) = y'.get (b' :: idx)

/-- The name `t` passed as domain or target group fits a signal with `g` group elements: `None` for signals on the grid, and
otherwise the name of a subgroup with `g` elements. -/
def SignalOn (G : Group) (g : Option Nat) (t : Option String) : Prop :=
  match g with
  | none => t = none
  | some g => ∃ D, G.sub (G.parseSubgroup t) = .ok D ∧ D.length = g

/-- The kind of signal between two layers of a stack: grid sizes, number of group elements and of channels, and the name of
the subgroup the signal is defined on (`none` for signals on the grid). -/
structure SignalKind where
  grid : List Nat
  g : Option Nat
  chan : Nat
  on : Option String

/-- Shape of a batch of `B` such signals. -/
def SignalKind.shape (k : SignalKind) (fmt : DataFormat) (B : Nat) : List Nat := sigShape fmt B k.grid k.g k.chan

/-- The grid is one the group acts on and the group axis matches the subgroup. -/
def SignalKind.Fits (k : SignalKind) (n : GroupName) : Prop := n.Grid k.grid ∧ SignalOn n.group k.g k.on

/-- `f` maps signals of kind `k` to signals of kind `k'`, treats the entries of a batch independently and commutes with the
`order` elements of the subgroup `acting`. -/
def EquivariantLayer [Zero α] (n : GroupName) (fmt : DataFormat) (acting : Option String) (order : Nat) (k k' : SignalKind)
    (f : Tensor α → Res (Tensor α)) : Prop :=
  (∀ B, Batchwise f (k.shape fmt B).tail) ∧
    ∀ (x : Tensor α) (B : Nat), x.shape = k.shape fmt B →
      ∃ y, f x = .ok y ∧ y.shape = k'.shape fmt B ∧ Commutes n.group n.dim fmt acting order k.on k'.on f x y

/-- `keras.Sequential`: one layer after the other. -/
def sequential (fs : List (Tensor α → Res (Tensor α))) (x : Tensor α) : Res (Tensor α) := fs.foldlM (fun x f => f x) x

/-- A stack of equivariant layers taking signals of kind `k` to signals of kind `k'`. -/
inductive EquivariantStack [Zero α] (n : GroupName) (fmt : DataFormat) (acting : Option String) (order : Nat) :
    SignalKind → SignalKind → List (Tensor α → Res (Tensor α)) → Prop
  | nil (k) : EquivariantStack n fmt acting order k k []
  | cons {k k' k'' f fs} : EquivariantLayer n fmt acting order k k' f → EquivariantStack n fmt acting order k' k'' fs →
      EquivariantStack n fmt acting order k k'' (f :: fs)

end GroCo
