import Verif.StackSpec

/-
Vocabulary of the statements about networks with branches (C72): group layers together with Keras's own layers that act on single
entries, on channels, or add and concatenate branches. These Keras layers are modelled by what they compute.
-/

namespace GroCo
open Tensor

variable {α : Type}

/-- Position of the channel in an index of a signal. -/
def channelAt (fmt : DataFormat) (idx : List Nat) : Nat :=
  match fmt with
  | .channelsLast => nth idx (idx.length - 1)
  | .channelsFirst => nth idx 1

/-- All values that a batch of signals takes in channel `c` of sample `b`. -/
def valuesOf (fmt : DataFormat) (x : Tensor α) (b c : Nat) : List α :=
  ((indices x.shape).filter fun i => nth i 0 == b && channelAt fmt i == c).map x.get

/-- A layer replacing each entry by a function of the entry, the size of the batch, its sample, its channel and the values in every channel
of every sample:
`Activation`, `Dropout` in inference, `BatchNormalization` along the channel axis (in inference and in training), `LayerNormalization`
and `GroupNormalization` over all positions, multiplication by weights computed from global averages (squeeze and excitation). -/
def entrywise (fmt : DataFormat) (ψ : Nat → Nat → Nat → (Nat → Nat → List α) → α → α) (x : Tensor α) : Res (Tensor α) :=
  .ok ⟨x.shape, fun i => ψ (nth x.shape 0) (nth i 0) (channelAt fmt i) (valuesOf fmt x) (x.get i)⟩

/-- The order in which the values of a channel are listed does not matter. -/
def Unordered (ψ : Nat → Nat → Nat → (Nat → Nat → List α) → α → α) : Prop :=
  ∀ B b c v E E', (∀ b c, (E b c).Perm (E' b c)) → ψ B b c E v = ψ B b c E' v

/-- Two branches merged entry by entry, as by `Add`, `Subtract`, `Multiply`, `Average`, `Maximum` on outputs of the same shape. -/
def merged (op : α → α → α) (f f' : Tensor α → Res (Tensor α)) (x : Tensor α) : Res (Tensor α) := do
  let y ← f x
  let z ← f' x
  if y.shape = z.shape then .ok ⟨y.shape, fun i => op (y.get i) (z.get i)⟩ else .error .value

/-- The argument `axis` that denotes the channel axis. -/
def channelArg : DataFormat → Int
  | .channelsLast => -1
  | .channelsFirst => 1

/-- Two branches put together by `Concatenate` along the channel axis. -/
def concatenated (fmt : DataFormat) (f f' : Tensor α → Res (Tensor α)) (x : Tensor α) : Res (Tensor α) := do
  let y ← f x
  let z ← f' x
  concatenate [y, z] (channelArg fmt)

/-- The grid is one the group acts on, and the acting elements are elements of the subgroup the signal is defined on. -/
def SignalKind.Under (k : SignalKind) (n : GroupName) (acting : Option String) : Prop :=
  k.Fits n ∧ (k.g = none ∨ ∀ A D, n.group.sub (n.group.parseSubgroup acting) = .ok A →
    n.group.sub (n.group.parseSubgroup k.on) = .ok D → ∀ e ∈ A, e ∈ D)

/-- Networks taking signals of kind `k` to signals of kind `k'`, made of equivariant layers and the layers above, one after the
other or in branches. -/
inductive Network [Zero α] (n : GroupName) (fmt : DataFormat) (acting : Option String) (order : Nat) :
    SignalKind → SignalKind → (Tensor α → Res (Tensor α)) → Prop
  | layer {k k' f} : EquivariantLayer n fmt acting order k k' f → Network n fmt acting order k k' f
  | entrywise {k} (ψ) : k.Under n acting → Unordered ψ → Network n fmt acting order k k (entrywise fmt ψ)
  | seq {k k' k'' f f'} : Network n fmt acting order k k' f → Network n fmt acting order k' k'' f' →
      Network n fmt acting order k k'' (fun x => do f' (← f x))
  | merge {k k' f f'} (op) : k'.Under n acting → Network n fmt acting order k k' f → Network n fmt acting order k k' f' →
      Network n fmt acting order k k' (merged op f f')
  | concat {k m g C C' on f f'} : SignalKind.Under ⟨m, g, C, on⟩ n acting →
      Network n fmt acting order k ⟨m, g, C, on⟩ f → Network n fmt acting order k ⟨m, g, C', on⟩ f' →
      Network n fmt acting order k ⟨m, g, C + C', on⟩ (concatenated fmt f f')

/-- `f` takes signals of kind `k` to signals of kind `k'` and commutes with the `order` elements of the subgroup `acting`. Its output
depends on the entries of its input only. -/
def EquivariantMap [Zero α] (n : GroupName) (fmt : DataFormat) (acting : Option String) (order : Nat) (k k' : SignalKind)
    (f : Tensor α → Res (Tensor α)) : Prop :=
  ∀ (x : Tensor α) (B : Nat), x.shape = k.shape fmt B → ∃ y, f x = .ok y ∧ y.shape = k'.shape fmt B ∧
    (∀ x', x'.Same x → ∃ y', f x' = .ok y' ∧ y'.Same y) ∧ Commutes n.group n.dim fmt acting order k.on k'.on f x y

end GroCo
