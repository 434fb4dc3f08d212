import Verif.Sequential

/-
Vocabulary of the statements about augmentation (C80): batches of which every image is transformed by a group element of its own, and
training as a sequence of updates. None of this is code of GroCo; it is how the layers are used.
-/

namespace GroCo
open Tensor

variable {α W : Type}

/-- The images of `x'` are the images of the batch `x`, image `b` transformed by element number `e b`; `gx` are the transformed copies of
the batch as `Group.action` returns them, with the group axis in front. -/
def Augmented (gx x x' : Tensor α) (e : Nat → Nat) : Prop :=
  x'.shape = x.shape ∧ ∀ b idx, Valid x.shape (b :: idx) → x'.get (b :: idx) = gx.get (e b :: b :: idx)

/-- What can be seen of the output of a model: whether it raises, its shape and its entries. -/
def observed (r : Res (Tensor α)) : Res (List Nat × List α) := r.map fun y => (y.shape, (indices y.shape).map y.get)

/-- Training: starting with number `i`, one update for each batch. An update may depend on its number (labels, learning rate, random
numbers), on the present weights and on the outputs for the batch as a function of the weights (so also on gradients). The state of an
optimizer counts as part of the weights. -/
def train (model : W → Tensor α → Res (Tensor α)) (update : Nat → (W → Res (List Nat × List α)) → W → W) :
    Nat → List (Tensor α) → W → W
  | _, [], w => w
  | i, x :: xs, w => train model update (i + 1) xs (update i (fun w => observed (model w x)) w)

/-- a model of `keras.Sequential` with the given layers, built for inputs of the given shape -/
def runModel [Field α] [LinearOrder α] (Ls : List (LayerArgs α)) (shape : List (Option Nat)) (x : Tensor α) : Res (Tensor α) := do
  let (fs, _) ← buildModel Ls shape
  sequential fs x

end GroCo
