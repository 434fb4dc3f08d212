import Verif.StackSpec

/-
The parts of the networks in notebooks/example_MNIST.ipynb that are not GroCo layers: the Keras layer `GlobalMaxPooling3D`, which
is `kerasGlobalPool .channelsLast 3` of Pooling.lean, and the last layer, a `Dense` layer with softmax.
-/

namespace GroCo
open Tensor

variable {α : Type}

/-- `Dense(classes, activation='softmax')` (notebook, function `build_model`) on a batch of vectors. Modelled as any function `f` of
the vector, which gives the number for each class. -/
def denseHead (classes : Nat) (f : List α → Nat → α) (x : Tensor α) : Res (Tensor α) :=
  match x.shape with
  | [B, C] => .ok ⟨[B, classes], fun idx => f ((List.range C).map fun c => x.get [nth idx 0, c]) (nth idx 1)⟩
  | _ => .error .value

/-- `GlobalMaxPooling3D()` (notebook, `P4Minvariant`), or average pooling, applied to signals with a group axis -/
def global3D [Field α] [LinearOrder α] (t : PoolType) (x : Tensor α) : Res (Tensor α) :=
  kerasGlobalPool .channelsLast 3 t.reduce false x

end GroCo
