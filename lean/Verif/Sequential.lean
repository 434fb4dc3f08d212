import Verif.StackSpec

/-
Models made of layers: how `keras.Sequential` (and the functional interface) builds the layers of a model one after the other before
there are any data. This is code of Keras, not in /repo; what it uses of GroCo are the constructors, `build`, `compute_output_shape`
(conv2d.py:83-86, the same in the other three classes; the pooling layers have none) and `call`.
-/

namespace GroCo
open Tensor

variable {α : Type}

/-- A layer of a model as the user writes it, with the entries its weights are initialised with: a group convolution, transposed if
`tr`, a group pooling layer, or another layer, given by what it computes. -/
inductive LayerArgs (α : Type) where
  | conv (a : ConvArgs α) (tr : Bool) (k0 b0 : List Nat → α)
  | pool (a : PoolArgs)
  | other (f : Tensor α → Res (Tensor α))

/-- The output shape Keras finds for a layer without its own `compute_output_shape`: it runs `call` symbolically. Here `call` runs on a
tensor of zeros, with batch size one if the batch size is unknown. Simplification: only the batch size may be unknown. -/
def tracedShape [Zero α] (f : Tensor α → Res (Tensor α)) (shape : List (Option Nat)) : Res (List (Option Nat)) := do
  let y ← f ⟨shape.map (·.getD 1), fun _ => 0⟩
  return shape.headD none :: y.shape.tail.map some

/-- A layer applied to a symbolic tensor: Keras builds it on the shape of that tensor and returns a symbolic tensor with the shape
that the layer announces. -/
def LayerArgs.symbolic [Field α] [LinearOrder α] (L : LayerArgs α) (shape : List (Option Nat)) :
    Res ((Tensor α → Res (Tensor α)) × List (Option Nat)) :=
  match L with
  | .conv a tr k0 b0 => do
    let l0 ← GroupConv.init a a.group.dim tr
    let l ← l0.build shape k0 b0
    let s ← l.computeOutputShape shape
    return (fun x => (l.call x).2, s)
  | .pool a => do
    let l0 ← GroupPooling.init a a.group.dim
    let l ← l0.build shape
    let s ← tracedShape (fun x : Tensor α => l.call x) shape
    return (fun x => l.call x, s)
  | .other f => do
    let s ← tracedShape f shape
    return (f, s)

/-- The built layers of a model, the shapes they were built on and, at the end of these, the announced shape of the output. -/
def buildModel [Field α] [LinearOrder α] : List (LayerArgs α) → List (Option Nat) →
    Res (List (Tensor α → Res (Tensor α)) × List (List (Option Nat)))
  | [], s => .ok ([], [s])
  | L :: Ls, s => do
    let (f, s') ← L.symbolic s
    let (fs, ss) ← buildModel Ls s'
    return (f :: fs, s :: ss)

/-- A layer applied to a tensor: it is built on the shape of the tensor and called. -/
def LayerArgs.eager [Field α] [LinearOrder α] (L : LayerArgs α) (x : Tensor α) : Res (Tensor α) :=
  match L with
  | .conv a tr k0 b0 => do
    let l0 ← GroupConv.init a a.group.dim tr
    let l ← l0.build (x.shape.map some) k0 b0
    (l.call x).2
  | .pool a => do
    let l0 ← GroupPooling.init a a.group.dim
    let l ← l0.build (x.shape.map some)
    l.call x
  | .other f => f x

/-- new layers applied to a tensor one after the other, as in `layer2(layer1(x))` -/
def eagerModel [Field α] [LinearOrder α] (Ls : List (LayerArgs α)) (x : Tensor α) : Res (Tensor α) :=
  Ls.foldlM (fun x L => L.eager x) x

end GroCo
