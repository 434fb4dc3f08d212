import Verif.LayerSpec

/-
Model of a layer in use: calls interleaved with updates of its weights, as during training. The weights of a Keras layer are
variables created by `add_weight` in `build` (conv2d.py:67-76 through BaseConv.build); optimizers and `set_weights` assign
new values of the same shape to them. Values of another shape are refused by Keras and not modelled.
-/

namespace GroCo
open Tensor

variable {α : Type}

/-- `layer.set_weights([kernel, bias])`, or an optimizer step: the variables keep their shapes and get new entries. -/
def GroupConv.assign (l : GroupConv α) (k b : List Nat → α) : GroupConv α :=
  { l with
    kernel := l.kernel.map fun t => ⟨t.shape, k⟩
    bias := l.bias.map fun t => ⟨t.shape, b⟩ }

/-- what can happen to a layer after it is built -/
inductive Event (α : Type) where
  | call (x : Tensor α)
  | assign (k b : List Nat → α)

/-- The layer and the results of its calls (conv2d.py:59-65) after a history; exceptions are caught by the caller. -/
def GroupConv.run [Semiring α] (l : GroupConv α) : List (Event α) → GroupConv α × List (Res (Tensor α))
  | [] => (l, [])
  | .call x :: es =>
    let r := l.call x
    let rest := r.1.run es
    (rest.1, r.2 :: rest.2)
  | .assign k b :: es => (l.assign k b).run es

end GroCo
