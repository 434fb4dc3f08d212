import Verif.MovedSpec

/-
Specification vocabulary for C30: `MovesOutput` for layers with data_format='channels_first'.
-/

namespace GroCo
open Tensor

variable {α : Type}

/-- `MovesOutput` for channels_first signals: moving the input of `f` (sizes `n`, `C` channels and, if `g` is given, on the elements
`dom`) by element `h` moves its output, which has `F` channels and is on the elements `cod`. -/
def MovesOutputFirst (grp : GroupName) (dom cod : List Nat) (h : Nat) (f : Tensor α → Res (Tensor α)) (n : List Nat) (g : Option Nat)
    (C F : Nat) : Prop :=
  ∀ (B : Nat) (x x' y : Tensor α), x.shape = sigShape .channelsFirst B n g C →
    MovedBy grp h .channelsFirst (g.map fun _ => dom) B n C x x' → f x = .ok y →
    ∃ m y', y.shape = sigShape .channelsFirst B m (some cod.length) F ∧ KeepsSizes (grp.motion h) m ∧ f x' = .ok y' ∧
      MovedBy grp h .channelsFirst (some cod) B m F y y'

end GroCo
