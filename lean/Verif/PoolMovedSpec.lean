import Verif.MovedSpec
import Verif.PoolSpec

/-
Specification vocabulary for C70: the windows of a pooling layer, and when a symmetry moves them into each other.
-/

namespace GroCo
open Tensor

/-- The positions over which a pooling layer takes the maximum or mean at position `p` of its output: those of the window that
are inside the input of sizes `m` extended by `lo` and `hi` zeros. The first window starts `skip` positions before the extended
input. -/
def poolWindow (lo m hi skip K strides p : List Nat) : List (List Int) :=
  ((indices K).map fun k => window ((List.range m.length).map fun i => nth skip i + nth lo i) strides
    (List.replicate m.length 1) p k).filter (fun q => InExtended lo m hi q)

/-- The matrix `A` moves the windows of a pooling layer into each other. If it takes position `p` of the output to `p'`, then it
takes the positions of the input in the window at `p` to those in the window at `p'`. If there are any, then for the maximum a
zero takes part in both windows or in none, and for the mean the windows have the same number of positions. -/
def PoolWindowsMoved (t : PoolType) {d : Nat} (A : Matrix (Fin d) (Fin d) ℤ) (lo m hi skip K strides out : List Nat) : Prop :=
  ∀ p p', Valid out p → Valid out p' → MovesTo A (List.range d) out p p' →
    (∀ w w', Valid m w → Valid m w' → MovesTo A (List.range d) m w w' →
      (w.map Int.ofNat ∈ poolWindow lo m hi skip K strides p ↔ w'.map Int.ofNat ∈ poolWindow lo m hi skip K strides p')) ∧
    ((∃ w, Valid m w ∧ w.map Int.ofNat ∈ poolWindow lo m hi skip K strides p) →
      match t with
      | .max => (∃ q ∈ poolWindow lo m hi skip K strides p, ¬ InBox m q) ↔
          ∃ q ∈ poolWindow lo m hi skip K strides p', ¬ InBox m q
      | .average => (poolWindow lo m hi skip K strides p).length = (poolWindow lo m hi skip K strides p').length)

/-- Windows of size `k` with stride `s` along an axis of size `n` that no zeros were added to are mirrored into each other: either
the positions left out by Keras are the same number on both sides and no positions remain at the end, or every window covers the
whole axis. -/
def PlainMirrored (opt : PadOption) (n k s : Nat) : Prop :=
  (builtIn opt n k s % 2 = 0 ∧ s ∣ n + builtIn opt n k s - k) ∨ n + builtIn opt n k s ≤ k + builtIn opt n k s / 2

end GroCo
