import Verif.LayerSpec
import Verif.Pooling

/-
Vocabulary of the statements about pooling layers.
-/

namespace GroCo
open Tensor

variable {α : Type}

/-- `l` is the pooling layer constructed with arguments `a` and built on inputs on the group with batch size `b`, grid sizes
`n`, `g` group elements and `C` channels; `H` lists the elements of its subgroup. -/
structure BuiltPool (a : PoolArgs) (b : Option Nat) (n : List Nat) (g C : Nat) (H : List Nat) (l : GroupPooling) : Prop where
  built : ∃ l0, GroupPooling.init a a.group.dim = .ok l0 ∧ l0.build (inputShape a.dataFormat b n (some g) C) = .ok l
  dims : n.length = a.group.dim
  elements : a.group.group.sub (a.group.group.parseSubgroup a.subgroup) = .ok H

/-- A pooling layer with padding option `opt` and pool size `k` built on inputs with size `n` along an axis puts `lo` and
`hi` zeros around that axis of an input with size `m`, and its windows start `skip` positions before and end `skip'`
positions after the result. `s` is the stride of the windows and `s'` the stride for which the zeros are computed: the
least number with which sampling is symmetric. -/
def PoolPads (opt : PadOption) (n m k s s' lo hi skip skip' : Nat) : Prop :=
  ∃ e, (match opt with
      | .same | .valid => e = 0
      | _ => Symmetric n k s' (e + builtIn opt n k s') ∧ ∀ e', Symmetric n k s' (e' + builtIn opt n k s') → e ≤ e') ∧
    lo = (e + 1) / 2 ∧ lo + hi = e ∧ skip = builtIn opt (m + e) k s / 2 ∧ skip + skip' = builtIn opt (m + e) k s

/-- the strides of the windows along each axis: the pool size if they are not given -/
def PoolArgs.windowStrides (a : PoolArgs) : List Nat := a.strides.getD a.poolSize

/-- the strides for which the zeros are computed: one if they are not given -/
def PoolArgs.paddingStrides (a : PoolArgs) : List Nat := a.strides.getD (List.replicate a.group.dim 1)

/-- The integer position `q` lies inside a grid with sizes `m` extended by `lo` and `hi` positions. -/
def InExtended (lo m hi : List Nat) (q : List Int) : Prop :=
  q.length = m.length ∧ ∀ i, i < m.length → -(nth lo i : Int) ≤ q.getD i 0 ∧ q.getD i 0 < nth m i + nth hi i

instance (lo m hi : List Nat) (q : List Int) : Decidable (InExtended lo m hi q) := inferInstanceAs (Decidable (_ ∧ ∀ i, i < _ → _))

/-- Configurations of a pooling layer whose windows are symmetric along an axis of size `n` with pool size `k`, given that
the layer did not refuse them; `s` is the stride if it was given. -/
def PoolOk (opt : PadOption) (n k : Nat) (s : Option Nat) : Prop :=
  match s with
  | some s => opt = .sameEquiv → sameTotal n k s % 2 = 0
  | none => match opt with
    | .valid | .validEquiv => n % k = 0
    | .same | .sameEquiv => k % 2 = 1 ∧ sameTotal n k k % 2 = 0

/-- The multi-index of batch entry `b`, position `p`, group element `j` and channel `c` of a signal on a group. -/
def sigIndex (fmt : DataFormat) (b : Nat) (p : List Nat) (j c : Nat) : List Nat :=
  match fmt with
  | .channelsLast => b :: p ++ [j, c]
  | .channelsFirst => b :: c :: p ++ [j]

/-- Shape of the result of global pooling over `d` spatial axes and the group axis. -/
def globalShape (fmt : DataFormat) (d : Nat) (keepdims : Bool) (B C : Nat) : List Nat :=
  if keepdims then sigShape fmt B (List.replicate d 1) (some 1) C else [B, C]

/-- The multi-index of batch entry `b` and channel `c` of the result of global pooling. -/
def globalIndex (fmt : DataFormat) (d : Nat) (keepdims : Bool) (b c : Nat) : List Nat :=
  if keepdims then sigIndex fmt b (List.replicate d 0) 0 c else [b, c]

/-- The entries of batch entry `b` and channel `c` of a signal at all positions of a grid with sizes `n` and all of `g`
group elements. -/
def allEntries (fmt : DataFormat) (n : List Nat) (g : Nat) (x : Tensor α) (b c : Nat) : List α :=
  (indices n).flatMap fun p => (List.range g).map fun j => x.get (sigIndex fmt b p j c)

end GroCo
