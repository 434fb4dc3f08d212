import Verif.Layers
import Verif.PaddingLemmas

/-
Vocabulary of the statements about layers: shapes of signals, and what it means that a layer was constructed and built.
-/

namespace GroCo
open Tensor

variable {α : Type}

/-- Static shape of an input with grid sizes `n`, `C` channels and, if group-valued, `g` group elements. -/
def inputShape (fmt : DataFormat) (b : Option Nat) (n : List Nat) (g : Option Nat) (C : Nat) : List (Option Nat) :=
  match fmt with
  | .channelsLast => b :: n.map some ++ (g.toList.map some ++ [some C])
  | .channelsFirst => b :: some C :: n.map some ++ g.toList.map some

/-- Shape of a signal with batch size `B`, grid sizes `n`, `C` channels and, if group-valued, `g` group elements. -/
def sigShape (fmt : DataFormat) (B : Nat) (n : List Nat) (g : Option Nat) (C : Nat) : List Nat :=
  match fmt with
  | .channelsLast => B :: n ++ (g.toList ++ [C])
  | .channelsFirst => B :: C :: n ++ g.toList

/-- A layer with padding option `opt` built on inputs with size `n` along an axis puts `before` and `after` zeros around
that axis of an input with size `m`; `k`, `s`, `r` are its kernel size, stride and dilation rate along that axis. The
padding layer adds the least number `e` of zeros with which the undilated kernel samples symmetrically, Keras adds its
own zeros to the result; of an odd number the odd zero is put before, respectively after. -/
def PadsTo (opt : PadOption) (n m k s r before after : Nat) : Prop :=
  ∃ e, (match opt with
      | .same | .valid => e = 0
      | _ => Symmetric n k s (e + builtIn opt n k s) ∧ ∀ e', Symmetric n k s (e' + builtIn opt n k s) → e ≤ e') ∧
    before = (e + 1) / 2 + builtIn opt (m + e) (dilated k r) s / 2 ∧
    before + after = e + builtIn opt (m + e) (dilated k r) s

/-- Dilation rates `r` with which zeros computed for the undilated kernel `k` keep the sampling with stride `s` symmetric. -/
def DilationOk (opt : PadOption) (k s r : Nat) : Prop :=
  r = 1 ∨ s = 1 ∧ (opt = .valid ∨ opt = .validEquiv ∨ k % 2 = 1 ∨ r % 2 = 1)

/-- The position of the input multiplied with offset `k` of the kernel for output position `p`, if `before` zeros precede
the input. -/
def window (before strides dil p k : List Nat) : List Int :=
  (List.range strides.length).map fun i => (nth p i * nth strides i + nth k i * nth dil i : Int) - nth before i

/-- In a transposed convolution the entry of the input at position `p`, preceded by `before` zeros, contributes to the
output position `q` through offset `k` of the kernel; `crop` positions are cut off at the start of the output. -/
def Hits (before strides dil crop p k q : List Nat) : Prop :=
  ∀ i, i < strides.length → (nth p i + nth before i) * nth strides i + nth k i * nth dil i = nth q i + nth crop i

instance (before strides dil crop p k q : List Nat) : Decidable (Hits before strides dil crop p k q) :=
  inferInstanceAs (Decidable (∀ i, i < strides.length → _))

/-- Configurations of a transposed convolution for which the zeros added to the input and the positions cut off the output
are symmetric along an axis of size `n` with kernel size `k`, stride `s` and dilation rate `r`: the stride is at most the
kernel size and, if the padding is 'same' or 'same_equiv', both the cropping and the zeros Keras would add in the
convolution are even. -/
def TransposeOk (opt : PadOption) (n k s r : Nat) : Prop :=
  s ≤ k ∧ (r = 1 ∨ s = 1) ∧
    (opt = .valid ∨ opt = .validEquiv ∨ (k - s) % 2 = 0 ∧ sameTotal n k s % 2 = 0)

/-- `l` is the convolution layer (transposed if `tr`) constructed with arguments `a` and built on inputs with batch size
`b`, grid sizes `n`, `C` channels and, if group-valued, `g` group elements; its weights are initialised with `k0` and
`b0`, and `H` lists the elements of its subgroup. -/
structure BuiltConv (a : ConvArgs α) (tr : Bool) (b : Option Nat) (n : List Nat) (g : Option Nat) (C : Nat)
    (k0 b0 : List Nat → α) (H : List Nat) (l : GroupConv α) : Prop where
  built : ∃ l0, GroupConv.init a a.group.dim tr = .ok l0 ∧ l0.build (inputShape a.dataFormat b n g C) k0 b0 = .ok l
  dims : n.length = a.group.dim
  elements : a.group.group.sub (a.group.group.parseSubgroup a.subgroup) = .ok H

/-- `x2` is `x1` with the channel axis moved from the last place behind the batch axis; `B`, `n`, `g` and `C` are the batch
size, the grid sizes, the number of group elements (`none` if there is no group axis) and the number of channels. -/
structure ChannelsMoved (B : Nat) (n : List Nat) (g : Option Nat) (C : Nat) (x1 x2 : Tensor α) : Prop where
  last : x1.shape = sigShape .channelsLast B n g C
  first : x2.shape = sigShape .channelsFirst B n g C
  get : ∀ b p c, b < B → Valid (n ++ g.toList) p → c < C → x2.get (b :: c :: p) = x1.get (b :: p ++ [c])

/-- Configurations for which the padding layer never pads: 'same' and 'valid', and strides 1 with odd kernels or 'valid_equiv'. -/
def NeverPads (opt : PadOption) (k s : Nat) : Prop :=
  opt = .same ∨ opt = .valid ∨ s = 1 ∧ (opt = .validEquiv ∨ k % 2 = 1)

/-- The spatial axes of a signal with `d` spatial dimensions. -/
def spatialAxes (fmt : DataFormat) (d : Nat) : List Int :=
  match fmt with
  | .channelsLast => (List.range' 1 d).map Int.ofNat
  | .channelsFirst => (List.range' 2 d).map Int.ofNat

/-- The axis of a group-valued signal with `d` spatial dimensions which runs over the group elements. -/
def groupAxis (fmt : DataFormat) (d : Nat) : Nat :=
  match fmt with
  | .channelsLast => d + 1
  | .channelsFirst => d + 2

/-- Transforming `x` with any of the elements of the subgroup `acting` (there are `order`) and applying `f` gives `y`
transformed with the same element; `dx` and `dy` name the subgroups on which `x` and `y` are defined, `none` for signals
on the grid. (What the library's action does is C03 and C05 to C07.) -/
def Commutes [Zero α] (G : Group) (d : Nat) (fmt : DataFormat) (acting : Option String) (order : Nat) (dx dy : Option String)
    (f : Tensor α → Res (Tensor α)) (x y : Tensor α) : Prop :=
  ∃ hx hy, G.action x (spatialAxes fmt d) 0 (some (groupAxis fmt d)) acting dx = .ok hx ∧ hx.shape = order :: x.shape ∧
    G.action y (spatialAxes fmt d) 0 (some (groupAxis fmt d)) acting dy = .ok hy ∧ hy.shape = order :: y.shape ∧
    ∀ i, i < order → ∃ z, f (slice hx 0 i) = .ok z ∧ z.Same (slice hy 0 i)

end GroCo
