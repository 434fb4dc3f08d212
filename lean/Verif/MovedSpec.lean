import Verif.LayerSpec
import Verif.MatrixLemmas

/-
Specification vocabulary for C64: signals moved by one symmetry, stated without the library's action. The grid need not be a
square or a cube.
-/

namespace GroCo
open Tensor

variable {α : Type}

/-- The matrix only exchanges axes of equal size, so that it maps the grid to itself. -/
def KeepsSizes {d : Nat} (A : Matrix (Fin d) (Fin d) ℤ) (sizes : List Nat) : Prop :=
  sizes.length = d ∧ ∀ j k : Fin d, A j k ≠ 0 → nth sizes j = nth sizes k

/-- `x'` is the signal `x` (batch size `B`, grid sizes `m`, `C` channels) moved by element `h` of the group: the value of `x`
at a position is the value of `x'` at the position to which `h` moves it and, for a signal on the elements `D`, the value at
an element `e` is the value of `x'` at `he`. -/
def MovedBy (n : GroupName) (h : Nat) (fmt : DataFormat) (dom : Option (List Nat)) (B : Nat) (m : List Nat) (C : Nat)
    (x x' : Tensor α) : Prop :=
  x'.shape = x.shape ∧ ∀ (b c : Nat) (p q : List Nat), b < B → c < C → Valid m p → Valid m q →
    MovesTo (n.motion h) (List.range n.dim) m p q →
    match dom, fmt with
    | none, .channelsLast => x'.get (b :: q ++ [c]) = x.get (b :: p ++ [c])
    | none, .channelsFirst => x'.get (b :: c :: q) = x.get (b :: c :: p)
    | some D, .channelsLast => ∀ i j, i < D.length → j < D.length → nth D j = n.group.comp h (nth D i) →
        x'.get (b :: q ++ [j, c]) = x.get (b :: p ++ [i, c])
    | some D, .channelsFirst => ∀ i j, i < D.length → j < D.length → nth D j = n.group.comp h (nth D i) →
        x'.get (b :: c :: q ++ [j]) = x.get (b :: c :: p ++ [i])

/-- The window at position `p` of the output reads position `w` of the input with offset `k` of the kernel, if `before` zeros
precede the input. -/
def Reads (before strides dil p k w : List Nat) : Prop :=
  ∀ i, i < strides.length → nth p i * nth strides i + nth k i * nth dil i = nth w i + nth before i

/-- The windows of a convolution of an input of sizes `n` with a kernel of sizes `K`, with output of sizes `out`, are moved into
each other by the matrix `A`: if `A` takes position `p` of the output to `p'`, offset `k` of the kernel to `k'` and position `w`
of the input to `w'`, then the window at `p` reads `w` with `k` exactly if the window at `p'` reads `w'` with `k'`. -/
def WindowsMoved {d : Nat} (A : Matrix (Fin d) (Fin d) ℤ) (n out K before strides dil : List Nat) : Prop :=
  ∀ p p' k k' w w', Valid out p → Valid out p' → Valid K k → Valid K k' → Valid n w → Valid n w' →
    MovesTo A (List.range d) out p p' → MovesTo A (List.range d) K k k' → MovesTo A (List.range d) n w w' →
    (Reads before strides dil p k w ↔ Reads before strides dil p' k' w')

/-- Positions cut off at the start of the output of a transposed convolution, for a kernel of size `k` and stride `s` along an axis. -/
def cutOff (opt : PadOption) (k s : Nat) : Nat :=
  match opt with
  | .valid | .validEquiv => 0
  | .same | .sameEquiv => (k - s) / 2

/-- Size of the output of a transposed convolution beyond the stride times the size of the (padded) input. -/
def excess (opt : PadOption) (k s : Nat) : Nat :=
  match opt with
  | .valid | .validEquiv => k - s
  | .same | .sameEquiv => 0

/-- The contributions of a transposed convolution of an input of sizes `n` with a kernel of sizes `K`, with output of sizes `out`,
are moved into each other by the matrix `A`: if `A` takes position `p` of the input to `p'`, offset `k` of the kernel to `k'` and
position `q` of the output to `q'`, then `p` contributes to `q` through `k` exactly if `p'` contributes to `q'` through `k'`. -/
def HitsMoved {d : Nat} (A : Matrix (Fin d) (Fin d) ℤ) (n out K before strides dil crop : List Nat) : Prop :=
  ∀ p p' k k' q q', Valid n p → Valid n p' → Valid K k → Valid K k' → Valid out q → Valid out q' →
    MovesTo A (List.range d) n p p' → MovesTo A (List.range d) K k k' → MovesTo A (List.range d) out q q' →
    (Hits before strides dil crop p k q ↔ Hits before strides dil crop p' k' q')

/-- Moving the input of `f` (sizes `n`, `C` channels and, if `g` is given, on the elements `dom`) by element `h` moves its output,
which has `F` channels and is on the elements `cod`. -/
def MovesOutput (grp : GroupName) (dom cod : List Nat) (h : Nat) (f : Tensor α → Res (Tensor α)) (n : List Nat) (g : Option Nat)
    (C F : Nat) : Prop :=
  ∀ (B : Nat) (x x' y : Tensor α), x.shape = sigShape .channelsLast B n g C →
    MovedBy grp h .channelsLast (g.map fun _ => dom) B n C x x' → f x = .ok y →
    ∃ m y', y.shape = sigShape .channelsLast B m (some cod.length) F ∧ KeepsSizes (grp.motion h) m ∧ f x' = .ok y' ∧
      MovedBy grp h .channelsLast (some cod) B m F y y'

/-- the sum of all products of corresponding entries -/
def inner [Semiring α] (x y : Tensor α) : α := ((indices x.shape).map fun i => x.get i * y.get i).sum

/-- `y` is the ordinary convolution, without padding, of the signal `x` (batch size `B`, grid sizes `m`, `C` channels and, if
group-valued, `g` group elements) with a kernel of sizes `K` that has a separate weight `W (k ++ r ++ [i, o])` for each offset
`k`, index `r` of the axes after the grid, element `i` (of `order` many) and filter `o` (of `F` many). -/
def PlainConv [Semiring α] (K strides dil : List Nat) (W : List Nat → α) (order F B : Nat) (m : List Nat) (g : Option Nat)
    (C : Nat) (x y : Tensor α) : Prop :=
  y.shape = sigShape .channelsLast B ((List.range m.length).map fun i =>
    (nth m i - dilated (nth K i) (nth dil i)) / nth strides i + 1) (some order) F ∧
  ∀ (b : Nat) (p : List Nat) (i o : Nat), Valid y.shape (b :: p ++ [i, o]) → y.get (b :: p ++ [i, o]) =
    ((indices K).map fun k => ((indices (g.toList ++ [C])).map fun r =>
      x.get (b :: ((List.range m.length).map fun i => nth p i * nth strides i + nth k i * nth dil i) ++ r) *
        W (k ++ r ++ [i, o])).sum).sum

/-- The ordinary convolution with weights `W`, applied to images of sizes `m` with `C` channels, commutes with the elements `H`:
moving its input moves its output. The input is on the grid or, with `g` elements, on the whole group. The output is on the
elements `H`. -/
def PlainCommutes [Semiring α] (n : GroupName) (H K strides dil : List Nat) (W : List Nat → α) (F : Nat) (m : List Nat)
    (g : Option Nat) (C : Nat) : Prop :=
  ∀ (h : Nat) (x x' y y' : Tensor α) (out : List Nat), h ∈ H → x.shape = sigShape .channelsLast 1 m g C →
    MovedBy n h .channelsLast (g.map fun _ => List.range n.group.order) 1 m C x x' →
    PlainConv K strides dil W H.length F 1 m g C x y → PlainConv K strides dil W H.length F 1 m g C x' y' →
    y.shape = sigShape .channelsLast 1 out (some H.length) F → MovedBy n h .channelsLast (some H) 1 out F y y'

end GroCo
