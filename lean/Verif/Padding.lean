import Verif.Manips
import Verif.Keras

/-
Model of groco/layers/padding.py, function by function, and of the padding Keras itself applies for padding='same'.
Integer arrays are lists of integers; `%` and `//` are Python's (floor) versions, which for the positive moduli that
occur are Lean's `%` and `/` on `Int`.
-/

namespace GroCo
open Tensor

variable {α : Type}

/-- the four values of `padding_option` (padding.py:144-153) -/
inductive PadOption where
  | same | valid | sameEquiv | validEquiv
  deriving DecidableEq, Repr

/-- `str.upper` of one character. Simplification: of the characters outside ASCII only 'ſ' and 'ı' are converted, the only
ones whose upper case is one of the letters of the four option names; the comparisons with them are exact. -/
def upperChar (c : Char) : Char :=
  if c = 'ſ' then 'S' else if c = 'ı' then 'I' else c.toUpper

/-- `str.upper` -/
def pyUpper (s : String) : String := String.ofList (s.toList.map upperChar)

/-- `str.lower`. Simplification: ASCII letters only; no other character has one of the letters of 'same' and 'valid' as
its lower case, so that the comparisons with them are exact. -/
def pyLower (s : String) : String := String.ofList (s.toList.map Char.toLower)

/-- padding.py:144-153 `format_padding_option`; the argument is a string. -/
def formatPaddingOption (s : String) : Res PadOption :=
  if pyUpper s = "SAME" then .ok .same
  else if pyUpper s = "VALID" then .ok .valid
  else if pyUpper s = "SAME_EQUIV" then .ok .sameEquiv
  else if pyUpper s = "VALID_EQUIV" then .ok .validEquiv
  else .error .typ

/-- padding.py:44 `padding[:-6] if padding.endswith("_equiv") else padding` -/
def builtInPaddingOption (s : String) : String :=
  let l := s.toList
  if "_equiv".toList <:+ l then String.ofList (l.take (l.length - 6)) else s

/-- `keras.src.backend.common...standardize_padding`, called by every Keras convolution and pooling constructor: the
argument in lower case must be 'same' or 'valid', ValueError otherwise. -/
def standardizePadding (s : String) : Res KerasPadding :=
  if pyLower s = "same" then .ok .same
  else if pyLower s = "valid" then .ok .valid
  else .error .value

/-- The attributes of `EquivariantPadding` set in `__init__` (padding.py:43-64), after broadcasting integer sizes and
strides to `dimensions` entries. -/
structure EquivariantPadding where
  paddingOption : PadOption
  allowNonEquivariance : Bool
  dimensions : Nat
  strides : List Nat
  kernelSizes : List Nat
  channelsLast : Bool
  transpose : Bool
  deriving DecidableEq, Repr

/-- attributes set by `build`: `needs_padding` and, if so, `equivariant_padding` -/
structure PadState where
  needsPadding : Bool
  pads : List (Int × Int)
  deriving DecidableEq, Repr

def relu (n : Int) : Int := max n 0

/-- padding.py:102-109 `compute_built_in_padding`, on one axis of size n, kernel k, stride s -/
def computeBuiltInPadding (o : PadOption) (transpose : Bool) (n k s : Int) : Int :=
  match o with
  | .same | .sameEquiv => relu (k - s + (-n) % s)
  | _ => if transpose then relu (s - k) else 0

/-- padding.py:111-117 `compute_extra_padding` on one axis: (extra, total) -/
def computeExtraPadding (n k s b : Int) : Int × Int :=
  let extra := (-(n + b - k)) % s
  let total := extra + b
  let extra := extra + (total % 2) * s
  (extra, extra + b)

/-- padding.py:97-100 `compute_equivariant_padding` on one axis -/
def computeEquivariantPadding (o : PadOption) (transpose : Bool) (n k s : Int) : Int × Int :=
  computeExtraPadding n k s (computeBuiltInPadding o transpose n k s)

/-- padding.py:119-133 `split_padding`, pairs (before, after) for all axes -/
def splitPadding (channelsLast : Bool) (paddings : List Int) : List (Int × Int) :=
  let paddings := if channelsLast then [0] ++ paddings ++ [0] else [0, 0] ++ paddings
  paddings.map fun p => (p - p / 2, p / 2)

/-- padding.py:155-183: the exception raised. Computing the message calls `self.compute_same_padding`, which does not
exist, when the option is 'same_equiv'. -/
def paddingException (o : PadOption) : Err :=
  match o with
  | .sameEquiv => .attribute
  | _ => .value

/-- padding.py:79-82 spatial part of a shape; an unknown size cannot be cast to an integer. -/
def EquivariantPadding.spatialShape (p : EquivariantPadding) (shape : List (Option Nat)) : Res (List Nat) :=
  (if p.channelsLast then (shape.drop 1).take p.dimensions else shape.drop 2).mapM fun n =>
    match n with
    | some n => .ok n
    | none => .error .typ

/-- padding.py:74-95 `build`. Arrays of different lengths are a ValueError (simplification: arrays of length one, which
are broadcast, are not modelled). -/
def EquivariantPadding.build (p : EquivariantPadding) (shape : List (Option Nat)) : Res PadState := do
  if (p.paddingOption = .same ∨ p.paddingOption = .valid) ∧ p.allowNonEquivariance then return ⟨false, []⟩
  else
    let spatial ← p.spatialShape shape
    if spatial.length ≠ p.kernelSizes.length ∨ spatial.length ≠ p.strides.length then .error .value
    else
      let paddings := (List.range spatial.length).map fun i => computeEquivariantPadding p.paddingOption p.transpose
        (nth spatial i) (nth p.kernelSizes i) (nth p.strides i)
      if ∀ e ∈ paddings, e.1 = 0 then return ⟨false, []⟩
      else if p.paddingOption = .same ∨ p.paddingOption = .valid then .error (paddingException p.paddingOption)
      else if ∃ e ∈ paddings, e.2 % 2 ≠ 0 then .error (paddingException p.paddingOption)
      else return ⟨true, splitPadding p.channelsLast (paddings.map Prod.fst)⟩

/-- padding.py:68-72 `call`; negative paddings never occur (they would be an error). -/
def PadState.call [Zero α] (p : PadState) (x : Tensor α) : Res (Tensor α) :=
  if p.needsPadding then pad x (p.pads.map fun e => (e.1.toNat, e.2.toNat)) else .ok x

end GroCo
