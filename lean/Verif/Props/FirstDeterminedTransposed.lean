import Verif.Props.DeterminedTransposed
import Verif.Props.FirstComplete

/-
Property C67 for transposed channels_first layers that pad nothing themselves.
-/

namespace GroCo
open Tensor

variable {α : Type}

/-- C67 for transposed channels_first layers that pad nothing themselves: the weights and the bias are determined by what the layer
computes on images of some one size. -/
theorem C67_channels_first_transposed_parameters [Ring α] {a : ConvArgs α} {bt : Option Nat} {n : List Nat} {g : Option Nat} {C : Nat}
    {k0 k1 b0 b1 : List Nat → α} {H : List Nat} {l : GroupConv α} (hl : BuiltConv a true bt n g C k0 b0 H l)
    (hf : a.dataFormat = .channelsFirst) (hu : Unpadded l.transforms) (opt : PadOption) (hopt : formatPaddingOption a.padding = .ok opt)
    (hact : Function.Injective a.activation) (hd0 : 0 ∉ a.dilation) (m : List Nat) (hm : m.length = a.group.dim)
    (hfit : ∀ i, i < a.group.dim → 0 < nth m i ∧ (opt = .valid ∨ opt = .validEquiv ∨
      dilated (nth a.kernelSize i) (nth a.dilation i) ≤ (nth m i - 1) * nth a.strides i + 1))
    (heq : ∀ x y y' : Tensor α, x.shape = sigShape .channelsFirst 1 m g C → (l.call x).2 = .ok y →
      ((l.assign k1 b1).call x).2 = .ok y' → y.Same y') :
    (∀ k c o, Valid a.kernelSize k → c < g.getD 1 * C → o < a.filters → k0 (k ++ [o, c]) = k1 (k ++ [o, c])) ∧
    (a.useBias = true → ∀ o, o < a.filters → b0 [o] = b1 [o]) := by
  obtain ⟨t, ht, -, hs⟩ := C30_plain_transposed hl hf hu opt hopt
  have hs' := hs k1 b1
  have hs := hs k0 b0
  rw [assign_self hl, assign_self ht] at hs
  obtain ⟨ho, -⟩ := (accepted_iff _ _ _).2 (plain_accepted opt)
  refine C67_transposed_parameters (a := a.plainLast opt) ht rfl opt.plain ho hact hd0 m hm (fun i hi => ?_) (fun x y y' hx hy hy' => ?_)
  · obtain ⟨h1, h2⟩ := hfit i hi
    refine ⟨h1, ?_⟩
    rcases h2 with h | h | h
    · left; subst h; rfl
    · left; subst h; rfl
    · exact Or.inr (Or.inr h)
  obtain ⟨x', mx⟩ : ∃ x', ChannelsMoved 1 m g C x x' := exists_first hx
  obtain ⟨r, o⟩ := hs 1 m x x' hm mx
  obtain ⟨r', o'⟩ := hs' 1 m x x' hm mx
  obtain ⟨z, hz⟩ := r.1 ⟨y, hy⟩
  obtain ⟨z', hz'⟩ := r'.1 ⟨y', hy'⟩
  obtain ⟨out, mz⟩ := o y z hy hz
  obtain ⟨out', mz'⟩ := o' y' z' hy' hz'
  exact same_moved_last mz mz' (heq x' z z' mx.first hz hz')

/-- `determinedTranspose` for channels_first -/
def determinedTransposeFirst : ConvArgs Int := { determinedTranspose with dataFormat := .channelsFirst }

set_option maxRecDepth 8000 in
/-- hypotheses are met: on images of size 2 by 2 the results of this layer change when one of its weights does -/
example : ∃ (l : GroupConv Int), (∃ H k0 b0, BuiltConv determinedTransposeFirst true none [5, 5] (some 2) 1 k0 b0 H l) ∧
    ¬ ∀ x y y' : Tensor Int, x.shape = sigShape .channelsFirst 1 [2, 2] (some 2) 1 → (l.call x).2 = .ok y →
      ((l.assign (fun idx => if idx = [2, 1, 0, 1] then 0 else 1) (fun _ => 0)).call x).2 = .ok y' → y.Same y' := by
  obtain ⟨l, hl, hu⟩ : ∃ l, BuiltConv determinedTransposeFirst true none [5, 5] (some 2) 1 (fun _ => 1) (fun _ => 0) [0, 2] l ∧
      Unpadded l.transforms := ⟨_, ⟨⟨_, rfl, rfl⟩, rfl, rfl⟩, rfl⟩
  refine ⟨l, ⟨_, _, _, hl⟩, fun heq => ?_⟩
  have h := (C67_channels_first_transposed_parameters hl rfl hu .same (by decide) (fun u v e => by
    have e : 2 * u + 1 = 2 * v + 1 := e
    omega) (by decide) [2, 2] rfl (by decide) heq).1 [2, 1] 1 0 (by decide) (by decide) (by decide)
  exact absurd h (by decide)

end GroCo
