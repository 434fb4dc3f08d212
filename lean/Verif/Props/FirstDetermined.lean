import Verif.Props.Determined
import Verif.Props.FirstComplete

/-
Property C67 for channels_first layers that pad nothing themselves, with bias, activation and Keras's own padding.
-/

namespace GroCo
open Tensor

variable {α : Type}

/-- C67 in general for channels_first layers that pad nothing themselves: the weights and the bias are determined by what the layer
computes on images of some one size at least as large as a (dilated) kernel and a stride, less one. -/
theorem C67_channels_first_parameters [Ring α] {a : ConvArgs α} {bt : Option Nat} {n : List Nat} {g : Option Nat} {C : Nat}
    {k0 k1 b0 b1 : List Nat → α} {H : List Nat} {l : GroupConv α} (hl : BuiltConv a false bt n g C k0 b0 H l)
    (hf : a.dataFormat = .channelsFirst) (hu : Unpadded l.transforms) (hact : Function.Injective a.activation) (hd0 : 0 ∉ a.dilation)
    (m : List Nat) (hm : m.length = a.group.dim)
    (hfit : ∀ i, i < a.group.dim → dilated (nth a.kernelSize i) (nth a.dilation i) + nth a.strides i ≤ nth m i + 1)
    (heq : ∀ x y y' : Tensor α, x.shape = sigShape .channelsFirst 1 m g C → (l.call x).2 = .ok y →
      ((l.assign k1 b1).call x).2 = .ok y' → y.Same y') :
    (∀ k c o, Valid a.kernelSize k → c < g.getD 1 * C → o < a.filters → k0 (k ++ [c, o]) = k1 (k ++ [c, o])) ∧
    (a.useBias = true → ∀ o, o < a.filters → b0 [o] = b1 [o]) := by
  obtain ⟨opt, _, hopt, _, _, _⟩ := hl.facts_first hf
  obtain ⟨t, ht, -, hs⟩ := C30_plain hl hf hu opt hopt
  have hs' := hs k1 b1
  have hs := hs k0 b0
  rw [assign_self hl, assign_self ht] at hs
  refine C67_parameters_determined (a := a.plainLast opt) ht rfl hact hd0 m hm hfit (fun x y y' hx hy hy' => ?_)
  obtain ⟨x', mx⟩ : ∃ x', ChannelsMoved 1 m g C x x' := exists_first hx
  obtain ⟨r, o⟩ := hs 1 m x x' hm mx
  obtain ⟨r', o'⟩ := hs' 1 m x x' hm mx
  obtain ⟨z, hz⟩ := r.1 ⟨y, hy⟩
  obtain ⟨z', hz'⟩ := r'.1 ⟨y', hy'⟩
  obtain ⟨out, mz⟩ := o y z hy hz
  obtain ⟨out', mz'⟩ := o' y' z' hy' hz'
  exact same_moved_last mz mz' (heq x' z z' mx.first hz hz')

/-- `determinedArgs` for channels_first -/
def determinedFirst : ConvArgs Int :=
  { determinedArgs with dataFormat := .channelsFirst, allowNonEquivariance := true, padding := "same" }

set_option maxRecDepth 8000 in
/-- hypotheses are met: on images of size 5 by 5 the results of this layer change when its bias does -/
example : ∃ (l : GroupConv Int), (∃ H k0 b0, BuiltConv determinedFirst false none [5, 5] (some 4) 1 k0 b0 H l) ∧
    ¬ ∀ x y y' : Tensor Int, x.shape = sigShape .channelsFirst 1 [5, 5] (some 4) 1 → (l.call x).2 = .ok y →
      ((l.assign (fun _ => 1) (fun idx => nth idx 0)).call x).2 = .ok y' → y.Same y' := by
  obtain ⟨l, hl, hu⟩ : ∃ l, BuiltConv determinedFirst false none [5, 5] (some 4) 1 (fun _ => 1) (fun _ => 0) [0, 2] l ∧ Unpadded l.transforms :=
    ⟨_, ⟨⟨_, rfl, rfl⟩, rfl, rfl⟩, rfl⟩
  refine ⟨l, ⟨_, _, _, hl⟩, fun heq => ?_⟩
  have h := (C67_channels_first_parameters hl rfl hu (fun u v e => by
    have e : 2 * u + 1 = 2 * v + 1 := e
    omega) (by decide) [5, 5] rfl (by decide) heq).2 rfl 1 (by decide)
  exact absurd h (by decide)

end GroCo
