import Mathlib.Algebra.Field.Rat
import Mathlib.Algebra.Order.Ring.Unbundled.Rat
import Mathlib.Algebra.BigOperators.Ring.List
import Mathlib.Tactic.Ring
import Verif.PoolRelational
import Verif.PoolSpec
import Verif.Props.Training

/-
Property C54: layers without activation are linear. Proved for every layer that can be built, in both data formats, with all
paddings, transposed or not, through the three related runs of Relational.lean.
-/

namespace GroCo
open Tensor

variable {α : Type}

/-- `x` is `c` times `x₁` plus `x₂` -/
def Combines [Add α] [Mul α] (c : α) (x₁ x₂ x : Tensor α) : Prop :=
  x₁.shape = x.shape ∧ x₂.shape = x.shape ∧ ∀ idx, Valid x.shape idx → x.get idx = c * x₁.get idx + x₂.get idx

/-- Three calls that return tensors of which the third combines the other two, or raise the same exception. -/
def CallsCombine [Add α] [Mul α] (c : α) (r₁ r₂ r : Res (Tensor α)) : Prop :=
  (∃ y₁ y₂ y, r₁ = .ok y₁ ∧ r₂ = .ok y₂ ∧ r = .ok y ∧ Combines c y₁ y₂ y) ∨
    ∃ e, r₁ = .error e ∧ r₂ = .error e ∧ r = .error e

theorem combine_iff [Add α] [Mul α] {c : α} {x₁ x₂ x : Tensor α} :
    Combines c x₁ x₂ x ↔ TRel (fun a b s => s = c * a + b) x₁ x₂ x :=
  ⟨fun h => ⟨h.1, h.2.1, h.2.2⟩, fun h => ⟨h.left, h.right, h.get⟩⟩

theorem calls_combine [Add α] [Mul α] {c : α} {r₁ r₂ r : Res (Tensor α)}
    (h : RRel (TRel fun a b s => s = c * a + b) r₁ r₂ r) : CallsCombine c r₁ r₂ r := by
  cases h with
  | ok h => exact .inl ⟨_, _, _, rfl, rfl, rfl, combine_iff.2 h⟩
  | error e => exact .inr ⟨e, rfl, rfl, rfl⟩

theorem TRel.refl {R : α → α → α → Prop} (h : ∀ a, R a a a) (x : Tensor α) : TRel R x x x := ⟨rfl, rfl, fun _ _ => h _⟩

theorem ORel.refl {R : α → α → α → Prop} (h : ∀ a, R a a a) (x : Option (Tensor α)) : ORel (TRel R) x x x := by
  cases x with
  | none => trivial
  | some x => exact TRel.refl h x

theorem built_parts {a : ConvArgs α} {tr : Bool} {bt : Option Nat} {n : List Nat} {g : Option Nat} {C : Nat}
    {k0 b0 : List Nat → α} {H : List Nat} {l : GroupConv α} (hl : BuiltConv a tr bt n g C k0 b0 H l) :
    l.activation = a.activation ∧ (a.useBias = false → l.bias = none) ∧ l.kernel.isSome := by
  obtain ⟨l0, h0, h1⟩ := hl.built
  unfold GroupConv.init at h0
  obtain ⟨t, _, h0⟩ := bind_eq_ok h0
  obtain ⟨p, _, h0⟩ := bind_eq_ok h0
  split at h0
  · cases h0
  cases h0
  unfold GroupConv.build at h1
  obtain ⟨t, _, h1⟩ := bind_eq_ok h1
  obtain ⟨ch, _, h1⟩ := bind_eq_ok h1
  obtain ⟨_, _, h1⟩ := bind_eq_ok h1
  obtain ⟨t, _, h1⟩ := bind_eq_ok h1
  cases h1
  exact ⟨rfl, fun h => by simp [h], rfl⟩

/-- C54, inputs: without bias and activation, calling a layer on `c x₁ + x₂` gives `c y₁ + y₂`. -/
theorem C54_linear_input [Semiring α] {a : ConvArgs α} {tr : Bool} {bt : Option Nat} {n : List Nat} {g : Option Nat} {C : Nat}
    {k0 b0 : List Nat → α} {H : List Nat} {l : GroupConv α} (hl : BuiltConv a tr bt n g C k0 b0 H l) (hb : a.useBias = false)
    (ha : a.activation = id) (c : α) (x₁ x₂ x : Tensor α) (hx : Combines c x₁ x₂ x) :
    CallsCombine c (l.call x₁).2 (l.call x₂).2 (l.call x).2 := by
  obtain ⟨h1, h2, -⟩ := built_parts hl
  refine calls_combine (call_rel (W := fun a b s => s = a ∧ s = b) (B := fun _ _ _ => False)
    (P := fun a b s => s = c * a + b) ?_ (combine_iff.1 hx))
  refine ⟨⟨by simp, by simp, ?_, ?_⟩, rfl, rfl, rfl, rfl, rfl, rfl, rfl, rfl, rfl, rfl, rfl, rfl, rfl, rfl,
    ORel.refl (fun _ => ⟨rfl, rfl⟩) _, ?_, ?_, ?_⟩
  · rintro a b _ a' b' _ rfl rfl
    rw [mul_add]
    exact add_add_add_comm _ _ _ _
  · rintro a b _ a' b' s rfl ⟨rfl, rfl⟩
    rw [add_mul, mul_assoc]
  · rw [h2 hb]; trivial
  · intro _ a b s h
    rw [h1, ha]
    exact h
  · intro _ _ _ _ _ _ _ h
    exact h.elim

/-- C54, weights: without activation, the layer with kernel `c k₁ + k₂` and bias `c b₁ + b₂` gives `c y₁ + y₂`. -/
theorem C54_linear_weights [CommSemiring α] {a : ConvArgs α} {tr : Bool} {bt : Option Nat} {n : List Nat} {g : Option Nat}
    {C : Nat} {k₁ k₂ b₁ b₂ : List Nat → α} {H : List Nat} {c : α} {l₁ l₂ l : GroupConv α}
    (hl₁ : BuiltConv a tr bt n g C k₁ b₁ H l₁) (hl₂ : BuiltConv a tr bt n g C k₂ b₂ H l₂)
    (hl : BuiltConv a tr bt n g C (fun i => c * k₁ i + k₂ i) (fun i => c * b₁ i + b₂ i) H l)
    (ha : a.activation = id) (x : Tensor α) :
    CallsCombine c (l₁.call x).2 (l₂.call x).2 (l.call x).2 := by
  obtain ⟨h1, -, h2⟩ := built_parts hl
  have e₁ := built_unique hl₁ (C53_assign (k1 := k₁) (b1 := b₁) hl)
  have e₂ := built_unique hl₂ (C53_assign (k1 := k₂) (b1 := b₂) hl)
  have e := built_unique hl (C53_assign (k1 := fun i => c * k₁ i + k₂ i) (b1 := fun i => c * b₁ i + b₂ i) hl)
  rw [e, e₁, e₂]
  refine calls_combine (call_rel (R := fun a b s => s = a ∧ s = b) (W := fun a b s => s = c * a + b)
    (B := fun a b s => s = c * a + b) (P := fun a b s => s = c * a + b) ?_ (TRel.refl (fun _ => ⟨rfl, rfl⟩) x))
  refine ⟨⟨by simp, by simp, ?_, ?_⟩, rfl, rfl, rfl, rfl, rfl, rfl, rfl, rfl, rfl, rfl, rfl, rfl, rfl, rfl,
    ?_, ?_, ?_, ?_⟩
  · rintro a b _ a' b' _ rfl rfl
    ring
  · rintro a b _ a' b' s ⟨rfl, rfl⟩ rfl
    ring
  · unfold GroupConv.assign
    cases l.kernel with
    | none => trivial
    | some k => exact ⟨rfl, rfl, fun _ _ => rfl⟩
  · unfold GroupConv.assign
    cases l.bias with
    | none => trivial
    | some k => exact ⟨rfl, rfl, fun _ _ => rfl⟩
  · intro _ a b s h
    unfold GroupConv.assign
    simp only [h1, ha]
    exact h
  · rintro a b s a' b' s' rfl rfl
    unfold GroupConv.assign
    simp only [h1, ha, id]
    ring

theorem mean_combines [Field α] (c : α) : RedRel (fun a b s => s = c * a + b) (meanOf : List α → α) meanOf meanOf := by
  intro l f g h _ H
  have : l.map h = l.map fun i => c * f i + g i := List.map_congr_left H
  simp only [meanOf, List.length_map]
  rw [this, List.sum_map_add, List.sum_map_mul_left]
  ring

/-- C54, average pooling -/
theorem C54_average_pooling [Field α] [LinearOrder α] (l : GroupPooling) (hp : l.poolType = .average) (c : α)
    (x₁ x₂ x : Tensor α) (hx : Combines c x₁ x₂ x) : CallsCombine c (l.call x₁) (l.call x₂) (l.call x) := by
  refine calls_combine (pool_call_rel l ?_ (by simp) (combine_iff.1 hx))
  rw [hp]
  exact mean_combines c

/-- C54, global average pooling -/
theorem C54_global_average_pooling [Field α] [LinearOrder α] (l : GlobalGroupPooling) (hp : l.poolType = .average) (c : α)
    (x₁ x₂ x : Tensor α) (hx : Combines c x₁ x₂ x) : CallsCombine c (l.call x₁) (l.call x₂) (l.call x) := by
  refine calls_combine (globalPool_call_rel l ?_ (combine_iff.1 hx))
  rw [hp]
  exact mean_combines c

/-- a channels_first P4 layer with a bias that pads -/
def linearConv (useBias : Bool) : ConvArgs Int :=
  { group := .P4, subgroup := some "", kernelSize := [2, 2], strides := [1, 1], padding := "same_equiv",
    allowNonEquivariance := false, dataFormat := .channelsFirst, filters := 1, dilation := [1, 1], useBias := useBias,
    activation := id }

/-- an average pooling layer that pads -/
def linearPool : PoolArgs :=
  { group := .P2, subgroup := some "", poolType := .average, poolSize := [2, 2], strides := some [1, 1],
    padding := "same_equiv", allowNonEquivariance := false, dataFormat := .channelsLast }

set_option maxRecDepth 8000 in
/-- hypotheses are met, and the calls return -/
example : (∃ l y, BuiltConv (linearConv false) false none [2, 2] none 1 (fun i => nth i 0 + 3 * nth i 1) (fun _ => 0) [0, 1, 2, 3] l ∧
      (l.call ⟨[1, 1, 2, 2], fun i => nth i 0⟩).2 = .ok y) ∧
    (∃ l, BuiltConv (linearConv true) false none [2, 2] none 1 (fun i => 2 * nth i 0 + nth i 1) (fun _ => 2 * 1 + 1) [0, 1, 2, 3] l) ∧
    (linearConv false).useBias = false ∧ (linearConv true).activation = id ∧
    Combines (2 : Int) ⟨[2], fun i => nth i 0⟩ ⟨[2], fun _ => 1⟩ ⟨[2], fun i => 2 * nth i 0 + 1⟩ ∧
    ∃ l y, BuiltPool linearPool none [2, 2] 2 1 [0, 1] l ∧ l.poolType = .average ∧
      l.call (⟨[1, 2, 2, 2, 1], fun _ => 1⟩ : Tensor ℚ) = .ok y :=
  ⟨⟨_, _, ⟨⟨_, rfl, rfl⟩, rfl, rfl⟩, rfl⟩, ⟨_, ⟨⟨_, rfl, rfl⟩, rfl, rfl⟩⟩, rfl, rfl, ⟨rfl, rfl, fun _ _ => rfl⟩,
    ⟨_, _, ⟨⟨_, rfl, rfl⟩, rfl, rfl⟩, rfl, rfl⟩⟩

end GroCo
