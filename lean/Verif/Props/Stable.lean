import Mathlib.Algebra.Order.Ring.Abs
import Verif.Props.Range

/-
Property C84: pooling keeps the order of signals and does not amplify differences, the mean is at most the maximum, and
convolutions with kernels without negative entries keep the order. Proved for every layer, in both data formats and with all
paddings, through the related runs of Relational.lean and PoolRelational.lean.
-/

namespace GroCo
open Tensor

variable {α : Type}

/-- two tensors of the same shape with related entries -/
def Entrywise (R : α → α → Prop) (x₁ x₂ : Tensor α) : Prop :=
  x₁.shape = x₂.shape ∧ ∀ idx, Valid x₂.shape idx → R (x₁.get idx) (x₂.get idx)

/-- Two calls that return tensors with related entries, or raise the same exception. -/
def CallsEntrywise (R : α → α → Prop) (r₁ r₂ : Res (Tensor α)) : Prop :=
  (∃ y₁ y₂, r₁ = .ok y₁ ∧ r₂ = .ok y₂ ∧ Entrywise R y₁ y₂) ∨ ∃ e, r₁ = .error e ∧ r₂ = .error e

theorem Entrywise.rel {R : α → α → Prop} {x₁ x₂ : Tensor α} (h : Entrywise R x₁ x₂) : TRel (fun a b _ => R a b) x₁ x₂ x₂ :=
  ⟨h.1, rfl, h.2⟩

theorem calls_entrywise {R : α → α → Prop} {r₁ r₂ r : Res (Tensor α)} (h : RRel (TRel fun a b _ => R a b) r₁ r₂ r) :
    CallsEntrywise R r₁ r₂ := by
  cases h with
  | ok h => exact .inl ⟨_, _, rfl, rfl, h.left.trans h.right.symm, fun i hi => h.get i (h.right ▸ hi)⟩
  | error e => exact .inr ⟨e, rfl, rfl⟩

section

variable [Field α] [LinearOrder α] [IsStrictOrderedRing α]

theorem max_below (e : α) : RedRel (fun a b (_ : α) => a ≤ b + e) (maxOf : List α → α) maxOf maxOf := by
  intro l f g h hl H
  obtain ⟨i, hi, e'⟩ := List.mem_map.1 (maxOf_mem (l := l.map f) (by simpa using hl))
  rw [← e']
  have := le_maxOf (List.mem_map_of_mem (f := g) hi)
  linarith [H i hi]

theorem sum_below {A : Type} (e : α) (l : List A) (f g : A → α) (H : ∀ i ∈ l, f i ≤ g i + e) :
    (l.map f).sum ≤ (l.map g).sum + e * l.length := by
  induction l with
  | nil => simp
  | cons a l ih =>
    have h1 := H a (by simp)
    have h2 := ih fun b hb => H b (by simp [hb])
    simp only [List.map_cons, List.sum_cons, List.length_cons, Nat.cast_add, Nat.cast_one, mul_add, mul_one]
    linarith

theorem mean_below (e : α) : RedRel (fun a b (_ : α) => a ≤ b + e) (meanOf : List α → α) meanOf meanOf := by
  intro l f g h hl H
  have hb := sum_below e l f g H
  have hpos : (0 : α) < l.length := by exact_mod_cast List.length_pos_iff.2 hl
  unfold meanOf
  rw [List.length_map, List.length_map, div_le_iff₀ hpos, add_mul, div_mul_cancel₀ _ hpos.ne']
  exact hb

theorem reduce_below (t : PoolType) (e : α) : RedRel (fun a b (_ : α) => a ≤ b + e) (t.reduce : List α → α) t.reduce t.reduce := by
  cases t with
  | max => exact max_below e
  | average => exact mean_below e

theorem reduce_order (t : PoolType) : RedRel (fun a b (_ : α) => a ≤ b) (t.reduce : List α → α) t.reduce t.reduce := by
  have := reduce_below t (0 : α)
  simpa using this

theorem reduce_within (t : PoolType) (e : α) :
    RedRel (fun a b (_ : α) => |a - b| ≤ e) (t.reduce : List α → α) t.reduce t.reduce := by
  intro l f g h hl H
  rw [abs_le]
  have h1 := reduce_below t e l f g h hl fun i hi => by have := (abs_le.1 (H i hi)).2; linarith
  have h2 := reduce_below t e l g f h hl fun i hi => by have := (abs_le.1 (H i hi)).1; linarith
  constructor <;> linarith

/-- C84, order: if no entry of `x₁` is above that of `x₂`, no entry of the result of a pooling layer is. -/
theorem C84_order (l : GroupPooling) {x₁ x₂ : Tensor α} (hx : Entrywise (· ≤ ·) x₁ x₂) :
    CallsEntrywise (· ≤ ·) (l.call x₁) (l.call x₂) :=
  calls_entrywise (pool_call_rel l (reduce_order _) (fun _ => le_refl _) hx.rel)

/-- C84, order, for global pooling -/
theorem C84_global_order (l : GlobalGroupPooling) {x₁ x₂ : Tensor α} (hx : Entrywise (· ≤ ·) x₁ x₂) :
    CallsEntrywise (· ≤ ·) (l.call x₁) (l.call x₂) :=
  calls_entrywise (globalPool_call_rel l (reduce_order _) hx.rel)

/-- C84, differences: if the entries of two signals differ by at most `e`, so do those of the results of a pooling layer. -/
theorem C84_differences (l : GroupPooling) {e : α} (he : 0 ≤ e) {x₁ x₂ : Tensor α} (hx : Entrywise (fun a b => |a - b| ≤ e) x₁ x₂) :
    CallsEntrywise (fun a b => |a - b| ≤ e) (l.call x₁) (l.call x₂) :=
  calls_entrywise (pool_call_rel l (reduce_within _ e) (fun _ => by simpa using he) hx.rel)

/-- C84, differences, for global pooling -/
theorem C84_global_differences (l : GlobalGroupPooling) {e : α} {x₁ x₂ : Tensor α}
    (hx : Entrywise (fun a b => |a - b| ≤ e) x₁ x₂) : CallsEntrywise (fun a b => |a - b| ≤ e) (l.call x₁) (l.call x₂) :=
  calls_entrywise (globalPool_call_rel l (reduce_within _ e) hx.rel)

theorem mean_max_below : RedRel (fun a b (_ : α) => a ≤ b) (meanOf : List α → α) maxOf maxOf := by
  intro l f g h hl H
  have hb := sum_below (maxOf (l.map g)) l f (fun _ => 0) fun i hi => by
    have := le_maxOf (List.mem_map_of_mem (f := g) hi)
    linarith [H i hi]
  have hpos : (0 : α) < l.length := by exact_mod_cast List.length_pos_iff.2 hl
  unfold meanOf
  rw [List.length_map, div_le_iff₀ hpos]
  simpa using hb

theorem pool_types_rel (l : GroupPooling) {x₁ x₂ : Tensor α} (hx : Entrywise (· ≤ ·) x₁ x₂) :
    CallsEntrywise (· ≤ ·) (GroupPooling.call { l with poolType := .average } x₁) (GroupPooling.call { l with poolType := .max } x₂) := by
  refine calls_entrywise (r := GroupPooling.call { l with poolType := .max } x₂) ?_
  have hR : RedRel (fun a b (_ : α) => a ≤ b) (PoolType.average.reduce : List α → α) PoolType.max.reduce PoolType.max.reduce :=
    mean_max_below
  unfold GroupPooling.call
  exact .bind (subgroupPooling_rel hR hx.rel _) fun x y z h => .bind (mergeGroupAxisAndPad_rel h (le_refl _) _) fun _ _ _ g =>
    .bind (kerasPool_rel hR g _ _ _ _) fun _ _ _ g => restoreGroupAxis_rel g _

end

/-- pooling layers built with the same arguments except for the type of pooling differ only in that -/
theorem built_pool_type {a : PoolArgs} {t : PoolType} {bt : Option Nat} {n : List Nat} {g C : Nat} {H : List Nat}
    {l l' : GroupPooling} (hl : BuiltPool a bt n g C H l) (hl' : BuiltPool { a with poolType := t } bt n g C H l') :
    l' = { l with poolType := t } ∧ l.poolType = a.poolType := by
  obtain ⟨l0, h0, h1⟩ := hl.built
  obtain ⟨l0', h0', h1'⟩ := hl'.built
  unfold GroupPooling.init at h0 h0'
  obtain ⟨T, e1, h0⟩ := bind_eq_ok h0
  obtain ⟨T', e1', h0'⟩ := bind_eq_ok h0'
  obtain rfl : T = T' := by rw [e1] at e1'; cases e1'; rfl
  obtain ⟨p, e2, h0⟩ := bind_eq_ok h0
  obtain ⟨p', e2', h0'⟩ := bind_eq_ok h0'
  obtain rfl : p = p' := by rw [e2] at e2'; cases e2'; rfl
  dsimp only at h0 h0'
  split at h0
  · cases h0
  rename_i hc
  rw [if_neg hc] at h0'
  cases h0
  cases h0'
  unfold GroupPooling.build at h1 h1'
  obtain ⟨T1, e3, h1⟩ := bind_eq_ok h1
  obtain ⟨T1', e3', h1'⟩ := bind_eq_ok h1'
  obtain rfl : T1 = T1' := by rw [e3] at e3'; cases e3'; rfl
  obtain ⟨T2, e4, h1⟩ := bind_eq_ok h1
  obtain ⟨T2', e4', h1'⟩ := bind_eq_ok h1'
  obtain rfl : T2 = T2' := by rw [e4] at e4'; cases e4'; rfl
  cases h1
  cases h1'
  exact ⟨rfl, rfl⟩

/-- C84, average and maximum: of two pooling layers that differ in the type of pooling only, the one with the average accepts the
same signals and its result is nowhere above that of the one with the maximum. -/
theorem C84_average_below_maximum [Field α] [LinearOrder α] [IsStrictOrderedRing α] {a : PoolArgs} {bt : Option Nat} {n : List Nat}
    {g C : Nat} {H : List Nat} {l l' : GroupPooling} (hl : BuiltPool { a with poolType := .average } bt n g C H l)
    (hl' : BuiltPool { a with poolType := .max } bt n g C H l') (x : Tensor α) :
    CallsEntrywise (· ≤ ·) (l.call x) (l'.call x) := by
  obtain ⟨h1, h2⟩ := built_pool_type hl hl'
  have := pool_types_rel l (x₁ := x) (x₂ := x) ⟨rfl, fun _ _ => le_refl _⟩
  rw [h1]
  have e : ({ l with poolType := .average } : GroupPooling) = l := by
    cases l
    cases h2
    rfl
  rwa [e] at this

/-- C84, average and maximum, for global pooling -/
theorem C84_global_average_below_maximum [Field α] [LinearOrder α] [IsStrictOrderedRing α] (d : Nat) (keepdims : Bool)
    (fmt : DataFormat) (x : Tensor α) :
    CallsEntrywise (· ≤ ·) ((⟨d, .average, keepdims, fmt⟩ : GlobalGroupPooling).call x)
      ((⟨d, .max, keepdims, fmt⟩ : GlobalGroupPooling).call x) := by
  refine calls_entrywise (r := (⟨d, .max, keepdims, fmt⟩ : GlobalGroupPooling).call x) ?_
  have hR : RedRel (fun a b (_ : α) => a ≤ b) (PoolType.average.reduce : List α → α) PoolType.max.reduce PoolType.max.reduce :=
    mean_max_below
  have hx : Entrywise (· ≤ ·) x x := ⟨rfl, fun _ _ => le_refl _⟩
  unfold GlobalGroupPooling.call GlobalGroupPooling.poolGroup
  refine .bind (reduceAxis_rel hR hx.rel _) fun x y z h => .bind (kerasGlobalPool_rel hR h _ _ _) fun _ _ _ g => ?_
  unfold GlobalGroupPooling.restoreGroupAxis
  dsimp only
  split
  · exact expandDims_rel g _
  · exact .ok g

/-- C84, convolutions: if the kernel of a layer has no negative entries and the activation is monotone, the layer keeps the order of
signals. -/
theorem C84_convolution [Semiring α] [PartialOrder α] [IsOrderedRing α] {a : ConvArgs α} {tr : Bool} {bt : Option Nat} {n : List Nat}
    {g : Option Nat} {C : Nat} {k0 b0 : List Nat → α} {H : List Nat} {l : GroupConv α} (hl : BuiltConv a tr bt n g C k0 b0 H l)
    (hk : ∀ k, l.kernel = some k → ∀ idx, Valid k.shape idx → 0 ≤ k.get idx) (ha : Monotone a.activation) {x₁ x₂ : Tensor α}
    (hx : Entrywise (· ≤ ·) x₁ x₂) : CallsEntrywise (· ≤ ·) (l.call x₁).2 (l.call x₂).2 := by
  obtain ⟨h1, -, -⟩ := built_parts hl
  refine calls_entrywise (call_rel (n := l) (W := fun a b _ => a = b ∧ 0 ≤ a) (B := fun a b _ => a = b)
    (P := fun a b _ => a ≤ b) ?_ hx.rel)
  refine ⟨⟨le_refl _, le_refl _, ?_, ?_⟩, rfl, rfl, rfl, rfl, rfl, rfl, rfl, rfl, rfl, rfl, rfl, rfl, rfl, rfl,
    ?_, ORel.refl (R := fun a b _ => a = b) (fun _ => rfl) _, ?_, ?_⟩
  · intro a b _ a' b' _ h h'
    exact add_le_add h h'
  · rintro a b _ a' b' _ h ⟨rfl, h'⟩
    exact mul_le_mul_of_nonneg_right h h'
  · cases e : l.kernel with
    | none => trivial
    | some k => exact ⟨rfl, rfl, fun i hi => ⟨rfl, hk k e i hi⟩⟩
  · intro _ a b _ h
    rw [h1]
    exact ha h
  · rintro a b _ a' b' _ h rfl
    rw [h1]
    exact ha (add_le_add_left h _)

set_option maxRecDepth 8000 in
/-- hypotheses of C84_order, C84_differences and C84_average_below_maximum are met by layers that pad, and the calls return -/
example : (∃ l l' y y', BuiltPool { linearPool with poolType := .average } none [2, 2] 2 1 [0, 1] l ∧
      BuiltPool { linearPool with poolType := .max } none [2, 2] 2 1 [0, 1] l' ∧ ¬ Unpadded l.transforms ∧
      l.call (⟨[1, 2, 2, 2, 1], fun i => nth i 1⟩ : Tensor ℚ) = .ok y ∧ l'.call (⟨[1, 2, 2, 2, 1], fun i => nth i 1⟩ : Tensor ℚ) = .ok y') ∧
    Entrywise (· ≤ ·) (⟨[1, 2, 2, 2, 1], fun i => nth i 1⟩ : Tensor ℚ) ⟨[1, 2, 2, 2, 1], fun i => nth i 1 + nth i 2⟩ ∧
    Entrywise (fun a b => |a - b| ≤ 1) (⟨[1, 2, 2, 2, 1], fun i => nth i 1⟩ : Tensor ℚ) ⟨[1, 2, 2, 2, 1], fun i => nth i 1 + 1⟩ :=
  ⟨⟨_, _, _, _, ⟨⟨_, rfl, rfl⟩, rfl, rfl⟩, ⟨⟨_, rfl, rfl⟩, rfl, rfl⟩, by unfold Unpadded; decide, rfl, rfl⟩,
    ⟨rfl, fun i _ => by simp⟩, ⟨rfl, fun i _ => by simp⟩⟩

/-- hypotheses of C84_global_order and C84_global_differences are met, and the call returns -/
example : ∃ y, (⟨2, .average, false, .channelsLast⟩ : GlobalGroupPooling).call (⟨[1, 2, 2, 2, 1], fun i => nth i 1⟩ : Tensor ℚ) = .ok y :=
  ⟨_, rfl⟩

set_option maxRecDepth 8000 in
/-- hypotheses of C84_convolution are met by a layer with a bias that pads, and the call returns -/
example : ∃ l y, BuiltConv (linearConv true) false none [2, 2] none 1 (fun i => nth i 0 + 3 * nth i 1) (fun _ => -1) [0, 1, 2, 3] l ∧
    (∀ k, l.kernel = some k → ∀ idx, Valid k.shape idx → 0 ≤ k.get idx) ∧ Monotone (linearConv true).activation ∧
    (l.call ⟨[1, 1, 2, 2], fun i => nth i 0⟩).2 = .ok y := by
  refine ⟨_, _, ⟨⟨_, rfl, rfl⟩, rfl, rfl⟩, ?_, monotone_id, rfl⟩
  intro k hk idx _
  cases hk
  show (0 : Int) ≤ nth idx 0 + 3 * nth idx 1
  omega

/-- a convolution with a negative weight need not keep the order -/
theorem C84_kernel_needed : ∃ (l : GroupConv Int) (x₁ x₂ : Tensor Int),
    BuiltConv { linearConv false with dataFormat := .channelsLast } false none [2, 2] none 1 (fun _ => -1) (fun _ => 0) [0, 1, 2, 3] l ∧
    Entrywise (· ≤ ·) x₁ x₂ ∧ ¬ CallsEntrywise (· ≤ ·) (l.call x₁).2 (l.call x₂).2 := by
  refine ⟨_, ⟨[1, 2, 2, 1], fun _ => 0⟩, ⟨[1, 2, 2, 1], fun _ => 1⟩, ⟨⟨_, rfl, rfl⟩, rfl, rfl⟩, ⟨rfl, fun _ _ => Int.zero_le_ofNat 1⟩, ?_⟩
  rintro (⟨y₁, y₂, h1, h2, h3⟩ | ⟨e, h1, -⟩)
  · cases h1
    cases h2
    have := h3.2 [0, 0, 0, 0, 0] (by decide +kernel)
    revert this
    decide +kernel
  · cases h1

end GroCo
