import Verif.AdjointLemmas
import Verif.Props.FormatLayers
import Verif.Props.Transpose
import Verif.Props.Training

/-
Property C66: transposed layers are the transposes of convolution layers. `inner x y` is the sum of the products of the
entries of `x` and `y`.
-/

namespace GroCo
open Tensor

variable {α : Type}

/-- C66: every linear transposed layer that pads nothing is the transpose of a convolution layer with the same group,
subgroup, kernel size, strides, dilation rates and padding, with filters and channels exchanged: for some weights `k1` the
convolution returns on every signal `x` of the shape of the transposed layer's output `z`, with the shape of its input `y`,
and the inner product of its output with `y` is that of `x` with `z`. -/
theorem C66_transposed_is_adjoint [CommSemiring α] {a : ConvArgs α} {bt : Option Nat} {n : List Nat} {g C : Nat}
    {k0 b0 : List Nat → α} {H : List Nat} {l : GroupConv α} (hl : BuiltConv a true bt n (some g) C k0 b0 H l)
    (hf : a.dataFormat = .channelsLast) (hact : a.activation = id) (hb : a.useBias = false) (hu : Unpadded l.transforms) :
    ∃ k1, ∀ (bt' : Option Nat) (n' : List Nat) (b1 : List Nat → α) (l' : GroupConv α),
      BuiltConv { a with filters := C } false bt' n' (some a.group.group.order) a.filters k1 b1 H l' → Unpadded l'.transforms →
      ∀ (B : Nat) (m : List Nat) (x y z : Tensor α), m.length = a.group.dim → 0 ∉ m →
        y.shape = sigShape .channelsLast B m (some g) C → (l.call y).2 = .ok z → x.shape = z.shape →
        ∃ u, (l'.call x).2 = .ok u ∧ u.shape = y.shape ∧ inner u y = inner x z := by
  obtain ⟨opt, kp, h1, h2, f, hst⟩ := hl.facts_last hf
  obtain ⟨s, _, hH⟩ := parse_sub hl.elements
  have hg : g = H.length := f.size g rfl
  subst hg
  refine ⟨adjointKernel a C k0 H, fun bt' n' b1 l' hl' hu' B m x y z hm hmp hy hz hx => ?_⟩
  obtain ⟨opt', kp', h1', h2', f', hst'⟩ := hl'.facts_last hf
  have hkp : kp' = kp := by
    have : standardizePadding (builtInPaddingOption a.padding) = .ok kp' := h2'
    rw [h2] at this
    cases this; rfl
  subst hkp
  exact adjoint_core (a := a) (a' := { a with filters := C }) (C := C) rfl rfl rfl rfl rfl hf hf hact hact hb hb f f' (unpadded_state hst hu) (unpadded_state hst' hu')
    (fun k i j o c hk hi hj ho hc => adjointKernel_weights (a := a) (a' := { a with filters := C }) rfl rfl rfl hH f.grid hk hi hj ho hc) hm hmp hy hz hx

/-- C66, the other way round, for layers on the whole group: every linear convolution layer that pads nothing is the transpose
of a transposed layer. Missing: proper subgroups, see C66_violation. -/
theorem C66_convolution_is_adjoint_partial [CommSemiring α] {a : ConvArgs α} {bt : Option Nat} {n : List Nat} {g F : Nat}
    {k1 b1 : List Nat → α} {H : List Nat} {l' : GroupConv α} (hl' : BuiltConv a false bt n (some g) F k1 b1 H l')
    (hH : H = List.range a.group.group.order)
    (hf : a.dataFormat = .channelsLast) (hact : a.activation = id) (hb : a.useBias = false) (hu' : Unpadded l'.transforms) :
    ∃ k0, ∀ (bt' : Option Nat) (n' : List Nat) (b0 : List Nat → α) (l : GroupConv α),
      BuiltConv { a with filters := F } true bt' n' (some g) a.filters k0 b0 H l → Unpadded l.transforms →
      ∀ (B : Nat) (m : List Nat) (x y z : Tensor α), m.length = a.group.dim → 0 ∉ m →
        y.shape = sigShape .channelsLast B m (some g) a.filters → (l.call y).2 = .ok z → x.shape = z.shape →
        ∃ u, (l'.call x).2 = .ok u ∧ u.shape = y.shape ∧ inner u y = inner x z := by
  obtain ⟨opt', kp', h1', h2', f', hst'⟩ := hl'.facts_last hf
  have hg : g = a.group.group.order := by have := f'.size g rfl; simpa [domainOf] using this
  subst hg
  refine ⟨adjointKernelT { a with filters := F } a.filters k1, fun bt' n' b0 l hl hu B m x y z hm hmp hy hz hx => ?_⟩
  obtain ⟨opt, kp, h1, h2, f, hst⟩ := hl.facts_last hf
  have hkp : kp' = kp := by
    have : standardizePadding (builtInPaddingOption a.padding) = .ok kp := h2
    rw [h2'] at this
    cases this; rfl
  subst hkp
  have hlen : H.length = a.group.group.order := by rw [hH]; simp
  have f : ConvFacts { a with filters := F } true (some H.length) a.filters (adjointKernelT { a with filters := F } a.filters k1) b0
      (List.range a.group.group.order) H l kp' := by rw [hlen]; exact f
  rw [← hlen] at hy
  refine adjoint_core (a := { a with filters := F }) (a' := a) (H := H) (k1 := k1) (b1 := b1) rfl rfl rfl rfl rfl hf hf hact hact hb hb f f'
    (unpadded_state hst hu) (unpadded_state hst' hu') ?_ hm hmp hy hz hx
  intro k i j o c hk hi hj ho hc
  rw [hlen] at hi ⊢
  rw [hH, nth_range, if_pos hi]
  exact adjointKernelT_weights (a := { a with filters := F }) (a' := a) rfl rfl rfl f.grid hk hi hj ho hc

/-- `exampleTranspose` without bias -/
def linearTranspose : ConvArgs Int :=
  { group := .P4, subgroup := some "P2", kernelSize := [2, 2], strides := [2, 2], padding := "valid",
    allowNonEquivariance := false, dataFormat := .channelsLast, filters := 2, dilation := [1, 1], useBias := false,
    activation := id }

set_option maxRecDepth 16000 in
/-- hypotheses of the first theorem are met -/
example : ∃ l l' z, BuiltConv linearTranspose true none [4, 4] (some 2) 3 (fun _ => 1) (fun _ => 0) [0, 2] l ∧
    linearTranspose.dataFormat = .channelsLast ∧ linearTranspose.activation = id ∧ linearTranspose.useBias = false ∧
    Unpadded l.transforms ∧
    BuiltConv { linearTranspose with filters := 3 } false none [8, 8] (some 4) 2 (fun _ => 1) (fun _ => 0) [0, 2] l' ∧
    Unpadded l'.transforms ∧ (l.call ⟨[1, 4, 4, 2, 3], fun _ => 1⟩).2 = .ok z :=
  ⟨_, _, _, ⟨⟨_, rfl, rfl⟩, rfl, rfl⟩, rfl, rfl, rfl, rfl, ⟨⟨_, rfl, rfl⟩, rfl, rfl⟩, rfl, rfl⟩

set_option maxRecDepth 16000 in
/-- hypotheses of the second theorem are met -/
example : ∃ l l' z, BuiltConv { linearTranspose with subgroup := some "", filters := 3 } false none [8, 8] (some 4) 2 (fun _ => 1) (fun _ => 0)
      [0, 1, 2, 3] l' ∧ [0, 1, 2, 3] = List.range linearTranspose.group.group.order ∧
    Unpadded l'.transforms ∧
    BuiltConv { linearTranspose with subgroup := some "" } true none [4, 4] (some 4) 3 (fun _ => 1) (fun _ => 0) [0, 1, 2, 3] l ∧
    Unpadded l.transforms ∧ (l.call ⟨[1, 4, 4, 4, 3], fun _ => 1⟩).2 = .ok z :=
  ⟨_, _, _, ⟨⟨_, rfl, rfl⟩, rfl, rfl⟩, rfl, rfl, ⟨⟨_, rfl, rfl⟩, rfl, rfl⟩, rfl, rfl⟩

/-- C66, the other way round, for any subgroup -/
def ConvolutionsAreAdjoints : Prop :=
  ∀ (a : ConvArgs Int) (bt : Option Nat) (n : List Nat) (g F : Nat) (k1 b1 : List Nat → Int) (H : List Nat) (l' : GroupConv Int),
    BuiltConv a false bt n (some g) F k1 b1 H l' → a.dataFormat = .channelsLast → a.activation = id → a.useBias = false →
    Unpadded l'.transforms →
    ∃ k0, ∀ (bt' : Option Nat) (n' : List Nat) (b0 : List Nat → Int) (l : GroupConv Int),
      BuiltConv { a with filters := F } true bt' n' (some H.length) a.filters k0 b0 H l → Unpadded l.transforms →
      ∀ (B : Nat) (m : List Nat) (x y z : Tensor Int), m.length = a.group.dim → 0 ∉ m →
        y.shape = sigShape .channelsLast B m (some H.length) a.filters → (l.call y).2 = .ok z → x.shape = z.shape →
        ∃ u, (l'.call x).2 = .ok u ∧ u.shape = y.shape ∧ inner u y = inner x z

/-- a convolution from P2 to its trivial subgroup -/
def toTrivial : ConvArgs Int :=
  { group := .P2, subgroup := some "P1", kernelSize := [1, 1], strides := [1, 1], padding := "valid",
    allowNonEquivariance := false, dataFormat := .channelsLast, filters := 1, dilation := [1, 1], useBias := false,
    activation := id }

/-- one at filter `o` of the element that is not in the subgroup -/
def outside (o : Nat) : Tensor Int := ⟨[1, 1, 1, 2, 2], fun i => if i = [0, 0, 0, 1, o] then 1 else 0⟩
/-- a constant signal on the trivial subgroup -/
def onTrivial : Tensor Int := ⟨[1, 1, 1, 1, 1], fun _ => 1⟩

theorem built_toTrivial : ∃ l', BuiltConv toTrivial false none [1, 1] (some 2) 2 (fun i => if i = [0, 0, 2, 0] then 1 else 0)
      (fun _ => 0) [0] l' ∧ Unpadded l'.transforms ∧
      (l'.call (outside 0)).2.toOption.map (inner · onTrivial) = some 1 ∧
      (l'.call (outside 1)).2.toOption.map (inner · onTrivial) = some 0 :=
    ⟨_, ⟨⟨_, rfl, rfl⟩, rfl, rfl⟩, rfl, by decide +kernel, by decide +kernel⟩

theorem built_fromTrivial (k0 : List Nat → Int) : ∃ l, BuiltConv { toTrivial with filters := 2 } true none [1, 1] (some 1) 1 k0
    (fun _ => 0) [0] l ∧ Unpadded l.transforms := by
  obtain ⟨l, hl, hu⟩ : ∃ l, BuiltConv { toTrivial with filters := 2 } true none [1, 1] (some 1) 1 (fun _ => 1)
    (fun _ => 0) [0] l ∧ Unpadded l.transforms := ⟨_, ⟨⟨_, rfl, rfl⟩, rfl, rfl⟩, rfl⟩
  exact ⟨_, C53_assign hl, hu⟩

/-- C66 fails for proper subgroups: outside the subgroup a transposed layer uses its first stored weight for all filters
(C32), so that it is not the transpose of a convolution that distinguishes them. -/
theorem C66_violation : ¬ ConvolutionsAreAdjoints := by
  intro h
  obtain ⟨l', hl', hu', r1, r2⟩ := built_toTrivial
  obtain ⟨k0, h⟩ := h toTrivial none [1, 1] 2 2 _ (fun _ => 0) [0] l' hl' rfl rfl rfl hu'
  obtain ⟨l, hl, hu⟩ := built_fromTrivial k0
  obtain ⟨opt, kp, _, _, f, hst⟩ := hl.facts_last rfl
  obtain ⟨z, ez, hzs, hzg⟩ := convT_call_last f rfl (x := onTrivial) (B := 1) (n := [1, 1]) rfl rfl
  have hst := unpadded_state hst hu
  have hs : z.shape = [1, 1, 1, 2, 2] := by
    rw [hzs, hst]
    cases kp <;> decide
  have heq : z.get [0, 0, 0, 1, 0] = z.get [0, 0, 0, 1, 1] := by
    have hv : Valid (upSizes kp [1, 1] [1, 1] [1, 1] (grow [1, 1] (epads l.transforms.padState 2))) [0, 0] := by
      rw [hst]
      cases kp <;> decide
    exact (hzg 0 [0, 0] 1 0 (by decide) hv (by decide) (by decide)).trans
      (hzg 0 [0, 0] 1 1 (by decide) hv (by decide) (by decide)).symm
  have hin : ∀ o, o < 2 → inner (outside o) z = z.get [0, 0, 0, 1, o] := by
    intro o ho
    have : o = 0 ∨ o = 1 := by omega
    rcases this with rfl | rfl <;> simp [inner, outside, indices, List.range_succ]
  have h1 := fun o => h none [1, 1] (fun _ => 0) l hl hu 1 [1, 1] (outside o) onTrivial z rfl (by decide) rfl (by rw [ez]) (by rw [hs]; rfl)
  obtain ⟨u1, e1, _, i1⟩ := h1 0
  obtain ⟨u2, e2, _, i2⟩ := h1 1
  rw [e1] at r1
  rw [e2] at r2
  have r1 : inner u1 onTrivial = 1 := Option.some.inj r1
  have r2 : inner u2 onTrivial = 0 := Option.some.inj r2
  rw [r1, hin 0 (by omega)] at i1
  rw [r2, hin 1 (by omega), ← heq, ← i1] at i2
  exact absurd i2 (by decide)

end GroCo
