import Verif.ConvEquiv
import Verif.Props.Conv

/-
Properties C23, C24 and C25: equivariance of GroupConv2D/3D. `Commutes` (LayerSpec) is the statement that transforming the
input and applying the layer gives the same as applying the layer and transforming the output.
-/

namespace GroCo
open Tensor

variable {α : Type}

/-- C23: a lifting convolution that builds with allow_non_equivariance=False is equivariant. -/
theorem C23_lifting_equivariant [Semiring α] {a : ConvArgs α} {bt : Option Nat} {n : List Nat} {C : Nat}
    {k0 b0 : List Nat → α} {H : List Nat} {l : GroupConv α} (hl : BuiltConv a false bt n none C k0 b0 H l)
    (hf : a.dataFormat = .channelsLast) (hallow : a.allowNonEquivariance = false)
    (hdil : a.dilation = List.replicate a.group.dim 1) (hs : a.group.Grid a.strides) (hn : a.group.Grid n)
    (x : Tensor α) (B : Nat) (hx : x.shape = sigShape .channelsLast B n none C) (y : Tensor α) (hy : (l.call x).2 = .ok y) :
    Commutes a.group.group a.group.dim .channelsLast a.subgroup H.length none a.subgroup (fun x => (l.call x).2) x y := by
  obtain ⟨opt, kp, hopt, hkp, f, hst⟩ := hl.facts_last hf
  have hd : a.group.Grid a.dilation := by
    rw [hdil]
    apply a.group.grid_of (by simp)
    intro i j hi hj _
    simp [nth, hi, hj]
  refine conv_commutes hl hf hallow hopt hn hs hd ?_ hx hy
  intro i hi
  left
  rw [hdil]
  simp [nth, hi]

/-- C24: so is a convolution of signals on the group. -/
theorem C24_group_equivariant [Semiring α] {a : ConvArgs α} {bt : Option Nat} {n : List Nat} {g C : Nat}
    {k0 b0 : List Nat → α} {H : List Nat} {l : GroupConv α} (hl : BuiltConv a false bt n (some g) C k0 b0 H l)
    (hf : a.dataFormat = .channelsLast) (hallow : a.allowNonEquivariance = false)
    (hdil : a.dilation = List.replicate a.group.dim 1) (hs : a.group.Grid a.strides) (hn : a.group.Grid n)
    (x : Tensor α) (B : Nat) (hx : x.shape = sigShape .channelsLast B n (some g) C) (y : Tensor α)
    (hy : (l.call x).2 = .ok y) :
    Commutes a.group.group a.group.dim .channelsLast a.subgroup H.length (some "") a.subgroup (fun x => (l.call x).2) x y := by
  obtain ⟨opt, kp, hopt, hkp, f, hst⟩ := hl.facts_last hf
  have hd : a.group.Grid a.dilation := by
    rw [hdil]
    apply a.group.grid_of (by simp)
    intro i j hi hj _
    simp [nth, hi, hj]
  refine conv_commutes hl hf hallow hopt hn hs hd ?_ hx hy
  intro i hi
  left
  rw [hdil]
  simp [nth, hi]

/-- C25, the part that holds: every channels_last configuration is refused or equivariant if its strides and dilation rates
agree on axes exchanged by the group and the dilation rates are 1 or harmless (`DilationOk`). Missing: other strides, other
dilation rates, and channels_first; see the counterexamples below. -/
theorem C25_refused_or_equivariant_partial [Semiring α] {a : ConvArgs α} {bt : Option Nat} {n : List Nat} {g : Option Nat}
    {C : Nat} {k0 b0 : List Nat → α} {H : List Nat} {l : GroupConv α} (hl : BuiltConv a false bt n g C k0 b0 H l)
    (hf : a.dataFormat = .channelsLast) (hallow : a.allowNonEquivariance = false)
    (hs : a.group.Grid a.strides) (hd : a.group.Grid a.dilation) (hn : a.group.Grid n)
    (hdil : ∀ opt, formatPaddingOption a.padding = .ok opt → ∀ i, i < a.group.dim →
      DilationOk opt (nth a.kernelSize i) (nth a.strides i) (nth a.dilation i))
    (x : Tensor α) (B : Nat) (hx : x.shape = sigShape .channelsLast B n g C) (y : Tensor α) (hy : (l.call x).2 = .ok y) :
    Commutes a.group.group a.group.dim .channelsLast a.subgroup H.length (g.map fun _ => "") a.subgroup
      (fun x => (l.call x).2) x y := by
  obtain ⟨opt, kp, hopt, hkp, f, hst⟩ := hl.facts_last hf
  exact conv_commutes hl hf hallow hopt hn hs hd (hdil opt hopt) hx hy

set_option maxRecDepth 8000 in
/-- hypotheses of C23 to C25 are met -/
example : (∃ l y, BuiltConv exampleConv false none [5, 5] none 3 (fun _ => 1) (fun _ => 0) [0, 2] l ∧
      (l.call ⟨[1, 5, 5, 3], fun _ => 1⟩).2 = .ok y) ∧
    (∃ l y, BuiltConv exampleConv false none [5, 5] (some 4) 3 (fun _ => 1) (fun _ => 0) [0, 2] l ∧
      (l.call ⟨[1, 5, 5, 4, 3], fun _ => 1⟩).2 = .ok y) ∧
    exampleConv.dataFormat = .channelsLast ∧ exampleConv.allowNonEquivariance = false ∧
    exampleConv.dilation = List.replicate exampleConv.group.dim 1 ∧ exampleConv.group.Grid exampleConv.strides ∧
    exampleConv.group.Grid [5, 5] :=
  ⟨⟨_, _, ⟨⟨_, rfl, rfl⟩, rfl, rfl⟩, rfl⟩, ⟨_, _, ⟨⟨_, rfl, rfl⟩, rfl, rfl⟩, rfl⟩, rfl, rfl, rfl, ⟨rfl, rfl⟩, ⟨rfl, rfl⟩⟩

/-- C25 as stated: whatever the configuration, a layer built with allow_non_equivariance=False commutes with the action of
its subgroup. -/
def NeverSilentlyBroken : Prop :=
  ∀ (a : ConvArgs Int) (bt : Option Nat) (n : List Nat) (g : Option Nat) (C : Nat) (k0 b0 : List Nat → Int) (H : List Nat)
    (l : GroupConv Int), BuiltConv a false bt n g C k0 b0 H l → a.allowNonEquivariance = false → a.group.Grid n →
  ∀ (x : Tensor Int) (B : Nat), x.shape = sigShape a.dataFormat B n g C → ∀ y, (l.call x).2 = .ok y →
    Commutes a.group.group a.group.dim a.dataFormat a.subgroup H.length (g.map fun _ => "") a.subgroup
      (fun x => (l.call x).2) x y

/-- `f (h x)` and `h (f x)` differ at `idx` for the `i`-th element `h`, or one of them is an error -/
def differAt [Zero α] [DecidableEq α] (G : Group) (d : Nat) (fmt : DataFormat) (acting dx dy : Option String)
    (f : Tensor α → Res (Tensor α)) (x : Tensor α) (i : Nat) (idx : List Nat) : Bool :=
  match (do
    let y ← f x
    let hx ← G.action x (spatialAxes fmt d) 0 (some (groupAxis fmt d)) acting dx
    let hy ← G.action y (spatialAxes fmt d) 0 (some (groupAxis fmt d)) acting dy
    let z ← f (slice hx 0 i)
    return decide (Valid z.shape idx ∧ z.get idx ≠ (slice hy 0 i).get idx) : Res Bool) with
  | .ok b => b
  | .error _ => true

theorem Commutes.not_differ [Zero α] [DecidableEq α] {G : Group} {d : Nat} {fmt : DataFormat} {acting dx dy : Option String} {order : Nat}
    {f : Tensor α → Res (Tensor α)} {x y : Tensor α} (h : Commutes G d fmt acting order dx dy f x y)
    (hy : f x = .ok y) {i : Nat} (hi : i < order) (idx : List Nat) : differAt G d fmt acting dx dy f x i idx = false := by
  obtain ⟨gx, gy, e1, _, e2, _, h⟩ := h
  obtain ⟨z, e3, hs, hg⟩ := h i hi
  simp only [differAt, hy, e1, e2, e3, res_bind_ok, res_pure, decide_eq_false_iff_not]
  rintro ⟨h1, h2⟩
  exact h2 (hg idx h1)

/-- a P4 lifting layer with strides 1 along the first and 2 along the second axis -/
def stridedConv : ConvArgs Int :=
  { group := .P4, subgroup := some "", kernelSize := [3, 3], strides := [1, 2], padding := "valid",
    allowNonEquivariance := false, dataFormat := .channelsLast, filters := 1, dilation := [1, 1], useBias := false,
    activation := id }

/-- C25 fails: strides that differ along exchanged axes are accepted. On 5x5 images the output is 3x2, so that it cannot be
rotated. -/
theorem C25_violation_strides : ¬ NeverSilentlyBroken := by
  intro h
  have := (h stridedConv none [5, 5] none 1 (fun _ => 1) (fun _ => 0) [0, 1, 2, 3] _ ⟨⟨_, rfl, rfl⟩, rfl, rfl⟩ rfl ⟨rfl, rfl⟩
    ⟨[1, 5, 5, 1], fun _ => 1⟩ 1 rfl _ rfl).not_differ rfl (i := 0) (by decide) []
  revert this
  decide +kernel

/-- a P2 lifting layer with dilation rate 2 and an even kernel -/
def dilatedConv : ConvArgs Int :=
  { group := .P2, subgroup := some "", kernelSize := [2, 2], strides := [1, 1], padding := "same_equiv",
    allowNonEquivariance := false, dataFormat := .channelsLast, filters := 1, dilation := [2, 2], useBias := false,
    activation := id }

/-- C25 fails: the dilation rate is ignored when the padding is computed. -/
theorem C25_violation_dilation : ¬ NeverSilentlyBroken := by
  intro h
  have := (h dilatedConv none [3, 3] none 1 (fun _ => 1) (fun _ => 0) [0, 1] _ ⟨⟨_, rfl, rfl⟩, rfl, rfl⟩ rfl ⟨rfl, trivial⟩
    ⟨[1, 3, 3, 1], fun i => if i = [0, 0, 0, 0] then 1 else 0⟩ 1 rfl _ rfl).not_differ rfl (i := 1) (by decide) [0, 2, 2, 0, 0]
  revert this
  decide +kernel

/-- a channels_first P2 lifting layer that needs padding -/
def firstConv : ConvArgs Int :=
  { group := .P2, subgroup := some "", kernelSize := [2, 2], strides := [2, 2], padding := "valid_equiv",
    allowNonEquivariance := false, dataFormat := .channelsFirst, filters := 1, dilation := [1, 1], useBias := false,
    activation := id }

/-- C25 fails: a channels_first layer computes the padding from the wrong axes, here from two channels and the first
spatial axis of size 4, so that it misses that the second spatial axis of size 3 needs padding. -/
theorem C25_violation_channels_first : ¬ NeverSilentlyBroken := by
  intro h
  have := (h firstConv none [4, 3] none 2 (fun _ => 1) (fun _ => 0) [0, 1] _ ⟨⟨_, rfl, rfl⟩, rfl, rfl⟩ rfl ⟨rfl, trivial⟩
    ⟨[1, 2, 4, 3], fun i => if i = [0, 0, 0, 2] then 1 else 0⟩ 1 rfl _ rfl).not_differ rfl (i := 1) (by decide) [0, 0, 1, 0, 0]
  revert this
  decide +kernel

end GroCo
