import Verif.Props.Equivariance
import Verif.FirstEquiv

/-
Property C21, as far as the padding layer inside the group layers is concerned, and property C30: channels_first.
-/

namespace GroCo
open Tensor

variable {α : Type}

/-- a channels_first P2 lifting layer with strides 3 -/
def firstConv3 : ConvArgs Int :=
  { group := .P2, subgroup := some "", kernelSize := [2, 2], strides := [3, 3], padding := "valid_equiv",
    allowNonEquivariance := false, dataFormat := .channelsFirst, filters := 1, dilation := [1, 1], useBias := false,
    activation := id }

/-- C21 fails inside the group layers: a channels_first layer built on 5x5 images with 3 channels pads the channel axis by
one channel on both sides, and refuses such an image. No axis of these images needs padding. -/
theorem C21_violation : ∃ l, BuiltConv firstConv3 false none [5, 5] none 3 (fun _ => 1) (fun _ => 1) [0, 1] l ∧
    l.transforms.padState.amount 1 = (1, 1) ∧ (l.call ⟨sigShape .channelsFirst 1 [5, 5] none 3, fun _ => 1⟩).2 = .error .value :=
  ⟨_, ⟨⟨_, rfl, rfl⟩, rfl, rfl⟩, rfl, rfl⟩

/-- C30, for configurations in which the padding layer has nothing to add: a channels_first layer with the same weights
returns whenever the channels_last layer does, and computes the same values with the channel axis moved. -/
theorem C30_channels_first_partial [Semiring α] {a a' : ConvArgs α} (hlast : a.dataFormat = .channelsLast)
    (hfirst : a' = { a with dataFormat := .channelsFirst })
    {bt : Option Nat} {n : List Nat} {g : Option Nat} {C : Nat} {k0 b0 : List Nat → α} {H : List Nat} {l l' : GroupConv α}
    (hl : BuiltConv a false bt n g C k0 b0 H l) (hl' : BuiltConv a' false bt n g C k0 b0 H l')
    (hnp : ∀ opt, formatPaddingOption a.padding = .ok opt → ∀ i, i < a.group.dim →
      NeverPads opt (nth a.kernelSize i) (nth a.strides i))
    (x x' : Tensor α) (B : Nat) (m : List Nat) (hm : m.length = a.group.dim) (hx : ChannelsMoved B m g C x x') :
    ((∃ y, (l.call x).2 = .ok y) ↔ ∃ y', (l'.call x').2 = .ok y') ∧
    ∀ y y', (l.call x).2 = .ok y → (l'.call x').2 = .ok y' →
      ∃ out, ChannelsMoved B out (some H.length) a.filters y y' := by
  subst hfirst
  obtain ⟨opt, kp, e1, e2, f, hst⟩ := hl.facts_last hlast
  obtain ⟨opt', kp', e1', e2', f', hst'⟩ := hl'.facts_first rfl
  cases (show Except.ok opt = Except.ok opt' from e1.symm.trans e1')
  cases (show Except.ok kp = Except.ok kp' from e2.symm.trans e2')
  have h0 : l.transforms.padState = ⟨false, []⟩ := never_pads f.kernelLen f.kernelPos (hnp opt e1) hst
  have h0' : l'.transforms.padState = ⟨false, []⟩ := never_pads f'.kernelLen f'.kernelPos (hnp opt e1) hst'
  obtain ⟨c1, c2⟩ := conv_call_last f hlast hx.last hm
  obtain ⟨d1, d2⟩ := conv_call_first f' rfl h0' hx hm
  rw [h0] at c1 c2
  refine ⟨⟨?_, ?_⟩, ?_⟩
  · rintro ⟨y, hy⟩
    obtain ⟨y', hy', _⟩ := d2 (c1 y hy)
    exact ⟨y', congrArg Prod.snd hy'⟩
  · rintro ⟨y, hy⟩
    obtain ⟨y', hy', _⟩ := c2 (d1 y hy)
    exact ⟨y', congrArg Prod.snd hy'⟩
  · intro y y' hy hy'
    obtain ⟨z, hz, hzs, hzg⟩ := c2 (c1 y hy)
    obtain ⟨z', hz', hzs', hzg'⟩ := d2 (c1 y hy)
    rw [hz] at hy
    rw [hz'] at hy'
    cases hy
    cases hy'
    refine ⟨_, hzs, hzs', ?_⟩
    intro b p c hb hp hc
    obtain ⟨q, r, rfl, hq, hr⟩ := valid_append_split hp
    match r, hr with
    | [i], ⟨hi, _⟩ =>
      have h1 := hzg b q i c hb hq hi hc
      have h2 := hzg' b q i c hb hq hi hc
      rw [List.cons_append, List.cons_append] at h2
      rw [h2, List.cons_append, List.append_assoc]
      exact h1.symm

/-- channels_first layers in these configurations with strides 1 are equivariant, too (a part of C23 to C25) -/
theorem C30_equivariant_partial [Semiring α] {a : ConvArgs α} {bt : Option Nat} {n : List Nat} {g : Option Nat} {C : Nat}
    {k0 b0 : List Nat → α} {H : List Nat} {l : GroupConv α} (hl : BuiltConv a false bt n g C k0 b0 H l)
    (hf : a.dataFormat = .channelsFirst) (hs : a.strides = List.replicate a.group.dim 1) (hd : a.group.Grid a.dilation)
    (hpar : ∀ opt, formatPaddingOption a.padding = .ok opt → ∀ i, i < a.group.dim →
      opt = .valid ∨ opt = .validEquiv ∨ nth a.kernelSize i % 2 = 1)
    (x : Tensor α) (B : Nat) (m : List Nat) (hm : a.group.Grid m) (hx : x.shape = sigShape .channelsFirst B m g C)
    (y : Tensor α) (hy : (l.call x).2 = .ok y) :
    Commutes a.group.group a.group.dim .channelsFirst a.subgroup H.length (g.map fun _ => "") a.subgroup
      (fun x => (l.call x).2) x y := by
  obtain ⟨opt, kp, e1, e2, f, hst⟩ := hl.facts_first hf
  exact conv_commutes_first hl hf e1 hs (hpar opt e1) hd hm hx hy

/-- a P4 layer with strides 1 and odd kernels, channels_last -/
def oddConv : ConvArgs Int :=
  { group := .P4, subgroup := some "P2", kernelSize := [3, 3], strides := [1, 1], padding := "same_equiv",
    allowNonEquivariance := false, dataFormat := .channelsLast, filters := 2, dilation := [1, 1], useBias := true,
    activation := id }

set_option maxRecDepth 8000 in
/-- hypotheses of the two theorems are met -/
example : (∃ l, BuiltConv oddConv false none [5, 5] (some 4) 3 (fun _ => 1) (fun _ => 0) [0, 2] l ∧
      ∃ y, (l.call ⟨sigShape .channelsLast 1 [5, 5] (some 4) 3, fun _ => 1⟩).2 = .ok y) ∧
    (∃ l, BuiltConv { oddConv with dataFormat := .channelsFirst } false none [5, 5] (some 4) 3 (fun _ => 1) (fun _ => 0) [0, 2] l ∧
      ∃ y, (l.call ⟨sigShape .channelsFirst 1 [5, 5] (some 4) 3, fun _ => 1⟩).2 = .ok y) ∧
    (∀ opt, formatPaddingOption oddConv.padding = .ok opt → ∀ i, i < 2 →
      opt = .valid ∨ opt = .validEquiv ∨ nth oddConv.kernelSize i % 2 = 1) ∧
    (∀ opt, formatPaddingOption oddConv.padding = .ok opt → ∀ i, i < 2 →
      NeverPads opt (nth oddConv.kernelSize i) (nth oddConv.strides i)) ∧
    ChannelsMoved 1 [5, 5] (some 4) 3 (⟨sigShape .channelsLast 1 [5, 5] (some 4) 3, fun _ => 1⟩ : Tensor Int)
      ⟨sigShape .channelsFirst 1 [5, 5] (some 4) 3, fun _ => 1⟩ := by
  refine ⟨⟨_, ⟨⟨_, rfl, rfl⟩, rfl, rfl⟩, _, rfl⟩, ⟨_, ⟨⟨_, rfl, rfl⟩, rfl, rfl⟩, _, rfl⟩, ?_, ?_, rfl, rfl, fun _ _ _ _ _ _ => rfl⟩
  · intro opt _ i hi
    have : i = 0 ∨ i = 1 := by omega
    rcases this with rfl | rfl <;> exact Or.inr (Or.inr rfl)
  · intro opt _ i hi
    have : i = 0 ∨ i = 1 := by omega
    rcases this with rfl | rfl <;> exact Or.inr (Or.inr ⟨rfl, Or.inr rfl⟩)

/-- C30 fails when padding is to be added or checked: the channels_last version of the layer of `C21_violation` accepts the
image that the channels_first layer refuses. -/
theorem C30_violation : ∃ l l', BuiltConv { firstConv3 with dataFormat := .channelsLast } false none [5, 5] none 3
      (fun _ => 1) (fun _ => 1) [0, 1] l ∧
    BuiltConv firstConv3 false none [5, 5] none 3 (fun _ => 1) (fun _ => 1) [0, 1] l' ∧
    (∃ y, (l.call ⟨sigShape .channelsLast 1 [5, 5] none 3, fun _ => 1⟩).2 = .ok y) ∧
    (l'.call ⟨sigShape .channelsFirst 1 [5, 5] none 3, fun _ => 1⟩).2 = .error .value :=
  ⟨_, _, ⟨⟨_, rfl, rfl⟩, rfl, rfl⟩, ⟨⟨_, rfl, rfl⟩, rfl, rfl⟩, ⟨_, rfl⟩, rfl⟩

end GroCo
