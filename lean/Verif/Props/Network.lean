import Verif.NetLemmas
import Verif.Props.Stack

/-
Property C72: networks with branches, activations and normalisation.
-/

namespace GroCo
open Tensor

variable {α : Type}

/-- C72: a network of equivariant layers, activations, normalisations, skip connections and concatenations is equivariant. -/
theorem C72_network [Zero α] (n : GroupName) (fmt : DataFormat) (acting : Option String) (A : List Nat)
    (hA : n.group.sub (n.group.parseSubgroup acting) = .ok A) (k k' : SignalKind) (f : Tensor α → Res (Tensor α))
    (h : Network n fmt acting A.length k k' f) : EquivariantMap n fmt acting A.length k k' f := by
  induction h with
  | layer hf => exact hf.map
  | entrywise ψ hk hψ => exact EquivariantMap.entrywise hA hk hψ
  | seq _ _ ih ih' => exact ih.seq ih'
  | merge op hk _ _ ih ih' => exact EquivariantMap.merge hA hk op ih ih'
  | concat hk _ _ ih ih' => exact EquivariantMap.concat hA hk ih ih'

/-- global pooling of tensors that are the same -/
theorem global_same [Field α] [LinearOrder α] (n : GroupName) (l : GlobalGroupPooling) (hd : l.dimensions = n.dim) {m : List Nat}
    (hm : n.Grid m) (h0 : 0 ∉ m) {D : List Nat} {t : Option String} (hD : n.group.sub (n.group.parseSubgroup t) = .ok D)
    {u v w : Tensor α} {B C : Nat} (hu : u.shape = sigShape l.dataFormat B m (some D.length) C) (hv : v.Same u)
    (ew : l.call u = .ok w) : ∃ z, l.call v = .ok z ∧ z.Same w := by
  have hml : m.length = l.dimensions := by rw [hd]; exact n.sym.okLen _ hm
  have hD0 : D.length ≠ 0 := by
    obtain ⟨sD, _, hlD⟩ := parse_sub hD
    have := ((C09_all_groups n).2 sD D hlD).2.1
    intro h
    rw [List.length_eq_zero_iff.1 h] at this
    cases this
  obtain ⟨z, ez, sz, gz⟩ := C35_value l v B C D.length m hml (hv.1.trans hu) hD0 h0
  obtain ⟨w', ew', sw, gw⟩ := C35_value l u B C D.length m hml hu hD0 h0
  rw [ew] at ew'
  cases ew'
  refine ⟨z, ez, sz.trans sw.symm, ?_⟩
  intro idx hidx
  rw [sz] at hidx
  obtain ⟨b, c, hb, hc, rfl⟩ := C35_indices _ _ _ _ _ _ hidx
  rw [gz b c hb hc, gw b c hb hc]
  congr 1
  unfold allEntries
  rw [List.flatMap_def, List.flatMap_def]
  congr 1
  apply List.map_congr_left
  intro p hp
  apply List.map_congr_left
  intro j hj
  rw [mem_indices] at hp
  rw [List.mem_range] at hj
  apply hv.2
  rw [hv.1, hu]
  exact sigIndex_valid hb hp hj hc

/-- C72: followed by global group pooling it is invariant. -/
theorem C72_invariant [Field α] [LinearOrder α] (n : GroupName) (l : GlobalGroupPooling) (hd : l.dimensions = n.dim)
    (acting : Option String) (A D : List Nat) (hA : n.group.sub (n.group.parseSubgroup acting) = .ok A)
    (k k' : SignalKind) (f : Tensor α → Res (Tensor α)) (h : Network n l.dataFormat acting A.length k k' f)
    (hm : n.Grid k'.grid) (h0 : 0 ∉ k'.grid) (hD : n.group.sub (n.group.parseSubgroup k'.on) = .ok D) (hg : k'.g = some D.length)
    (hAD : ∀ e ∈ A, e ∈ D) (x : Tensor α) (B : Nat) (hx : x.shape = k.shape l.dataFormat B) :
    ∃ y gx, (do l.call (← f x)) = .ok y ∧
      n.group.action x (spatialAxes l.dataFormat n.dim) 0 (some (groupAxis l.dataFormat n.dim)) acting k.on = .ok gx ∧
      gx.shape = A.length :: x.shape ∧ ∀ i, i < A.length → ∃ z, (do l.call (← f (slice gx 0 i))) = .ok z ∧ z.Same y := by
  obtain ⟨u, eu, hu, -, gx, gu, a1, b1, a2, b2, c⟩ := C72_network n l.dataFormat acting A hA k k' f h x B hx
  have hus : u.shape = sigShape l.dataFormat B k'.grid (some D.length) k'.chan := by rw [hu]; unfold SignalKind.shape; rw [hg]
  obtain ⟨y, gu', ey, a3, _, inv⟩ := C35_invariant l n hd acting k'.on A D hA hD hAD k'.grid hm h0 u B k'.chan hus
  rw [a2] at a3
  cases a3
  refine ⟨y, gx, by simp only [eu, res_bind_ok, ey], a1, b1, ?_⟩
  intro i hi
  obtain ⟨v, ev, hv⟩ := c i hi
  obtain ⟨w, ew, hw⟩ := inv i hi
  have hss : (slice gu 0 i).shape = sigShape l.dataFormat B k'.grid (some D.length) k'.chan := by simp [slice, b2, hus]
  obtain ⟨z, ez, hz⟩ := global_same n l hd hm h0 hD hss hv ew
  exact ⟨z, by simp only [ev, res_bind_ok, ez], hz.trans hw⟩

/-- mean and variance of a channel over the whole batch -/
def channelMean [Field α] (B c : Nat) (E : Nat → Nat → List α) : α := meanOf ((List.range B).flatMap fun b => E b c)

def channelVariance [Field α] (B c : Nat) (E : Nat → Nat → List α) : α :=
  meanOf (((List.range B).flatMap fun b => E b c).map fun v => (v - channelMean B c E) ^ 2)

theorem meanOf_perm [Field α] {l l' : List α} (h : l.Perm l') : meanOf l = meanOf l' := by
  unfold meanOf
  rw [h.sum_eq, h.length_eq]

/-- C72: batch normalisation along the channel axis may be used in such networks, in training (with the mean and the variance over
the batch, `r` being the inverse square root) and, with fixed numbers in place of them, in inference. -/
theorem C72_batch_normalisation [Field α] (γ β : Nat → α) (r : α → α) :
    Unordered fun B _ c E v => γ c * ((v - channelMean B c E) * r (channelVariance B c E)) + β c := by
  intro B b c v E E' h
  have hp : ((List.range B).flatMap fun b => E b c).Perm ((List.range B).flatMap fun b => E' b c) :=
    flatMap_perm_right fun b _ => h b c
  have h1 : channelMean B c E = channelMean B c E' := meanOf_perm hp
  have h2 : channelVariance B c E = channelVariance B c E' := by
    unfold channelVariance
    rw [h1]
    exact meanOf_perm (hp.map _)
  simp only [h1, h2]

/-- C72: so may channels weighted by numbers computed from the means of all channels (squeeze and excitation). -/
theorem C72_excitation [Field α] (s : Nat → (Nat → α) → α) : Unordered fun _ b c E v => v * s c fun c' => meanOf (E b c') := by
  intro B b c v E E' h
  simp only [meanOf_perm (h _ _)]

/-- C72: with channels_first the last axis is the group axis, so Keras's default `axis=-1` of `BatchNormalization` breaks
equivariance: a layer that adds to each entry a number depending on the index along the last axis. -/
theorem C72_last_axis_breaks : ∃ ψ : Nat → Nat → Nat → (Nat → Nat → List ℚ) → ℚ → ℚ, Unordered ψ ∧
    ¬ EquivariantMap .P2 .channelsFirst (some "") 2 ⟨[1, 1], some 2, 1, some ""⟩ ⟨[1, 1], some 2, 1, some ""⟩
      (entrywise .channelsLast ψ) := by
  refine ⟨fun _ _ c _ v => v + c, fun _ _ _ _ _ _ _ => rfl, ?_⟩
  intro h
  obtain ⟨y, ey, -, -, gx, gy, a1, -, a2, -, hc⟩ := h ⟨[1, 1, 1, 1, 2], fun _ => 0⟩ 1 rfl
  cases ey
  obtain ⟨z, ez, hz⟩ := hc 1 (by decide)
  cases ez
  have h1 := hz.2 [0, 0, 0, 0, 0]
  cases a1
  cases a2
  revert h1
  decide +kernel

/-! ### An example: lifting to P4, a residual block with batch normalisation, a concatenation -/

def resConv : ConvArgs ℚ := { stackLift with filters := 2 }

set_option maxRecDepth 8000 in
/-- hypotheses of C72 are met, and so are those of `C72_invariant`: a lifting layer, then a convolution with batch normalisation
around which the signal is added (or concatenated), then a rectifier -/
theorem network_example : ∃ (l1 l2 : GroupConv ℚ),
    Network .P4 .channelsLast (some "") 4 ⟨[4, 4], none, 3, none⟩ ⟨[4, 4], some 4, 4, some "P4"⟩
      (fun x => do
        let y ← (l1.call x).2
        concatenated .channelsLast
          (merged (· + ·)
            (fun y => do entrywise .channelsLast (fun B _ c E v => 1 * ((v - channelMean B c E) * id (channelVariance B c E)) + (c : ℚ)) (← (l2.call y).2))
            (entrywise .channelsLast fun _ _ _ _ v => v))
          (entrywise .channelsLast fun _ _ _ _ v => max v 0) y) := by
  have hd : ∀ opt, ∀ i, i < 2 → DilationOk opt (nth [3, 3] i) (nth [1, 1] i) (nth [1, 1] i) := by
    intro opt i hi
    obtain rfl | rfl : i = 0 ∨ i = 1 := by omega
    all_goals exact .inl rfl
  have h1 := C37_convolution_layer (n := .P4) (a := stackLift) (bt := none) (g := none) (C := 3) (k0 := fun _ => 1) (b0 := fun _ => 0)
    (P := [0, 1, 2, 3]) (H := [0, 1, 2, 3]) (A := [0, 1, 2, 3]) (m := [4, 4]) (m' := [4, 4]) (C' := 2) ⟨⟨_, rfl, rfl⟩, rfl, rfl⟩ rfl rfl ⟨rfl, rfl⟩
    ⟨rfl, rfl⟩ (fun opt _ => hd opt) ⟨[1, 4, 4, 3], fun _ => 1⟩ _ 1 rfl rfl rfl ⟨rfl, rfl⟩ ⟨rfl, rfl⟩ rfl (some "") rfl (by decide)
  have h2 := C37_convolution_layer (n := .P4) (a := resConv) (bt := none) (g := some 4) (C := 2) (k0 := fun _ => 1) (b0 := fun _ => 0)
    (P := [0, 1, 2, 3]) (H := [0, 1, 2, 3]) (A := [0, 1, 2, 3]) (m := [4, 4]) (m' := [4, 4]) (C' := 2) ⟨⟨_, rfl, rfl⟩, rfl, rfl⟩ rfl rfl ⟨rfl, rfl⟩
    ⟨rfl, rfl⟩ (fun opt _ => hd opt) ⟨[1, 4, 4, 4, 2], fun _ => 1⟩ _ 1 rfl rfl rfl ⟨rfl, rfl⟩ ⟨rfl, rfl⟩ rfl (some "") rfl (by decide)
  have hk : SignalKind.Under ⟨[4, 4], some 4, 2, some "P4"⟩ .P4 (some "") :=
    ⟨⟨⟨rfl, rfl⟩, _, rfl, rfl⟩, .inr fun A D hA hD e he => by cases hA; cases hD; exact he⟩
  obtain ⟨l1, g1⟩ : ∃ l1 : GroupConv ℚ, EquivariantLayer .P4 .channelsLast (some "") 4 ⟨[4, 4], none, 3, none⟩
    ⟨[4, 4], some 4, 2, some "P4"⟩ (fun x => (l1.call x).2) := ⟨_, h1⟩
  obtain ⟨l2, g2⟩ : ∃ l2 : GroupConv ℚ, EquivariantLayer .P4 .channelsLast (some "") 4 ⟨[4, 4], some 4, 2, some "P4"⟩
    ⟨[4, 4], some 4, 2, some "P4"⟩ (fun x => (l2.call x).2) := ⟨_, h2⟩
  exact ⟨l1, l2, .seq (.layer g1) (.concat hk (.merge _ hk (.seq (.layer g2) (.entrywise _ hk (C72_batch_normalisation (fun _ => 1) (fun c => (c : ℚ)) id)))
    (.entrywise _ hk fun _ _ _ _ _ _ _ => rfl)) (.entrywise _ hk fun _ _ _ _ _ _ _ => rfl))⟩

/-- with global pooling at the end it is invariant -/
example : ∃ f : Tensor ℚ → Res (Tensor ℚ), ∀ x : Tensor ℚ, x.shape = [5, 4, 4, 3] →
    ∃ y gx, (do (GlobalGroupPooling.mk 2 .max false .channelsLast).call (← f x)) = .ok y ∧
      GroupName.P4.group.action x [1, 2] 0 (some 3) (some "") none = .ok gx ∧ gx.shape = 4 :: x.shape ∧
      ∀ i, i < 4 → ∃ z, (do (GlobalGroupPooling.mk 2 .max false .channelsLast).call (← f (slice gx 0 i))) = .ok z ∧ z.Same y := by
  obtain ⟨l1, l2, h⟩ := network_example
  exact ⟨_, fun x hx => C72_invariant .P4 (GlobalGroupPooling.mk 2 .max false .channelsLast) rfl (some "")
    [0, 1, 2, 3] [0, 1, 2, 3] rfl _ _ _ h ⟨rfl, rfl⟩ (by decide) rfl rfl (by decide) x 5 hx⟩

end GroCo
