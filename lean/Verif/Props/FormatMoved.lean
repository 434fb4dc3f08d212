import Verif.FirstMovedLemmas
import Verif.Props.ExactConfig
import Verif.Props.FormatLayers

/-
Properties C25 and C30: which channels_first layers are equivariant. The vocabulary (`MovesOutputFirst`, `ChannelsMoved`, `Unpadded`)
is in FirstMovedSpec, LayerSpec and FormatLayers.
-/

namespace GroCo
open Tensor

variable {α : Type}

/-- C30: of a channels_first convolution layer and its channels_last version with the same weights, neither of which pads, each moves
its output with its input for the same elements as the other. -/
theorem C30_moves_partial [Semiring α] {a a' : ConvArgs α} (hlast : a.dataFormat = .channelsLast)
    (hfirst : a' = { a with dataFormat := .channelsFirst })
    {bt bt' : Option Nat} {n n' : List Nat} {g : Option Nat} {C : Nat} {k0 b0 : List Nat → α} {H : List Nat} {l l' : GroupConv α}
    (hl : BuiltConv a false bt n g C k0 b0 H l) (hl' : BuiltConv a' false bt' n' g C k0 b0 H l')
    (hu : Unpadded l.transforms) (hu' : Unpadded l'.transforms) (m : List Nat) (hm : m.length = a.group.dim) (h : Nat) :
    MovesOutput a.group (List.range a.group.group.order) H h (fun x => (l.call x).2) m g C a.filters ↔
      MovesOutputFirst a.group (List.range a.group.group.order) H h (fun x => (l'.call x).2) m g C a.filters := by
  obtain ⟨_, _, _, _, f, _⟩ := hl.facts_last hlast
  refine movesOutput_formats (by simpa [domainOf] using f.size) fun B x x' hx => ?_
  exact C30_unpadded_partial hlast hfirst hl hl' hu hu' x x' B m hm hx

/-- C30 for transposed layers -/
theorem C30_moves_transposed_partial [Semiring α] {a a' : ConvArgs α} (hlast : a.dataFormat = .channelsLast)
    (hfirst : a' = { a with dataFormat := .channelsFirst })
    {bt bt' : Option Nat} {n n' : List Nat} {g : Option Nat} {C : Nat} {k0 b0 : List Nat → α} {H : List Nat} {l l' : GroupConv α}
    (hl : BuiltConv a true bt n g C k0 b0 H l) (hl' : BuiltConv a' true bt' n' g C k0 b0 H l')
    (hu : Unpadded l.transforms) (hu' : Unpadded l'.transforms) (m : List Nat) (hm : m.length = a.group.dim) (h : Nat) :
    MovesOutput a.group H (List.range a.group.group.order) h (fun x => (l.call x).2) m g C a.filters ↔
      MovesOutputFirst a.group H (List.range a.group.group.order) h (fun x => (l'.call x).2) m g C a.filters := by
  obtain ⟨_, _, _, _, f, _⟩ := hl.facts_last hlast
  refine movesOutput_formats (by simpa [domainOf] using f.size) fun B x x' hx => ?_
  obtain ⟨y, y', out, e1, e2, e3⟩ := C30_transposed_partial hlast hfirst hl hl' hu hu' x x' B m hm hx
  refine ⟨⟨fun _ => ⟨y', e2⟩, fun _ => ⟨y, e1⟩⟩, fun z z' hz hz' => ?_⟩
  rw [e1] at hz
  rw [e2] at hz'
  cases hz
  cases hz'
  exact ⟨out, by simpa using e3⟩

/-- C30 for pooling layers -/
theorem C30_moves_pooling_partial [Field α] [LinearOrder α] {a a' : PoolArgs} (hlast : a.dataFormat = .channelsLast)
    (hfirst : a' = { a with dataFormat := .channelsFirst })
    {bt bt' : Option Nat} {n n' : List Nat} {g C : Nat} {H : List Nat} {l l' : GroupPooling}
    (hl : BuiltPool a bt n g C H l) (hl' : BuiltPool a' bt' n' g C H l')
    (hu : Unpadded l.transforms) (hu' : Unpadded l'.transforms) (hg : g = a.group.group.order) (m : List Nat)
    (hm : m.length = a.group.dim) (h : Nat) :
    MovesOutput a.group (List.range a.group.group.order) H h (l.call (α := α)) m (some g) C C ↔
      MovesOutputFirst a.group (List.range a.group.group.order) H h (l'.call (α := α)) m (some g) C C := by
  refine movesOutput_formats (by intro g' hg'; cases hg'; simpa using hg) fun B x x' hx => ?_
  exact C30_pooling_partial hlast hfirst hl hl' hu hu' x x' B m hm hx

/-- C25 for channels_first, exactly: a channels_first convolution layer that pads nothing itself, on images that its subgroup keeps and
that are larger than its windows by two strides, moves its output with its input for all elements of its subgroup and all weights
exactly if axes that the subgroup exchanges have the same stride and, unless the kernel has size 1, the same dilation rate, and along
every axis that it reverses the last window ends as many positions behind the image as the first one starts before it, with the zeros
that Keras adds. Nothing is assumed about allow_non_equivariance. -/
theorem C25_channels_first [Semiring α] {a : ConvArgs α} {bt : Option Nat} {n : List Nat} {g : Option Nat} {C : Nat}
    {k0 b0 : List Nat → α} {H : List Nat} {l : GroupConv α} (hl : BuiltConv a false bt n g C k0 b0 H l)
    (hf : a.dataFormat = .channelsFirst) (hu : Unpadded l.transforms)
    (opt : PadOption) (hopt : formatPaddingOption a.padding = .ok opt)
    (v : α) (hv : a.activation v ≠ a.activation 0) (hC : 0 < C) (hn : ∀ h ∈ H, KeepsSizes (a.group.motion h) n)
    (hbig : ∀ i, i < a.group.dim → 2 * nth a.strides i + dilated (nth a.kernelSize i) (nth a.dilation i) ≤ nth n i) :
    (∀ h k1 b1, h ∈ H → MovesOutputFirst a.group (List.range a.group.group.order) H h (fun x => ((l.assign k1 b1).call x).2) n g C
      a.filters) ↔
    ∀ h ∈ H, ∀ i j : Fin a.group.dim, a.group.motion h i j ≠ 0 → nth a.strides i = nth a.strides j ∧
      (nth a.kernelSize i = 1 ∨ nth a.dilation i = nth a.dilation j) ∧
      (a.group.motion h i j = -1 →
        let D := dilated (nth a.kernelSize i) (nth a.dilation i)
        let T := builtIn opt (nth n i) D (nth a.strides i)
        (nth n i + T - D) / nth a.strides i * nth a.strides i + D = nth n i + 2 * (T / 2)) := by
  obtain ⟨opt', kp, hopt', hkp, f, hst⟩ := hl.facts_first hf
  rw [hopt] at hopt'
  cases hopt'
  have hagree := padding_agree hopt hkp
  have h0 := unpadded_state hst hu
  obtain ⟨l0, hi0, hb0⟩ := hl.built
  obtain ⟨c1, c2, c3⟩ := conv_init_checks hi0
  -- the channels_last layer that computes the same
  obtain ⟨plain, hplain⟩ : ∃ plain : String × PadOption, Accepted plain.1 plain.2 kp ∧ (plain.2 = .same ∨ plain.2 = .valid) ∧
      ∀ m k s, builtIn plain.2 m k s = builtIn opt m k s := by
    cases opt
    · exact ⟨("same", .same), by rw [hagree]; exact C39_documented_names ("same", .same, .same) (by decide), Or.inl rfl, fun _ _ _ => rfl⟩
    · exact ⟨("valid", .valid), by rw [hagree]; exact C39_documented_names ("valid", .valid, .valid) (by decide), Or.inr rfl, fun _ _ _ => rfl⟩
    · exact ⟨("same", .same), by rw [hagree]; exact C39_documented_names ("same", .same, .same) (by decide), Or.inl rfl, fun _ _ _ => rfl⟩
    · exact ⟨("valid", .valid), by rw [hagree]; exact C39_documented_names ("valid", .valid, .valid) (by decide), Or.inr rfl, fun _ _ _ => rfl⟩
  obtain ⟨hacc, hpo, hbi⟩ := hplain
  obtain ⟨l1, hl1⟩ : ∃ l1, BuiltConv { a with dataFormat := .channelsLast, allowNonEquivariance := true, padding := plain.1 } false
      bt n g C k0 b0 H l1 := by
    refine (C44_convolution { a with dataFormat := .channelsLast, allowNonEquivariance := true, padding := plain.1 } rfl bt n g C k0 b0 H
      hl.dims hl.elements).2 ⟨plain.2, kp, hacc, ⟨⟨f.kernelLen, f.kernelPos⟩, ⟨f.stridesLen, f.stridesPos⟩, ⟨f.dilationLen, c2⟩,
        Nat.pos_of_ne_zero c1, ?_⟩, ?_, f.grid, ?_, ?_⟩
    · have hone : ∀ u : List Nat, 0 ∉ u → (∃ s ∈ u, 1 < s) ∨ ∀ s ∈ u, s = 1 := by
        intro u hu
        by_cases h : ∃ s ∈ u, 1 < s
        · exact Or.inl h
        · refine Or.inr fun s hs => ?_
          by_contra hc
          refine h ⟨s, hs, ?_⟩
          have : s ≠ 0 := fun h => hu (h ▸ hs)
          omega
      rcases hone _ f.stridesPos with h1 | h1
      · rcases hone _ c2 with h2 | h2
        · exact absurd ⟨h1, h2⟩ c3
        · exact Or.inr h2
      · exact Or.inl h1
    · cases g with
      | none => exact Or.inl rfl
      | some g' => right; rw [f.size g' rfl]; simp [domainOf]
    · intro i hi
      rcases hpo with h | h <;> rw [h] <;> exact Or.inl rfl
    · intro _ i hi
      have := hbig i hi
      show dilated (nth a.kernelSize i) (nth a.dilation i) ≤ nth n i + nth a.strides i
      omega
  obtain ⟨opt2, kp2, ho2, hk2, f2, hst2⟩ := hl1.facts_last rfl
  obtain ⟨ho3, hk3⟩ := (accepted_iff _ _ _).2 hacc
  have : opt2 = plain.2 := by cases (show Except.ok opt2 = Except.ok plain.2 from ho2.symm.trans ho3); rfl
  subst this
  have h02 : l1.transforms.padState = ⟨false, []⟩ :=
    never_pads f2.kernelLen f2.kernelPos (fun i _ => hpo.elim Or.inl fun h => Or.inr (Or.inl h)) hst2
  have htransfer : ∀ h k1 b1, MovesOutput a.group (List.range a.group.group.order) H h (fun x => ((l1.assign k1 b1).call x).2) n g C
      a.filters ↔ MovesOutputFirst a.group (List.range a.group.group.order) H h (fun x => ((l.assign k1 b1).call x).2) n g C a.filters := by
    intro h k1 b1
    obtain ⟨o1, q1, _, e1, f1, s1⟩ := (C53_assign (k1 := k1) (b1 := b1) hl1).facts_last rfl
    obtain ⟨o3, q3, _, e3, f3, s3⟩ := (C53_assign (k1 := k1) (b1 := b1) hl).facts_first hf
    cases (show Except.ok kp = Except.ok q3 from hkp.symm.trans e3)
    cases (show Except.ok kp = Except.ok q1 from hk3.symm.trans e1)
    refine movesOutput_formats (by simpa [domainOf] using f3.size) fun B x x' hx => ?_
    exact conv_moved_plain (a := { a with dataFormat := .channelsLast, allowNonEquivariance := true, padding := plain.1 })
      (allow := a.allowNonEquivariance) (padding := a.padding) rfl (by rw [← hf]) rfl rfl f1 f3 h02 h0 hl.dims hx
  have hpads : ∀ i, i < a.group.dim → PadsTo plain.2 (nth n i) (nth n i) (nth a.kernelSize i) (nth a.strides i) (nth a.dilation i)
      (nth ((List.range a.group.dim).map fun i => builtIn opt (nth n i) (dilated (nth a.kernelSize i) (nth a.dilation i)) (nth a.strides i) / 2) i)
      (nth ((List.range a.group.dim).map fun i => builtIn opt (nth n i) (dilated (nth a.kernelSize i) (nth a.dilation i)) (nth a.strides i) -
        builtIn opt (nth n i) (dilated (nth a.kernelSize i) (nth a.dilation i)) (nth a.strides i) / 2) i) := by
    intro i hi
    rw [nth_map_range, nth_map_range, if_pos hi, if_pos hi]
    refine ⟨0, ?_, ?_, ?_⟩
    · rcases hpo with h | h <;> rw [h]
    · rw [hbi]; simp
    · rw [hbi]; simp; omega
  have key := C25_configurations hl1 rfl plain.2 ho3 v hv hC hn hbig _ _ (by simp) hpads
  rw [show (∀ h k1 b1, h ∈ H → MovesOutputFirst a.group (List.range a.group.group.order) H h (fun x => ((l.assign k1 b1).call x).2) n g C
      a.filters) ↔ ∀ h k1 b1, h ∈ H → MovesOutput a.group (List.range a.group.group.order) H h (fun x => ((l1.assign k1 b1).call x).2) n g C
      a.filters from forall_congr' fun h => forall_congr' fun k1 => forall_congr' fun b1 => forall_congr' fun _ => (htransfer h k1 b1).symm]
  refine key.trans ?_
  refine forall_congr' fun h => forall_congr' fun hh => forall_congr' fun i => forall_congr' fun j => forall_congr' fun hij => ?_
  refine and_congr Iff.rfl (and_congr Iff.rfl (forall_congr' fun e => ?_))
  simp only
  rw [nth_map_range, nth_map_range, if_pos i.2, if_pos i.2]
  generalize builtIn opt (nth n i) (dilated (nth a.kernelSize i) (nth a.dilation i)) (nth a.strides i) = T
  rw [show T / 2 + nth n i + (T - T / 2) = nth n i + T by omega]

/-! ### hypotheses are met -/

/-- sizes kept by the elements 0 and 2 of P4, which exchange no axes -/
theorem keeps_half (n : List Nat) (hn : n.length = 2) : ∀ h ∈ [0, 2], KeepsSizes (GroupName.P4.motion h) n := by
  intro h hh
  have hh' : h = 0 ∨ h = 2 := by simpa using hh
  refine ⟨hn, fun i j hij => ?_⟩
  match i, j with
  | ⟨0, _⟩, ⟨0, _⟩ => rfl
  | ⟨1, _⟩, ⟨1, _⟩ => rfl
  | ⟨0, _⟩, ⟨1, _⟩ => rcases hh' with rfl | rfl <;> exact absurd rfl hij
  | ⟨1, _⟩, ⟨0, _⟩ => rcases hh' with rfl | rfl <;> exact absurd rfl hij

set_option maxRecDepth 8000 in
/-- a channels_first layer that is equivariant by C25_channels_first -/
example : ∃ l, BuiltConv strideConvFirst false none [7, 7] none 3 (fun _ => 1) (fun _ => 0) [0, 2] l ∧
    ∀ h k1 b1, h ∈ [0, 2] →
      MovesOutputFirst .P4 (List.range 4) [0, 2] h (fun x => ((l.assign k1 b1).call x).2) [7, 7] none 3 2 := by
  have hl : BuiltConv strideConvFirst false none [7, 7] none 3 (fun _ => 1) (fun _ => 0) [0, 2] _ := ⟨⟨_, rfl, rfl⟩, rfl, rfl⟩
  refine ⟨_, hl, (C25_channels_first hl rfl rfl .validEquiv rfl 1 (by decide) (by decide) (keeps_half _ rfl) (by decide)).2 ?_⟩
  intro h hh i j hij
  have hd : nth [7, 7] i = nth [7, 7] j ∧ (i : Nat) = j := by
    have h2 : h = 0 ∨ h = 2 := by simpa using hh
    match i, j with
    | ⟨0, _⟩, ⟨0, _⟩ => exact ⟨rfl, rfl⟩
    | ⟨1, _⟩, ⟨1, _⟩ => exact ⟨rfl, rfl⟩
    | ⟨0, _⟩, ⟨1, _⟩ => rcases h2 with rfl | rfl <;> exact absurd rfl hij
    | ⟨1, _⟩, ⟨0, _⟩ => rcases h2 with rfl | rfl <;> exact absurd rfl hij
  have hd := Fin.ext hd.2
  subst hd
  refine ⟨rfl, Or.inr rfl, fun _ => ?_⟩
  have key : (7 + builtIn .validEquiv 7 (dilated 3 1) 2 - dilated 3 1) / 2 * 2 + dilated 3 1 =
    7 + 2 * (builtIn .validEquiv 7 (dilated 3 1) 2 / 2) := by decide
  match i with
  | ⟨0, _⟩ => exact key
  | ⟨1, _⟩ => exact key

/-- a channels_first layer with strides 2, 'valid' and allow_non_equivariance=False -/
def validFirst : ConvArgs Int := { strideConvFirst with padding := "valid" }

set_option maxRecDepth 8000 in
/-- C25 fails for channels_first without dilation, padding or unequal strides: on 7x8 images build checks the channels and the first
axis, not the last one, along which the windows are not symmetric. -/
theorem C25_violation_last_axis : ∃ l, BuiltConv validFirst false none [7, 8] none 3 (fun _ => 1) (fun _ => 0) [0, 2] l ∧
    validFirst.allowNonEquivariance = false ∧
    ¬ ∀ h k1 b1, h ∈ [0, 2] →
      MovesOutputFirst .P4 (List.range 4) [0, 2] h (fun x => ((l.assign k1 b1).call x).2) [7, 8] none 3 2 := by
  have hl : BuiltConv validFirst false none [7, 8] none 3 (fun _ => 1) (fun _ => 0) [0, 2] _ := ⟨⟨_, rfl, rfl⟩, rfl, rfl⟩
  refine ⟨_, hl, rfl, fun hall => ?_⟩
  have := (C25_channels_first hl rfl rfl .valid rfl 1 (by decide) (by decide) (keeps_half _ rfl) (by decide)).1 hall 2 (by decide)
    ⟨1, by decide⟩ ⟨1, by decide⟩ (by decide)
  exact absurd (this.2.2 (by decide)) (by decide)

end GroCo
