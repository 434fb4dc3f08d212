import Verif.FirstMovedLemmas
import Verif.Props.Build
import Verif.Props.FormatLayers
import Verif.Props.Training

/-
Property C30: what every channels_first layer computes that pads nothing itself. It is what the channels_last layer computes that is
written with Keras's own padding and allow_non_equivariance=True, which can always be built. So nothing has to be assumed about the
channels_last layer, and whatever holds for it carries over.
-/

namespace GroCo
open Tensor

variable {α : Type}

/-- Keras's own name of a padding option -/
def PadOption.plainName : PadOption → String
  | .same | .sameEquiv => "same"
  | .valid | .validEquiv => "valid"

/-- Keras's own padding option -/
def PadOption.plain : PadOption → PadOption
  | .same | .sameEquiv => .same
  | .valid | .validEquiv => .valid

/-- the arguments of a convolution layer written with channels_last, Keras's own padding and allow_non_equivariance=True -/
def ConvArgs.plainLast (a : ConvArgs α) (opt : PadOption) : ConvArgs α :=
  { a with dataFormat := .channelsLast, allowNonEquivariance := true, padding := opt.plainName }

/-- the same for a pooling layer -/
def PoolArgs.plainLast (a : PoolArgs) (opt : PadOption) : PoolArgs :=
  { a with dataFormat := .channelsLast, allowNonEquivariance := true, padding := opt.plainName }

/-- Two functions of signals, one for channels_last and one for channels_first, that accept the same signals and return the same up
to moving the channel axis. -/
def SameUpToFormat (d : Nat) (g : Option Nat) (C F M : Nat) (f f' : Tensor α → Res (Tensor α)) : Prop :=
  ∀ B m x x', m.length = d → ChannelsMoved B m g C x x' → ((∃ y, f x = .ok y) ↔ ∃ y', f' x' = .ok y') ∧
    ∀ y y', f x = .ok y → f' x' = .ok y' → ∃ out, ChannelsMoved B out (some M) F y y'

theorem plain_accepted (opt : PadOption) : Accepted opt.plainName opt.plain (kerasOf opt) := by
  cases opt
  · exact C39_documented_names ("same", .same, .same) (by decide)
  · exact C39_documented_names ("valid", .valid, .valid) (by decide)
  · exact C39_documented_names ("same", .same, .same) (by decide)
  · exact C39_documented_names ("valid", .valid, .valid) (by decide)

theorem plain_cases (opt : PadOption) : opt.plain = .same ∨ opt.plain = .valid := by
  cases opt <;> simp [PadOption.plain]

theorem canPad_plain (opt : PadOption) (own n k s : Nat) : CanPad opt.plain true own n k s := by
  rcases plain_cases opt with h | h <;> rw [h] <;> exact Or.inl rfl

theorem neverPads_plain (opt : PadOption) (k s : Nat) : NeverPads opt.plain k s := by
  rcases plain_cases opt with h | h <;> rw [h]
  · exact Or.inl rfl
  · exact Or.inr (Or.inl rfl)

/-- assigning the weights a layer has -/
theorem assign_self {a : ConvArgs α} {tr : Bool} {bt : Option Nat} {n : List Nat} {g : Option Nat} {C : Nat} {k0 b0 : List Nat → α}
    {H : List Nat} {l : GroupConv α} (hl : BuiltConv a tr bt n g C k0 b0 H l) : l.assign k0 b0 = l := by
  obtain ⟨l0, h0, h1⟩ := hl.built
  obtain ⟨l0', h0', h1'⟩ := (C53_assign (k1 := k0) (b1 := b0) hl).built
  rw [h0] at h0'
  cases h0'
  exact (Except.ok.inj (h1.symm.trans h1')).symm

theorem sizesOk_of_facts {a : ConvArgs α} {tr : Bool} {g : Option Nat} {C : Nat} {k0 b0 : List Nat → α} {A D : List Nat}
    {l l0 : GroupConv α} {kp : KerasPadding} (f : ConvFacts a tr g C k0 b0 A D l kp) (h0 : GroupConv.init a a.group.dim tr = .ok l0) :
    SizesOk a := by
  obtain ⟨c1, c2, c3⟩ := conv_init_checks h0
  refine ⟨⟨f.kernelLen, f.kernelPos⟩, ⟨f.stridesLen, f.stridesPos⟩, ⟨f.dilationLen, c2⟩, Nat.pos_of_ne_zero c1, ?_⟩
  have hone : ∀ u : List Nat, 0 ∉ u → (∃ s ∈ u, 1 < s) ∨ ∀ s ∈ u, s = 1 := by
    intro u hu
    by_cases h : ∃ s ∈ u, 1 < s
    · exact Or.inl h
    · refine Or.inr fun s hs => ?_
      by_contra hc
      refine h ⟨s, hs, ?_⟩
      have : s ≠ 0 := fun h => hu (h ▸ hs)
      omega
  rcases hone _ f.stridesPos with h1 | h1
  · rcases hone _ c2 with h2 | h2
    · exact absurd ⟨h1, h2⟩ c3
    · exact Or.inr h2
  · exact Or.inl h1

/-- C30 for every convolution layer that pads nothing: a channels_first layer computes, whatever weights are assigned, what the
channels_last layer with Keras's own padding and allow_non_equivariance=True computes, up to moving the channel axis. That layer can
be built (on images as large as the dilated kernel, say) and pads nothing. -/
theorem C30_plain [Semiring α] {a : ConvArgs α} {bt : Option Nat} {n : List Nat} {g : Option Nat} {C : Nat} {k0 b0 : List Nat → α}
    {H : List Nat} {l : GroupConv α} (hl : BuiltConv a false bt n g C k0 b0 H l) (hf : a.dataFormat = .channelsFirst)
    (hu : Unpadded l.transforms) (opt : PadOption) (hopt : formatPaddingOption a.padding = .ok opt) :
    ∃ l1, BuiltConv (a.plainLast opt) false bt
        ((List.range a.group.dim).map fun i => dilated (nth a.kernelSize i) (nth a.dilation i)) g C k0 b0 H l1 ∧
      Unpadded l1.transforms ∧
      ∀ k1 b1, SameUpToFormat a.group.dim g C a.filters H.length (fun x => ((l1.assign k1 b1).call x).2)
        (fun x => ((l.assign k1 b1).call x).2) := by
  obtain ⟨opt', kp, hopt', hkp, f, hst⟩ := hl.facts_first hf
  rw [hopt] at hopt'
  cases hopt'
  have hagree := padding_agree hopt hkp
  have h0 := unpadded_state hst hu
  obtain ⟨l0, hi0, hb0⟩ := hl.built
  have hacc := plain_accepted opt
  have hsz : SizesOk a := sizesOk_of_facts f hi0
  let n1 : List Nat := (List.range a.group.dim).map fun i => dilated (nth a.kernelSize i) (nth a.dilation i)
  obtain ⟨l1, hl1⟩ : ∃ l1, BuiltConv (a.plainLast opt) false bt n1 g C k0 b0 H l1 := by
    refine (C44_convolution (a.plainLast opt) rfl bt n1 g C k0 b0 H (by simp [n1, ConvArgs.plainLast]) hl.elements).2
      ⟨opt.plain, kerasOf opt, hacc, ⟨hsz.1, hsz.2, hsz.3, hsz.4, hsz.5⟩, ?_, f.grid, fun i hi => canPad_plain .., fun _ i hi => ?_⟩
    · cases g with
      | none => exact Or.inl rfl
      | some g' => right; rw [f.size g' rfl]; simp [domainOf, ConvArgs.plainLast]
    · show dilated (nth a.kernelSize i) (nth a.dilation i) ≤ nth n1 i + nth a.strides i
      have : nth n1 i = dilated (nth a.kernelSize i) (nth a.dilation i) := by
        rw [show nth n1 i = _ from nth_map_range .., if_pos (show i < a.group.dim from hi)]
      omega
  obtain ⟨opt2, kp2, ho2, hk2, f2, hst2⟩ := hl1.facts_last rfl
  obtain ⟨ho3, hk3⟩ := (accepted_iff _ _ _).2 hacc
  have : opt2 = opt.plain := by cases (show Except.ok opt2 = Except.ok opt.plain from ho2.symm.trans ho3); rfl
  subst this
  have h02 : l1.transforms.padState = ⟨false, []⟩ :=
    never_pads f2.kernelLen f2.kernelPos (fun i _ => neverPads_plain ..) hst2
  refine ⟨l1, hl1, by rw [Unpadded, h02], fun k1 b1 B m x x' hm hx => ?_⟩
  obtain ⟨o1, q1, _, e1, f1, s1⟩ := (C53_assign (k1 := k1) (b1 := b1) hl1).facts_last rfl
  obtain ⟨o3, q3, _, e3, f3, s3⟩ := (C53_assign (k1 := k1) (b1 := b1) hl).facts_first hf
  cases (show Except.ok kp = Except.ok q3 from hkp.symm.trans e3)
  cases (show Except.ok (kerasOf opt) = Except.ok q1 from hk3.symm.trans e1)
  rw [hagree] at f3
  exact conv_moved_plain (a := a.plainLast opt) (allow := a.allowNonEquivariance) (padding := a.padding) rfl
    (by rw [ConvArgs.plainLast, ← hf]) rfl rfl f1 f3 h02 h0 hm hx

/-- C30 for every transposed layer that pads nothing -/
theorem C30_plain_transposed [Semiring α] {a : ConvArgs α} {bt : Option Nat} {n : List Nat} {g : Option Nat} {C : Nat}
    {k0 b0 : List Nat → α} {H : List Nat} {l : GroupConv α} (hl : BuiltConv a true bt n g C k0 b0 H l)
    (hf : a.dataFormat = .channelsFirst) (hu : Unpadded l.transforms) (opt : PadOption)
    (hopt : formatPaddingOption a.padding = .ok opt) :
    ∃ l1, BuiltConv (a.plainLast opt) true bt n g C k0 b0 H l1 ∧ Unpadded l1.transforms ∧
      ∀ k1 b1, SameUpToFormat a.group.dim g C a.filters a.group.group.order (fun x => ((l1.assign k1 b1).call x).2)
        (fun x => ((l.assign k1 b1).call x).2) := by
  obtain ⟨opt', kp, hopt', hkp, f, hst⟩ := hl.facts_first hf
  rw [hopt] at hopt'
  cases hopt'
  have hagree := padding_agree hopt hkp
  have h0 := unpadded_state hst hu
  obtain ⟨l0, hi0, hb0⟩ := hl.built
  have hacc := plain_accepted opt
  have hsz : SizesOk a := sizesOk_of_facts f hi0
  obtain ⟨l1, hl1⟩ : ∃ l1, BuiltConv (a.plainLast opt) true bt n g C k0 b0 H l1 := by
    refine (C44_transposed (a.plainLast opt) rfl bt n g C k0 b0 H hl.dims hl.elements).2
      ⟨opt.plain, kerasOf opt, hacc, ⟨hsz.1, hsz.2, hsz.3, hsz.4, hsz.5⟩, ?_, f.grid, fun i hi => canPad_plain ..⟩
    cases g with
    | none => exact Or.inl rfl
    | some g' => right; rw [f.size g' rfl]; simp [domainOf]
  obtain ⟨opt2, kp2, ho2, hk2, f2, hst2⟩ := hl1.facts_last rfl
  obtain ⟨ho3, hk3⟩ := (accepted_iff _ _ _).2 hacc
  have : opt2 = opt.plain := by cases (show Except.ok opt2 = Except.ok opt.plain from ho2.symm.trans ho3); rfl
  subst this
  have h02 : l1.transforms.padState = ⟨false, []⟩ := 
    never_pads f2.kernelLen f2.kernelPos (fun i _ => neverPads_plain ..) hst2
  refine ⟨l1, hl1, by rw [Unpadded, h02], fun k1 b1 B m x x' hm hx => ?_⟩
  obtain ⟨o1, q1, _, e1, f1, s1⟩ := (C53_assign (k1 := k1) (b1 := b1) hl1).facts_last rfl
  obtain ⟨o3, q3, _, e3, f3, s3⟩ := (C53_assign (k1 := k1) (b1 := b1) hl).facts_first hf
  cases (show Except.ok kp = Except.ok q3 from hkp.symm.trans e3)
  cases (show Except.ok (kerasOf opt) = Except.ok q1 from hk3.symm.trans e1)
  rw [hagree] at f3
  obtain ⟨z, hz, hzs, hzg⟩ := convT_call_last f1 rfl hx.last hm
  obtain ⟨z', hz', hzs', hzg'⟩ := convT_call_first f3 hf h0 hx hm
  have h03 : (l1.assign k1 b1).transforms.padState = ⟨false, []⟩ := h02
  rw [h03] at hzs hzg
  have hlen : (actingOf a.group true H).length = a.group.group.order := by simp [actingOf]
  refine ⟨⟨fun _ => ⟨z', congrArg Prod.snd hz'⟩, fun _ => ⟨z, congrArg Prod.snd hz⟩⟩, fun y y' hy hy' => ?_⟩
  have : y = z := by
    have := hy.symm.trans (congrArg Prod.snd hz)
    cases this; rfl
  subst this
  have : y' = z' := by
    have := hy'.symm.trans (congrArg Prod.snd hz')
    cases this; rfl
  subst this
  refine ⟨_, by rw [← hlen]; exact hzs, by rw [← hlen]; exact hzs', ?_⟩
  intro b p c hb hp hc
  obtain ⟨q, r, rfl, hq, hr⟩ := valid_append_split hp
  match r, hr with
  | [i], ⟨hi, _⟩ =>
    have hi' : i < (actingOf a.group true H).length := by rw [hlen]; exact hi
    have h1 := hzg b q i c hb hq hi' hc
    have h2 := hzg' b q i c hb hq hi' hc
    rw [List.cons_append, List.cons_append] at h2
    rw [h2, List.cons_append, List.append_assoc]
    exact h1.symm

/-- C30 for every pooling layer that pads nothing -/
theorem C30_plain_pooling [Field α] [LinearOrder α] {a : PoolArgs} {bt : Option Nat} {n : List Nat} {g C : Nat} {H : List Nat}
    {l : GroupPooling} (hl : BuiltPool a bt n g C H l) (hf : a.dataFormat = .channelsFirst) (hu : Unpadded l.transforms)
    (opt : PadOption) (hopt : formatPaddingOption a.padding = .ok opt) :
    ∃ l1, BuiltPool (a.plainLast opt) bt n g C H l1 ∧ Unpadded l1.transforms ∧
      SameUpToFormat (α := α) a.group.dim (some g) C C H.length l1.call l.call := by
  obtain ⟨opt', kp, cos, e1, e2, f', hg, hst'⟩ := hl.facts_first hf
  rw [hopt] at e1
  cases e1
  have hagree := padding_agree hopt e2
  have f' := f' (unpadded_state hst' hu)
  have hacc := plain_accepted opt
  obtain ⟨l0, hi0, hb0⟩ := hl.built
  obtain ⟨s, m, _, _, _, _, _, _, e5, e6, e7, e8, _⟩ := pool_init_inv hi0
  obtain ⟨l1, hl1⟩ : ∃ l1, BuiltPool (a.plainLast opt) bt n g C H l1 := by
    refine (C44_pooling (a.plainLast opt) rfl bt n g C H hl.dims hl.elements).2
      ⟨opt.plain, kerasOf opt, hacc, ⟨e5, e7⟩, fun s hs => ?_, hg, fun i hi => canPad_plain ..⟩
    have hs : a.strides = some s := hs
    rw [PoolArgs.windowStrides, hs] at e6 e8
    exact ⟨e6, e8⟩
  obtain ⟨opt2, kp2, cos2, ho2, hk2, f2, _, hst2⟩ := hl1.facts rfl
  obtain ⟨ho3, hk3⟩ := (accepted_iff _ _ _).2 hacc
  have : opt2 = opt.plain := by cases (show Except.ok opt2 = Except.ok opt.plain from ho2.symm.trans ho3); rfl
  subst this
  cases (show Except.ok (kerasOf opt) = Except.ok kp2 from hk3.symm.trans hk2)
  have h02 : l1.transforms.padState = ⟨false, []⟩ :=
    never_pads f2.sizeLen f2.sizePos (fun i _ => neverPads_plain ..) hst2
  have hcc : cos2 = cos := by
    obtain ⟨s, h1, _, h2⟩ := f2.sub
    obtain ⟨s', h1', _, h2'⟩ := f'.sub
    have : s = s' := by
      have := h1.symm.trans h1'
      cases this; rfl
    subst this
    cases (show Except.ok cos2 = Except.ok cos from h2.symm.trans h2')
    rfl
  subst hcc
  have f3 : PoolFirst { a.plainLast opt with dataFormat := .channelsFirst } H cos2 l (kerasOf opt) := by
    rw [← hagree]
    exact ⟨f'.first, f'.sizeLen, f'.stridesLen, f'.sub, f'.indices, f'.poolType, f'.poolSize, f'.strides, f'.padding, f'.fmt⟩
  refine ⟨l1, hl1, by rw [Unpadded, h02], fun B m x x' hm hx => ?_⟩
  rw [hg] at hx
  obtain ⟨h1, h2⟩ := pool_moved f2 f3 rfl h02 hm hx
  refine ⟨⟨?_, fun ⟨y', hy'⟩ => h1 y' hy'⟩, fun y y' hy hy' => ?_⟩
  · rintro ⟨y, hy⟩
    obtain ⟨y', hy', _⟩ := h2 y hy
    exact ⟨y', hy'⟩
  · obtain ⟨z', hz', out, _, h3⟩ := h2 y hy
    rw [hy'] at hz'
    cases hz'
    exact ⟨out, h3⟩

end GroCo
