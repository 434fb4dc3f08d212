import Verif.Props.OutputPadding
import Verif.Props.FormatTwin

/-
Property C81 for channels_first layers that pad nothing themselves.
-/

namespace GroCo
open Tensor

variable {α : Type}

/-- Calling a built transposed channels_first layer that pads nothing, with `output_padding`. -/
theorem callPadded_first [Semiring α] {a : ConvArgs α} {g : Option Nat} {C : Nat} {k0 b0 : List Nat → α}
    {A D : List Nat} {l : GroupConv α} {kp : KerasPadding} (f : ConvFacts a true g C k0 b0 A D l kp) (op : List Nat)
    (hf : a.dataFormat = .channelsFirst) (hst : l.transforms.padState = ⟨false, []⟩) {x1 x : Tensor α} {B : Nat} {n : List Nat}
    (hx : ChannelsMoved B n g C x1 x) (hn : n.length = a.group.dim) :
    ∃ y, l.callPadded op x = (l, .ok y) ∧
      y.shape = B :: a.filters :: upSizesW kp op a.strides a.dilation a.kernelSize (grow n (epads ⟨false, []⟩ a.group.dim)) ++
        [A.length] ∧
      ∀ b q i o, b < B →
        Valid (upSizesW kp op a.strides a.dilation a.kernelSize (grow n (epads ⟨false, []⟩ a.group.dim))) q →
        i < A.length → o < a.filters →
          y.get (b :: o :: q ++ [i]) = a.activation ((((indices a.kernelSize).map fun k =>
            ((List.range (chanO g C)).map fun c =>
              spread (befores (epads ⟨false, []⟩ a.group.dim)) a.strides a.dilation
                (upCropW kp op a.strides a.dilation a.kernelSize (grow n (epads ⟨false, []⟩ a.group.dim))) x1 n b q k
                (restIdx g C c) * weightOf a true g C k0 D (nth A i) k c o).sum).sum) +
              if a.useBias then b0 [o] else 0) := by
  obtain ⟨y, z, ey, ez, hz, hzg⟩ := (f.first hf hst).mergePad hx hn
  obtain ⟨w, ew, hw, hwg⟩ := f.transformed
  simp only [if_true] at hw hwg
  obtain ⟨b', hb', hcall⟩ := callPadded_parts f.toConvCore op (checkInput_first f hf hx.first hn) ey ew
  have hsl := f.stridesLen
  have hsp : ∀ i, i < a.strides.length → 0 < nth a.strides i := fun i hi =>
    Nat.pos_of_ne_zero fun h => f.stridesPos (h ▸ nth_mem _ _ hi)
  have hkp : ∀ i, i < a.strides.length → 0 < nth a.kernelSize i := fun i hi =>
    Nat.pos_of_ne_zero fun h => f.kernelPos (h ▸ nth_mem _ _ (by rw [f.kernelLen, ← hsl]; exact hi))
  have hg0 : grow n (epads ⟨false, []⟩ a.group.dim) = n := grow_none hn
  obtain ⟨u, eu, hu, hug⟩ := convTransposeLastPadded_ok (op := op) (dil := a.dilation) kp hz hw (by rw [hn, hsl]) (by rw [f.kernelLen, hsl]) hsp hkp
  obtain ⟨u', eu', hu', hug'⟩ := moveaxis_last u hu
  obtain ⟨v, ev, hv, hvg⟩ := bias_act_first a.activation hb' u' hu'
  have hsuper : ({ l with kernel := some w, bias := b', filters := a.filters * A.length } : GroupConv α).superCallPadded op y = .ok v := by
    rw [← ev]
    simp only [GroupConv.superCallPadded, f.fmt, hf, convTransposePadded, f.padding,
      f.strides, f.dilation, f.act, ez, eu, eu', res_bind_ok]
    cases b' <;> rfl
  obtain ⟨r, er, hr, hrg⟩ := (f.first hf hst).restore v hv (by rw [length_upSizesW, hsl])
  rw [hg0]
  refine ⟨r, ?_, hr, ?_⟩
  · rw [hcall, hsuper]
    simp only [res_bind_ok, er]
  · intro b q i o hb hq hi ho
    have hql : q.length = a.strides.length := by rw [hq.length, length_upSizesW]
    rw [hrg b q i o hb hq hi ho, hvg b q i o hi ho, hug' b q _ hq.length, hug b q _ hql]
    refine congrArg a.activation (congrArg (· + _) ?_)
    apply sum_congr
    intro k hk
    rw [mem_indices] at hk
    apply sum_congr
    intro c hc
    rw [List.mem_range] at hc
    rw [hwg k c i o hk hc hi ho]
    refine congrArg (· * _) ?_
    have := upPos_spread (strides := a.strides) (dil := a.dilation) (crop := upCropW kp op a.strides a.dilation a.kernelSize n)
      (q := q) (k := k) (n := n) (r := restIdx g C c) (ps := epads ⟨false, []⟩ a.group.dim) (x := x1) (y := z) (b := b) (c := c)
      hsp (by rw [hn, hsl]) (by rw [length_epads, hsl]) fun q' hq' => by
        rw [hg0, shiftBack_none (by rw [hq', hsl])]
        exact hzg b q' c hb (by rw [hq', hsl]) hc
    rw [hg0] at this
    exact this

/-- C30 with `output_padding`: a transposed channels_first layer that pads nothing itself computes what the channels_last layer with
Keras's own padding computes. -/
theorem C30_plain_output_padding [Semiring α] {a : ConvArgs α} {bt : Option Nat} {n : List Nat} {g : Option Nat} {C : Nat}
    {k0 b0 : List Nat → α} {H : List Nat} {l l1 : GroupConv α} (hl : BuiltConv a true bt n g C k0 b0 H l)
    (hf : a.dataFormat = .channelsFirst) (hu : Unpadded l.transforms) (opt : PadOption)
    (hopt : formatPaddingOption a.padding = .ok opt) (hl1 : BuiltConv (a.plainLast opt) true bt n g C k0 b0 H l1) (op : List Nat) :
    SameUpToFormat a.group.dim g C a.filters a.group.group.order (fun x => (l1.callPadded op x).2) (fun x => (l.callPadded op x).2) := by
  obtain ⟨opt', kp, hopt', hkp, f3, hst⟩ := hl.facts_first hf
  rw [hopt] at hopt'
  cases hopt'
  have hagree := padding_agree hopt hkp
  have h0 := unpadded_state hst hu
  have hacc := plain_accepted opt
  obtain ⟨opt2, kp2, ho2, hk2, f1, hst2⟩ := hl1.facts_last rfl
  obtain ⟨ho3, hk3⟩ := (accepted_iff _ _ _).2 hacc
  have : opt2 = opt.plain := by cases (show Except.ok opt2 = Except.ok opt.plain from ho2.symm.trans ho3); rfl
  subst this
  have h03 : l1.transforms.padState = ⟨false, []⟩ :=
    never_pads f1.kernelLen f1.kernelPos (fun i _ => neverPads_plain ..) hst2
  cases (show Except.ok (kerasOf opt) = Except.ok kp2 from hk3.symm.trans hk2)
  rw [hagree] at f3
  intro B m x x' hm hx
  obtain ⟨z, hz, hzs, hzg⟩ := callPadded_last f1 op rfl hx.last hm
  obtain ⟨z', hz', hzs', hzg'⟩ := callPadded_first f3 op hf h0 hx hm
  rw [h03] at hzs hzg
  have hlen : (actingOf a.group true H).length = a.group.group.order := by simp [actingOf]
  refine ⟨⟨fun _ => ⟨z', congrArg Prod.snd hz'⟩, fun _ => ⟨z, congrArg Prod.snd hz⟩⟩, fun y y' hy hy' => ?_⟩
  have : y = z := by
    have := hy.symm.trans (congrArg Prod.snd hz)
    cases this; rfl
  subst this
  have : y' = z' := by
    have := hy'.symm.trans (congrArg Prod.snd hz')
    cases this; rfl
  subst this
  refine ⟨_, by rw [← hlen]; exact hzs, by rw [← hlen]; exact hzs', ?_⟩
  intro b p c hb hp hc
  obtain ⟨q, r, rfl, hq, hr⟩ := valid_append_split hp
  match r, hr with
  | [i], ⟨hi, _⟩ =>
    have hi' : i < (actingOf a.group true H).length := by rw [hlen]; exact hi
    have h1 := hzg b q i c hb hq hi' hc
    have h2 := hzg' b q i c hb hq hi' hc
    rw [List.cons_append, List.cons_append] at h2
    rw [h2, List.cons_append, List.append_assoc]
    exact h1.symm

/-- C81 for channels_first: a transposed channels_first layer without dilation that pads nothing itself, constructed with an
`output_padding` below the strides, moves its output with its input for all elements of its subgroup and all weights exactly if along
every axis that the subgroup mirrors the `output_padding` is zero with 'valid' and 'valid_equiv', and even and at most the size of the
kernel with 'same' and 'same_equiv'. -/
theorem C81_channels_first [Semiring α] {a : ConvArgs α} {bt : Option Nat} {n : List Nat} {g : Option Nat} {C : Nat}
    {k0 b0 : List Nat → α} {H : List Nat} {l : GroupConv α} (hl : BuiltConv a true bt n g C k0 b0 H l)
    (hf : a.dataFormat = .channelsFirst) (hu : Unpadded l.transforms) (opt : PadOption)
    (hopt : formatPaddingOption a.padding = .ok opt)
    (hdil : a.dilation = List.replicate a.group.dim 1) (hn : a.group.Grid n) (hs : a.group.Grid a.strides) (hpos : 0 ∉ n)
    (v : α) (hv : a.activation v ≠ a.activation 0) (hC : 0 < C)
    (op : List Nat) (hog : a.group.Grid op) (hop : ∀ i, i < a.group.dim → nth op i < nth a.strides i)
    (hne : ∀ i, i < a.group.dim → 0 < sizeWith opt (nth n i) (nth a.kernelSize i) (nth a.strides i) (nth op i)) :
    (∀ h k1 b1, h ∈ H → MovesOutputFirst a.group H (List.range a.group.group.order) h
      (fun x => ((l.assign k1 b1).callPadded op x).2) n g C a.filters) ↔
    ∀ i : Fin a.group.dim, (∃ h ∈ H, a.group.motion h i i = -1) →
      (opt = .valid ∨ opt = .validEquiv) ∧ nth op i = 0 ∨
        (opt = .same ∨ opt = .sameEquiv) ∧ nth op i ≤ nth a.kernelSize i ∧ nth op i % 2 = 0 := by
  obtain ⟨l1, hl1, hu1, _⟩ := C30_plain_transposed hl hf hu opt hopt
  have hgd : ∀ g', g = some g' → g' = H.length := by
    obtain ⟨_, _, _, _, f, _⟩ := hl.facts_first hf
    intro g' hg
    exact f.size g' hg
  have hz : ∀ i, nth (List.replicate a.group.dim 0) i = 0 := fun i => by
    simp [nth, List.getD_eq_getElem?_getD, List.getElem?_replicate]; split <;> rfl
  have hsz : ∀ m k s o, sizeWith opt.plain m k s o = sizeWith opt m k s o := by
    intro m k s o; cases opt <;> rfl
  have key := C81_exact hl1 rfl opt.plain ((accepted_iff _ _ _).2 (plain_accepted opt)).1 hdil hn hs hpos v hv hC
    (List.replicate a.group.dim 0) (List.replicate a.group.dim 0) (by simp [ConvArgs.plainLast]) (fun i hi => by
      rw [hz]; unfold Unpadded at hu1; simp [PadState.amount, hu1]) op hog hop (fun i hi => by
        rw [hz, hsz, Nat.zero_add, Nat.add_zero]; exact hne i hi)
  have hfm : ∀ h k1 b1, MovesOutput a.group H (List.range a.group.group.order) h (fun x => ((l1.assign k1 b1).callPadded op x).2) n g C
      a.filters ↔ MovesOutputFirst a.group H (List.range a.group.group.order) h (fun x => ((l.assign k1 b1).callPadded op x).2) n g C
      a.filters := fun h k1 b1 => movesOutput_formats hgd (fun B x x' hx => by
        rw [List.length_range]
        exact C30_plain_output_padding (C53_assign (k1 := k1) (b1 := b1) hl) hf hu opt hopt (C53_assign (k1 := k1) (b1 := b1) hl1) op B n x x'
          hl.dims hx)
  refine Iff.trans ⟨fun h e k1 b1 he => (hfm e k1 b1).2 (h e k1 b1 he), fun h e k1 b1 he => (hfm e k1 b1).1 (h e k1 b1 he)⟩
    (key.trans ?_)
  refine forall_congr' fun i => forall_congr' fun _ => ?_
  have hk : (a.plainLast opt).kernelSize = a.kernelSize := rfl
  rw [hz, hk]
  cases opt <;> simp [PadOption.plain]

set_option maxRecDepth 8000 in
/-- hypotheses are met: with strides 2 and 'valid' such a layer is not equivariant for all weights if `output_padding` is 1 -/
example : ∃ l, BuiltConv { paddedTranspose "valid" with dataFormat := .channelsFirst, allowNonEquivariance := true } true none [5, 5]
      none 1 (fun _ => 1) (fun _ => 0) [0, 1, 2, 3] l ∧
    (∀ h k1 b1, h ∈ [0, 1, 2, 3] →
      MovesOutputFirst .P4 [0, 1, 2, 3] (List.range 4) h (fun x => ((l.assign k1 b1).callPadded [0, 0] x).2) [5, 5] none 1 1) ∧
    ¬ ∀ h k1 b1, h ∈ [0, 1, 2, 3] →
      MovesOutputFirst .P4 [0, 1, 2, 3] (List.range 4) h (fun x => ((l.assign k1 b1).callPadded [1, 1] x).2) [5, 5] none 1 1 := by
  obtain ⟨l, hl, hp⟩ : ∃ l, BuiltConv { paddedTranspose "valid" with dataFormat := .channelsFirst, allowNonEquivariance := true } true
      none [5, 5] none 1 (fun _ => 1) (fun _ => 0) [0, 1, 2, 3] l ∧ Unpadded l.transforms := ⟨_, ⟨⟨_, rfl, rfl⟩, rfl, rfl⟩, rfl⟩
  refine ⟨l, hl, ?_, fun hall => ?_⟩
  · refine (C81_channels_first hl rfl hp .valid (by decide) rfl ⟨rfl, rfl⟩ ⟨rfl, rfl⟩ (by decide) 1 (by decide) (by decide) [0, 0]
      ⟨rfl, rfl⟩ (by decide) (by decide)).2 ?_
    intro i _
    revert i
    decide
  · have h := (C81_channels_first hl rfl hp .valid (by decide) rfl ⟨rfl, rfl⟩ ⟨rfl, rfl⟩ (by decide) 1 (by decide) (by decide) [1, 1]
      ⟨rfl, rfl⟩ (by decide) (by decide)).1 hall ⟨0, by decide⟩ ⟨2, by decide, by decide⟩
    exact absurd h (by decide)

end GroCo
