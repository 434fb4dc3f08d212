import Verif.Props.FirstFormat
import Verif.Props.Stack
import Verif.Props.SubgroupLayer
import Verif.Props.Translate

/-
Properties C36, C37, C41, C46 and C57 for channels_first layers that pad nothing themselves.
-/

namespace GroCo
open Tensor

variable {α : Type}

/-- What computes the same up to the data format treats the entries of a batch independently in both. -/
theorem batchwise_moved {d : Nat} {m : List Nat} {g : Option Nat} {C F M : Nat} {f f' : Tensor α → Res (Tensor α)}
    (hm : m.length = d) (hs : SameUpToFormat d g C F M f f') (B0 : Nat)
    (h : Batchwise f (sigShape .channelsLast B0 m g C).tail) : Batchwise f' (sigShape .channelsFirst B0 m g C).tail := by
  intro x x' y B B' hx hx' hy
  have hx : x.shape = sigShape .channelsFirst B m g C := hx
  have hx' : x'.shape = sigShape .channelsFirst B' m g C := hx'
  obtain ⟨x1, mx, -, ho⟩ := hs.call hm hx
  obtain ⟨x1', mx', hr', ho'⟩ := hs.call hm hx'
  obtain ⟨y1, out, hy1, my⟩ := ho y hy
  obtain ⟨y1', t, hy1', ht, ht', hval⟩ := h x1 x1' y1 B B' mx.last mx'.last hy1
  obtain ⟨y', hy'⟩ := hr'.2 ⟨y1', hy1'⟩
  obtain ⟨z1', out', hz1', my'⟩ := ho' y' hy'
  rw [hy1'] at hz1'
  cases hz1'
  have ht1 : t = out ++ ((some M).toList ++ [F]) := by
    have := ht.symm.trans my.last
    exact (List.cons.inj this).2
  subst ht1
  have : out' = out := my'.shape_eq ht'
  subst this
  refine ⟨y', (sigShape .channelsFirst B0 out' (some M) F).tail, hy', my.first, my'.first, fun b b' hb hb' hag idx hv => ?_⟩
  match idx, hv with
  | o :: p, hv =>
    have hv : o < F ∧ Valid (out' ++ (some M).toList) p := hv
    rw [my.get b p o hb hv.2 hv.1, my'.get b' p o hb' hv.2 hv.1]
    refine hval b b' hb hb' (fun idx' hv' => ?_) (p ++ [o]) ?_
    · have hv' : Valid (m ++ (g.toList ++ [C])) idx' := hv'
      rw [← List.append_assoc] at hv'
      obtain ⟨q, w, rfl, hq, hw⟩ := valid_append_split hv'
      match w, hw with
      | [c], hw =>
        have e1 := mx.get b q c hb hq hw.1
        have e2 := mx'.get b' q c hb' hq hw.1
        have e3 := hag (c :: q) (by simp only [sigShape, List.cons_append, List.tail_cons]; exact ⟨hw.1, hq⟩)
        rw [e1, e2] at e3
        exact e3
    · rw [← List.append_assoc]
      exact (valid_append _ _ _ _ hv.2.length).2 ⟨hv.2, hv.1, trivial⟩

/-- C36: channels_first layers that pad nothing themselves treat the entries of a batch independently. -/
theorem C36_channels_first_batchwise [Semiring α] {a : ConvArgs α} {tr : Bool} {bt : Option Nat} {n : List Nat} {g : Option Nat}
    {C : Nat} {k0 b0 : List Nat → α} {H : List Nat} {l : GroupConv α} (hl : BuiltConv a tr bt n g C k0 b0 H l)
    (hf : a.dataFormat = .channelsFirst) (hu : Unpadded l.transforms) (B : Nat) (m : List Nat) (hm : m.length = a.group.dim) :
    Batchwise (fun x => (l.call x).2) (sigShape .channelsFirst B m g C).tail := by
  obtain ⟨opt, kp, hopt, -⟩ := hl.facts_first hf
  cases tr with
  | false =>
    obtain ⟨l1, hl1, -, hs⟩ := C30_plain hl hf hu opt hopt
    have hs := hs k0 b0
    rw [assign_self hl, assign_self hl1] at hs
    exact batchwise_moved hm hs B (C36_layers_batchwise hl1 rfl B m hm)
  | true =>
    obtain ⟨l1, hl1, -, hs⟩ := C30_plain_transposed hl hf hu opt hopt
    have hs := hs k0 b0
    rw [assign_self hl, assign_self hl1] at hs
    exact batchwise_moved hm hs B (C36_layers_batchwise hl1 rfl B m hm)

theorem C36_channels_first_pooling_batchwise [Field α] [LinearOrder α] {a : PoolArgs} {bt : Option Nat} {n : List Nat} {g C : Nat}
    {H : List Nat} {l : GroupPooling} (hl : BuiltPool a bt n g C H l) (hf : a.dataFormat = .channelsFirst)
    (hu : Unpadded l.transforms) (B : Nat) (m : List Nat) (hm : m.length = a.group.dim) :
    Batchwise (α := α) (fun x => l.call x) (sigShape .channelsFirst B m (some g) C).tail := by
  obtain ⟨opt, kp, cos, hopt, -⟩ := hl.facts_first hf
  obtain ⟨l1, hl1, -, hs⟩ := C30_plain_pooling (α := α) hl hf hu opt hopt
  exact batchwise_moved hm hs B (C36_pooling_batchwise hl1 rfl B m hm)

/-- C37: a channels_first convolution is a layer of a channels_first stack, if it pads nothing itself and its channels_last version
is accepted with allow_non_equivariance=False and pads nothing either, under the conditions of C25. -/
theorem C37_channels_first_convolution [Semiring α] {n : GroupName} {a a' : ConvArgs α} (hlast : a.dataFormat = .channelsLast)
    (hfirst : a' = { a with dataFormat := .channelsFirst }) {bt bt' : Option Nat} {g : Option Nat}
    {C : Nat} {k0 b0 : List Nat → α} {P H A : List Nat} {l l' : GroupConv α} {m m' : List Nat} {C' : Nat}
    (hl : BuiltConv a false bt m g C k0 b0 H l) (hl' : BuiltConv a' false bt' m g C k0 b0 H l')
    (hu : Unpadded l.transforms) (hu' : Unpadded l'.transforms) (hallow : a.allowNonEquivariance = false)
    (hs : a.group.Grid a.strides) (hd : a.group.Grid a.dilation)
    (hdil : ∀ opt, formatPaddingOption a.padding = .ok opt → ∀ i, i < a.group.dim →
      DilationOk opt (nth a.kernelSize i) (nth a.strides i) (nth a.dilation i))
    (x0 y0 : Tensor α) (B0 : Nat) (hx0 : x0.shape = sigShape .channelsFirst B0 m g C) (hy0 : (l'.call x0).2 = .ok y0)
    (hys0 : y0.shape = sigShape .channelsFirst B0 m' (some H.length) C') (hm : n.Grid m) (hm' : n.Grid m')
    (hP : lookup n.group.subgroup a.group.group.name = .ok P) (acting : Option String)
    (hA : n.group.sub (n.group.parseSubgroup acting) = .ok A) (hAH : ∀ e ∈ A, e ∈ H.map (nth P)) :
    EquivariantLayer n .channelsFirst acting A.length ⟨m, g, C, g.map fun _ => a.group.group.name⟩
      ⟨m', some H.length, C', a.group.group.parseSubgroup a.subgroup⟩ (fun x => (l'.call x).2) := by
  obtain ⟨opt, kp, hopt, hkp, f, hst⟩ := hl.facts_last hlast
  have hmd : m.length = a.group.dim := hl.dims
  have hown : lookup a.group.group.subgroup a.group.group.name = .ok (List.range a.group.group.order) := a.group.sym.tab.own
  have hHr : ∀ e ∈ H, e ∈ List.range a.group.group.order := by
    obtain ⟨sH, _, hlH⟩ := parse_sub hl.elements
    intro e he
    exact List.mem_range.2 (a.group.sym.sub_lt hlH he)
  refine equivariantLayer_up hP (D := List.range a.group.group.order) (T := H) (dx := g.map fun _ => "") (dy := a.subgroup)
    (fun B => C36_channels_first_batchwise hl' (by rw [hfirst]) hu' B m (by rw [hfirst]; exact hmd)) hx0 hy0 hys0 ?_ rfl hm hm'
    hl.elements ?_ ⟨rfl, hl.elements⟩ (.inr hHr) (.inr fun e he => he) hA hAH ?_
  · cases g <;> rfl
  · cases g with
    | none => rfl
    | some g => exact ⟨f.size g rfl, hown⟩
  · intro x y B hx hy
    exact C30_convolution_equivariant_partial hlast hfirst hallow hl hl' hu hu' hs hd (sub_grid hP hm) hdil x B hx y hy

/-- C37: so is a channels_first pooling layer, under the conditions of C34. -/
theorem C37_channels_first_pooling [Field α] [LinearOrder α] {n : GroupName} {a a' : PoolArgs} (hlast : a.dataFormat = .channelsLast)
    (hfirst : a' = { a with dataFormat := .channelsFirst }) {bt bt' : Option Nat} {g : Nat}
    {C : Nat} {P H A : List Nat} {l l' : GroupPooling} {m m' : List Nat} {C' : Nat} (hl : BuiltPool a bt m g C H l)
    (hl' : BuiltPool a' bt' m g C H l') (hu : Unpadded l.transforms) (hu' : Unpadded l'.transforms)
    (hallow : a.allowNonEquivariance = false) (opt : PadOption) (hopt : formatPaddingOption a.padding = .ok opt)
    (hK : a.group.Grid a.poolSize) (hs : a.group.Grid a.windowStrides)
    (hok : ∀ i, i < a.group.dim → PoolOk opt (nth m i) (nth a.poolSize i) (a.strides.map fun s => nth s i))
    (x0 y0 : Tensor α) (B0 : Nat) (hx0 : x0.shape = sigShape .channelsFirst B0 m (some g) C) (hy0 : l'.call x0 = .ok y0)
    (hys0 : y0.shape = sigShape .channelsFirst B0 m' (some H.length) C') (hm : n.Grid m) (hm' : n.Grid m')
    (hP : lookup n.group.subgroup a.group.group.name = .ok P) (acting : Option String)
    (hA : n.group.sub (n.group.parseSubgroup acting) = .ok A) (hAH : ∀ e ∈ A, e ∈ H.map (nth P)) :
    EquivariantLayer n .channelsFirst acting A.length ⟨m, some g, C, some a.group.group.name⟩
      ⟨m', some H.length, C', a.group.group.parseSubgroup a.subgroup⟩ (fun x : Tensor α => l'.call x) := by
  have hmd : m.length = a.group.dim := hl.dims
  have hown : lookup a.group.group.subgroup a.group.group.name = .ok (List.range a.group.group.order) := a.group.sym.tab.own
  have hHr : ∀ e ∈ H, e ∈ List.range a.group.group.order := by
    obtain ⟨sH, _, hlH⟩ := parse_sub hl.elements
    intro e he
    exact List.mem_range.2 (a.group.sym.sub_lt hlH he)
  obtain ⟨_, _, _, _, _, _, hgo, _⟩ := hl.facts hlast
  refine equivariantLayer_up hP (D := List.range a.group.group.order) (T := H) (dx := some "") (dy := a.subgroup)
    (fun B => C36_channels_first_pooling_batchwise hl' (by rw [hfirst]) hu' B m (by rw [hfirst]; exact hmd)) hx0 hy0 hys0 rfl rfl
    hm hm' hl.elements ⟨by simpa using hgo, hown⟩ ⟨rfl, hl.elements⟩ (.inr hHr) (.inr fun e he => he) hA hAH ?_
  intro x y B hx hy
  exact C30_pooling_equivariant_partial hlast hfirst hallow hl hl' hu hu' opt hopt (sub_grid hP hm) hK hs hok x B hx y hy

/-- C37: so is a transposed channels_first layer, under the conditions of C31. -/
theorem C37_channels_first_transposed [Semiring α] {n : GroupName} {a a' : ConvArgs α} (hlast : a.dataFormat = .channelsLast)
    (hfirst : a' = { a with dataFormat := .channelsFirst }) {bt bt' : Option Nat} {g : Option Nat}
    {C : Nat} {k0 b0 : List Nat → α} {P H A : List Nat} {l l' : GroupConv α} {m m' : List Nat} {C' : Nat}
    (hl : BuiltConv a true bt m g C k0 b0 H l) (hl' : BuiltConv a' true bt' m g C k0 b0 H l')
    (hu : Unpadded l.transforms) (hu' : Unpadded l'.transforms) (hallow : a.allowNonEquivariance = false)
    (hs : a.group.Grid a.strides) (hd : a.group.Grid a.dilation)
    (hok : ∀ opt, formatPaddingOption a.padding = .ok opt → ∀ i, i < a.group.dim →
      TransposeOk opt (nth m i) (nth a.kernelSize i) (nth a.strides i) (nth a.dilation i))
    (x0 y0 : Tensor α) (B0 : Nat) (hx0 : x0.shape = sigShape .channelsFirst B0 m g C) (hy0 : (l'.call x0).2 = .ok y0)
    (hys0 : y0.shape = sigShape .channelsFirst B0 m' (some a.group.group.order) C') (hm : n.Grid m) (hm' : n.Grid m')
    (hP : lookup n.group.subgroup a.group.group.name = .ok P) (acting : Option String)
    (hA : n.group.sub (n.group.parseSubgroup acting) = .ok A) (hAH : ∀ e ∈ A, e ∈ H.map (nth P)) :
    EquivariantLayer n .channelsFirst acting A.length ⟨m, g, C, g.bind fun _ => a.group.group.parseSubgroup a.subgroup⟩
      ⟨m', some a.group.group.order, C', some a.group.group.name⟩ (fun x => (l'.call x).2) := by
  obtain ⟨opt, kp, hopt, hkp, f, hst⟩ := hl.facts_last hlast
  have hmd : m.length = a.group.dim := hl.dims
  have hown : lookup a.group.group.subgroup a.group.group.name = .ok (List.range a.group.group.order) := a.group.sym.tab.own
  obtain ⟨sH, hsH, hlH⟩ := parse_sub hl.elements
  have hHr : ∀ e ∈ H, e ∈ List.range a.group.group.order := by
    intro e he
    exact List.mem_range.2 (a.group.sym.sub_lt hlH he)
  have hsub : a.subgroup = some (a.subgroup.getD "") := by
    cases ha : a.subgroup with
    | none => rw [ha] at hsH; cases hsH
    | some s => rfl
  refine equivariantLayer_up hP (D := H) (T := List.range a.group.group.order) (dx := g.map fun _ => a.subgroup.getD "")
    (dy := some "") (fun B => C36_channels_first_batchwise hl' (by rw [hfirst]) hu' B m (by rw [hfirst]; exact hmd)) hx0 hy0 hys0 ?_
    rfl hm hm' hl.elements ?_ ⟨by simp, hown⟩ (.inr fun e he => he) (.inr hHr) hA hAH ?_
  · cases g with
    | none => rfl
    | some g =>
      show a.group.group.parseSubgroup a.subgroup = a.group.group.parseSubgroup (some (a.subgroup.getD ""))
      rw [← hsub]
  · cases g with
    | none => rfl
    | some g =>
      refine ⟨f.size g rfl, ?_⟩
      show a.group.group.sub (a.group.group.parseSubgroup (some (a.subgroup.getD ""))) = .ok H
      rw [← hsub]
      exact hl.elements
  · intro x y B hx hy
    exact C30_transposed_equivariant_partial hlast hfirst hallow hl hl' hu hu' hs hd (sub_grid hP hm) hok x B hx y hy

/-- outputs of the same values are the same in both data formats -/
theorem same_moved {B : Nat} {out out' : List Nat} {M M' F : Nat} {z z' y y' : Tensor α} (h : ChannelsMoved B out (some M) F z y)
    (h' : ChannelsMoved B out' (some M') F z' y') (hz : z.Same z') : y.Same y' := by
  have hsh := hz.1
  rw [h.last, h'.last] at hsh
  have e := (List.cons.inj hsh).2
  have e1 : out ++ [M] = out' ++ [M'] := by
    have : out ++ [M] ++ [F] = out' ++ [M'] ++ [F] := by simpa [sigShape] using e
    exact (List.append_inj' this rfl).1
  obtain ⟨rfl, e2⟩ := List.append_inj' e1 rfl
  cases e2
  refine ⟨h.first.trans h'.first.symm, fun idx hv => ?_⟩
  rw [h.first] at hv
  match idx, hv with
  | b :: o :: p, hv =>
    simp only [sigShape, List.cons_append, Valid] at hv
    rw [h.get b p o hv.1 hv.2.2 hv.2.1, h'.get b p o hv.1 hv.2.2 hv.2.1]
    refine hz.2 _ ?_
    rw [h.last]
    have : Valid (out ++ (some M).toList ++ [F]) (p ++ [o]) := (valid_append _ _ _ _ hv.2.2.length).2 ⟨hv.2.2, hv.2.1, trivial⟩
    rw [List.append_assoc] at this
    exact ⟨hv.1, this⟩

/-- C57 for channels_first: let `m` be the group object named as the subgroup of a lifting layer. The lifting layer of `m` itself, with
otherwise the same arguments and weights, accepts the same inputs and returns the same outputs, if neither pads. -/
theorem C57_channels_first [Semiring α] {a : ConvArgs α} {m : GroupName} {bt : Option Nat} {n : List Nat} {C : Nat}
    {k0 b0 : List Nat → α} {H H' : List Nat} {l₁ l₂ : GroupConv α}
    (h₁ : BuiltConv { a with subgroup := some m.group.name } false bt n none C k0 b0 H l₁)
    (h₂ : BuiltConv { a with group := m, subgroup := some "" } false bt n none C k0 b0 H' l₂)
    (hf : a.dataFormat = .channelsFirst) (hu₁ : Unpadded l₁.transforms) (hu₂ : Unpadded l₂.transforms)
    (x : Tensor α) (B : Nat) (q : List Nat) (hq : q.length = a.group.dim) (hx : x.shape = sigShape .channelsFirst B q none C) :
    ((∃ y, (l₁.call x).2 = .ok y) ↔ ∃ y, (l₂.call x).2 = .ok y) ∧
    ∀ y₁ y₂, (l₁.call x).2 = .ok y₁ → (l₂.call x).2 = .ok y₂ → y₁.Same y₂ := by
  obtain ⟨opt, kp, hopt, -⟩ := h₁.facts_first hf
  have hd : m.dim = a.group.dim := h₂.dims.symm.trans h₁.dims
  obtain ⟨t₁, ht₁, -, hs₁⟩ := C30_plain h₁ hf hu₁ opt hopt
  obtain ⟨t₂, ht₂, -, hs₂⟩ := C30_plain h₂ hf hu₂ opt hopt
  have hs₁ := hs₁ k0 b0
  have hs₂ := hs₂ k0 b0
  rw [assign_self h₁, assign_self ht₁] at hs₁
  rw [assign_self h₂, assign_self ht₂] at hs₂
  have mx := toLast_moved x hx
  obtain ⟨r₁, o₁⟩ := hs₁ B q _ x hq mx
  obtain ⟨r₂, o₂⟩ := hs₂ B q _ x (hq.trans hd.symm) mx
  simp only [hd] at ht₂
  obtain ⟨c1, c2⟩ := C57_lifting (a := a.plainLast opt) (m := m) ht₁ ht₂ rfl _ B q hq mx.last
  refine ⟨r₁.symm.trans (c1.trans r₂), fun y₁ y₂ hy₁ hy₂ => ?_⟩
  obtain ⟨z₁, hz₁⟩ := r₁.2 ⟨y₁, hy₁⟩
  obtain ⟨z₂, hz₂⟩ := r₂.2 ⟨y₂, hy₂⟩
  obtain ⟨q₁, m₁⟩ := o₁ z₁ y₁ hz₁ hy₁
  obtain ⟨q₂, m₂⟩ := o₂ z₂ y₂ hz₂ hy₂
  exact same_moved m₁ m₂ (c2 z₁ z₂ hz₁ hz₂)

/-- C46 for channels_first transposed layers that pad nothing themselves -/
theorem C46_channels_first_transposed [Semiring α] {a : ConvArgs α} {bt : Option Nat} {n : List Nat}
    {g : Option Nat} {C : Nat} {k0 b0 : List Nat → α} {H : List Nat} {l : GroupConv α}
    (hl : BuiltConv a true bt n g C k0 b0 H l) (hf : a.dataFormat = .channelsFirst) (hu : Unpadded l.transforms)
    (x x' : Tensor α) (B : Nat) (m : List Nat) (hm : m.length = a.group.dim) (hx : x.shape = sigShape .channelsFirst B m g C)
    (hx' : x'.shape = x.shape) (t : List Int) (ht : t.length = a.group.dim) (hmove : TranslatedFirst a.group.dim t x x') :
    ∃ y y', (l.call x).2 = .ok y ∧ (l.call x').2 = .ok y' ∧ y'.shape = y.shape ∧
      ∀ b p p' i o, Valid y.shape (b :: o :: p ++ [i]) → Valid y.shape (b :: o :: p' ++ [i]) →
        p'.map Int.ofNat = List.zipWith (· + ·) (p.map Int.ofNat) (List.zipWith (fun (s : Nat) (u : Int) => s * u) a.strides t) →
          y'.get (b :: o :: p' ++ [i]) = y.get (b :: o :: p ++ [i]) := by
  obtain ⟨opt, kp, hopt, -⟩ := hl.facts_first hf
  obtain ⟨l1, hl1, -, hsame⟩ := C30_plain_transposed hl hf hu opt hopt
  have hs := hsame k0 b0
  rw [assign_self hl, assign_self hl1] at hs
  have m1 := toLast_moved x hx
  have m1' := toLast_moved x' (hx'.trans hx)
  obtain ⟨z, z', hz, hz', d1, d2⟩ := C46_transposed hl1 rfl _ _ B m hm m1.last (m1'.last.trans m1.last.symm) t ht
    (translated_moved hm ht m1 m1' hmove)
  obtain ⟨r, o1⟩ := hs B m _ x hm m1
  obtain ⟨r', o1'⟩ := hs B m _ x' hm m1'
  obtain ⟨y, hy⟩ := r.1 ⟨z, hz⟩
  obtain ⟨y', hy'⟩ := r'.1 ⟨z', hz'⟩
  obtain ⟨q, mz⟩ := o1 z y hz hy
  obtain ⟨q', mz'⟩ := o1' z' y' hz' hy'
  have : q' = q := mz'.shape_eq (d1.trans mz.last)
  subst this
  have hyy : y'.shape = y.shape := mz'.first.trans mz.first.symm
  refine ⟨y, y', hy, hy', hyy, fun b p p' i o hv hv' hpp => ?_⟩
  obtain ⟨w, e⟩ := mz.entry hv
  obtain ⟨w', e'⟩ := mz'.entry (hyy ▸ hv')
  rw [e, e']
  exact d2 b p p' i o w (d1 ▸ w') hpp

theorem befores_none (d : Nat) : befores (epads ⟨false, []⟩ d) = List.replicate d 0 := by
  apply List.ext_getElem
  · simp [befores, epads]
  · intro i h1 h2
    simp [befores, epads, PadState.amount]

/-- C41 for channels_first: a built transposed channels_first layer that pads nothing itself always returns, and computes the
transposed convolution with the transformed kernel `w` (see C32). -/
theorem C41_channels_first [Semiring α] {a : ConvArgs α} {bt : Option Nat} {n : List Nat} {g : Option Nat} {C : Nat}
    {k0 b0 : List Nat → α} {H : List Nat} {l : GroupConv α} (hl : BuiltConv a true bt n g C k0 b0 H l)
    (hf : a.dataFormat = .channelsFirst) (hu : Unpadded l.transforms) (opt : PadOption)
    (hopt : formatPaddingOption a.padding = .ok opt) (x : Tensor α) (B : Nat) (m : List Nat) (hm : m.length = a.group.dim)
    (hx : x.shape = sigShape .channelsFirst B m g C) :
    ∃ (crop : List Nat) (kernel w y : Tensor α),
      l.kernel = some kernel ∧ l.transforms.transformKernel kernel = .ok w ∧
      (∀ i, i < a.group.dim → nth crop i = match opt with
        | .valid | .validEquiv => 0
        | .same | .sameEquiv => (dilated (nth a.kernelSize i) (nth a.dilation i) - nth a.strides i) / 2) ∧
      (l.call x).2 = .ok y ∧
      y.shape = sigShape .channelsFirst B ((List.range a.group.dim).map fun i => nth m i * nth a.strides i + match opt with
          | .valid | .validEquiv => dilated (nth a.kernelSize i) (nth a.dilation i) - nth a.strides i
          | .same | .sameEquiv => 0) (some a.group.group.order) a.filters ∧
      ∀ (b : Nat) (q : List Nat) (i o : Nat), Valid y.shape (b :: o :: q ++ [i]) →
        let at' := fun k c r => ((indices m).map fun p =>
          if Hits (List.replicate a.group.dim 0) a.strides a.dilation crop p k q then x.get (b :: c :: p ++ r) else 0).sum
        (g = none → y.get (b :: o :: q ++ [i]) = a.activation (
          ((indices a.kernelSize).map fun k => ((List.range C).map fun c =>
            at' k c [] * w.get (k ++ [i * a.filters + o, c])).sum).sum + if a.useBias then b0 [o] else 0)) ∧
        (∀ g', g = some g' → g' = H.length ∧ y.get (b :: o :: q ++ [i]) = a.activation (
          ((indices a.kernelSize).map fun k => ((List.range g').map fun j => ((List.range C).map fun c =>
            at' k c [j] * w.get (k ++ [i * a.filters + o, j * C + c])).sum).sum).sum + if a.useBias then b0 [o] else 0)) := by
  obtain ⟨opt', kp, hopt', hkp, f, hst⟩ := hl.facts_first hf
  rw [hopt] at hopt'
  cases hopt'
  have hagree := padding_agree hopt hkp
  have hmx := toLast_moved x hx
  have hA' : actingOf a.group true H = List.range a.group.group.order := rfl
  have hD' : domainOf a.group true H = H := rfl
  rw [hA', hD'] at f
  obtain ⟨y, ey, hys, hyg⟩ := convT_call_first f hf (unpadded_state hst hu) hmx hm
  obtain ⟨w, ew, hw, hwg⟩ := f.transformed
  simp only [if_true] at hw hwg
  rw [grow_none hm] at hys hyg
  rw [befores_none] at hyg
  generalize toLast x (sigShape .channelsLast B m g C) = x1 at hmx hyg
  refine ⟨upCrop kp a.strides a.dilation a.kernelSize m, _, w, y, f.kernel, ew, ?_, by rw [ey], ?_, ?_⟩
  · intro i hi
    rw [upCrop, nth_map_range, if_pos (by rw [f.stridesLen]; exact hi), hagree]
    cases opt <;> rfl
  · rw [hys]
    simp only [sigShape, upSizes, f.stridesLen, List.length_range]
    refine congrArg (B :: a.filters :: · ++ _) ?_
    apply List.map_congr_left
    intro i hi
    rw [hagree]
    cases opt <;> rfl
  · intro b q i o hv
    intro at'
    rw [hys] at hv
    simp only [List.cons_append, Valid] at hv
    obtain ⟨hb, ho, hqi⟩ := hv
    obtain ⟨q', r, e, hq, hr⟩ := valid_append_split hqi
    match r, hr with
    | [i'], hr =>
      obtain ⟨rfl, e2⟩ := List.append_inj' e rfl
      cases e2
      have hi := hr.1
      have key := hyg b q i o hb hq hi ho
      have hat : ∀ (k : List Nat) (c : Nat) (r : List Nat), Valid g.toList r → c < C →
          spread (List.replicate a.group.dim 0) a.strides a.dilation (upCrop kp a.strides a.dilation a.kernelSize m) x1 m b q k
            (r ++ [c]) = at' k c r := by
        intro k c r hr hc
        show ((indices m).map fun p => if Hits _ _ _ _ p k q then x1.get (b :: p ++ (r ++ [c])) else 0).sum = _
        apply sum_congr
        intro p hp
        rw [mem_indices] at hp
        have := hmx.get b (p ++ r) c hb ((valid_append _ _ _ _ hp.length).2 ⟨hp, hr⟩) hc
        rw [List.cons_append, List.cons_append] 
        rw [List.cons_append, List.append_assoc] at this
        rw [List.cons_append, this]
      constructor
      · rintro rfl
        rw [key]
        refine congrArg a.activation (congrArg (· + _) ?_)
        apply sum_congr
        intro k hk
        rw [mem_indices] at hk
        apply sum_congr
        intro c hc
        rw [List.mem_range] at hc
        rw [hwg k c i o hk hc hi ho, ← hat k c [] trivial hc]
        rfl
      · rintro g' rfl
        have hg' := f.size g' rfl
        refine ⟨hg', ?_⟩
        rw [key]
        refine congrArg a.activation (congrArg (· + _) ?_)
        apply sum_congr
        intro k hk
        rw [mem_indices] at hk
        rw [show chanO (some g') C = g' * C from rfl, sum_range_mul]
        apply sum_congr
        intro j hj
        apply sum_congr
        intro c hc
        rw [List.mem_range] at hj hc
        rw [hwg k (j * C + c) i o hk (mul_add_lt hj hc) hi ho, ← hat k c [j] ⟨hj, trivial⟩ hc]
        simp only [restIdx, div_of hc, mod_of hc]
        rfl

/-! ### hypotheses are met -/

set_option maxRecDepth 8000 in
/-- a channels_first convolution layer in a stack -/
example : ∃ l', BuiltConv strideConvFirst false none [5, 5] none 3 (fun _ => 1) (fun _ => 0) [0, 2] l' ∧
    EquivariantLayer .P4 .channelsFirst (some "P2") 2 ⟨[5, 5], none, 3, none⟩ ⟨[2, 2], some 2, 2, some "P2"⟩
      (fun x => (l'.call x).2) := by
  obtain ⟨l, hl, hu⟩ : ∃ l, BuiltConv strideConv false none [5, 5] none 3 (fun _ => 1) (fun _ => 0) [0, 2] l ∧
    Unpadded l.transforms := ⟨_, ⟨⟨_, rfl, rfl⟩, rfl, rfl⟩, rfl⟩
  obtain ⟨l', hl', hu', y0, hy0, hys0⟩ : ∃ l', BuiltConv strideConvFirst false none [5, 5] none 3 (fun _ => 1) (fun _ => 0) [0, 2] l' ∧
    Unpadded l'.transforms ∧ ∃ y0, (l'.call ⟨sigShape .channelsFirst 1 [5, 5] none 3, fun _ => 1⟩).2 = .ok y0 ∧
      y0.shape = sigShape .channelsFirst 1 [2, 2] (some 2) 2 := ⟨_, ⟨⟨_, rfl, rfl⟩, rfl, rfl⟩, rfl, _, rfl, rfl⟩
  refine ⟨l', hl', C37_channels_first_convolution (n := .P4) (a := strideConv) (P := List.range 4) (A := [0, 2]) rfl rfl hl hl' hu hu' rfl
    ⟨rfl, rfl⟩ ⟨rfl, rfl⟩ ?_ ⟨sigShape .channelsFirst 1 [5, 5] none 3, fun _ => 1⟩ y0 1 rfl hy0 hys0 ⟨rfl, rfl⟩ ⟨rfl, rfl⟩ rfl
    (some "P2") rfl (by decide)⟩
  intro opt _ i hi
  have hi : i < 2 := hi
  have : i = 0 ∨ i = 1 := by omega
  rcases this with rfl | rfl <;> exact Or.inl rfl

set_option maxRecDepth 8000 in
/-- a channels_first pooling layer in a stack -/
example : ∃ l', BuiltPool stridePoolFirst none [4, 4] 4 1 [0, 2] l' ∧
    EquivariantLayer (α := ℚ) .P2MM .channelsFirst (some "PMh") 2 ⟨[4, 4], some 4, 1, some "P2MM"⟩ ⟨[2, 2], some 2, 1, some "PMh"⟩
      (fun x => l'.call x) := by
  obtain ⟨l, hl, hu⟩ : ∃ l, BuiltPool stridePool none [4, 4] 4 1 [0, 2] l ∧ Unpadded l.transforms := ⟨_, ⟨⟨_, rfl, rfl⟩, rfl, rfl⟩, rfl⟩
  obtain ⟨l', hl', hu', y0, hy0, hys0⟩ : ∃ l', BuiltPool stridePoolFirst none [4, 4] 4 1 [0, 2] l' ∧ Unpadded l'.transforms ∧
    ∃ y0 : Tensor ℚ, l'.call ⟨sigShape .channelsFirst 1 [4, 4] (some 4) 1, fun _ => 1⟩ = .ok y0 ∧
      y0.shape = sigShape .channelsFirst 1 [2, 2] (some 2) 1 := ⟨_, ⟨⟨_, rfl, rfl⟩, rfl, rfl⟩, rfl, _, rfl, rfl⟩
  refine ⟨l', hl', C37_channels_first_pooling (n := .P2MM) (a := stridePool) (P := List.range 4) (A := [0, 2]) rfl rfl hl hl' hu hu' rfl
    .valid rfl ⟨rfl, trivial⟩ ⟨rfl, trivial⟩ ?_ ⟨sigShape .channelsFirst 1 [4, 4] (some 4) 1, fun _ => 1⟩ y0 1 rfl hy0 hys0
    ⟨rfl, trivial⟩ ⟨rfl, trivial⟩ rfl (some "PMh") rfl (by decide)⟩
  intro i hi
  have hi : i < 2 := hi
  have : i = 0 ∨ i = 1 := by omega
  rcases this with rfl | rfl <;> exact fun h => absurd h (by decide)

set_option maxRecDepth 8000 in
/-- a transposed channels_first layer in a stack -/
example : ∃ l', BuiltConv exampleTransposeFirst true none [4, 4] none 2 (fun _ => 1) (fun _ => 0) [0, 2] l' ∧
    EquivariantLayer .P4 .channelsFirst (some "P2") 2 ⟨[4, 4], none, 2, none⟩ ⟨[8, 8], some 4, 2, some "P4"⟩
      (fun x => (l'.call x).2) := by
  obtain ⟨l, hl, hu⟩ : ∃ l, BuiltConv exampleTranspose true none [4, 4] none 2 (fun _ => 1) (fun _ => 0) [0, 2] l ∧
    Unpadded l.transforms := ⟨_, ⟨⟨_, rfl, rfl⟩, rfl, rfl⟩, rfl⟩
  obtain ⟨l', hl', hu', y0, hy0, hys0⟩ : ∃ l', BuiltConv exampleTransposeFirst true none [4, 4] none 2 (fun _ => 1) (fun _ => 0) [0, 2] l' ∧
    Unpadded l'.transforms ∧ ∃ y0, (l'.call ⟨sigShape .channelsFirst 1 [4, 4] none 2, fun _ => 1⟩).2 = .ok y0 ∧
      y0.shape = sigShape .channelsFirst 1 [8, 8] (some 4) 2 := ⟨_, ⟨⟨_, rfl, rfl⟩, rfl, rfl⟩, rfl, _, rfl, rfl⟩
  refine ⟨l', hl', C37_channels_first_transposed (n := .P4) (a := exampleTranspose) (P := List.range 4) (A := [0, 2]) rfl rfl hl hl' hu hu'
    rfl ⟨rfl, rfl⟩ ⟨rfl, rfl⟩ ?_ ⟨sigShape .channelsFirst 1 [4, 4] none 2, fun _ => 1⟩ y0 1 rfl hy0 hys0 ⟨rfl, rfl⟩ ⟨rfl, rfl⟩ rfl
    (some "P2") rfl (by decide)⟩
  intro opt ho i hi
  have : opt = .valid := by cases (show Except.ok opt = Except.ok PadOption.valid from ho.symm.trans (by decide)); rfl
  subst this
  have hi : i < 2 := hi
  have : i = 0 ∨ i = 1 := by omega
  rcases this with rfl | rfl <;> exact ⟨by decide, Or.inl rfl, Or.inl rfl⟩

set_option maxRecDepth 8000 in
/-- hypotheses of C57_channels_first, C41_channels_first and C46_channels_first_transposed are met -/
example : (∃ l, BuiltConv { strideConvFirst with subgroup := some GroupName.P2.group.name } false none [5, 5] none 3 (fun _ => 1)
      (fun _ => 0) [0, 2] l ∧ Unpadded l.transforms) ∧
    (∃ l, BuiltConv { strideConvFirst with group := .P2, subgroup := some "" } false none [5, 5] none 3 (fun _ => 1)
      (fun _ => 0) [0, 1] l ∧ Unpadded l.transforms) ∧
    (∃ l, BuiltConv { exampleTransposeFirst with allowNonEquivariance := true } true none [9, 9] none 1 (fun _ => 1) (fun _ => 0) [0, 2] l ∧
      Unpadded l.transforms) ∧
    TranslatedFirst 2 [2, -2] (pixelFirst 2 4) (pixelFirst 4 2) := by
  refine ⟨⟨_, ⟨⟨_, rfl, rfl⟩, rfl, rfl⟩, rfl⟩, ⟨_, ⟨⟨_, rfl, rfl⟩, rfl, rfl⟩, rfl⟩, ⟨_, ⟨⟨_, rfl, rfl⟩, rfl, rfl⟩, rfl⟩,
    translated_first (pixel_moved 2 4) (pixel_moved 4 2) ?_⟩
  intro b q r hq
  match q, hq with
  | [q0, q1], _ =>
    show read0 _ ((b : Int) :: (q0 + 2) :: (q1 + -2) :: r) = read0 _ ((b : Int) :: q0 :: q1 :: r)
    rw [read0_pixel (by decide) (by decide), read0_pixel (by decide) (by decide)]
    congr 1
    apply propext
    constructor <;> rintro ⟨h1, h2, h3, h4⟩ <;> refine ⟨h1, ?_, ?_, h4⟩ <;> push_cast at * <;> omega

end GroCo
