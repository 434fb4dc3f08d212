import Verif.BuildLemmas

/-
Helper lemmas: what a call of a built convolution layer computes.
-/

namespace GroCo
open Tensor

variable {α : Type}

/-- A built padding layer pads nothing, or every spatial axis of a channels_last signal. -/
def PadState.OnGrid (st : PadState) (d : Nat) : Prop :=
  st = ⟨false, []⟩ ∨ ∃ es : List Int, es.length = d ∧ st = ⟨true, splitPadding true es⟩

theorem EquivariantPadding.build_onGrid {p : EquivariantPadding} {shape : List (Option Nat)} {st : PadState} {d : Nat}
    (hl : p.channelsLast = true) (hk : p.kernelSizes.length = d) (h : p.build shape = .ok st) : st.OnGrid d := by
  unfold EquivariantPadding.build at h
  split at h
  · left; cases h; rfl
  · obtain ⟨sp, hsp, h⟩ := bind_eq_ok h
    split at h
    · exact absurd h (by simp)
    · rename_i hlen
      simp only [not_or, not_not] at hlen
      simp only at h
      split at h
      · left; cases h; rfl
      · split at h
        · exact absurd h (by simp)
        · split at h
          · exact absurd h (by simp)
          · right
            rw [hl] at h
            cases h
            exact ⟨_, by simp; omega, rfl⟩

/-- shape of the stored kernel -/
def kShape (a : ConvArgs α) (tr : Bool) (g : Option Nat) (C : Nat) : List Nat :=
  a.kernelSize ++ (if tr then [a.filters, chanO g C] else [chanO g C, a.filters])

/-- The weight used for element `e`, offset `k`, merged channel `c`, filter `o`. -/
def weightOf (a : ConvArgs α) (tr : Bool) (g : Option Nat) (C : Nat) (k0 : List Nat → α) (D : List Nat) (e : Nat)
    (k : List Nat) (c o : Nat) : α :=
  k0 (unravel (kShape a tr g C) (wIdx a.group.group.toGroupData a.group.els g.isSome D a.kernelSize C a.filters e k c o))

/-- Attributes of a built layer, except the channels it accepts. -/
structure ConvCore (a : ConvArgs α) (tr : Bool) (g : Option Nat) (C : Nat) (k0 b0 : List Nat → α)
    (A D : List Nat) (l : GroupConv α) (kp : KerasPadding) : Prop where
  kernelLen : a.kernelSize.length = a.group.dim
  stridesLen : a.strides.length = a.group.dim
  dilationLen : a.dilation.length = a.group.dim
  kernelPos : 0 ∉ a.kernelSize
  stridesPos : 0 ∉ a.strides
  size : ∀ g', g = some g' → g' = D.length
  subA : ∃ s, lookup a.group.group.subgroup s = .ok A
  subD : ∃ s, lookup a.group.group.subgroup s = .ok D
  gv : l.transforms.groupValuedInput = g.isSome
  order : l.transforms.orderOf (some l.transforms.actingGroup) = .ok A.length
  transp : l.transforms.transpose = tr
  fmtT : l.transforms.dataFormat = a.dataFormat
  fmt : l.dataFormat = a.dataFormat
  caxis : l.transforms.channelsAxis = if a.dataFormat = .channelsLast then a.group.dim + 1 + (if g.isSome then 1 else 0) else 1
  gaxis : l.transforms.groupAxis = a.group.dim + 1 + (if a.dataFormat = .channelsFirst then 1 else 0)
  onGrid : l.transforms.padState.OnGrid a.group.dim
  strides : l.strides = a.strides
  dilation : l.dilation = a.dilation
  padding : l.padding = kp
  filters : l.filters = a.filters
  act : l.activation = a.activation
  grid : a.group.Grid a.kernelSize
  kernel : l.kernel = some ⟨kShape a tr g C, k0⟩
  transformed : ∃ w, l.transforms.transformKernel (⟨kShape a tr g C, k0⟩ : Tensor α) = .ok w ∧
    w.shape = a.kernelSize ++ (if tr then [A.length * a.filters, chanO g C] else [chanO g C, A.length * a.filters]) ∧
    ∀ k c i o, Valid a.kernelSize k → c < chanO g C → i < A.length → o < a.filters →
      w.get (k ++ (if tr then [i * a.filters + o, c] else [c, i * a.filters + o])) =
        weightOf a tr g C k0 D (nth A i) k c o
  bias : if a.useBias then l.bias = some ⟨[a.filters], b0⟩ ∧ ∃ w, l.transforms.repeatBias (⟨[a.filters], b0⟩ : Tensor α) =
      .ok w ∧ w.shape = [A.length * a.filters] ∧ ∀ i o, i < A.length → o < a.filters → w.get [i * a.filters + o] = b0 [o]
    else l.bias = none

/-- Attributes of a built layer. -/
structure ConvFacts (a : ConvArgs α) (tr : Bool) (g : Option Nat) (C : Nat) (k0 b0 : List Nat → α)
    (A D : List Nat) (l : GroupConv α) (kp : KerasPadding) : Prop extends ConvCore a tr g C k0 b0 A D l kp where
  spec : l.inputSpec = some (a.group.dim + 2, some C)

/-- the elements acting on the kernel -/
def actingOf (G : GroupName) (tr : Bool) (H : List Nat) : List Nat := if tr then List.range G.group.order else H
/-- the elements a group-valued input is defined on -/
def domainOf (G : GroupName) (tr : Bool) (H : List Nat) : List Nat := if tr then H else List.range G.group.order

theorem parse_sub {G : GroupData} {s : Option String} {H : List Nat} (h : G.sub (G.parseSubgroup s) = .ok H) :
    ∃ s', G.parseSubgroup s = some s' ∧ lookup G.subgroup s' = .ok H := by
  cases hp : G.parseSubgroup s with
  | none => rw [hp] at h; exact absurd h (by simp [GroupData.sub])
  | some s' => rw [hp] at h; exact ⟨s', rfl, h⟩

theorem buildConv_inv {t t2 : GroupTransforms} {kernel : Tensor α} {bias : Option (Tensor α)}
    (h : t.buildConv kernel bias = .ok t2) :
    ∃ J I, (∀ b, bias = some b → ∃ J', t.computeRepeatedBiasIndices b = .ok J' ∧ J = some J') ∧
      t.computeTransformedKernelIndices kernel = .ok I ∧
      t2 = { t with repeatedBiasIndices := J, transformedKernelIndices := some I } := by
  unfold GroupTransforms.buildConv at h
  cases bias with
  | none =>
    obtain ⟨J, hJ, h⟩ := bind_eq_ok h
    obtain ⟨I, hI, h⟩ := bind_eq_ok h
    exact ⟨J, I, by simp, hI, by cases h; rfl⟩
  | some b =>
    obtain ⟨J, hJ, h⟩ := bind_eq_ok h
    obtain ⟨I, hI, h⟩ := bind_eq_ok h
    refine ⟨J, I, ?_, hI, by cases h; rfl⟩
    intro b' hb'
    cases hb'
    cases hc : t.computeRepeatedBiasIndices b with
    | error e => rw [hc] at hJ; exact absurd hJ (by simp [Except.map])
    | ok J' => rw [hc] at hJ; exact ⟨J', rfl, by cases hJ; rfl⟩

/-- what the layer is made of once the transforms have been built -/
theorem conv_build_parts {a : ConvArgs α} {tr : Bool} {g : Option Nat} {C : Nat} {k0 b0 : List Nat → α} {H : List Nat}
    {m : GroupName} {opt : PadOption} {kp : KerasPadding} {l : GroupConv α}
    (hH : lookup a.group.group.subgroup m.group.name = .ok H)
    (e5 : a.kernelSize.length = a.group.dim) (e6 : a.strides.length = a.group.dim) (e7 : a.dilation.length = a.group.dim)
    (e8 : 0 ∉ a.kernelSize) (e9 : 0 ∉ a.strides)
    {t t2 : GroupTransforms} {spec : Option (Nat × Option Nat)} {reshaped : List (Option Nat)} {st : PadState}
    (hst : (initTransforms a.toGroupArgs m opt a.group.dim tr).equivariantPadding.build reshaped = .ok st)
    (hord : ∀ g', g = some g' → (initTransforms a.toGroupArgs m opt a.group.dim tr).orderOf
      (initTransforms a.toGroupArgs m opt a.group.dim tr).domainGroup = .ok g')
    (ht : t = { initTransforms a.toGroupArgs m opt a.group.dim tr with
        groupValuedInput := g.isSome
        domainGroup := if g.isSome then (initTransforms a.toGroupArgs m opt a.group.dim tr).domainGroup else none
        channelsAxis := if a.dataFormat = .channelsLast then a.group.dim + 1 + (if g.isSome then 1 else 0) else 1
        reshapedInput := reshaped
        padState := st })
    (ht2 : t.buildConv (⟨kShape a tr g C, k0⟩ : Tensor α) (if a.useBias then some ⟨[a.filters], b0⟩ else none) = .ok t2)
    (hl : l = { transforms := t2
                kernelSize := a.kernelSize
                strides := a.strides
                dilation := a.dilation
                padding := kp
                dataFormat := a.dataFormat
                useBias := a.useBias
                activation := a.activation
                filters := a.filters
                kernel := some ⟨kShape a tr g C, k0⟩
                bias := if a.useBias then some ⟨[a.filters], b0⟩ else none
                inputSpec := spec }) :
    ConvCore a tr g C k0 b0 (actingOf a.group tr H) (domainOf a.group tr H) l kp ∧ l.transforms.padState = st := by
  have S := a.group.sym
  have hown := S.tab.own
  have htr : t.transpose = tr := by rw [ht]; rfl
  have hgood : t.Good a.group (actingOf a.group tr H) (domainOf a.group tr H) := by
    rw [ht]
    refine ⟨rfl, rfl, ?_, ?_⟩
    · cases tr
      · exact hH
      · exact hown
    · cases g with
      | none => left; exact ⟨rfl, rfl⟩
      | some g =>
        right
        refine ⟨rfl, _, rfl, ?_⟩
        cases tr
        · exact hown
        · exact hH
  have hgv : t.groupValuedInput = g.isSome := by rw [ht]
  have hsize : ∀ g', g = some g' → g' = (domainOf a.group tr H).length := by
    intro g' hg'
    have := hord g' hg'
    unfold GroupTransforms.orderOf at this
    obtain ⟨D, hD, this⟩ := bind_eq_ok this
    cases this
    have hD' : a.group.group.sub (some (if tr then m.group.name else a.group.group.name)) = .ok D := hD
    cases tr
    · simp only [GroupData.sub, Bool.false_eq_true, if_false, hown] at hD'
      cases hD'; rfl
    · simp only [GroupData.sub, if_true, hH] at hD'
      cases hD'; rfl
  have hchan : chan g.isSome (domainOf a.group tr H) C = chanO g C := by
    cases g with
    | none => rfl
    | some g => simp [chan, chanO, ← hsize g rfl]
  obtain ⟨J, I, hJ, hI, rfl⟩ := buildConv_inv ht2
  subst hl
  have hkern : (a.group.Grid a.kernelSize) ∧ ∃ w, ({ t with repeatedBiasIndices := J, transformedKernelIndices := some I } :
      GroupTransforms).transformKernel (⟨kShape a tr g C, k0⟩ : Tensor α) = .ok w ∧
      w.shape = a.kernelSize ++ (if tr then [(actingOf a.group tr H).length * a.filters, chanO g C] else
        [chanO g C, (actingOf a.group tr H).length * a.filters]) ∧
      ∀ k c i o, Valid a.kernelSize k → c < chanO g C → i < (actingOf a.group tr H).length → o < a.filters →
        w.get (k ++ (if tr then [i * a.filters + o, c] else [c, i * a.filters + o])) =
          weightOf a tr g C k0 (domainOf a.group tr H) (nth (actingOf a.group tr H) i) k c o := by
    cases tr
    · have := transformKernel_direct (α := α) hgood htr e5 (by rw [hgv, hchan]; rfl) hI
        (u := { t with repeatedBiasIndices := J, transformedKernelIndices := some I }) rfl
      rw [hgv, hchan] at this
      exact this
    · have := transformKernel_transpose (α := α) hgood htr e5 (by rw [hgv, hchan]; rfl) hI
        (u := { t with repeatedBiasIndices := J, transformedKernelIndices := some I }) rfl
      rw [hgv, hchan] at this
      exact this
  refine ⟨⟨e5, e6, e7, e8, e9, hsize, ⟨_, hgood.acting⟩, ?_, hgv, hgood.orderA, htr, by rw [ht]; rfl, rfl, by rw [ht],
    by rw [ht]; rfl, ?_, rfl, rfl, rfl, rfl, rfl, hkern.1, rfl, hkern.2, ?_⟩, by rw [ht]⟩
  · cases tr
    · exact ⟨_, hown⟩
    · exact ⟨_, hH⟩
  · have := EquivariantPadding.build_onGrid (d := a.group.dim) rfl e5 hst
    rw [ht]; exact this
  · cases hb : a.useBias
    · rw [if_neg (by simp)]; simp
    · rw [if_pos rfl]
      simp only [if_true]
      refine ⟨trivial, ?_⟩
      simp only [hb, if_true] at hJ
      obtain ⟨J', hJ', hJ''⟩ := repeatBias_ok hgood (bias := (⟨[a.filters], b0⟩ : Tensor α)) rfl
      obtain ⟨J2, h2, rfl⟩ := hJ _ rfl
      rw [hJ'] at h2
      cases h2
      exact hJ'' _ rfl

/-- the part of `build` after the transforms have been built -/
theorem conv_build_core {a : ConvArgs α} {tr : Bool} {g : Option Nat} {C : Nat} {k0 b0 : List Nat → α} {H : List Nat}
    {m : GroupName} {opt : PadOption} {kp : KerasPadding} {shape : List (Option Nat)} {l : GroupConv α}
    (hH : lookup a.group.group.subgroup m.group.name = .ok H)
    (e5 : a.kernelSize.length = a.group.dim) (e6 : a.strides.length = a.group.dim) (e7 : a.dilation.length = a.group.dim)
    (e8 : 0 ∉ a.kernelSize) (e9 : 0 ∉ a.strides)
    {t : GroupTransforms} {reshaped : List (Option Nat)} {st : PadState}
    (hst : (initTransforms a.toGroupArgs m opt a.group.dim tr).equivariantPadding.build reshaped = .ok st)
    (hord : ∀ g', g = some g' → (initTransforms a.toGroupArgs m opt a.group.dim tr).orderOf
      (initTransforms a.toGroupArgs m opt a.group.dim tr).domainGroup = .ok g')
    (ht : t = { initTransforms a.toGroupArgs m opt a.group.dim tr with
        groupValuedInput := g.isSome
        domainGroup := if g.isSome then (initTransforms a.toGroupArgs m opt a.group.dim tr).domainGroup else none
        channelsAxis := if a.dataFormat = .channelsLast then a.group.dim + 1 + (if g.isSome then 1 else 0) else 1
        reshapedInput := reshaped
        padState := st })
    (hch : channelsOf a.dataFormat reshaped = .ok (chanO g C))
    (hsp : ∀ g', g = some g' → shape.getD t.channelsAxis none = some C)
    (h1 : (do
      let l : GroupConv α := { transforms := t
                               kernelSize := a.kernelSize
                               strides := a.strides
                               dilation := a.dilation
                               padding := kp
                               dataFormat := a.dataFormat
                               useBias := a.useBias
                               activation := a.activation
                               filters := a.filters }
      let channels ← channelsOf l.dataFormat t.reshapedInput
      let _ ← l.computeOutputShape t.reshapedInput
      let kernel : Tensor α :=
        ⟨l.kernelSize ++ (if t.transpose then [l.filters, channels] else [channels, l.filters]), k0⟩
      let bias : Option (Tensor α) := if l.useBias then some ⟨[l.filters], b0⟩ else none
      let t ← t.buildConv kernel bias
      let spec := if t.groupValuedInput then shape.getD t.channelsAxis none else some channels
      return { l with
        transforms := t
        kernel := some kernel
        bias := bias
        inputSpec := some (t.dimensions + 2, spec) }) = Except.ok (ε := Err) l) :
    ConvFacts a tr g C k0 b0 (actingOf a.group tr H) (domainOf a.group tr H) l kp ∧ l.transforms.padState = st := by
  have htr : t.transpose = tr := by rw [ht]; rfl
  have hre : t.reshapedInput = reshaped := by rw [ht]
  have hgv : t.groupValuedInput = g.isSome := by rw [ht]
  have hd : t.dimensions = a.group.dim := by rw [ht]; rfl
  simp only [hre, hch, res_bind_ok, htr] at h1
  obtain ⟨os, hos, h1⟩ := bind_eq_ok h1
  obtain ⟨t2, ht2, h1⟩ := bind_eq_ok h1
  have key := fun spec => conv_build_parts (C := C) (k0 := k0) (b0 := b0) (kp := kp) (spec := spec) hH e5 e6 e7 e8 e9 hst
    hord ht ht2 rfl
  obtain ⟨J, I, hJ, hI, rfl⟩ := buildConv_inv ht2
  cases h1
  refine ⟨⟨(key _).1, ?_⟩, (key _).2⟩
  cases g with
  | none => simp [hgv, hd, chanO]
  | some g => simp only [hgv, hd, hsp g rfl]; simp

theorem BuiltConv.facts_last {a : ConvArgs α} {tr : Bool} {b : Option Nat} {n : List Nat} {g : Option Nat} {C : Nat}
    {k0 b0 : List Nat → α} {H : List Nat} {l : GroupConv α} (hl : BuiltConv a tr b n g C k0 b0 H l)
    (hf : a.dataFormat = .channelsLast) :
    ∃ opt kp, formatPaddingOption a.padding = .ok opt ∧ standardizePadding (builtInPaddingOption a.padding) = .ok kp ∧
      ConvFacts a tr g C k0 b0 (actingOf a.group tr H) (domainOf a.group tr H) l kp ∧
      EquivariantPadding.build ⟨opt, a.allowNonEquivariance, a.group.dim, a.strides, a.kernelSize, true, tr⟩
        (signalShape true b (some (chanO g C)) n) = .ok l.transforms.padState := by
  obtain ⟨l0, h0, h1⟩ := hl.built
  obtain ⟨s', hs', hH⟩ := parse_sub hl.elements
  obtain ⟨s, m, opt, kp, e1, e2, e3, e4, e5, e6, e7, e8, e9, rfl⟩ := conv_init_inv h0
  rw [e1] at hs'
  cases hs'
  have hm := groupDict_name e2
  rw [← hm] at hH
  unfold GroupConv.build at h1
  rw [hf] at h1
  obtain ⟨t, ht, h1⟩ := bind_eq_ok h1
  obtain ⟨st, hst, hord, ht⟩ := transforms_build_last (a := a.toGroupArgs) hf hl.dims ht
  have hca : t.channelsAxis = a.group.dim + 1 + (if g.isSome then 1 else 0) := by rw [ht]
  obtain ⟨h2, h3⟩ := conv_build_core (C := C) (t := t) (shape := inputShape .channelsLast b n g C) hH e5 e6 e7 e8 e9 hst hord (by rw [ht, hf]; simp) (by
    rw [hf]
    unfold channelsOf channelAxis signalShape
    simp)
    (by intro g' hg'
        rw [hca, hg']
        unfold inputShape
        simp [← hl.dims])
    (by rw [hf]; exact h1)
  refine ⟨opt, kp, e3, e4, h2, ?_⟩
  rw [h3]
  exact hst

theorem BuiltConv.facts_first {a : ConvArgs α} {tr : Bool} {b : Option Nat} {n : List Nat} {g : Option Nat} {C : Nat}
    {k0 b0 : List Nat → α} {H : List Nat} {l : GroupConv α} (hl : BuiltConv a tr b n g C k0 b0 H l)
    (hf : a.dataFormat = .channelsFirst) :
    ∃ opt kp, formatPaddingOption a.padding = .ok opt ∧ standardizePadding (builtInPaddingOption a.padding) = .ok kp ∧
      ConvFacts a tr g C k0 b0 (actingOf a.group tr H) (domainOf a.group tr H) l kp ∧
      EquivariantPadding.build ⟨opt, a.allowNonEquivariance, a.group.dim, a.strides, a.kernelSize, true, tr⟩
        (signalShape false b (some (chanO g C)) n) = .ok l.transforms.padState := by
  obtain ⟨l0, h0, h1⟩ := hl.built
  obtain ⟨s', hs', hH⟩ := parse_sub hl.elements
  obtain ⟨s, m, opt, kp, e1, e2, e3, e4, e5, e6, e7, e8, e9, rfl⟩ := conv_init_inv h0
  rw [e1] at hs'
  cases hs'
  have hm := groupDict_name e2
  rw [← hm] at hH
  unfold GroupConv.build at h1
  rw [hf] at h1
  obtain ⟨t, ht, h1⟩ := bind_eq_ok h1
  obtain ⟨st, hst, hord, ht⟩ := transforms_build_first (a := a.toGroupArgs) hf hl.dims ht
  have hca : t.channelsAxis = 1 := by rw [ht]
  obtain ⟨h2, h3⟩ := conv_build_core (C := C) (t := t) (shape := inputShape .channelsFirst b n g C) hH e5 e6 e7 e8 e9 hst hord
    (by rw [ht, hf]; simp) (by
    rw [hf]
    unfold channelsOf channelAxis signalShape
    simp)
    (by intro g' hg'
        rw [hca, hg']
        unfold inputShape
        simp)
    (by rw [hf]; exact h1)
  refine ⟨opt, kp, e3, e4, h2, ?_⟩
  rw [h3]
  exact hst

theorem BuiltConv.facts {a : ConvArgs α} {tr : Bool} {b : Option Nat} {n : List Nat} {g : Option Nat} {C : Nat}
    {k0 b0 : List Nat → α} {H : List Nat} {l : GroupConv α} (hl : BuiltConv a tr b n g C k0 b0 H l) :
    ∃ kp, ConvFacts a tr g C k0 b0 (actingOf a.group tr H) (domainOf a.group tr H) l kp := by
  cases hf : a.dataFormat
  · obtain ⟨_, kp, _, _, h, _⟩ := hl.facts_first hf
    exact ⟨kp, h⟩
  · obtain ⟨_, kp, _, _, h, _⟩ := hl.facts_last hf
    exact ⟨kp, h⟩

/-! ### merging and padding the input, channels_last -/

/-- zeros the padding layer adds to each spatial axis of a channels_last signal -/
def epads (st : PadState) (d : Nat) : List (Nat × Nat) :=
  (List.range d).map fun i => ((st.pads.getD (i + 1) (0, 0)).1.toNat, (st.pads.getD (i + 1) (0, 0)).2.toNat)

theorem length_epads (st : PadState) (d : Nat) : (epads st d).length = d := by simp [epads]

/-- indices of the merged channel `c` after the spatial part -/
def restIdx (g : Option Nat) (C c : Nat) : List Nat :=
  match g with
  | none => [c]
  | some _ => [c / C, c % C]

theorem grow_zeros {n : List Nat} {ps : List (Nat × Nat)} (hl : ps.length = n.length) (hz : ∀ p ∈ ps, p = (0, 0)) :
    grow n ps = n := by
  apply ext_nth
  · exact length_grow hl
  · intro i hi
    rw [length_grow hl] at hi
    rw [nth_grow hi hl]
    have : ps.getD i (0, 0) = (0, 0) := by
      simp only [List.getD_eq_getElem?_getD, List.getElem?_eq_getElem (show i < ps.length by omega), Option.getD_some]
      exact hz _ (List.getElem_mem _)
    rw [this]; simp

theorem shiftBack_zeros {q : List Int} {ps : List (Nat × Nat)} (hl : ps.length = q.length) (hz : ∀ p ∈ ps, p = (0, 0)) :
    shiftBack q ps = q := by
  apply List.ext_getElem
  · simp [shiftBack, hl]
  · intro i h1 h2
    have : ps[i] = (0, 0) := hz _ (List.getElem_mem _)
    simp [shiftBack, this]

theorem padState_call [Zero α] {st : PadState} {d : Nat} (h : st.OnGrid d) (x : Tensor α) {B : Nat} {n : List Nat} {C : Nat}
    (hx : x.shape = B :: n ++ [C]) (hn : n.length = d) :
    ∃ y, st.call x = .ok y ∧ y.shape = B :: grow n (epads st d) ++ [C] ∧
      ∀ b q c, b < B → q.length = d → c < C →
        readAt y (grow n (epads st d)) b q [c] = readAt x n b (shiftBack q (epads st d)) [c] := by
  rcases h with rfl | ⟨es, hes, rfl⟩
  · have hz : ∀ p ∈ epads ⟨false, []⟩ d, p = (0, 0) := by
      intro p hp
      simp only [epads, List.mem_map] at hp
      obtain ⟨i, _, rfl⟩ := hp
      simp
    refine ⟨x, rfl, ?_, ?_⟩
    · rw [grow_zeros (by rw [length_epads, hn]) hz, hx]
    · intro b q c _ hq _
      rw [grow_zeros (by rw [length_epads, hn]) hz, shiftBack_zeros (by rw [length_epads, hq]) hz]
  · obtain ⟨y, e, hs, hg⟩ := pad_sig x (ps := epads ⟨true, splitPadding true es⟩ d) hx (by rw [length_epads, hn])
    refine ⟨y, ?_, hs, ?_⟩
    · rw [← e]
      unfold PadState.call
      rw [if_pos rfl]
      congr 1
      apply List.ext_getElem
      · simp [splitPadding, length_epads, hes]
      · intro i h1 h2
        simp only [splitPadding, if_true, List.length_map, List.length_append, List.length_singleton, hes] at h1
        rcases i with _ | i
        · simp [splitPadding]
        · by_cases hi : i < d
          · simp [splitPadding, epads, hi, hes, List.getElem?_append_left]
          · have : i = d := by omega
            subst this
            simp [splitPadding, length_epads, hes]
    · intro b q c hb hq hc
      exact hg b q [c] hb (by rw [hq, hn]) (by simp [hc])

/-- merging the group axis into the channels -/
theorem merge_last (x : Tensor α) {B : Nat} {n : List Nat} {g C d : Nat} (hx : x.shape = B :: n ++ [g, C])
    (hn : n.length = d) :
    ∃ y, mergeAxes x ((d + 1 : Nat) : Int) ((d + 1 + 1 : Nat) : Int) = .ok y ∧ y.shape = B :: n ++ [g * C] ∧
      ∀ b p c, b < B → Valid n p → c < g * C → y.get (b :: p ++ [c]) = x.get (b :: p ++ [c / C, c % C]) := by
  have hr : x.rank = d + 3 := by simp [Tensor.rank, hx, hn]
  obtain ⟨y, e, hs, hg⟩ := mergeAxes_ok x (am := ((d + 1 : Nat) : Int)) (at' := ((d + 1 + 1 : Nat) : Int)) (m := d + 1) (t := d + 1 + 1)
    (normAxis_nat (by omega)) (normAxis_nat (by omega)) (by left; omega) (by omega)
  have hl : (B :: n).length = d + 1 := by simp [hn]
  have hs' : y.shape = B :: n ++ [g * C] := by
    rw [hs, hx]
    lay hl
    rw [Nat.mul_comm]
  refine ⟨y, e, hs', ?_⟩
  intro b p c hb hp hc
  have hpl : (b :: p).length = d + 1 := by simp [hp.length, hn]
  rw [hg _ (by
    rw [hs']
    exact valid_append (B :: n) [g * C] (b :: p) [c] (by simp [hp.length]) |>.2 ⟨⟨hb, hp⟩, by simp [hc]⟩), hx]
  have e1 : after (d + 1) (d + 1 + 1) = d + 1 := by simp [after]
  rw [e1]
  lay hl
  lay hpl

theorem inBox_toNat {s : List Nat} {q : List Int} (h : InBox s q) : Valid s (q.map Int.toNat) := by
  induction s generalizing q with
  | nil => cases q <;> simp_all [InBox]
  | cons n s ih =>
    cases q with
    | nil => simp [InBox] at h
    | cons i q =>
      obtain ⟨h1, h2⟩ := h
      exact ⟨by omega, ih h2⟩

theorem readAt_congr [Zero α] {x y : Tensor α} {n : List Nat} {b : Nat} {q : List Int} {r r' : List Nat}
    (h : ∀ p, Valid n p → x.get (b :: p ++ r) = y.get (b :: p ++ r')) : readAt x n b q r = readAt y n b q r' := by
  unfold readAt
  by_cases hq : InBox n q
  · rw [if_pos hq, if_pos hq]
    exact h _ (inBox_toNat hq)
  · rw [if_neg hq, if_neg hq]

/-- attributes of built transforms of channels_last signals with `d` dimensions; `m` elements act -/
structure LastFacts (t : GroupTransforms) (d : Nat) (v : Bool) (m : Nat) : Prop where
  gv : t.groupValuedInput = v
  fmtT : t.dataFormat = .channelsLast
  caxis : t.channelsAxis = d + 1 + (if v then 1 else 0)
  gaxis : t.groupAxis = d + 1
  onGrid : t.padState.OnGrid d
  order : t.orderOf (some t.actingGroup) = .ok m
  pos : 0 < m

theorem LastFacts.mergePad [Zero α] {t : GroupTransforms} {d : Nat} {g : Option Nat} {M C : Nat} (f : LastFacts t d g.isSome M)
    (x : Tensor α) {B : Nat} {n : List Nat} (hx : x.shape = sigShape .channelsLast B n g C) (hn : n.length = d) :
    ∃ y, t.mergeGroupAxisAndPad x = .ok y ∧ y.shape = B :: grow n (epads t.padState d) ++ [chanO g C] ∧
      ∀ b q c, b < B → q.length = d → c < chanO g C →
        readAt y (grow n (epads t.padState d)) b q [c] = readAt x n b (shiftBack q (epads t.padState d)) (restIdx g C c) := by
  have hca := f.caxis
  have hga := f.gaxis
  unfold GroupTransforms.mergeGroupAxisAndPad
  rw [f.gv, hca, hga]
  cases g with
  | none =>
    simp only [Option.isSome_none, Bool.false_eq_true, if_false, res_bind_ok]
    exact padState_call f.onGrid x (C := C) (by rw [hx]; rfl) hn
  | some g =>
    simp only [Option.isSome_some, if_true]
    obtain ⟨z, ez, hz, hzg⟩ := merge_last x (g := g) (C := C) (by rw [hx]; rfl) hn
    obtain ⟨y, ey, hy, hyg⟩ := padState_call f.onGrid z hz hn
    refine ⟨y, ?_, hy, ?_⟩
    · have ez' : mergeAxes x ((d + 1 : Nat) : Int) ((d + 1 + 1 : Nat) : Int) = .ok z := ez
      simp only [ez', res_bind_ok, ey]
    · intro b q c hb hq hc
      rw [hyg b q c hb hq hc]
      exact readAt_congr fun p hp => hzg b p c hb hp hc

/-! ### restoring the group axis, channels_last -/

theorem LastFacts.restore {t : GroupTransforms} {d : Nat} {gv : Bool} {M : Nat} (f : LastFacts t d gv M) (y : Tensor α)
    {B F : Nat} {n : List Nat} (hy : y.shape = B :: n ++ [M * F]) (hn : n.length = d) :
    ∃ z, t.restoreGroupAxis y = .ok z ∧ z.shape = B :: n ++ [M, F] ∧
      ∀ b p i o, b < B → Valid n p → i < M → o < F → z.get (b :: p ++ [i, o]) = y.get (b :: p ++ [i * F + o]) := by
  have hr : y.rank = d + 2 := by simp [Tensor.rank, hy, hn]
  have hl : (B :: n).length = d + 1 := by simp [hn]
  obtain ⟨u, e, hs, hg⟩ := splitAxes_ok y (ax := ((d + 1 : Nat) : Int)) (k := d + 1) (left := M) (q := F)
    (normAxis_nat (by omega)) f.pos (by rw [hy]; lay hl)
  have hs' : u.shape = B :: n ++ [M, F] := by
    rw [hs, hy]; lay hl
  have hur : u.rank = d + 3 := by simp [Tensor.rank, hs', hn]
  obtain ⟨z, ez, hz, hzg⟩ := moveaxis_ok u (s := d + 1) (d := d + 1) (by omega) (by omega)
  have hz' : z.shape = B :: n ++ [M, F] := by
    rw [hz, hs']; lay hl
  refine ⟨z, ?_, hz', ?_⟩
  · unfold GroupTransforms.restoreGroupAxis
    have hax : (if t.groupValuedInput = true ∧ t.dataFormat = .channelsLast then
        (t.channelsAxis : Int) - 1 else t.channelsAxis) = ((d + 1 : Nat) : Int) := by
      rw [f.gv, f.fmtT, f.caxis]
      cases gv <;> simp
    simp only [hax, f.order, res_bind_ok, e, f.gaxis, ez]
  · intro b p i o hb hp hi ho
    have hpl : (b :: p).length = d + 1 := by simp [hp.length, hn]
    rw [hzg _ (by simp [hp.length, hn, hur])]
    lay hpl
    rw [hg _ (by
      rw [hs']
      exact valid_append (B :: n) [M, F] (b :: p) [i, o] (by simp [hp.length]) |>.2 ⟨⟨hb, hp⟩, by simp [hi, ho]⟩)]
    lay hpl

theorem ConvCore.last {a : ConvArgs α} {tr : Bool} {g : Option Nat} {C : Nat} {k0 b0 : List Nat → α}
    {A D : List Nat} {l : GroupConv α} {kp : KerasPadding} (f : ConvCore a tr g C k0 b0 A D l kp)
    (hf : a.dataFormat = .channelsLast) : LastFacts l.transforms a.group.dim g.isSome A.length := by
  have hca := f.caxis
  have hga := f.gaxis
  rw [hf] at hca hga
  simp only [if_true, reduceCtorEq, if_false] at hca hga
  obtain ⟨s, hs⟩ := f.subA
  exact ⟨f.gv, f.fmtT.trans hf, hca, hga, f.onGrid, f.order, sub_pos a.group.sym.tab hs⟩

theorem mergePad_last [Zero α] {a : ConvArgs α} {tr : Bool} {g : Option Nat} {C : Nat} {k0 b0 : List Nat → α}
    {A D : List Nat} {l : GroupConv α} {kp : KerasPadding} (f : ConvFacts a tr g C k0 b0 A D l kp)
    (hf : a.dataFormat = .channelsLast) (x : Tensor α) {B : Nat} {n : List Nat} (hx : x.shape = sigShape .channelsLast B n g C)
    (hn : n.length = a.group.dim) :
    ∃ y, l.transforms.mergeGroupAxisAndPad x = .ok y ∧
      y.shape = B :: grow n (epads l.transforms.padState a.group.dim) ++ [chanO g C] ∧
      ∀ b q c, b < B → q.length = a.group.dim → c < chanO g C →
        readAt y (grow n (epads l.transforms.padState a.group.dim)) b q [c] =
          readAt x n b (shiftBack q (epads l.transforms.padState a.group.dim)) (restIdx g C c) :=
  (f.last hf).mergePad x hx hn

theorem restore_last {a : ConvArgs α} {tr : Bool} {g : Option Nat} {C : Nat} {k0 b0 : List Nat → α}
    {A D : List Nat} {l : GroupConv α} {kp : KerasPadding} (f : ConvFacts a tr g C k0 b0 A D l kp)
    (hf : a.dataFormat = .channelsLast) (y : Tensor α) {B F : Nat} {n : List Nat} (hy : y.shape = B :: n ++ [A.length * F])
    (hn : n.length = a.group.dim) :
    ∃ z, l.transforms.restoreGroupAxis y = .ok z ∧ z.shape = B :: n ++ [A.length, F] ∧
      ∀ b p i o, b < B → Valid n p → i < A.length → o < F → z.get (b :: p ++ [i, o]) = y.get (b :: p ++ [i * F + o]) :=
  (f.last hf).restore y hy hn

/-! ### calling -/

theorem call_parts [Semiring α] {a : ConvArgs α} {tr : Bool} {g : Option Nat} {C : Nat} {k0 b0 : List Nat → α}
    {A D : List Nat} {l : GroupConv α} {kp : KerasPadding} (f : ConvCore a tr g C k0 b0 A D l kp) {x y : Tensor α}
    (hc : l.checkInput x = .ok ()) (hy : l.transforms.mergeGroupAxisAndPad x = .ok y) {w : Tensor α}
    (hw : l.transforms.transformKernel (⟨kShape a tr g C, k0⟩ : Tensor α) = .ok w) :
    ∃ b', (if a.useBias then ∃ c, b' = some c ∧ c.shape = [A.length * a.filters] ∧
        ∀ i o, i < A.length → o < a.filters → c.get [i * a.filters + o] = b0 [o] else b' = none) ∧
      l.call x = match (do
          let y ← ({ l with kernel := some w, bias := b', filters := a.filters * A.length } : GroupConv α).superCall y
          l.transforms.restoreGroupAxis y) with
        | .ok z => (l, .ok z)
        | .error e => ({ l with kernel := some w, bias := b', filters := a.filters * A.length }, .error e) := by
  have hb : ∃ b', (if a.useBias then ∃ c, b' = some c ∧ c.shape = [A.length * a.filters] ∧
        ∀ i o, i < A.length → o < a.filters → c.get [i * a.filters + o] = b0 [o] else b' = none) ∧
      l.transforms.prepareCall (⟨kShape a tr g C, k0⟩ : Tensor α) l.bias l.filters x =
        .ok (w, b', a.filters * A.length, y) := by
    unfold GroupTransforms.prepareCall
    have := f.bias
    by_cases hu : a.useBias
    · rw [if_pos hu] at this
      obtain ⟨h1, c, h2, h3, h4⟩ := this
      refine ⟨some c, by rw [if_pos hu]; exact ⟨c, rfl, h3, h4⟩, ?_⟩
      simp only [hy, hw, h1, h2, Except.map, f.order, res_bind_ok, res_pure, f.filters]
    · rw [if_neg hu] at this
      refine ⟨none, by rw [if_neg hu], ?_⟩
      simp only [hy, hw, this, f.order, res_bind_ok, res_pure, f.filters]
  obtain ⟨b', hb1, hb2⟩ := hb
  refine ⟨b', hb1, ?_⟩
  unfold GroupConv.call
  rw [hc]
  simp only [backupAndRestore, GroupConv.body, f.kernel, hb2]
  cases hz : (({ l with kernel := some w, bias := b', filters := a.filters * A.length } : GroupConv α).superCall y >>=
      fun y => l.transforms.restoreGroupAxis y) with
  | ok z =>
    simp only
    rw [← f.kernel]
  | error e => simp only

theorem checkInput_last {a : ConvArgs α} {tr : Bool} {g : Option Nat} {C : Nat} {k0 b0 : List Nat → α}
    {A D : List Nat} {l : GroupConv α} {kp : KerasPadding} (f : ConvFacts a tr g C k0 b0 A D l kp)
    (hf : a.dataFormat = .channelsLast) {x : Tensor α} {B : Nat} {n : List Nat}
    (hx : x.shape = sigShape .channelsLast B n g C) (hn : n.length = a.group.dim) : l.checkInput x = .ok () := by
  unfold GroupConv.checkInput
  rw [f.spec, f.fmt, hf]
  cases g with
  | none =>
    have hr : x.rank = a.group.dim + 2 := by simp [Tensor.rank, hx, hn, sigShape]
    simp only [hr, Nat.lt_irrefl, if_false, channelAxis, hx, sigShape]
    rw [if_pos]
    exact nth_app0 (a := B :: n) (by simp [hn])
  | some g =>
    have hr : x.rank = a.group.dim + 3 := by simp [Tensor.rank, hx, hn, sigShape]
    simp only [hr, channelAxis, hx, sigShape]
    rw [if_neg (by omega), if_pos]
    exact nth_app (a := B :: n) (m := a.group.dim + 1) (by simp [hn]) 1

/-- adding the bias and applying the activation -/
theorem bias_act [Semiring α] (φ : α → α) {useBias : Bool} {b' : Option (Tensor α)} {b0 : List Nat → α} {m F : Nat}
    (hb : if useBias then ∃ c, b' = some c ∧ c.shape = [m * F] ∧
        ∀ i o, i < m → o < F → c.get [i * F + o] = b0 [o] else b' = none)
    (y : Tensor α) {B : Nat} {n : List Nat} (hy : y.shape = B :: n ++ [m * F]) :
    ∃ z, (do
        let y ← match b' with
          | none => .ok y
          | some b => addBias .channelsLast (F * m) y b
        return mapT φ y) = Except.ok (ε := Err) z ∧ z.shape = B :: n ++ [m * F] ∧
      ∀ b p i o, p.length = n.length → i < m → o < F →
        z.get (b :: p ++ [i * F + o]) = φ (y.get (b :: p ++ [i * F + o]) + if useBias then b0 [o] else 0) := by
  have hr : y.rank = n.length + 2 := by simp [Tensor.rank, hy]
  by_cases hu : useBias
  · rw [if_pos hu] at hb
    obtain ⟨c, rfl, hc, hcg⟩ := hb
    have hre : reshape c [((F * m : Nat) : Int)] = .ok ⟨[F * m], fun idx => c.get (unravel c.shape (ravel [F * m] idx))⟩ :=
      reshape_nat c (s := [F * m]) (by simp [hc, Nat.mul_comm])
    have hsz : nth y.shape (channelAxis .channelsLast y.rank) = F * m := by
      rw [hr, hy, Nat.mul_comm]
      exact nth_app0 (a := B :: n) (by simp [channelAxis])
    refine ⟨_, by simp only [addBias, hre, res_bind_ok, hsz, if_true, res_pure]; rfl, by simp only [mapT, hy], ?_⟩
    intro b p i o hp hi ho
    have hlt := mul_add_lt hi ho
    have e1 : nth (b :: p ++ [i * F + o]) (channelAxis .channelsLast y.rank) = i * F + o := by
      rw [hr]
      exact nth_app0 (a := b :: p) (by simp [hp, channelAxis])
    simp only [mapT, e1, if_pos hu, hc]
    congr 2
    rw [show ravel [F * m] [i * F + o] = ravel [m * F] [i * F + o] by simp [ravel],
      unravel_ravel (by simp [hlt]), hcg i o hi ho]
  · rw [if_neg hu] at hb
    subst hb
    refine ⟨_, rfl, by simp [mapT, hy], ?_⟩
    intro b p i o hp hi ho
    simp [mapT, hu]

/-- zeros before each axis: from the padding layer and from Keras -/
def totalBefore (st : PadState) (kp : KerasPadding) (strides dil K n : List Nat) : List Nat :=
  (List.range strides.length).map fun i =>
    nth (befores (kpads kp strides dil K (grow n (epads st strides.length)))) i + nth (befores (epads st strides.length)) i

/-- grid sizes after both paddings -/
def padded (st : PadState) (kp : KerasPadding) (strides dil K n : List Nat) : List Nat :=
  grow (grow n (epads st strides.length)) (kpads kp strides dil K (grow n (epads st strides.length)))

/-- Calling a (not transposed) channels_last layer whose kernel was made for `C` channels and group axis `g` on a signal
with `Cx` channels and group axis `gx`. -/
theorem conv_call_groups [Semiring α] {a : ConvArgs α} {g gx : Option Nat} {C Cx : Nat} {k0 b0 : List Nat → α}
    {A D : List Nat} {l : GroupConv α} {kp : KerasPadding} (f : ConvCore a false g C k0 b0 A D l kp)
    (hf : a.dataFormat = .channelsLast) {x : Tensor α} {B : Nat} {n : List Nat} (hgx : gx.isSome = g.isSome)
    (hx : x.shape = sigShape .channelsLast B n gx Cx) (hn : n.length = a.group.dim) (hc : l.checkInput x = .ok ()) :
    (∀ y, (l.call x).2 = .ok y → (chanO gx Cx = chanO g C ∨ 0 < chanO g C ∧ chanO gx Cx % chanO g C = 0 ∧
        A.length * a.filters % (chanO gx Cx / chanO g C) = 0 ∧ 0 < chanO gx Cx) ∧ FitsIn a.strides a.dilation a.kernelSize
      (padded l.transforms.padState kp a.strides a.dilation a.kernelSize n)) ∧
    ((chanO gx Cx = chanO g C ∨ 0 < chanO g C ∧ chanO gx Cx % chanO g C = 0 ∧
        A.length * a.filters % (chanO gx Cx / chanO g C) = 0 ∧ 0 < chanO gx Cx) →
      FitsIn a.strides a.dilation a.kernelSize (padded l.transforms.padState kp a.strides a.dilation a.kernelSize n) →
      ∃ y, l.call x = (l, .ok y) ∧
        y.shape = B :: outSizes a.strides a.dilation a.kernelSize
          (padded l.transforms.padState kp a.strides a.dilation a.kernelSize n) ++ [A.length, a.filters] ∧
        ∀ b p i o, b < B → Valid (outSizes a.strides a.dilation a.kernelSize
            (padded l.transforms.padState kp a.strides a.dilation a.kernelSize n)) p → i < A.length → o < a.filters →
          y.get (b :: p ++ [i, o]) = a.activation ((((indices a.kernelSize).map fun k =>
            ((List.range (chanO g C)).map fun c =>
              readAt x n b (winZ (totalBefore l.transforms.padState kp a.strides a.dilation a.kernelSize n)
                a.strides a.dilation p k)
                (restIdx gx Cx (groupStart (chanO gx Cx) (chanO g C) (A.length * a.filters) (i * a.filters + o) + c)) *
                weightOf a false g C k0 D (nth A i) k c o).sum).sum) +
              if a.useBias then b0 [o] else 0)) := by
  have f' := f.last hf
  rw [← hgx] at f'
  obtain ⟨y, ey, hy, hyg⟩ := f'.mergePad x hx hn
  obtain ⟨w, ew, hw, hwg⟩ := f.transformed
  simp only [Bool.false_eq_true, if_false] at hw hwg
  obtain ⟨b', hb', hcall⟩ := call_parts f hc ey ew
  have hsl := f.stridesLen
  set st := l.transforms.padState with hst
  have hn1 : (grow n (epads st a.group.dim)).length = a.strides.length := by
    rw [length_grow (by rw [length_epads, hn]), hn, hsl]
  have hconv := convLast_groups kp hy hw hn1 (by rw [f.kernelLen, hsl]) (by rw [f.dilationLen, hsl])
  have hpad : grow (grow n (epads st a.group.dim)) (kpads kp a.strides a.dilation a.kernelSize
      (grow n (epads st a.group.dim))) = padded st kp a.strides a.dilation a.kernelSize n := by
    unfold padded; rw [hsl]
  rw [hpad] at hconv
  have hsuper : ({ l with kernel := some w, bias := b', filters := a.filters * A.length } : GroupConv α).superCall y =
      (do
        let y ← convLast kp a.strides a.dilation y w
        let y ← match b' with
          | none => .ok y
          | some b => addBias .channelsLast (a.filters * A.length) y b
        return mapT a.activation y) := by
    simp only [GroupConv.superCall, f.transp, Bool.false_eq_true, if_false, baseConvCall, f.fmt, hf, conv, f.padding,
      f.strides, f.dilation, f.act]
    cases b' <;> rfl
  constructor
  · intro z hz
    rw [hcall, hsuper] at hz
    cases hcl : convLast kp a.strides a.dilation y w with
    | error e => rw [hcl] at hz; exact absurd hz (by simp)
    | ok u => exact hconv.1 u hcl
  · intro hdiv hfit
    obtain ⟨u, eu, hu, hug⟩ := hconv.2 hdiv hfit
    obtain ⟨v, ev, hv, hvg⟩ := bias_act a.activation hb' u hu
    obtain ⟨z, ez, hz, hzg⟩ := (f.last hf).restore v hv (by rw [length_outSizes, hsl])
    refine ⟨z, ?_, hz, ?_⟩
    · rw [hcall, hsuper, eu]
      simp only [res_bind_ok] at ev ⊢
      rw [ev]
      simp only [res_bind_ok, ez]
    · intro b p i o hb hp hi ho
      rw [hzg b p i o hb hp hi ho, hvg b p i o hp.length hi ho, hug b p _ hb hp (mul_add_lt hi ho)]
      congr 2
      apply sum_congr
      intro k hk
      rw [mem_indices] at hk
      apply sum_congr
      intro c hc
      rw [List.mem_range] at hc
      rw [hwg k c i o hk hc hi ho, hyg b _ _ hb (by rw [length_winZ, hsl]) (groupStart_lt hdiv hc (mul_add_lt hi ho)),
        shiftBack_winZ (by rw [length_epads, hsl])]
      unfold totalBefore
      rw [hsl]

/-- Calling a built (not transposed) channels_last layer. -/
theorem conv_call_last [Semiring α] {a : ConvArgs α} {g : Option Nat} {C : Nat} {k0 b0 : List Nat → α}
    {A D : List Nat} {l : GroupConv α} {kp : KerasPadding} (f : ConvFacts a false g C k0 b0 A D l kp)
    (hf : a.dataFormat = .channelsLast) {x : Tensor α} {B : Nat} {n : List Nat}
    (hx : x.shape = sigShape .channelsLast B n g C) (hn : n.length = a.group.dim) :
    (∀ y, (l.call x).2 = .ok y → FitsIn a.strides a.dilation a.kernelSize
      (padded l.transforms.padState kp a.strides a.dilation a.kernelSize n)) ∧
    (FitsIn a.strides a.dilation a.kernelSize (padded l.transforms.padState kp a.strides a.dilation a.kernelSize n) →
      ∃ y, l.call x = (l, .ok y) ∧
        y.shape = B :: outSizes a.strides a.dilation a.kernelSize
          (padded l.transforms.padState kp a.strides a.dilation a.kernelSize n) ++ [A.length, a.filters] ∧
        ∀ b p i o, b < B → Valid (outSizes a.strides a.dilation a.kernelSize
            (padded l.transforms.padState kp a.strides a.dilation a.kernelSize n)) p → i < A.length → o < a.filters →
          y.get (b :: p ++ [i, o]) = a.activation ((((indices a.kernelSize).map fun k =>
            ((List.range (chanO g C)).map fun c =>
              readAt x n b (winZ (totalBefore l.transforms.padState kp a.strides a.dilation a.kernelSize n)
                a.strides a.dilation p k) (restIdx g C c) * weightOf a false g C k0 D (nth A i) k c o).sum).sum) +
              if a.useBias then b0 [o] else 0)) := by
  obtain ⟨h1, h2⟩ := conv_call_groups f.toConvCore hf rfl hx hn (checkInput_last f hf hx hn)
  refine ⟨fun y hy => (h1 y hy).2, fun hfit => ?_⟩
  obtain ⟨y, e, hs, hy⟩ := h2 (Or.inl rfl) hfit
  refine ⟨y, e, hs, fun b p i o hb hp hi ho => ?_⟩
  rw [hy b p i o hb hp hi ho]
  simp only [groupStart_one (mul_add_lt hi ho), Nat.zero_add]

end GroCo
