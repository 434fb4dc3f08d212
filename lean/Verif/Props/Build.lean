import Verif.AssertLemmas
import Verif.TotalLemmas

/-
Properties C43 and C44: which inputs the layers refuse and which configurations can be built.
-/

namespace GroCo
open Tensor

variable {α : Type}

/-! ### C43 -/

/-- C43 for convolutions: building a layer raises AssertionError exactly if the input has a group axis whose size is not
the number of elements of the group the layer expects signals on, the whole group or, in a transposed layer, the
subgroup. (An unknown size is refused, too.) -/
theorem C43_convolution (a : ConvArgs α) (tr : Bool) (l0 : GroupConv α) (h : GroupConv.init a a.group.dim tr = .ok l0)
    (H : List Nat) (hH : a.group.group.sub (a.group.group.parseSubgroup a.subgroup) = .ok H) (shape : List (Option Nat))
    (k0 b0 : List Nat → α) :
    l0.build shape k0 b0 = .error .assertion ↔ shape.length = a.group.dim + 3 ∧
      shape[groupAxis a.dataFormat a.group.dim]? ≠ some (some (if tr then H.length else a.group.group.order)) := by
  rw [conv_build_assert]
  obtain ⟨s', hs', hH⟩ := parse_sub hH
  obtain ⟨s, m, opt, kp, e1, e2, -, -, -, -, -, -, -, rfl⟩ := conv_init_inv h
  rw [e1] at hs'
  cases hs'
  rw [← groupDict_name e2] at hH
  have hga : (initTransforms a.toGroupArgs m opt a.group.dim tr).groupAxis = groupAxis a.dataFormat a.group.dim := by
    unfold initTransforms groupAxis
    cases a.dataFormat <;> rfl
  have hlt : groupAxis a.dataFormat a.group.dim < a.group.dim + 3 := by
    unfold groupAxis
    split <;> omega
  have hown := a.group.sym.tab.own
  have := transforms_build_assert (initTransforms a.toGroupArgs m opt a.group.dim tr) shape
    (if tr then H else List.range a.group.group.order) (by
      cases tr
      · exact hown
      · exact hH) (by rw [hga]; exact hlt)
  rw [hga] at this
  refine this.trans ?_
  cases tr
  · simp only [Bool.false_eq_true, if_false, List.length_range]; rfl
  · simp only [if_true]; rfl

/-- C43 for pooling -/
theorem C43_pooling (a : PoolArgs) (l0 : GroupPooling) (h : GroupPooling.init a a.group.dim = .ok l0)
    (shape : List (Option Nat)) :
    l0.build shape = .error .assertion ↔ shape.length = a.group.dim + 3 ∧
      shape[groupAxis a.dataFormat a.group.dim]? ≠ some (some a.group.group.order) := by
  rw [pool_build_assert]
  obtain ⟨s, m, opt, kp, e1, e2, -, -, -, -, -, -, rfl⟩ := pool_init_inv h
  have hlt : groupAxis a.dataFormat a.group.dim < a.group.dim + 3 := by
    unfold groupAxis
    split <;> omega
  have hga : ∀ b : GroupArgs, b.dataFormat = a.dataFormat →
      (initTransforms b m opt a.group.dim false).groupAxis = groupAxis a.dataFormat a.group.dim := by
    intro b hb
    unfold initTransforms groupAxis
    rw [hb]
    cases a.dataFormat <;> rfl
  have := transforms_build_assert (initTransforms ⟨a.group, a.subgroup, a.poolSize,
    a.strides.getD (List.replicate a.group.dim 1), a.padding, a.allowNonEquivariance, a.dataFormat⟩ m opt a.group.dim false) shape
    (List.range a.group.group.order) a.group.sym.tab.own (by rw [hga _ rfl]; exact hlt)
  rw [hga _ rfl, List.length_range] at this
  exact this

/-- a layer on P4 that is given eight instead of four group elements -/
def p4Args : ConvArgs Int :=
  { group := .P4, subgroup := some "", kernelSize := [3, 3], strides := [1, 1], padding := "same_equiv",
    allowNonEquivariance := false, dataFormat := .channelsLast, filters := 2, dilation := [1, 1], useBias := true,
    activation := id }

example : ∃ l0, GroupConv.init p4Args 2 false = .ok l0 ∧
    l0.build [none, some 8, some 8, some 8, some 3] (fun _ => 1) (fun _ => 0) = .error .assertion ∧
    ∃ l, l0.build [none, some 8, some 8, some 4, some 3] (fun _ => 1) (fun _ => 0) = .ok l :=
  ⟨_, rfl, rfl, _, rfl⟩

/-! ### C44 -/

/-- Arguments accepted by the constructors of Keras: one positive kernel size, stride and dilation rate per dimension, at
least one filter, and no strides above one together with dilation rates above one. -/
structure SizesOk (a : ConvArgs α) : Prop where
  kernels : a.kernelSize.length = a.group.dim ∧ 0 ∉ a.kernelSize
  strides : a.strides.length = a.group.dim ∧ 0 ∉ a.strides
  dilation : a.dilation.length = a.group.dim ∧ 0 ∉ a.dilation
  filters : 0 < a.filters
  notBoth : (∀ s ∈ a.strides, s = 1) ∨ ∀ r ∈ a.dilation, r = 1

/-- Symmetric sampling of an axis is possible with option `opt`: for the two '_equiv' options with some amount of padding, for
the others with the `own` zeros that are added anyway, unless the user allows the layer not to be equivariant. -/
def CanPad (opt : PadOption) (allow : Bool) (own n k s : Nat) : Prop :=
  match opt with
  | .same | .valid => allow = true ∨ Symmetric n k s own
  | .sameEquiv | .validEquiv => ∃ T, Symmetric n k s T

theorem builds_iff (a : ConvArgs α) (tr : Bool) (hf : a.dataFormat = .channelsLast) (b : Option Nat) (n : List Nat)
    (g : Option Nat) (C : Nat) (k0 b0 : List Nat → α) (H : List Nat) (hn : n.length = a.group.dim)
    (hH : a.group.group.sub (a.group.group.parseSubgroup a.subgroup) = .ok H) :
    (∃ l, BuiltConv a tr b n g C k0 b0 H l) ↔ ∃ opt kp, Accepted a.padding opt kp ∧ SizesOk a ∧
      (g = none ∨ g = some (domainOf a.group tr H).length) ∧ a.group.Grid a.kernelSize ∧
      (∀ i, i < a.group.dim → CanPad opt a.allowNonEquivariance (ownZeros tr opt (nth n i) (nth a.kernelSize i) (nth a.strides i))
        (nth n i) (nth a.kernelSize i) (nth a.strides i)) ∧
      (tr = false → kp = .valid → ∀ i, i < a.group.dim →
        dilated (nth a.kernelSize i) (nth a.dilation i) ≤ nth n i + nth a.strides i) := by
  have hcan : ∀ {opt : PadOption} {allow : Bool} {own n k s : Nat}, CanPad opt allow own n k s ↔
      if opt = .same ∨ opt = .valid then allow = true ∨ Symmetric n k s own else ∃ T, Symmetric n k s T := by
    intro opt allow own n k s
    cases opt <;> simp [CanPad]
  have hone : ∀ l : List Nat, 0 ∉ l → ((∀ s ∈ l, s = 1) ↔ ¬ ∃ s ∈ l, 1 < s) := by
    intro l h0
    constructor
    · rintro h ⟨s, hs, h1⟩
      have := h s hs
      omega
    · intro h s hs
      by_contra hc
      refine h ⟨s, hs, ?_⟩
      have : s ≠ 0 := fun h => h0 (h ▸ hs)
      omega
  have hfits : ∀ opt, a.kernelSize.length = a.group.dim → a.strides.length = a.group.dim → 0 ∉ a.strides →
      (EquivariantPadding.mk opt a.allowNonEquivariance a.group.dim a.strides a.kernelSize true tr).Fits n := by
    intro opt h1 h2 h3
    exact ⟨hn.symm, by rw [hn]; exact h1, by rw [hn]; exact h2,
      fun s hs => Nat.pos_of_ne_zero fun h => h3 (h ▸ hs)⟩
  constructor
  · rintro ⟨l, hl⟩
    obtain ⟨opt, kp, ho, hk, F, hst⟩ := hl.facts_last hf
    obtain ⟨l0, h0, h1⟩ := hl.built
    obtain ⟨c1, c2, c3⟩ := conv_init_checks h0
    refine ⟨opt, kp, (accepted_iff _ _ _).1 ⟨ho, hk⟩, ⟨⟨F.kernelLen, F.kernelPos⟩, ⟨F.stridesLen, F.stridesPos⟩,
      ⟨F.dilationLen, c2⟩, Nat.pos_of_ne_zero c1, ?_⟩, ?_, F.grid, ?_, ?_⟩
    · rw [hone _ F.stridesPos, hone _ c2]
      by_contra hc
      rw [not_or, not_not, not_not] at hc
      exact c3 hc
    · cases g with
      | none => left; rfl
      | some g => right; rw [F.size g rfl]
    · have := (padBuild_iff _ b (some (chanO g C)) (hfits opt F.kernelLen F.stridesLen F.stridesPos)).1 ⟨_, hst⟩
      intro i hi
      rw [hcan]
      exact this i (by rw [hn]; exact hi)
    · intro htr hv i hi
      subst htr
      obtain ⟨s1, s2, s3⟩ := hl.shape_facts
      have hout : ∃ o, convOutputShape .channelsLast kp a.kernelSize a.strides a.dilation a.filters
          (signalShape true b (some (chanO g C)) n) = .ok o := by
        obtain ⟨s, m, opt', kp', e1, e2, e3, e4, e5, e6, e7, e8, e9, rfl⟩ := conv_init_inv h0
        rw [e4] at hk
        cases hk
        unfold GroupConv.build at h1
        obtain ⟨t, ht, h1⟩ := bind_eq_ok h1
        rw [hf] at ht
        obtain ⟨st, -, -, rfl⟩ := transforms_build_last (a := a.toGroupArgs) hf hn ht
        obtain ⟨ch, _, h1⟩ := bind_eq_ok h1
        obtain ⟨os, hos, h1⟩ := bind_eq_ok h1
        unfold GroupConv.computeOutputShape at hos
        obtain ⟨o, ho, -⟩ := bind_eq_ok hos
        rw [← hf]
        exact ⟨o, ho⟩
      exact (convOutputShape_iff (by rw [hn, F.stridesLen]) F.stridesPos).1 hout hv i (by rw [hn]; exact hi)
  · rintro ⟨opt, kp, hacc, hz, hg, hgrid, hcp, hfit⟩
    obtain ⟨ho, hk⟩ := (accepted_iff _ _ _).2 hacc
    obtain ⟨s, hs, hsub⟩ := parse_sub hH
    obtain ⟨m, hm⟩ := sub_known hsub
    have hnb : ¬ ((∃ s ∈ a.strides, 1 < s) ∧ ∃ r ∈ a.dilation, 1 < r) := by
      have := hz.notBoth
      rw [hone _ hz.strides.2, hone _ hz.dilation.2] at this
      rintro ⟨h1, h2⟩
      rcases this with h | h
      · exact h h1
      · exact h h2
    obtain ⟨l0, h0⟩ := conv_init_ok tr hs hm ho hk hz.kernels.1 hz.strides.1 hz.dilation.1 hz.kernels.2 hz.strides.2
      (Nat.pos_iff_ne_zero.1 hz.filters) hz.dilation.2 hnb
    suffices h : ∃ l, l0.build (inputShape a.dataFormat b n g C) k0 b0 = .ok l by
      obtain ⟨l, h⟩ := h
      exact ⟨l, ⟨l0, h0, h⟩, hn, hH⟩
    obtain ⟨s', m', opt', kp', e1, e2, e3, e4, e5, e6, e7, e8, e9, rfl⟩ := conv_init_inv h0
    rw [hs] at e1; cases e1
    rw [hm] at e2; cases e2
    rw [ho] at e3; cases e3
    rw [hk] at e4; cases e4
    rw [← groupDict_name hm] at hsub
    obtain ⟨st, hst⟩ := (padBuild_iff _ b (some (chanO g C)) (hfits opt hz.kernels.1 hz.strides.1 hz.strides.2)).2 (by
      intro i hi
      have := hcp i (by rw [← hn]; exact hi)
      rw [hcan] at this
      exact this)
    have hown := a.group.sym.tab.own
    have hord : ∀ g', g = some g' → (initTransforms a.toGroupArgs m opt a.group.dim tr).orderOf
        (initTransforms a.toGroupArgs m opt a.group.dim tr).domainGroup = .ok g' := by
      intro g' hg'
      rw [hg'] at hg
      have hgl : g' = (domainOf a.group tr H).length := by
        rcases hg with h | h
        · cases h
        · cases h; rfl
      have hd : a.group.group.sub (some (if tr then m.group.name else a.group.group.name)) = .ok (domainOf a.group tr H) := by
        cases tr
        · exact hown
        · exact hsub
      unfold GroupTransforms.orderOf
      show (a.group.group.sub (some (if tr then m.group.name else a.group.group.name)) >>= _) = _
      rw [hd, hgl]
      rfl
    obtain ⟨t, ht⟩ := transforms_build_last_ok (a := a.toGroupArgs) (C := C) hf hn hst hord
    obtain ⟨st', -, -, htt⟩ := transforms_build_last (a := a.toGroupArgs) hf hn ht
    have hgood : t.Good a.group (actingOf a.group tr H) (domainOf a.group tr H) := by
      rw [htt]
      refine ⟨rfl, rfl, ?_, ?_⟩
      · cases tr
        · exact hsub
        · exact hown
      · cases g with
        | none => left; exact ⟨rfl, rfl⟩
        | some g =>
          right
          refine ⟨rfl, _, rfl, ?_⟩
          cases tr
          · exact hown
          · exact hsub
    have hgv : t.groupValuedInput = g.isSome := by rw [htt]
    have htr : t.transpose = tr := by rw [htt]; rfl
    have hre : t.reshapedInput = signalShape true b (some (chanO g C)) n := by rw [htt]
    have hchan : chan g.isSome (domainOf a.group tr H) C = chanO g C := by
      cases g with
      | none => rfl
      | some g =>
        rcases hg with h | h
        · cases h
        · cases h; simp [chan, chanO]
    have hch : channelsOf a.dataFormat (signalShape true b (some (chanO g C)) n) = .ok (chanO g C) := by
      rw [hf]
      unfold channelsOf channelAxis signalShape
      simp
    have hout : ∃ o, (({ transforms := t
                         kernelSize := a.kernelSize
                         strides := a.strides
                         dilation := a.dilation
                         padding := kp
                         dataFormat := a.dataFormat
                         useBias := a.useBias
                         activation := a.activation
                         filters := a.filters } : GroupConv α).computeOutputShape
          (signalShape true b (some (chanO g C)) n)) = .ok o := by
      unfold GroupConv.computeOutputShape
      simp only [htr, hre, hf]
      cases tr with
      | false =>
        obtain ⟨o, ho⟩ := (convOutputShape_iff (kp := kp) (K := a.kernelSize) (dil := a.dilation) (filters := a.filters) (b := b)
          (c := some (chanO g C)) (n := n) (by rw [hn, hz.strides.1]) hz.strides.2).2 (fun hv i hi =>
            hfit rfl hv i (by rw [← hn]; exact hi))
        simp only [Bool.false_eq_true, if_false, ho, res_bind_ok]
        exact ⟨_, rfl⟩
      | true =>
        have hlen : (signalShape true b (some (chanO g C)) n).length = a.strides.length + 2 := by
          simp [signalShape, hn, hz.strides.1]
        simp only [if_true, convTransposeOutputShape, hlen, ne_eq, not_true_eq_false, if_false, res_bind_ok]
        exact ⟨_, rfl⟩
    obtain ⟨os, hos⟩ := hout
    have hker : ∃ I, t.computeTransformedKernelIndices (⟨a.kernelSize ++ (if tr then [a.filters, chanO g C]
        else [chanO g C, a.filters]), k0⟩ : Tensor α) = .ok I := by
      cases tr with
      | false =>
        rw [core_direct t htr]
        obtain ⟨I, hI, -⟩ := (coreIndices_ok hgood (x := getIndexTensor (⟨a.kernelSize ++ [chanO g C, a.filters], k0⟩ : Tensor α))
          (K := a.kernelSize) (C := C) (F := a.filters) hz.kernels.1 (by rw [hgv, hchan]; rfl) (fun _ => rfl)).2 hgrid
        exact ⟨I, hI⟩
      | true =>
        rw [core_transpose t htr]
        obtain ⟨sw, esw, hsw, -⟩ := swapaxes_last (⟨a.kernelSize ++ [a.filters, chanO g C], k0⟩ : Tensor α) rfl
        obtain ⟨I, hI, hIs, -⟩ := (coreIndices_ok hgood (x := getIndexTensor sw)
          (K := a.kernelSize) (C := C) (F := a.filters) hz.kernels.1 (by rw [hgv, hchan]; exact hsw) (fun _ => rfl)).2 hgrid
        obtain ⟨J, eJ, -⟩ := swapaxes_last I hIs
        simp only [if_true, esw, res_bind_ok, hI, eJ]
        exact ⟨_, rfl⟩
    obtain ⟨I, hI⟩ := hker
    have hbuild : ∃ t2, t.buildConv (⟨a.kernelSize ++ (if tr then [a.filters, chanO g C] else [chanO g C, a.filters]), k0⟩ :
        Tensor α) (if a.useBias then some ⟨[a.filters], b0⟩ else none) = .ok t2 := by
      unfold GroupTransforms.buildConv
      cases a.useBias
      · simp only [Bool.false_eq_true, if_false, res_bind_ok, hI]
        exact ⟨_, rfl⟩
      · obtain ⟨J, hJ, -⟩ := repeatBias_ok hgood (bias := (⟨[a.filters], b0⟩ : Tensor α)) rfl
        simp only [if_true, hJ, Except.map, res_bind_ok, hI]
        exact ⟨_, rfl⟩
    obtain ⟨t2, ht2⟩ := hbuild
    unfold GroupConv.build
    rw [show inputShape a.dataFormat b n g C = inputShape .channelsLast b n g C by rw [hf]]
    simp only [ht, res_bind_ok, hre, hch, hos, htr, ht2]
    exact ⟨_, rfl⟩

/-- C44 for convolutions (channels_last): a layer can be constructed and built exactly if the padding is one of the accepted
strings, Keras accepts the sizes, the input has no group axis or one with all group elements, the kernel is a grid
the group acts on, every axis can be sampled symmetrically as far as that is asked for, and, without Keras's own
padding, the (dilated) kernel is at most one stride longer than the input. Nothing else is refused, whatever the batch
size, the number of channels, the subgroup and the weights. -/
theorem C44_convolution (a : ConvArgs α) (hf : a.dataFormat = .channelsLast) (b : Option Nat) (n : List Nat)
    (g : Option Nat) (C : Nat) (k0 b0 : List Nat → α) (H : List Nat) (hn : n.length = a.group.dim)
    (hH : a.group.group.sub (a.group.group.parseSubgroup a.subgroup) = .ok H) :
    (∃ l, BuiltConv a false b n g C k0 b0 H l) ↔ ∃ opt kp, Accepted a.padding opt kp ∧ SizesOk a ∧
      (g = none ∨ g = some a.group.group.order) ∧ a.group.Grid a.kernelSize ∧
      (∀ i, i < a.group.dim → CanPad opt a.allowNonEquivariance (builtIn opt (nth n i) (nth a.kernelSize i) (nth a.strides i))
        (nth n i) (nth a.kernelSize i) (nth a.strides i)) ∧
      (kp = .valid → ∀ i, i < a.group.dim →
        dilated (nth a.kernelSize i) (nth a.dilation i) ≤ nth n i + nth a.strides i) := by
  rw [builds_iff a false hf b n g C k0 b0 H hn hH]
  have : (domainOf a.group false H).length = a.group.group.order := by simp [domainOf]
  rw [this]
  have hz : ∀ opt n k s, ownZeros false opt n k s = builtIn opt n k s := by
    intro opt n k s; cases opt <;> rfl
  simp only [hz, true_imp_iff, forall_const]

/-- a layer for which 'same_equiv' has to pad, and one for which no symmetric padding exists -/
example : (∃ l, BuiltConv p4Args false none [8, 8] none 3 (fun _ => 1) (fun _ => 0) [0, 1, 2, 3] l) ∧
    (∃ l, BuiltConv { p4Args with strides := [2, 2] } false none [7, 7] (some 4) 3 (fun _ => 1) (fun _ => 0) [0, 1, 2, 3] l) ∧
    ¬ ∃ l, BuiltConv { p4Args with strides := [2, 2] } false none [8, 8] none 3 (fun _ => 1) (fun _ => 0) [0, 1, 2, 3] l := by
  have hacc : Accepted "same_equiv" .sameEquiv .same := C39_documented_names ("same_equiv", .sameEquiv, .same) (by decide)
  have hz : SizesOk { p4Args with strides := [2, 2] } := ⟨by decide, by decide, by decide, by decide, by decide⟩
  have hd : ∀ i, i < p4Args.group.dim → i = 0 ∨ i = 1 := fun i hi => by
    have : p4Args.group.dim = 2 := rfl
    omega
  refine ⟨(C44_convolution p4Args rfl none [8, 8] none 3 _ _ _ rfl rfl).2 ⟨.sameEquiv, .same, hacc, ⟨by decide, by decide,
      by decide, by decide, by decide⟩, by decide, ⟨rfl, rfl⟩, ?_, by simp⟩,
    (C44_convolution { p4Args with strides := [2, 2] } rfl none [7, 7] (some 4) 3 _ _ _ rfl rfl).2 ⟨.sameEquiv, .same, hacc, hz,
      by decide, ⟨rfl, rfl⟩, ?_, by simp⟩, ?_⟩
  · intro i hi
    exact ⟨2, rfl, by rcases hd i hi with rfl | rfl <;> rfl⟩
  · intro i hi
    exact ⟨2, rfl, by rcases hd i hi with rfl | rfl <;> rfl⟩
  · rw [C44_convolution { p4Args with strides := [2, 2] } rfl none [8, 8] none 3 _ _ _ rfl rfl]
    rintro ⟨opt, kp, h, -, -, -, h2, -⟩
    obtain ⟨e1, e2⟩ := (accepted_iff _ _ _).2 h
    obtain ⟨e3, e4⟩ := (accepted_iff _ _ _).2 hacc
    have : opt = .sameEquiv := by
      have := e1.symm.trans e3
      cases this; rfl
    subst this
    obtain ⟨T, h3, h4⟩ := h2 0 (by decide)
    have h4 : ((8 : Int) + T - 3) % 2 = 0 := h4
    omega

/-- C44 for transposed convolutions (channels_last): the same, with a group axis for the elements of the subgroup and no
condition on the length of the kernel. The zeros that count are those of the convolution it is the transpose of. -/
theorem C44_transposed (a : ConvArgs α) (hf : a.dataFormat = .channelsLast) (b : Option Nat) (n : List Nat)
    (g : Option Nat) (C : Nat) (k0 b0 : List Nat → α) (H : List Nat) (hn : n.length = a.group.dim)
    (hH : a.group.group.sub (a.group.group.parseSubgroup a.subgroup) = .ok H) :
    (∃ l, BuiltConv a true b n g C k0 b0 H l) ↔ ∃ opt kp, Accepted a.padding opt kp ∧ SizesOk a ∧
      (g = none ∨ g = some H.length) ∧ a.group.Grid a.kernelSize ∧
      (∀ i, i < a.group.dim → CanPad opt a.allowNonEquivariance
        (if kp = .valid then nth a.strides i - nth a.kernelSize i else sameTotal (nth n i) (nth a.kernelSize i) (nth a.strides i))
        (nth n i) (nth a.kernelSize i) (nth a.strides i)) := by
  rw [builds_iff a true hf b n g C k0 b0 H hn hH]
  have : (domainOf a.group true H).length = H.length := by simp [domainOf]
  rw [this]
  have hz : ∀ opt kp, Accepted a.padding opt kp → ∀ n k s, ownZeros true opt n k s =
      if kp = .valid then s - k else sameTotal n k s := by
    intro opt kp h n k s
    obtain ⟨h1, h2⟩ := (accepted_iff _ _ _).2 h
    rw [padding_agree h1 h2]
    cases opt <;> simp [ownZeros, kerasOf]
  constructor
  · rintro ⟨opt, kp, h1, h2, h3, h4, h5, -⟩
    refine ⟨opt, kp, h1, h2, h3, h4, ?_⟩
    simpa only [hz opt kp h1] using h5
  · rintro ⟨opt, kp, h1, h2, h3, h4, h5⟩
    refine ⟨opt, kp, h1, h2, h3, h4, ?_, by simp⟩
    simpa only [hz opt kp h1] using h5

example : ∃ l, BuiltConv { p4Args with subgroup := some "P2", strides := [2, 2], kernelSize := [2, 2], padding := "valid_equiv" }
    true (some 5) [8, 8] (some 2) 3 (fun _ => 1) (fun _ => 0) [0, 2] l := by
  have hacc : Accepted "valid_equiv" .validEquiv .valid := C39_documented_names ("valid_equiv", .validEquiv, .valid) (by decide)
  refine (C44_transposed { p4Args with subgroup := some "P2", strides := [2, 2], kernelSize := [2, 2], padding := "valid_equiv" }
    rfl _ [8, 8] _ 3 _ _ _ rfl (by decide)).2 ⟨.validEquiv, .valid, hacc, ⟨by decide, by decide, by decide, by decide, by decide⟩,
    by decide, ⟨rfl, rfl⟩, ?_⟩
  intro i hi
  have hd : i = 0 ∨ i = 1 := by
    have : p4Args.group.dim = 2 := rfl
    have : i < 2 := hi
    omega
  exact ⟨0, rfl, by rcases hd with rfl | rfl <;> rfl⟩

theorem buildPool_total : ∀ (G m : GroupName), (∃ H, lookup G.group.subgroup m.group.name = .ok H) →
    ∀ t : GroupTransforms, t.group = G → t.subgroup = m → ∃ t', t.buildPool = .ok t' := by
  have key : ∀ G m : GroupName, (lookup G.group.subgroup m.group.name).toOption.isSome = true →
      (do
        let cosets ← lookup G.group.cosets m.group.name
        let is ← take (tableTensor G.group.composition G.group.order) cosets 1
        let H ← lookup G.group.subgroup m.group.name
        let is ← take is H 0
        return is : Res (Tensor Nat)).toOption.isSome = true := by
    intro G m
    cases G <;> cases m <;> decide +kernel
  rintro G m ⟨H, hH⟩ t hG hm
  have := key G m (by rw [hH]; rfl)
  unfold GroupTransforms.buildPool
  rw [hG, hm]
  dsimp only
  cases h1 : lookup G.group.cosets m.group.name with
  | error e => rw [h1] at this; exact absurd this (by simp [Except.toOption])
  | ok cos =>
    rw [h1, res_bind_ok] at this
    rw [res_bind_ok]
    cases h2 : take (tableTensor G.group.composition G.group.order) cos 1 with
    | error e => rw [h2] at this; exact absurd this (by simp [Except.toOption])
    | ok I =>
      rw [h2, res_bind_ok, hH, res_bind_ok] at this
      rw [res_bind_ok, hH, res_bind_ok]
      cases h3 : take I H 0 with
      | error e => rw [h3] at this; exact absurd this (by simp [Except.toOption])
      | ok J => exact ⟨_, rfl⟩

/-- C44 for pooling (channels_last): a layer can be constructed and built on an input with a group axis exactly if the padding
is one of the accepted strings, there is one positive pool size and stride per dimension, the group axis has all group
elements, and every axis can be sampled symmetrically as far as that is asked for. If no strides are given symmetry is
judged for strides one (see C34). -/
theorem C44_pooling (a : PoolArgs) (hf : a.dataFormat = .channelsLast) (b : Option Nat) (n : List Nat) (g C : Nat) (H : List Nat)
    (hn : n.length = a.group.dim) (hH : a.group.group.sub (a.group.group.parseSubgroup a.subgroup) = .ok H) :
    (∃ l, BuiltPool a b n g C H l) ↔ ∃ opt kp, Accepted a.padding opt kp ∧
      (a.poolSize.length = a.group.dim ∧ 0 ∉ a.poolSize) ∧
      (∀ s, a.strides = some s → s.length = a.group.dim ∧ 0 ∉ s) ∧ g = a.group.group.order ∧
      ∀ i, i < a.group.dim → CanPad opt a.allowNonEquivariance
        (builtIn opt (nth n i) (nth a.poolSize i) (nth a.paddingStrides i)) (nth n i) (nth a.poolSize i) (nth a.paddingStrides i) := by
  have hcan : ∀ {opt : PadOption} {allow : Bool} {own n k s : Nat}, CanPad opt allow own n k s ↔
      if opt = .same ∨ opt = .valid then allow = true ∨ Symmetric n k s own else ∃ T, Symmetric n k s T := by
    intro opt allow own n k s
    cases opt <;> simp [CanPad]
  have hz : ∀ opt n k s, ownZeros false opt n k s = builtIn opt n k s := by
    intro opt n k s; cases opt <;> rfl
  have hps : (∀ s, a.strides = some s → s.length = a.group.dim ∧ 0 ∉ s) →
      a.paddingStrides.length = a.group.dim ∧ 0 ∉ a.paddingStrides := by
    intro h
    unfold PoolArgs.paddingStrides
    cases hs : a.strides with
    | none => simp
    | some s => exact h s hs
  have hfits : ∀ opt, a.poolSize.length = a.group.dim → a.paddingStrides.length = a.group.dim → 0 ∉ a.paddingStrides →
      (EquivariantPadding.mk opt a.allowNonEquivariance a.group.dim a.paddingStrides a.poolSize true false).Fits n := by
    intro opt h1 h2 h3
    exact ⟨hn.symm, by rw [hn]; exact h1, by rw [hn]; exact h2,
      fun s hs => Nat.pos_of_ne_zero fun h => h3 (h ▸ hs)⟩
  constructor
  · rintro ⟨l, hl⟩
    obtain ⟨opt, kp, cos, ho, hk, F, hg, hst⟩ := hl.facts hf
    obtain ⟨l0, h0, h1⟩ := hl.built
    obtain ⟨s, m, opt', kp', e1, e2, e3, e4, e5, e6, e7, e8, rfl⟩ := pool_init_inv h0
    have hstr : ∀ s, a.strides = some s → s.length = a.group.dim ∧ 0 ∉ s := by
      intro s hs
      unfold PoolArgs.windowStrides at e6 e8
      rw [hs] at e6 e8
      exact ⟨e6, e8⟩
    refine ⟨opt, kp, (accepted_iff _ _ _).1 ⟨ho, hk⟩, ⟨e5, e7⟩, hstr, hg, ?_⟩
    have := (padBuild_iff _ b (some (g * C)) (hfits opt e5 (hps hstr).1 (hps hstr).2)).1 ⟨_, hst⟩
    intro i hi
    rw [hcan, ← hz]
    exact this i (by rw [hn]; exact hi)
  · rintro ⟨opt, kp, hacc, ⟨h5, h7⟩, hstr, hg, hcp⟩
    obtain ⟨ho, hk⟩ := (accepted_iff _ _ _).2 hacc
    obtain ⟨s, hs, hsub⟩ := parse_sub hH
    obtain ⟨m, hm⟩ := sub_known hsub
    have hw : a.windowStrides.length = a.group.dim ∧ 0 ∉ a.windowStrides := by
      unfold PoolArgs.windowStrides
      cases hs : a.strides with
      | none => exact ⟨h5, h7⟩
      | some s => exact hstr s hs
    have h0 : ∃ l0, GroupPooling.init a a.group.dim = .ok l0 := by
      unfold GroupPooling.init GroupTransforms.init
      simp only [hs, hm, ho, res_bind_ok, res_pure, hk]
      have h6 := hw.1
      have h8 := hw.2
      unfold PoolArgs.windowStrides at h6 h8
      rw [if_neg (by simp only [h5, h6, h7, h8]; simp)]
      exact ⟨_, rfl⟩
    obtain ⟨l0, h0⟩ := h0
    suffices h : ∃ l, l0.build (inputShape a.dataFormat b n (some g) C) = .ok l by
      obtain ⟨l, h⟩ := h
      exact ⟨l, ⟨l0, h0, h⟩, hn, hH⟩
    obtain ⟨s', m', opt', kp', e1, e2, e3, e4, e5, e6, e7, e8, rfl⟩ := pool_init_inv h0
    rw [hs] at e1; cases e1
    rw [hm] at e2; cases e2
    rw [ho] at e3; cases e3
    rw [← groupDict_name hm] at hsub
    obtain ⟨st, hst⟩ := (padBuild_iff _ b (some (g * C)) (hfits opt h5 (hps hstr).1 (hps hstr).2)).2 (by
      intro i hi
      have := hcp i (by rw [← hn]; exact hi)
      rw [hcan, ← hz] at this
      exact this)
    obtain ⟨t, ht⟩ := transforms_build_last_ok (a := ⟨a.group, a.subgroup, a.poolSize,
      a.strides.getD (List.replicate a.group.dim 1), a.padding, a.allowNonEquivariance, a.dataFormat⟩) (g := some g) (m := m)
      (opt := opt) (tr := false) (C := C) hf hn hst (by
        intro g' hg'
        cases hg'
        unfold GroupTransforms.orderOf
        have : a.group.group.sub (some a.group.group.name) = .ok (List.range a.group.group.order) := a.group.sym.tab.own
        show (a.group.group.sub (some a.group.group.name) >>= _) = _
        rw [this, hg]
        simp [res_bind_ok, res_pure])
    obtain ⟨st', -, -, htt⟩ := transforms_build_last (by exact hf) hn ht
    obtain ⟨t', ht'⟩ := buildPool_total a.group m ⟨H, hsub⟩ t (by rw [htt]; rfl) (by rw [htt]; rfl)
    unfold GroupPooling.build
    rw [show inputShape a.dataFormat b n (some g) C = inputShape .channelsLast b n (some g) C by rw [hf], ht, res_bind_ok, ht']
    exact ⟨_, rfl⟩

/-- pooling onto a subgroup with windows that need padding -/
def p4mPool : PoolArgs :=
  { group := .P4M, subgroup := some "P4", poolType := .max, poolSize := [3, 3], strides := some [2, 2], padding := "valid_equiv",
    allowNonEquivariance := false, dataFormat := .channelsLast }

example : (∃ l, BuiltPool p4mPool none [7, 9] 8 5 [0, 1, 2, 3] l) ∧ ¬ ∃ l, BuiltPool p4mPool none [7, 8] 8 5 [0, 1, 2, 3] l := by
  have hacc : Accepted "valid_equiv" .validEquiv .valid := C39_documented_names ("valid_equiv", .validEquiv, .valid) (by decide)
  have hd : ∀ i, i < p4mPool.group.dim → i = 0 ∨ i = 1 := fun i hi => by
    have : p4mPool.group.dim = 2 := rfl
    omega
  constructor
  · refine (C44_pooling p4mPool rfl none [7, 9] 8 5 _ rfl (by decide)).2 ⟨.validEquiv, .valid, hacc, by decide, ?_, rfl, ?_⟩
    · intro s hs
      have : s = [2, 2] := by cases hs; rfl
      subst this
      decide
    · intro i hi
      exact ⟨0, rfl, by rcases hd i hi with rfl | rfl <;> rfl⟩
  · rw [C44_pooling p4mPool rfl none [7, 8] 8 5 _ rfl (by decide)]
    rintro ⟨opt, kp, h, -, -, -, h2⟩
    obtain ⟨e1, e2⟩ := (accepted_iff _ _ _).2 h
    obtain ⟨e3, e4⟩ := (accepted_iff _ _ _).2 hacc
    have : opt = .validEquiv := by
      have := e1.symm.trans e3
      cases this; rfl
    subst this
    obtain ⟨T, h3, h4⟩ := h2 1 (by decide)
    have h4 : ((8 : Int) + T - 3) % 2 = 0 := h4
    omega

end GroCo
