import Verif.BuildErrorLemmas

/-
Property C75: with which exception the building of a layer fails. A wrong group axis is C43; when building succeeds is C44.
-/

namespace GroCo
open Tensor

variable {α : Type}

/-- C75: building a convolution or transposed convolution (channels_last, the group axis having the right size) in which some axis
cannot be sampled symmetrically raises ValueError, with 'same_equiv' AttributeError (C38); if all axes can be sampled symmetrically
and it fails all the same, which by C44 means that the kernel is too long or no grid of the group, it raises ValueError. -/
theorem C75_build (a : ConvArgs α) (tr : Bool) (hf : a.dataFormat = .channelsLast) (b : Option Nat) (n : List Nat)
    (g : Option Nat) (C : Nat) (k0 b0 : List Nat → α) (H : List Nat) (hn : n.length = a.group.dim)
    (hH : a.group.group.sub (a.group.group.parseSubgroup a.subgroup) = .ok H)
    (l0 : GroupConv α) (h0 : GroupConv.init a a.group.dim tr = .ok l0) (opt : PadOption) (kp : KerasPadding)
    (hacc : Accepted a.padding opt kp) (hg : g = none ∨ g = some (if tr then H.length else a.group.group.order)) :
    ((¬ ∀ i, i < a.group.dim → CanPad opt a.allowNonEquivariance (ownZeros tr opt (nth n i) (nth a.kernelSize i) (nth a.strides i))
        (nth n i) (nth a.kernelSize i) (nth a.strides i)) →
      l0.build (inputShape .channelsLast b n g C) k0 b0 = .error (if opt = .sameEquiv then .attribute else .value)) ∧
    ((∀ i, i < a.group.dim → CanPad opt a.allowNonEquivariance (ownZeros tr opt (nth n i) (nth a.kernelSize i) (nth a.strides i))
        (nth n i) (nth a.kernelSize i) (nth a.strides i)) →
      ¬ a.group.Grid a.kernelSize ∨ (tr = false ∧ kp = .valid ∧ ∃ i, i < a.group.dim ∧
        nth n i + nth a.strides i < dilated (nth a.kernelSize i) (nth a.dilation i)) →
      l0.build (inputShape .channelsLast b n g C) k0 b0 = .error .value) := by
  have hcan : ∀ {opt : PadOption} {allow : Bool} {own n k s : Nat}, CanPad opt allow own n k s ↔
      if opt = .same ∨ opt = .valid then allow = true ∨ Symmetric n k s own else ∃ T, Symmetric n k s T := by
    intro opt allow own n k s
    cases opt <;> simp [CanPad]
  have hb := builds_iff a tr hf b n g C k0 b0 H hn hH
  obtain ⟨ho, hk⟩ := (accepted_iff _ _ _).2 hacc
  obtain ⟨s, hs, hsub⟩ := parse_sub hH
  have h0' := h0
  obtain ⟨s', m, opt', kp', e1, e2, e3, e4, e5, e6, e7, e8, e9, rfl⟩ := conv_init_inv h0
  rw [hs] at e1; cases e1
  rw [ho] at e3; cases e3
  rw [hk] at e4; cases e4
  rw [← groupDict_name e2] at hsub
  have hfits : (EquivariantPadding.mk opt a.allowNonEquivariance a.group.dim a.strides a.kernelSize true tr).Fits n :=
    ⟨hn.symm, by rw [hn]; exact e5, by rw [hn]; exact e6, fun s hs => Nat.pos_of_ne_zero fun h => e9 (h ▸ hs)⟩
  have hpad := padBuild_iff (EquivariantPadding.mk opt a.allowNonEquivariance a.group.dim a.strides a.kernelSize true tr) b
    (some (chanO g C)) hfits
  have hown := a.group.sym.tab.own
  have hgl : g = none ∨ g = some (domainOf a.group tr H).length := by
    cases tr
    · simpa [domainOf] using hg
    · simpa [domainOf] using hg
  have hord : ∀ g', g = some g' → (initTransforms a.toGroupArgs m opt a.group.dim tr).orderOf
      (initTransforms a.toGroupArgs m opt a.group.dim tr).domainGroup = .ok g' := by
    intro g' hg'
    rw [hg'] at hgl
    have hgl : g' = (domainOf a.group tr H).length := by
      rcases hgl with h | h
      · cases h
      · cases h; rfl
    have hd : a.group.group.sub (some (if tr then m.group.name else a.group.group.name)) = .ok (domainOf a.group tr H) := by
      cases tr
      · exact hown
      · exact hsub
    unfold GroupTransforms.orderOf
    show (a.group.group.sub (some (if tr then m.group.name else a.group.group.name)) >>= _) = _
    rw [hd, hgl]
    rfl
  constructor
  · intro hnot
    cases hst : (EquivariantPadding.mk opt a.allowNonEquivariance a.group.dim a.strides a.kernelSize true tr).build
        (signalShape true b (some (chanO g C)) n) with
    | ok st =>
      refine absurd (fun i hi => ?_) hnot
      rw [hcan]
      exact hpad.1 ⟨st, hst⟩ i (by rw [hn]; exact hi)
    | error e =>
      have he := padBuild_error _ b (some (chanO g C)) hfits hst
      have := transforms_build_last_error (a := a.toGroupArgs) (C := C) hf hn hst hord
      unfold GroupConv.build
      simp only [this, res_bind_error, he]
  · intro hall hbad
    obtain ⟨st, hst⟩ := hpad.2 (fun i hi => by
      have := hall i (by rw [← hn]; exact hi)
      rw [hcan] at this
      exact this)
    obtain ⟨t, ht⟩ := transforms_build_last_ok (a := a.toGroupArgs) (C := C) hf hn hst hord
    obtain ⟨st', -, -, htt⟩ := transforms_build_last (a := a.toGroupArgs) hf hn ht
    have hgood : t.Good a.group (actingOf a.group tr H) (domainOf a.group tr H) := by
      rw [htt]
      refine ⟨rfl, rfl, ?_, ?_⟩
      · cases tr
        · exact hsub
        · exact hown
      · cases g with
        | none => left; exact ⟨rfl, rfl⟩
        | some g =>
          right
          refine ⟨rfl, _, rfl, ?_⟩
          cases tr
          · exact hown
          · exact hsub
    have hgv : t.groupValuedInput = g.isSome := by rw [htt]
    have htr : t.transpose = tr := by rw [htt]; rfl
    have hre : t.reshapedInput = signalShape true b (some (chanO g C)) n := by rw [htt]
    have hchan : chan g.isSome (domainOf a.group tr H) C = chanO g C := by
      cases g with
      | none => rfl
      | some g =>
        rcases hgl with h | h
        · cases h
        · cases h; simp [chan, chanO]
    have hch : channelsOf a.dataFormat (signalShape true b (some (chanO g C)) n) = .ok (chanO g C) := by
      rw [hf]
      unfold channelsOf channelAxis signalShape
      simp
    -- it fails
    have hfail : ∀ l, ({ transforms := initTransforms a.toGroupArgs m opt a.group.dim tr
                         kernelSize := a.kernelSize
                         strides := a.strides
                         dilation := a.dilation
                         padding := kp
                         dataFormat := a.dataFormat
                         useBias := a.useBias
                         activation := a.activation
                         filters := a.filters } : GroupConv α).build (inputShape .channelsLast b n g C) k0 b0 ≠ .ok l := by
      intro l hl
      obtain ⟨opt2, kp2, hacc2, -, -, hgr, -, hlong⟩ := hb.1 ⟨l, ⟨_, h0', by
        rw [show inputShape a.dataFormat b n g C = inputShape .channelsLast b n g C by rw [hf]]
        exact hl⟩, hn, hH⟩
      have hkk : kp2 = kp := by
        have := ((accepted_iff _ _ _).2 hacc2).2.symm.trans hk
        cases this; rfl
      subst hkk
      rcases hbad with hbad | ⟨htr, hv, i, hi, hlt⟩
      · exact hbad hgr
      · have := hlong htr hv i hi
        omega
    -- and only with ValueError
    unfold GroupConv.build at hfail ⊢
    simp only [ht, res_bind_ok, hre, hch, htr] at hfail ⊢
    cases hos : ({ transforms := t
                   kernelSize := a.kernelSize
                   strides := a.strides
                   dilation := a.dilation
                   padding := kp
                   dataFormat := a.dataFormat
                   useBias := a.useBias
                   activation := a.activation
                   filters := a.filters } : GroupConv α).computeOutputShape (signalShape true b (some (chanO g C)) n) with
    | error e =>
      rw [res_bind_error]
      unfold GroupConv.computeOutputShape at hos
      simp only [htr, hre] at hos
      cases tr with
      | false =>
        simp only [Bool.false_eq_true, if_false] at hos
        cases hco : convOutputShape a.dataFormat kp a.kernelSize a.strides a.dilation a.filters
            (signalShape true b (some (chanO g C)) n) with
        | error e' =>
          rw [hco, res_bind_error] at hos
          cases hos
          rw [convOutputShape_error hco]
        | ok o =>
          rw [hco, res_bind_ok] at hos
          exact absurd hos (by simp)
      | true =>
        have hlen : (signalShape true b (some (chanO g C)) n).length = a.strides.length + 2 := by
          simp [signalShape, hn, e6]
        simp only [if_true, hf, convTransposeOutputShape, hlen, ne_eq, not_true_eq_false, if_false, res_bind_ok] at hos
        exact absurd hos (by simp)
    | ok os =>
      rw [hos, res_bind_ok] at hfail
      rw [res_bind_ok]
      cases hbc : t.buildConv (⟨a.kernelSize ++ (if tr then [a.filters, chanO g C] else [chanO g C, a.filters]), k0⟩ : Tensor α)
          (if a.useBias then some ⟨[a.filters], b0⟩ else none) with
      | ok t2 =>
        rw [hbc, res_bind_ok] at hfail
        exact absurd rfl (hfail _)
      | error e =>
        rw [res_bind_error]
        unfold GroupTransforms.buildConv at hbc
        have hki' : t.computeTransformedKernelIndices (⟨a.kernelSize ++ (if tr then [a.filters, chanO g C] else [chanO g C, a.filters]), k0⟩ :
            Tensor α) = .error e := by
          cases hki : t.computeTransformedKernelIndices (⟨a.kernelSize ++ (if tr then [a.filters, chanO g C] else [chanO g C, a.filters]), k0⟩ :
              Tensor α) with
          | ok I =>
            cases hu : a.useBias
            · simp only [hu, Bool.false_eq_true, if_false, hki, res_bind_ok] at hbc
              exact absurd hbc (by simp)
            · obtain ⟨J, hJ, -⟩ := repeatBias_ok hgood (bias := (⟨[a.filters], b0⟩ : Tensor α)) rfl
              simp only [hu, if_true, hJ, Except.map, hki, res_bind_ok] at hbc
              exact absurd hbc (by simp)
          | error e' =>
            cases hu : a.useBias
            · simp only [hu, Bool.false_eq_true, if_false, hki, res_bind_ok, res_bind_error] at hbc
              cases hbc; rfl
            · obtain ⟨J, hJ, -⟩ := repeatBias_ok hgood (bias := (⟨[a.filters], b0⟩ : Tensor α)) rfl
              simp only [hu, if_true, hJ, Except.map, hki, res_bind_ok, res_bind_error] at hbc
              cases hbc; rfl
        rw [kernelIndices_error hgood e5 htr (by rw [hgv]; exact hchan) hki']

/-- C75: a pooling layer (channels_last, the group axis having the right size) that cannot be built raises ValueError, with
'same_equiv' AttributeError (C38). -/
theorem C75_pool_build (a : PoolArgs) (hf : a.dataFormat = .channelsLast) (b : Option Nat) (n : List Nat) (C : Nat)
    (hn : n.length = a.group.dim) (l0 : GroupPooling) (h0 : GroupPooling.init a a.group.dim = .ok l0) (opt : PadOption)
    (hopt : formatPaddingOption a.padding = .ok opt)
    (hbad : ¬ ∀ i, i < a.group.dim → CanPad opt a.allowNonEquivariance
      (builtIn opt (nth n i) (nth a.poolSize i) (nth a.paddingStrides i)) (nth n i) (nth a.poolSize i) (nth a.paddingStrides i)) :
    l0.build (inputShape .channelsLast b n (some a.group.group.order) C) = .error (if opt = .sameEquiv then .attribute else .value) := by
  have hcan : ∀ {opt : PadOption} {allow : Bool} {own n k s : Nat}, CanPad opt allow own n k s ↔
      if opt = .same ∨ opt = .valid then allow = true ∨ Symmetric n k s own else ∃ T, Symmetric n k s T := by
    intro opt allow own n k s
    cases opt <;> simp [CanPad]
  have hz : ∀ opt n k s, ownZeros false opt n k s = builtIn opt n k s := by
    intro opt n k s; cases opt <;> rfl
  obtain ⟨s', m, opt', kp', e1, e2, e3, e4, e5, e6, e7, e8, rfl⟩ := pool_init_inv h0
  rw [hopt] at e3; cases e3
  have hps : a.paddingStrides.length = a.group.dim ∧ 0 ∉ a.paddingStrides := by
    unfold PoolArgs.paddingStrides
    unfold PoolArgs.windowStrides at e6 e8
    cases hs : a.strides with
    | none => simp
    | some s => rw [hs] at e6 e8; exact ⟨e6, e8⟩
  have hfits : (EquivariantPadding.mk opt a.allowNonEquivariance a.group.dim a.paddingStrides a.poolSize true false).Fits n :=
    ⟨hn.symm, by rw [hn]; exact e5, by rw [hn]; exact hps.1, fun s hs => Nat.pos_of_ne_zero fun h => hps.2 (h ▸ hs)⟩
  cases hst : (EquivariantPadding.mk opt a.allowNonEquivariance a.group.dim a.paddingStrides a.poolSize true false).build
      (signalShape true b (some (a.group.group.order * C)) n) with
  | ok st =>
    refine absurd (fun i hi => ?_) hbad
    rw [hcan, ← hz]
    exact (padBuild_iff _ b (some (a.group.group.order * C)) hfits).1 ⟨st, hst⟩ i (by rw [hn]; exact hi)
  | error e =>
    have he := padBuild_error _ b (some (a.group.group.order * C)) hfits hst
    have := transforms_build_last_error (a := ⟨a.group, a.subgroup, a.poolSize,
      a.strides.getD (List.replicate a.group.dim 1), a.padding, a.allowNonEquivariance, a.dataFormat⟩)
      (g := some a.group.group.order) (m := m) (opt := opt) (tr := false) (C := C) hf hn hst (by
        intro g' hg'
        cases hg'
        unfold GroupTransforms.orderOf
        have : a.group.group.sub (some a.group.group.name) = .ok (List.range a.group.group.order) := a.group.sym.tab.own
        show (a.group.group.sub (some a.group.group.name) >>= _) = _
        rw [this]
        simp [res_bind_ok, res_pure])
    unfold GroupPooling.build
    rw [this, res_bind_error, he]

/-- A layer with kernels of size 9 and 'valid' padding on images of size 5: constructed, and refused with ValueError when it is
built. -/
example : ∃ l0, GroupConv.init { p4Args with kernelSize := [9, 9], padding := "valid", allowNonEquivariance := true } 2 false = .ok l0 ∧
    l0.build (inputShape .channelsLast none [5, 5] none 3) (fun _ => 1) (fun _ => 0) = .error .value := by
  obtain ⟨l0, h0⟩ : ∃ l0, GroupConv.init { p4Args with kernelSize := [9, 9], padding := "valid", allowNonEquivariance := true } 2 false =
    .ok l0 := ⟨_, rfl⟩
  refine ⟨l0, h0, (C75_build _ false rfl none [5, 5] none 3 _ _ [0, 1, 2, 3] rfl rfl l0 h0 .valid .valid
    (C39_documented_names ("valid", .valid, .valid) (by decide)) (Or.inl rfl)).2 (fun i _ => Or.inl rfl)
    (Or.inr ⟨rfl, rfl, 0, by decide, by decide⟩)⟩

/-- Strides 2 and kernels of size 3 on images of size 8 with 'valid': ValueError. -/
example : ∃ l0, GroupConv.init { p4Args with strides := [2, 2], padding := "valid" } 2 false = .ok l0 ∧
    l0.build (inputShape .channelsLast none [8, 8] none 3) (fun _ => 1) (fun _ => 0) = .error .value := by
  obtain ⟨l0, h0⟩ : ∃ l0, GroupConv.init { p4Args with strides := [2, 2], padding := "valid" } 2 false = .ok l0 := ⟨_, rfl⟩
  refine ⟨l0, h0, (C75_build _ false rfl none [8, 8] none 3 _ _ [0, 1, 2, 3] rfl rfl l0 h0 .valid .valid
    (C39_documented_names ("valid", .valid, .valid) (by decide)) (Or.inl rfl)).1 fun h => ?_⟩
  rcases h 0 (by decide) with h | ⟨-, h⟩
  · exact absurd h (by decide)
  · exact absurd h (by decide)

end GroCo
