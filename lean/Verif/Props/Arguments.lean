import Verif.RawLemmas
import Verif.LayerSpec
import Verif.PoolSpec
import Verif.Props.Dictionary

/-!
C47: ways of writing the arguments.
-/

namespace GroCo

variable {α : Type}

/-- a size as a tuple with one entry per dimension -/
def SizeArg.asTuple (d : Nat) : SizeArg → List Nat
  | .int n => List.replicate d n
  | .tuple l => l
  | .list l => l

/-- The same arguments in full, sizes as tuples, the group as an object: what is left out has the documented default. -/
def RawConv.inFull (r : RawConv α) (g : GroupName) (d : Nat) (image : DataFormat) : ConvArgs α where
  group := g
  subgroup := r.subgroup.getD (some "")
  kernelSize := r.kernelSize.asTuple d
  strides := ((r.strides.map (SizeArg.asTuple d)).getD (List.replicate d 1))
  padding := r.padding.getD "valid_equiv"
  allowNonEquivariance := r.allowNonEquivariance.getD false
  dataFormat := r.dataFormat.getD image
  filters := r.filters
  dilation := ((r.dilation.map (SizeArg.asTuple d)).getD (List.replicate d 1))
  useBias := r.useBias.getD true
  activation := r.activation.getD id

def RawPool.inFull (r : RawPool) (g : GroupName) (d : Nat) (image : DataFormat) : PoolArgs where
  group := g
  subgroup := r.subgroup.getD (some "")
  poolType := r.poolType
  poolSize := ((r.poolSize.map (SizeArg.asTuple d)).getD (List.replicate d 2))
  strides := (r.strides.getD none).map (SizeArg.asTuple d)
  padding := r.padding.getD "valid_equiv"
  allowNonEquivariance := r.allowNonEquivariance.getD false
  dataFormat := r.dataFormat.getD image

/-- the kernel size or the strides are written as a list -/
def RawConv.usesList (r : RawConv α) : Prop := (∃ l, r.kernelSize = .list l) ∨ ∃ l, r.strides = some (.list l)

def RawPool.usesList (r : RawPool) : Prop := (∃ l, r.poolSize = some (.list l)) ∨ ∃ l, r.strides = some (some (.list l))

/-- the group is written as an object or by its name -/
def GroupArg.Denotes (x : GroupArg) (g : GroupName) : Prop := x = .object g ∨ x = .name g.group.name

theorem GroupArg.Denotes.resolved {x : GroupArg} {g : GroupName} (h : x.Denotes g) : x.resolve = .ok g := by
  rcases h with rfl | rfl
  · rfl
  · cases g <;> rfl

/-- C47 as stated, for convolutions: the layer is the one constructed with everything in full. -/
def ArgumentsEquivalent (α : Type) : Prop :=
  ∀ (r : RawConv α) (g : GroupName) (tr : Bool) (image : DataFormat) (shape : List (Option Nat)) (k0 b0 : List Nat → α)
    (l : GroupConv α), r.group.Denotes g →
    ((∃ l0, r.init g.dim tr image = .ok l0 ∧ l0.build shape k0 b0 = .ok l) ↔
      ∃ l0, GroupConv.init (r.inFull g g.dim image) g.dim tr = .ok l0 ∧ l0.build shape k0 b0 = .ok l)

/-- C47 holds for convolutions unless `data_format` is left out and Keras is configured for channels_first; if the kernel
size or strides are a list, exactly the layers that need no padding can be built. -/
theorem C47_convolution_partial (r : RawConv α) {g : GroupName} (hg : r.group.Denotes g) (d : Nat) (hd : 0 < d) (tr : Bool)
    (image : DataFormat) (hf : r.dataFormat ≠ none ∨ image = .channelsLast) (shape : List (Option Nat))
    (k0 b0 : List Nat → α) (l : GroupConv α) :
    (∃ l0, r.init d tr image = .ok l0 ∧ l0.build shape k0 b0 = .ok l) ↔
      (∃ l0, GroupConv.init (r.inFull g d image) d tr = .ok l0 ∧ l0.build shape k0 b0 = .ok l) ∧
        (r.usesList → l.transforms.padState.needsPadding = false) := by
  have hfmt : r.dataFormat.getD .channelsLast = r.dataFormat.getD image := by
    cases hr : r.dataFormat with
    | some f => rfl
    | none =>
      rcases hf with h | rfl
      · exact absurd hr h
      · rfl
  have e1 : (r.strides.getD (.int 1)).standardize d = (r.strides.map (SizeArg.asTuple d)).getD (List.replicate d 1) := by
    cases r.strides with
    | none => rfl
    | some s => cases s <;> rfl
  have e2 : (r.dilation.getD (.int 1)).standardize d = (r.dilation.map (SizeArg.asTuple d)).getD (List.replicate d 1) := by
    cases r.dilation with
    | none => rfl
    | some s => cases s <;> rfl
  have e3 : r.kernelSize.standardize d = r.kernelSize.asTuple d := by cases r.kernelSize <;> rfl
  have hu : (r.kernelSize.isList ∨ (r.strides.getD (.int 1)).isList) ↔ r.usesList := by
    unfold RawConv.usesList
    cases r.kernelSize <;> cases r.strides with
      | none => simp [SizeArg.isList]
      | some s => cases s <;> simp [SizeArg.isList]
  have hin : r.init d tr image = (GroupConv.init (r.inFull g d image) d tr >>= fun l =>
      (.ok ⟨makePadding l.transforms.equivariantPadding.paddingOption (r.allowNonEquivariance.getD false) d
        (r.strides.getD (.int 1)) r.kernelSize tr, { l with dataFormat := r.dataFormat.getD image }⟩ :
        Res (RawLayer (GroupConv α)))) := by
    unfold RawConv.init
    rw [hg.resolved, res_bind_ok, hfmt, e1, e2, e3]
    rfl
  have hbuild : ∀ c0, GroupConv.init (r.inFull g d image) d tr = .ok c0 →
      ((⟨makePadding c0.transforms.equivariantPadding.paddingOption (r.allowNonEquivariance.getD false) d
        (r.strides.getD (.int 1)) r.kernelSize tr, { c0 with dataFormat := r.dataFormat.getD image }⟩ :
        RawLayer (GroupConv α)).build shape k0 b0 = .ok l ↔
      c0.build shape k0 b0 = .ok l ∧ (r.usesList → l.transforms.padState.needsPadding = false)) := by
    intro c0 hc0
    have hsame : { c0 with dataFormat := r.dataFormat.getD image } = c0 ∧ c0.transforms.equivariantPadding =
        ⟨c0.transforms.equivariantPadding.paddingOption, r.allowNonEquivariance.getD false, d,
          (r.strides.getD (.int 1)).standardize d, r.kernelSize.standardize d, true, tr⟩ := by
      obtain ⟨s, m, opt, kp, -, -, -, -, -, -, -, -, -, rfl⟩ := conv_init_inv hc0
      rw [e1, e3]
      exact ⟨rfl, rfl⟩
    unfold RawLayer.build
    dsimp only
    rw [hsame.1]
    constructor
    · intro h
      obtain ⟨c, hc, h⟩ := bind_eq_ok h
      obtain ⟨st, hst, h⟩ := bind_eq_ok h
      have hp := conv_padState hc
      rw [hsame.2] at hp
      rw [makePadding_build _ _ hd, hp] at hst
      obtain ⟨hst, hn⟩ := hst
      cases hst
      cases h
      exact ⟨hc, fun h => hn (hu.2 h)⟩
    · rintro ⟨hc, hn⟩
      have hp := conv_padState hc
      rw [hsame.2] at hp
      rw [hc, res_bind_ok, (makePadding_build _ _ hd _ _ _ _ _).2 ⟨hp, fun h => hn (hu.1 h)⟩]
      rfl
  rw [hin]
  constructor
  · rintro ⟨l0, h0, h1⟩
    obtain ⟨c0, hc, h0⟩ := bind_eq_ok h0
    cases h0
    obtain ⟨h2, h3⟩ := (hbuild c0 hc).1 h1
    exact ⟨⟨c0, hc, h2⟩, h3⟩
  · rintro ⟨⟨c0, hc, hb⟩, hn⟩
    exact ⟨_, by rw [hc]; rfl, (hbuild c0 hc).2 ⟨hb, hn⟩⟩

/-- C47 holds for pooling layers with the same exceptions, unless the strides are an explicit `None`. -/
theorem C47_pooling_partial (r : RawPool) {g : GroupName} (hg : r.group.Denotes g) (d : Nat) (hd : 0 < d)
    (image : DataFormat) (hf : r.dataFormat ≠ none ∨ image = .channelsLast) (hs : r.strides ≠ some none)
    (shape : List (Option Nat)) (l : GroupPooling) :
    (∃ l0, r.init d image = .ok l0 ∧ l0.buildPool shape = .ok l) ↔
      (∃ l0, GroupPooling.init (r.inFull g d image) d = .ok l0 ∧ l0.build shape = .ok l) ∧
        (r.usesList → l.transforms.padState.needsPadding = false) := by
  have hfmt : r.dataFormat.getD .channelsLast = r.dataFormat.getD image := by
    cases hr : r.dataFormat with
    | some f => rfl
    | none =>
      rcases hf with h | rfl
      · exact absurd hr h
      · rfl
  obtain ⟨t, ht⟩ : ∃ t : Option SizeArg, r.givenStrides = .ok t ∧ r.strides.getD none = t ∧
      (∀ l, t = some (.list l) ↔ r.strides = some (some (.list l))) := by
    unfold RawPool.givenStrides
    cases hr : r.strides with
    | none => exact ⟨none, rfl, rfl, by simp⟩
    | some o =>
      cases o with
      | none => exact absurd hr hs
      | some v => exact ⟨some v, rfl, rfl, by simp⟩
  obtain ⟨ht1, ht2, ht3⟩ := ht
  have e1 : t.map (SizeArg.standardize d) = t.map (SizeArg.asTuple d) := by
    cases t with
    | none => rfl
    | some s => cases s <;> rfl
  have e2 : (t.map (SizeArg.asTuple d)).getD (List.replicate d 1) = (t.getD (.int 1)).standardize d := by
    cases t with
    | none => rfl
    | some s => cases s <;> rfl
  have e3 : (r.poolSize.getD (.int 2)).standardize d = (r.poolSize.map (SizeArg.asTuple d)).getD (List.replicate d 2) := by
    cases r.poolSize with
    | none => rfl
    | some s => cases s <;> rfl
  have hu : ((r.poolSize.getD (.int 2)).isList ∨ (t.getD (.int 1)).isList) ↔ r.usesList := by
    unfold RawPool.usesList
    simp only [← ht3]
    cases r.poolSize with
    | none =>
      cases t with
      | none => simp [SizeArg.isList]
      | some s => cases s <;> simp [SizeArg.isList]
    | some k =>
      cases t with
      | none => cases k <;> simp [SizeArg.isList]
      | some s => cases k <;> cases s <;> simp [SizeArg.isList]
  have hin : r.init d image = (GroupPooling.init (r.inFull g d image) d >>= fun l =>
      (.ok ⟨makePadding l.transforms.equivariantPadding.paddingOption (r.allowNonEquivariance.getD false) d
        (t.getD (.int 1)) (r.poolSize.getD (.int 2)) false, { l with dataFormat := r.dataFormat.getD image }⟩ :
        Res (RawLayer GroupPooling))) := by
    unfold RawPool.init
    rw [hg.resolved, res_bind_ok, ht1, res_bind_ok]
    dsimp only
    rw [hfmt, e1, e3, ← ht2]
    rfl
  have hbuild : ∀ c0, GroupPooling.init (r.inFull g d image) d = .ok c0 →
      ((⟨makePadding c0.transforms.equivariantPadding.paddingOption (r.allowNonEquivariance.getD false) d
        (t.getD (.int 1)) (r.poolSize.getD (.int 2)) false, { c0 with dataFormat := r.dataFormat.getD image }⟩ :
        RawLayer GroupPooling).buildPool shape = .ok l ↔
      c0.build shape = .ok l ∧ (r.usesList → l.transforms.padState.needsPadding = false)) := by
    intro c0 hc0
    have hsame : { c0 with dataFormat := r.dataFormat.getD image } = c0 ∧ c0.transforms.equivariantPadding =
        ⟨c0.transforms.equivariantPadding.paddingOption, r.allowNonEquivariance.getD false, d,
          (t.getD (.int 1)).standardize d, (r.poolSize.getD (.int 2)).standardize d, true, false⟩ := by
      obtain ⟨s, m, opt, kp, -, -, -, -, -, -, -, -, rfl⟩ := pool_init_inv hc0
      rw [e3, ← e2, ← ht2]
      exact ⟨rfl, rfl⟩
    unfold RawLayer.buildPool
    dsimp only
    rw [hsame.1]
    constructor
    · intro h
      obtain ⟨c, hc, h⟩ := bind_eq_ok h
      obtain ⟨st, hst, h⟩ := bind_eq_ok h
      have hp := pool_padState hc
      rw [hsame.2] at hp
      rw [makePadding_build _ _ hd, hp] at hst
      obtain ⟨hst, hn⟩ := hst
      cases hst
      cases h
      exact ⟨hc, fun h => hn (hu.2 h)⟩
    · rintro ⟨hc, hn⟩
      have hp := pool_padState hc
      rw [hsame.2] at hp
      rw [hc, res_bind_ok, (makePadding_build _ _ hd _ _ _ _ _).2 ⟨hp, fun h => hn (hu.1 h)⟩]
      rfl
  rw [hin]
  constructor
  · rintro ⟨l0, h0, h1⟩
    obtain ⟨c0, hc, h0⟩ := bind_eq_ok h0
    cases h0
    obtain ⟨h2, h3⟩ := (hbuild c0 hc).1 h1
    exact ⟨⟨c0, hc, h2⟩, h3⟩
  · rintro ⟨⟨c0, hc, hb⟩, hn⟩
    exact ⟨_, by rw [hc]; rfl, (hbuild c0 hc).2 ⟨hb, hn⟩⟩

/-- a layer on the group P4 with sizes as integers, most arguments left out -/
def shortConv : RawConv Int := { group := .name "P4", kernelSize := .int 3, strides := some (.int 3), filters := 1 }

/-- the same with lists -/
def listConv : RawConv Int := { group := .name "P4", kernelSize := .list [3, 3], strides := some (.list [3, 3]), filters := 1 }

/-- hypotheses are met: the first can be built on 8x8 images, where it pads, the second on 9x9 images -/
example : shortConv.group.Denotes .P4 ∧
    (∃ l0 l, shortConv.init 2 false .channelsLast = .ok l0 ∧ l0.build [none, some 8, some 8, some 1] (fun _ => 1) (fun _ => 0) = .ok l ∧
      l.transforms.padState.needsPadding = true) ∧ listConv.usesList ∧
    ∃ l0 l, listConv.init 2 false .channelsLast = .ok l0 ∧ l0.build [none, some 9, some 9, some 1] (fun _ => 1) (fun _ => 0) = .ok l :=
  ⟨.inr rfl, ⟨_, _, rfl, rfl, rfl⟩, .inl ⟨_, rfl⟩, ⟨_, _, rfl, rfl⟩⟩

/-- a pooling layer with only the group given -/
def shortPool : RawPool := { group := .object .P4, poolType := .max }

example : shortPool.group.Denotes .P4 ∧ shortPool.strides ≠ some none ∧
    ∃ l0 l, shortPool.init 2 .channelsLast = .ok l0 ∧ l0.buildPool [none, some 8, some 8, some 4, some 1] = .ok l :=
  ⟨.inl rfl, by simp [shortPool], ⟨_, _, rfl, rfl⟩⟩

/-- C47 fails for lists: on 8x8 images the layer with tuples can be built, the one with lists cannot. -/
theorem C47_violation_list : ¬ ArgumentsEquivalent Int := by
  intro h
  have ht : ∃ l l0, GroupConv.init (listConv.inFull .P4 2 .channelsLast) 2 false = .ok l0 ∧
      l0.build [none, some 8, some 8, some 1] (fun _ => 1) (fun _ => 0) = .ok l ∧ l.transforms.padState.needsPadding = true :=
    ⟨_, _, rfl, rfl, rfl⟩
  obtain ⟨l, l0, h1, h2, h3⟩ := ht
  have hb := (h listConv .P4 false .channelsLast _ _ _ l (.inr rfl)).2 ⟨l0, h1, h2⟩
  have := ((C47_convolution_partial listConv (g := .P4) (.inr rfl) 2 (by decide) false .channelsLast (.inr rfl) _ _ _ l).1 hb).2
    (.inl ⟨_, rfl⟩)
  rw [h3] at this
  cases this

/-- 1x1 kernels, `data_format` left out -/
def bareConv : RawConv Int := { group := .name "PMw", kernelSize := .int 1, filters := 1, useBias := some false }

/-- C47 fails if Keras is configured for channels_first and `data_format` is left out: on one channels_first 4x4 image the
layer with the data format given returns a signal on the group, the other one silently an output of another shape. -/
theorem C47_violation_data_format : ∃ l l' : GroupConv Int,
    (∃ l0, bareConv.init 2 false .channelsFirst = .ok l0 ∧
      l0.build (inputShape .channelsFirst none [4, 4] none 1) (fun _ => 1) (fun _ => 0) = .ok l) ∧
    (∃ l0, GroupConv.init (bareConv.inFull .PMw 2 .channelsFirst) 2 false = .ok l0 ∧
      l0.build (inputShape .channelsFirst none [4, 4] none 1) (fun _ => 1) (fun _ => 0) = .ok l') ∧
      (∃ y, (l.call ⟨sigShape .channelsFirst 1 [4, 4] none 1, fun _ => 1⟩).2 = .ok y ∧ y.shape = [1, 2, 4, 2, 2]) ∧
      ∃ y', (l'.call ⟨sigShape .channelsFirst 1 [4, 4] none 1, fun _ => 1⟩).2 = .ok y' ∧ y'.shape = sigShape .channelsFirst 1 [4, 4] (some 2) 1 :=
  ⟨_, _, ⟨_, rfl, rfl⟩, ⟨_, rfl, rfl⟩, ⟨_, rfl, rfl⟩, ⟨_, rfl, rfl⟩⟩

/-- C47 fails for pooling layers given Keras's default `strides=None` explicitly: they cannot be constructed. -/
theorem C47_violation_none_strides (r : RawPool) {g : GroupName} (hg : r.group.Denotes g) (d : Nat) (image : DataFormat) :
    ({ r with strides := some none } : RawPool).init d image = .error .value := by
  unfold RawPool.init
  have : ({ r with strides := some none } : RawPool).group.resolve = .ok g := hg.resolved
  rw [this]
  rfl

/-- C47, error branch: a layer given a string that is not exactly the name of a group cannot be constructed; KeyError is
raised, whatever the other arguments are. -/
theorem C47_unknown_group (s : String) (hs : ∀ g : GroupName, g.group.name ≠ s) (d : Nat) (image : DataFormat) :
    (∀ (r : RawConv α) (tr : Bool), r.group = .name s → r.init d tr image = .error .key) ∧
    ∀ r : RawPool, r.group = .name s → r.init d image = .error .key := by
  have h : (GroupArg.name s).resolve = .error .key := (C51_group_dict s).2.2 hs
  constructor
  · intro r tr hr
    unfold RawConv.init
    rw [hr, h]; rfl
  · intro r hr
    unfold RawPool.init
    rw [hr, h]; rfl

/-- hypotheses are met by a name in small letters -/
example : ∀ g : GroupName, g.group.name ≠ "p4" := by intro g; cases g <;> decide

end GroCo
