import Verif.Config
import Verif.RebuildLemmas

/-
Property C38: configurations, and building twice.
-/

namespace GroCo

variable {α : Type}

/-! ### get_config -/

/-- C38 as stated, for configurations: every convolution and pooling layer that can be constructed returns one. -/
def LayersHaveConfigs : Prop :=
  ∀ (a : PoolArgs) (l : GroupPooling) (keras : Config), GroupPooling.init a a.group.dim = .ok l →
    ∃ c, l.getConfig keras = .ok c

/-- C38 fails for every convolution, transposed convolution and pooling layer: get_config raises AttributeError. -/
theorem C38_violation_get_config (l : GroupConv α) (p : GroupPooling) (keras : Config) :
    l.getConfig keras = .error .attribute ∧ p.getConfig keras = .error .attribute := ⟨rfl, rfl⟩

/-- a pooling layer that can be constructed -/
def configPool : PoolArgs :=
  { group := .P4, subgroup := some "", poolType := .max, poolSize := [2, 2], strides := none, padding := "valid_equiv",
    allowNonEquivariance := false, dataFormat := .channelsLast }

theorem C38_violation : ¬ LayersHaveConfigs := by
  intro h
  obtain ⟨c, hc⟩ := h configPool _ [] rfl
  cases hc

/-- C38 holds for global group pooling: its class called with the configuration gives an equal layer. -/
theorem C38_global_pooling_partial (l : GlobalGroupPooling) :
    GlobalGroupPooling.fromConfig l.dimensions l.poolType l.getConfig = .ok l := rfl

/-- C38 for the entries `group` and `subgroup`, which are computed before get_config fails: constructed with them, and with the other
arguments as they were, the part of a layer that the library adds is the same. Missing: the other entries, see
C38_violation_get_config. -/
theorem C38_group_entries_partial (a : GroupArgs) (d : Nat) (tr : Bool) (t : GroupTransforms) (h : GroupTransforms.init a d tr = .ok t) :
    ∃ G s, lookup t.groupConfig "group" = .ok (.group G) ∧ lookup t.groupConfig "subgroup" = .ok (.str s) ∧
      GroupTransforms.init { a with group := G, subgroup := some s } d tr = .ok t := by
  refine ⟨t.group, t.subgroup.group.name, rfl, rfl, ?_⟩
  have hne : ∀ n : GroupName, n.group.name ≠ "" := by intro n; cases n <;> decide +kernel
  have hd : ∀ n : GroupName, groupDict n.group.name = .ok n := by intro n; cases n <;> rfl
  unfold GroupTransforms.init at h
  dsimp only at h
  split at h
  · cases h
  obtain ⟨n, hn, h⟩ := bind_eq_ok h
  obtain ⟨o, ho, h⟩ := bind_eq_ok h
  cases h
  unfold GroupTransforms.init
  simp only [parse_nonempty _ (hne n), hd, ho]
  rfl

/-- hypotheses are met, and the entries are not those of the arguments: the subgroup "" is written as "P4" -/
example : ∃ t, GroupTransforms.init ⟨.P4, some "", [3, 3], [1, 1], "same_equiv", false, .channelsLast⟩ 2 false = .ok t ∧
    t.groupConfig = [("group", .group .P4), ("subgroup", .str "P4")] := ⟨_, rfl, rfl⟩

/-- and with a proper subgroup they are different -/
example : ∃ t, GroupTransforms.init ⟨.P4M, some "PMh", [3, 3], [1, 1], "same_equiv", false, .channelsLast⟩ 2 false = .ok t ∧
    t.groupConfig = [("group", .group .P4M), ("subgroup", .str "PMh")] := ⟨_, rfl, rfl⟩

/-! ### building twice -/

/-- C38 as stated, for building: a built layer built again on the same shape is unchanged. -/
def RebuildUnchanged : Prop :=
  ∀ (a : PoolArgs) (shape : List (Option Nat)) (l0 l : GroupPooling), GroupPooling.init a a.group.dim = .ok l0 →
    l0.build shape = .ok l → l.build shape = .ok l

/-- C38 for building holds for pooling layers with channels first and for inputs without a group axis, and more generally:
building again, on any shape with the same number of axes, gives what building the unbuilt layer on that shape gives. -/
theorem C38_rebuild_partial (l0 l : GroupPooling) (s1 s2 : List (Option Nat)) (h : l0.build s1 = .ok l)
    (hl : s1.length = s2.length)
    (hf : l0.transforms.dataFormat = .channelsFirst ∨ s1.length ≠ l0.transforms.dimensions + 3) :
    l.build s2 = l0.build s2 ∧ (s1 = s2 → l.build s2 = .ok l) := by
  have key : l.build s2 = l0.build s2 := by
    obtain ⟨t, I, ht, rfl⟩ := pool_build_inv h
    unfold GroupPooling.build
    dsimp only
    rw [build_poolingIndices, transforms_rebuild ht hl hf]
    cases l0.transforms.build s2 with
    | error e => rfl
    | ok u => rfl
  exact ⟨key, fun e => by rw [key, ← e]; exact h⟩

/-- The same for the part of a convolution layer that the library adds to the Keras layer; building the Keras layer a
second time is refused by Keras. -/
theorem C38_rebuild_transforms_partial (t0 t : GroupTransforms) (s1 s2 : List (Option Nat)) (h : t0.build s1 = .ok t)
    (hl : s1.length = s2.length) (hf : t0.dataFormat = .channelsFirst ∨ s1.length ≠ t0.dimensions + 3) :
    t.build s2 = t0.build s2 := transforms_rebuild h hl hf

/-- C38 for building fails for every pooling layer with channels last on inputs with a group axis: the second time, IndexError
is raised. -/
theorem C38_violation_rebuild_pooling (a : PoolArgs) (d : Nat) (s : List (Option Nat)) (l0 l : GroupPooling)
    (hi : GroupPooling.init a d = .ok l0) (h : l0.build s = .ok l) (hf : a.dataFormat = .channelsLast)
    (hs : s.length = d + 3) : l.build s = .error .index := by
  obtain ⟨_, m, opt, kp, -, -, -, -, -, -, -, -, rfl⟩ := pool_init_inv hi
  obtain ⟨t, I, ht, rfl⟩ := pool_build_inv h
  unfold GroupPooling.build
  dsimp only
  rw [build_poolingIndices, transforms_rebuild_last ht hf hs (by simp [initTransforms, hf])]
  rfl

/-- So does it for every convolution and transposed convolution layer, before Keras is asked. -/
theorem C38_violation_rebuild_convolution (a : ConvArgs α) (d : Nat) (tr : Bool) (s : List (Option Nat))
    (k0 b0 k1 b1 : List Nat → α) (l0 l : GroupConv α) (hi : GroupConv.init a d tr = .ok l0) (h : l0.build s k0 b0 = .ok l)
    (hf : a.dataFormat = .channelsLast) (hs : s.length = d + 3) :
    l.transforms.build s = .error .index ∧ l.build s k1 b1 = .error .index := by
  obtain ⟨_, m, opt, kp, -, -, -, -, -, -, -, -, -, rfl⟩ := conv_init_inv hi
  obtain ⟨t, I, J, ht, hl⟩ := conv_build_inv h
  have : l.transforms.build s = .error .index := by
    rw [hl, build_convIndices, transforms_rebuild_last ht hf hs (by simp [initTransforms, hf])]
    rfl
  refine ⟨this, ?_⟩
  unfold GroupConv.build
  rw [this]
  rfl

/-- a convolution layer that can be constructed and built -/
def configConv : ConvArgs Int :=
  { group := .P4, subgroup := some "P2", kernelSize := [3, 3], strides := [1, 1], padding := "valid",
    allowNonEquivariance := false, dataFormat := .channelsLast, filters := 1, dilation := [1, 1], useBias := true,
    activation := id }

/-- the hypotheses can be met -/
example : ∃ l, (GroupConv.init configConv 2 false >>= fun l0 =>
    l0.build [none, some 3, some 3, some 4, some 1] (fun _ => 1) (fun _ => 0)) = .ok l := ⟨_, rfl⟩

/-- A layer built on inputs without a group axis cannot be built on inputs with one: KeyError. -/
theorem C38_rebuild_with_group_axis (l0 l : GroupPooling) (s1 s2 : List (Option Nat)) (h : l0.build s1 = .ok l)
    (h1 : s1.length ≠ l0.transforms.dimensions + 3) (h2 : s2.length = l0.transforms.dimensions + 3) :
    l.build s2 = .error .key := by
  obtain ⟨t, I, ht, rfl⟩ := pool_build_inv h
  obtain ⟨r, st, rfl⟩ := transforms_build_inv ht
  unfold GroupPooling.build
  rw [transforms_build_eq]
  simp only [h1, h2, if_true, if_false, reshapedOf]
  rfl

/-- the hypotheses can be met: a layer with channels last and one with channels first, built on inputs with a group axis -/
theorem C38_violation_rebuild : ¬ RebuildUnchanged := by
  intro h
  obtain ⟨l, hl⟩ : ∃ l, (GroupPooling.init configPool 2 >>= fun l0 => l0.build [none, some 4, some 4, some 4, some 1]) = .ok l :=
    ⟨_, rfl⟩
  obtain ⟨l0, h0, hl⟩ := bind_eq_ok hl
  have := h configPool _ l0 l h0 hl
  rw [C38_violation_rebuild_pooling configPool 2 _ l0 l h0 hl rfl rfl] at this
  cases this

example : ∃ l0 l, GroupPooling.init { configPool with dataFormat := .channelsFirst } 2 = .ok l0 ∧
    l0.build [none, some 1, some 4, some 4, some 4] = .ok l ∧ l0.transforms.dataFormat = .channelsFirst :=
  ⟨_, _, rfl, rfl, rfl⟩

example : ∃ l0 l, GroupPooling.init configPool 2 = .ok l0 ∧ l0.build [none, some 4, some 4, some 1] = .ok l ∧
    [none, some 4, some 4, some 1].length ≠ l0.transforms.dimensions + 3 :=
  ⟨_, _, rfl, rfl, by decide⟩

end GroCo
