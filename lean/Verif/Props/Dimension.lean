import Verif.Props.Axes
import Verif.ConvLemmas
import Verif.RebuildLemmas
import Verif.PoolLemmas

/-!
C62: layers and groups of different dimensions.
-/

namespace GroCo
open Tensor

/-- the full statement of C62 for convolution layers of `d` dimensions: a layer that can be built has a group that acts on `d`
dimensions, or the trivial group P1 -/
def DimensionChecked (d : Nat) : Prop :=
  ∀ (a : ConvArgs Int) (tr : Bool) (l l' : GroupConv Int) (shape : List (Option Nat)) (k0 b0 : List Nat → Int),
    GroupConv.init a d tr = .ok l → l.build shape k0 b0 = .ok l' → a.group = .P1 ∨ a.group.dim = d

/-- what is left of a successful build: the group has acted on a kernel -/
theorem build_kernel {α : Type} {a : ConvArgs α} {d : Nat} {tr : Bool} {l l' : GroupConv α} {shape : List (Option Nat)}
    {k0 b0 : List Nat → α} (hi : GroupConv.init a d tr = .ok l) (hb : l.build shape k0 b0 = .ok l') :
    ∃ (s : String) (K is : Tensor Nat), a.kernelSize.length = d ∧
      if shape.length = d + 3 then ∃ D : String,
        a.group.group.action K ((List.range d).map Int.ofNat) d (some (d : Int)) (some s) (some D) = .ok is
      else ∃ C, channelsOf a.dataFormat shape = .ok C ∧ K.shape = a.kernelSize ++ [C, a.filters] ∧
        a.group.group.action K ((List.range d).map Int.ofNat) d none (some s) none = .ok is := by
  obtain ⟨s, m, opt, kp, hs, hm, ho, hkp, hk, -, -, -, -, rfl⟩ := conv_init_inv hi
  unfold GroupConv.build at hb
  obtain ⟨t, ht, hb⟩ := bind_eq_ok hb
  obtain ⟨C, hC, hb⟩ := bind_eq_ok hb
  obtain ⟨_, -, hb⟩ := bind_eq_ok hb
  obtain ⟨t2, ht2, -⟩ := bind_eq_ok hb
  obtain ⟨J, I, -, hI, -⟩ := buildConv_inv ht2
  rw [transforms_build_eq] at ht
  obtain ⟨r, hr, ht⟩ := bind_eq_ok ht
  obtain ⟨st, -, ht⟩ := bind_eq_ok ht
  simp only at hI ht hC
  have hcore : ∃ K : Tensor Nat, K.shape = a.kernelSize ++ [C, a.filters] ∧ ∃ I, t.coreIndices K = .ok I := by
    cases htr : t.transpose with
    | false =>
      rw [core_direct t htr] at hI
      exact ⟨_, by simp [getIndexTensor, htr], I, hI⟩
    | true =>
      rw [core_transpose t htr] at hI
      obtain ⟨k2, e2, hI⟩ := bind_eq_ok hI
      obtain ⟨I2, e3, hI⟩ := bind_eq_ok hI
      obtain ⟨y, ey, hy, -⟩ := swapaxes_last (⟨a.kernelSize ++ [a.filters, C], k0⟩ : Tensor α) (K := a.kernelSize) rfl
      simp only [htr, if_true] at e2
      rw [ey] at e2
      cases e2
      exact ⟨_, hy, I2, e3⟩
  obtain ⟨K, hK, I, hI⟩ := hcore
  cases ht
  unfold GroupTransforms.coreIndices at hI
  simp only [initTransforms] at hI hr hC
  by_cases hl : shape.length = d + 3
  · simp only [hl, decide_true, not_true_eq_false, if_false, if_true] at hI
    obtain ⟨f, hf, hI⟩ := bind_eq_ok hI
    obtain ⟨K', -, hI⟩ := bind_eq_ok hI
    obtain ⟨is, his, hI⟩ := bind_eq_ok hI
    exact ⟨_, K', is, hk, by rw [if_pos hl]; exact ⟨_, his⟩⟩
  · simp only [hl, decide_false, Bool.false_eq_true, not_false_eq_true, if_true, if_false] at hI hr
    obtain ⟨is, his, hI⟩ := bind_eq_ok hI
    refine ⟨if tr = true then a.group.group.name else m.group.name, K, is, hk, ?_⟩
    rw [if_neg hl]
    refine ⟨C, ?_, hK, his⟩
    have : r = shape := by
      unfold reshapedOf at hr
      rw [if_neg hl] at hr
      cases hr
      rfl
    rw [← this]
    exact hC

theorem action_grid_error (n : GroupName) {α : Type} [Zero α] {axs : List Int}
    (h : ∀ (x : Tensor α) a, ∃ e, n.group.act α x axs a = .error e) (x : Tensor α) (a : Int) (ga : Option Int)
    (acting domain : Option String) : ∃ e, n.group.action x axs a ga acting domain = .error e := by
  have grid : ∀ (y : Tensor α) b s, ∃ e, n.group.actionOnGrid y b axs s = .error e := by
    intro y b s
    obtain ⟨e, he⟩ := h y b
    exact ⟨e, by simp only [Group.actionOnGrid, he, res_bind_error]⟩
  unfold Group.action
  simp only
  split
  · exact grid _ _ _
  · exact grid _ _ _
  · cases ga with
    | none =>
      rename_i d _ _
      cases n.group.sub (n.group.parseSubgroup acting) with
      | error e => exact ⟨e, rfl⟩
      | ok A =>
        cases n.group.sub (some d) with
        | error e => exact ⟨e, rfl⟩
        | ok D => exact ⟨.typ, rfl⟩
    | some g =>
      rename_i d _ _
      unfold Group.actionOnGroup
      cases hA : n.group.sub (n.group.parseSubgroup acting) with
      | error e => exact ⟨e, rfl⟩
      | ok A =>
        simp only [res_bind_ok]
        cases hD : n.group.sub (some d) with
        | error e => exact ⟨e, rfl⟩
        | ok D =>
          simp only [res_bind_ok]
          split
          · cases n.group.upsample x g (some d) with
            | error e => exact ⟨e, rfl⟩
            | ok y =>
              obtain ⟨e, he⟩ := grid y g (n.group.parseSubgroup acting)
              exact ⟨e, by simp only [res_bind_ok, he, res_bind_error]⟩
          · obtain ⟨e, he⟩ := grid x g (n.group.parseSubgroup acting)
            exact ⟨e, by simp only [res_bind_ok, he, res_bind_error]⟩

/-- C62, the part that holds for three-dimensional convolution layers, transposed or not, for inputs with and
without group axis and all arguments: those built have a three-dimensional group (or the trivial group P1).
Missing: two dimensions, see below, and pooling layers (`C62_violation_pooling`). -/
theorem C62_three_partial : DimensionChecked 3 := by
  intro a tr l l' shape k0 b0 hi hb
  by_contra hc
  rw [not_or] at hc
  obtain ⟨hp, hd⟩ := hc
  have hd : a.group.dim = 2 := by
    revert hd
    cases a.group <;> decide
  obtain ⟨s, K, is, -, h⟩ := build_kernel hi hb
  have key : ∀ (x : Tensor Nat) b, ∃ e, a.group.group.act Nat x ((List.range 3).map Int.ofNat) b = .error e := by
    intro x b
    generalize a.group = n at *
    cases n <;> first | exact absurd rfl hp | exact absurd hd (by decide) | exact ⟨_, rfl⟩
  split at h
  · obtain ⟨D, h⟩ := h
    obtain ⟨e, he⟩ := action_grid_error a.group key K ((3 : Nat) : Int) (some ((3 : Nat) : Int)) (some s) (some D)
    rw [he] at h
    cases h
  · obtain ⟨C, -, -, h⟩ := h
    obtain ⟨e, he⟩ := action_grid_error a.group key K ((3 : Nat) : Int) none (some s) none
    rw [he] at h
    cases h

/-- C62, the part that holds for two-dimensional convolution layers on inputs without group axis: a layer that can be built
has a two-dimensional group, or its kernel is as high and as wide as the input has channels.
Missing: the latter case (`C62_violation_convolution`). For inputs with a group axis see `C62_two_group_partial`. -/
theorem C62_two_partial (a : ConvArgs Int) (tr : Bool) (l l' : GroupConv Int) (shape : List (Option Nat)) (k0 b0 : List Nat → Int)
    (hi : GroupConv.init a 2 tr = .ok l) (hb : l.build shape k0 b0 = .ok l') (hs : shape.length ≠ 5) :
    a.group.dim = 2 ∨ ∃ C, channelsOf a.dataFormat shape = .ok C ∧ a.kernelSize = [C, C] := by
  by_contra hc
  rw [not_or] at hc
  obtain ⟨hd, hC⟩ := hc
  have hd : a.group.dim = 3 := by
    revert hd
    cases a.group <;> decide
  obtain ⟨s, K, is, hk, h⟩ := build_kernel hi hb
  rw [if_neg hs] at h
  obtain ⟨C, hch, hK, h⟩ := h
  obtain ⟨u, v, hks⟩ : ∃ u v, a.kernelSize = [u, v] := by
    match hk' : a.kernelSize, hk with
    | [u, v], _ => exact ⟨u, v, rfl⟩
  rw [hks] at hK
  have e : a.group.group.action K ((List.range 2).map Int.ofNat) ((2 : Nat) : Int) none (some s) none =
      a.group.group.action K ([0, 1, 2].map Int.ofNat) ((2 : Nat) : Int) none (some s) none :=
    C60_following a.group hd K 0 [1] [1, 2] _ _ _ _
  rw [e] at h
  by_cases hg : a.group.Grid ([0, 1, 2].map (nth K.shape))
  · apply hC
    refine ⟨C, hch, ?_⟩
    rw [hks]
    have : u = v ∧ u = C := by
      rw [hK] at hg
      revert hg hd
      cases a.group <;> intro hd hg <;> first | exact hg.2 | exact absurd hd (by decide)
    rw [← this.1, this.2]
  · have hr : K.rank = 4 := by simp [Tensor.rank, hK]
    have := a.group.act_error K (axs := [0, 1, 2]) (a := 2) ⟨hd.symm, by decide, by rw [hr]; decide, fun _ => ⟨0, rfl⟩⟩
      (by rw [hr]; decide) hg
    simp only [Group.action, GroupData.parseSubgroup, Group.actionOnGrid, this, res_bind_error] at h
    cases h

/-- a two-dimensional convolution layer with a group of the cube: a 2x2 kernel on an image with two channels -/
def wrongDimension : ConvArgs Int :=
  { group := .D4, subgroup := some "", kernelSize := [2, 2], strides := [1, 1], padding := "valid",
    allowNonEquivariance := false, dataFormat := .channelsLast, filters := 1, dilation := [1, 1], useBias := false,
    activation := id }

set_option maxRecDepth 8000 in
/-- C62 fails for two-dimensional convolution layers: `GroupConv2D(group="D4", kernel_size=2, filters=1)` on an image with two
channels is built and called without an error; the channels are taken for the third dimension. -/
theorem C62_violation_convolution : ¬ DimensionChecked 2 ∧
    ∃ l l' y, GroupConv.init wrongDimension 2 false = .ok l ∧
      l.build [none, some 3, some 3, some 2] (fun idx => (nth idx 2 : Int)) (fun _ => 0) = .ok l' ∧
      (l'.call ⟨[1, 3, 3, 2], fun _ => 1⟩).2 = .ok y ∧ y.shape = [1, 2, 2, 8, 1] := by
  refine ⟨fun h => ?_, _, _, _, rfl, rfl, rfl, by decide +kernel⟩
  have := h wrongDimension false _ _ [none, some 3, some 3, some 2] (fun _ => 1) (fun _ => 0) rfl rfl
  revert this
  decide

/-- a three-dimensional pooling layer with a group of the square -/
def wrongPool : PoolArgs :=
  { group := .P4M, subgroup := some "", poolType := .max, poolSize := [2, 2, 2], strides := none, padding := "valid",
    allowNonEquivariance := false, dataFormat := .channelsLast }

set_option maxRecDepth 8000 in
/-- C62 fails for pooling layers: `GroupMaxPooling3D(group="P4M")` is built and called without an error on a volume. -/
theorem C62_violation_pooling : ∃ l l' y, GroupPooling.init wrongPool 3 = .ok l ∧ wrongPool.group.dim = 2 ∧
    l.build [none, some 2, some 2, some 2, some 8, some 1] = .ok l' ∧
    l'.call (⟨[1, 2, 2, 2, 8, 1], fun _ => 1⟩ : Tensor ℚ) = .ok y ∧ y.shape = [1, 1, 1, 1, 8, 1] :=
  ⟨_, _, _, rfl, rfl, rfl, rfl, by decide +kernel⟩

/-- a three-dimensional layer -/
def rightDimension : ConvArgs Int :=
  { wrongDimension with kernelSize := [2, 2, 2], strides := [1, 1, 1], dilation := [1, 1, 1] }

set_option maxRecDepth 8000 in
/-- hypotheses are met -/
example : (∃ l l', GroupConv.init rightDimension 3 false = .ok l ∧
      l.build [none, some 3, some 3, some 3, some 2] (fun _ => 1) (fun _ => 0) = .ok l') ∧
    ∃ l l', GroupConv.init { wrongDimension with group := .P4 } 2 false = .ok l ∧
      l.build [none, some 3, some 3, some 1] (fun _ => 1) (fun _ => 0) = .ok l' :=
  ⟨⟨_, _, rfl, rfl⟩, ⟨_, _, rfl, rfl⟩⟩

end GroCo
