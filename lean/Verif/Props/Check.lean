import Mathlib.Algebra.Order.Group.Unbundled.Abs
import Mathlib.Algebra.Order.Group.Abs
import Mathlib.Algebra.Order.Ring.Defs
import Verif.BatchLemmas
import Verif.Props.Pooling

/-
Property C36: check_equivariance. `Batchwise` and `SignalOn` are in StackSpec, `Commutes` in LayerSpec.
-/

namespace GroCo
open Tensor

variable {α : Type}

/-- C36: what check_equivariance returns, for any group object, axes and layer: the largest absolute difference between
transforming first and transforming last. -/
theorem C36_value [Field α] [LinearOrder α] {f : Tensor α → Res (Tensor α)} {s : List Nat} (hf : Batchwise f s) (x y : Tensor α)
    (B : Nat) (hx : x.shape = B :: s) (hy : f x = .ok y) (G : Group) (axs : List Int) (ga : Option Int)
    (acting domain target : Option String) (hd : checkShape G.toGroupData x ga (G.parseSubgroup domain) = .ok ())
    (ht : checkShape G.toGroupData y ga (G.parseSubgroup target) = .ok ()) (gx gy : Tensor α) (order : Nat)
    (hgx : G.action x axs 0 ga acting domain = .ok gx) (hgxs : gx.shape = order :: x.shape)
    (hgy : G.action y axs 0 ga acting target = .ok gy) (hgys : gy.shape = order :: y.shape)
    (h0 : 0 < order) (hy0 : 0 ∉ y.shape) :
    ∃ r, checkEquivariance f x G axs ga acting domain target = .ok r ∧
      (∀ i, i < order → ∃ z, f (slice gx 0 i) = .ok z ∧ z.shape = y.shape ∧
        ∀ idx, Valid y.shape idx → |z.get idx - (slice gy 0 i).get idx| ≤ r) ∧
      ∃ i z idx, i < order ∧ f (slice gx 0 i) = .ok z ∧ Valid y.shape idx ∧ |z.get idx - (slice gy 0 i).get idx| = r :=
  check_ok hf hx hy hd ht hgx hgxs hgy hgys h0 hy0

/-- C36: for the groups of the library, check_equivariance returns a number, and it is zero exactly if the layer commutes
with the action on this signal. -/
theorem C36_sound_and_complete [Field α] [LinearOrder α] [IsStrictOrderedRing α] (n : GroupName) (fmt : DataFormat)
    {f : Tensor α → Res (Tensor α)} (B : Nat) (m : List Nat) (g : Option Nat) (C : Nat) (x y : Tensor α)
    (hf : Batchwise f (sigShape fmt B m g C).tail) (hx : x.shape = sigShape fmt B m g C) (hm : n.Grid m)
    (hy : f x = .ok y) (m' : List Nat) (g' : Option Nat) (C' : Nat) (hys : y.shape = sigShape fmt B m' g' C') (hm' : n.Grid m')
    (h0 : 0 ∉ y.shape) (acting domain target : Option String) (A : List Nat)
    (hA : n.group.sub (n.group.parseSubgroup acting) = .ok A) (hD : SignalOn n.group g domain)
    (hT : SignalOn n.group g' target) :
    ∃ r, checkEquivariance f x n.group (spatialAxes fmt n.dim) (some (groupAxis fmt n.dim)) acting domain target = .ok r ∧
      0 ≤ r ∧ (r = 0 ↔ Commutes n.group n.dim fmt acting A.length domain target f x y) := by
  have hml : m.length = n.dim := n.sym.okLen m hm
  have hml' : m'.length = n.dim := n.sym.okLen m' hm'
  obtain ⟨gx, ex, hgx⟩ := act_shape n fmt x hx hm hA hD
  obtain ⟨gy, ey, hgy⟩ := act_shape n fmt y hys hm' hA hT
  have hApos : 0 < A.length := by
    obtain ⟨s, _, hs⟩ := parse_sub hA
    have := ((C09_all_groups n).2 s A hs).2.1
    cases A with
    | nil => cases this
    | cons => simp
  have hxB : x.shape = B :: (sigShape fmt B m g C).tail := by rw [hx]; cases fmt <;> rfl
  obtain ⟨r, er, h1, i, z, idx, hi, hz, hidx, hr⟩ := C36_value hf x y B hxB hy n.group (spatialAxes fmt n.dim)
    (some (groupAxis fmt n.dim)) acting domain target (checkShape_sig n fmt x hx hml hD) (checkShape_sig n fmt y hys hml' hT)
    gx gy A.length ex hgx ey hgy hApos h0
  refine ⟨r, er, by rw [← hr]; exact abs_nonneg _, ?_⟩
  have hsl : ∀ i, (slice gy 0 i).shape = y.shape := fun i => by simp [slice, hgy]
  constructor
  · rintro rfl
    refine ⟨gx, gy, ex, hgx, ey, hgy, fun i hi => ?_⟩
    obtain ⟨z, ez, hzs, hz⟩ := h1 i hi
    refine ⟨z, ez, by rw [hzs, hsl], fun idx hidx => ?_⟩
    rw [hzs] at hidx
    exact sub_eq_zero.1 (abs_nonpos_iff.1 (hz idx hidx))
  · rintro ⟨gx', gy', ex', -, ey', -, h⟩
    rw [ex] at ex'
    cases ex'
    rw [ey] at ey'
    cases ey'
    obtain ⟨z', ez', hs', hz'⟩ := h i hi
    rw [hz] at ez'
    cases ez'
    rw [← hr, hz' idx (by rw [hs', hsl]; exact hidx), sub_self, abs_zero]

/-- C36: the signal has the wrong size along the group axis: AssertionError, before the layer is called. -/
theorem C36_signal_refused [Field α] [LinearOrder α] (f : Tensor α → Res (Tensor α)) (G : Group) (x : Tensor α) (axs : List Int)
    (ga : Nat) (hga : ga < x.rank) (acting domain target : Option String) (D : List Nat)
    (hD : G.sub (G.parseSubgroup domain) = .ok D) (hsz : nth x.shape ga ≠ D.length) :
    checkEquivariance f x G axs (some (ga : Int)) acting domain target = .error .assertion := by
  obtain ⟨s, hs, hD⟩ := parse_sub hD
  have e1 : pyIndex x.rank (ga : Int) = .ok ga := by
    unfold pyIndex
    rw [if_pos (by omega)]
    rfl
  unfold checkEquivariance checkShape
  simp only [hs, hD, res_bind_ok, e1, if_neg hsz, res_bind_error]

/-- C36: the result of the layer has the wrong size along the group axis: AssertionError. -/
theorem C36_output_refused [Field α] [LinearOrder α] (f : Tensor α → Res (Tensor α)) (G : Group) (x y : Tensor α) (axs : List Int)
    (ga : Nat) (acting domain target : Option String)
    (hd : domain = none ∨ ∃ D, G.sub (G.parseSubgroup domain) = .ok D ∧ ga < x.rank ∧ nth x.shape ga = D.length)
    (hy : f x = .ok y) (hga : ga < y.rank)
    (T : List Nat) (hT : G.sub (G.parseSubgroup target) = .ok T) (hsz : nth y.shape ga ≠ T.length) :
    checkEquivariance f x G axs (some (ga : Int)) acting domain target = .error .assertion := by
  obtain ⟨s, hs, hT⟩ := parse_sub hT
  have e1 : pyIndex y.rank (ga : Int) = .ok ga := by
    unfold pyIndex
    rw [if_pos (by omega)]
    rfl
  have hd : checkShape G.toGroupData x (some (ga : Int)) (G.parseSubgroup domain) = .ok () := by
    rcases hd with rfl | ⟨D, hD, hlt, hsz⟩
    · rfl
    · obtain ⟨s, hs, hD⟩ := parse_sub hD
      have e1 : pyIndex x.rank (ga : Int) = .ok ga := by
        unfold pyIndex
        rw [if_pos (by omega)]
        rfl
      unfold checkShape
      simp only [hs, hD, res_bind_ok, e1, if_pos hsz]
  have e2 : checkShape G.toGroupData y (some (ga : Int)) (G.parseSubgroup target) = .error .assertion := by
    unfold checkShape
    simp only [hs, hT, res_bind_ok, e1, if_neg hsz]
  unfold checkEquivariance
  simp only [hd, hy, e2, res_bind_ok, res_bind_error]

/-- C36: a domain group that is not a subgroup is a KeyError. -/
theorem C36_unknown_domain [Field α] [LinearOrder α] (f : Tensor α → Res (Tensor α)) (G : Group) (x : Tensor α) (axs : List Int)
    (ga : Option Int) (acting target : Option String) (s : String) (hs : s ≠ "") (hl : lookup G.subgroup s = .error .key) :
    checkEquivariance f x G axs ga acting (some s) target = .error .key := by
  have : G.parseSubgroup (some s) = some s := by
    unfold GroupData.parseSubgroup
    split <;> simp_all
  unfold checkEquivariance checkShape
  simp only [this, hl, res_bind_error]

/-- C36: if the layer fails on the signal its exception is the result. -/
theorem C36_layer_error [Field α] [LinearOrder α] (f : Tensor α → Res (Tensor α)) (G : Group) (x : Tensor α) (axs : List Int)
    (ga : Option Int) (acting target : Option String) (e : Err) (hy : f x = .error e) :
    checkEquivariance f x G axs ga acting none target = .error e := by
  unfold checkEquivariance
  simp only [hy, res_bind_error]
  rfl

/-- C36: leaving `group_axis` at its default `None` while a domain group is given, as it is by default, is a TypeError. -/
theorem C36_default_group_axis [Field α] [LinearOrder α] (f : Tensor α → Res (Tensor α)) (n : GroupName) (x : Tensor α) :
    checkEquivariance f x n.group = .error .typ := by
  have : lookup n.group.subgroup n.group.name = .ok (List.range n.group.order) := n.sym.tab.own
  unfold checkEquivariance checkShape
  simp only [GroupData.parseSubgroup, this, res_bind_ok, res_bind_error]

/-- C36 applies to the layers of the library: built channels_last convolutions, transposed convolutions and pooling layers
treat the entries of a batch independently. -/
theorem C36_layers_batchwise [Semiring α] {a : ConvArgs α} {tr : Bool} {bt : Option Nat} {n : List Nat} {g : Option Nat} {C : Nat}
    {k0 b0 : List Nat → α} {H : List Nat} {l : GroupConv α} (hl : BuiltConv a tr bt n g C k0 b0 H l)
    (hf : a.dataFormat = .channelsLast) (B : Nat) (m : List Nat) (hm : m.length = a.group.dim) :
    Batchwise (fun x => (l.call x).2) (sigShape .channelsLast B m g C).tail := by
  obtain ⟨opt, kp, hopt, hkp, f, hst⟩ := hl.facts_last hf
  cases tr with
  | false => exact conv_batchwise f hf hm
  | true => exact convT_batchwise f hf hm

theorem C36_pooling_batchwise [Field α] [LinearOrder α] {a : PoolArgs} {bt : Option Nat} {n : List Nat} {g C : Nat}
    {H : List Nat} {l : GroupPooling} (hl : BuiltPool a bt n g C H l) (hf : a.dataFormat = .channelsLast)
    (B : Nat) (m : List Nat) (hm : m.length = a.group.dim) :
    Batchwise (α := α) (fun x => l.call x) (sigShape .channelsLast B m (some g) C).tail := by
  obtain ⟨opt, kp, cos, hopt, hkp, f, rfl, hst⟩ := hl.facts hf
  obtain ⟨sH, hsH, hH, hcos⟩ := f.sub
  obtain ⟨cos', hcos', ht⟩ := C10_cosets a.group sH H hH
  rw [hcos] at hcos'
  cases hcos'
  refine pool_batchwise f (fun h hh c hc => ?_) hm
  exact a.group.sym.tab.laws.closed _ _ (a.group.sym.sub_lt hH hh) (ht.2.1 c hc)

/-- a layer that keeps the signal: hypotheses of C36 are met -/
example : Batchwise (α := ℚ) (fun x => .ok x) (sigShape .channelsLast 2 [3, 3] none 1).tail ∧
    (⟨[2, 3, 3, 1], fun i => nth i 1⟩ : Tensor ℚ).shape = sigShape .channelsLast 2 [3, 3] none 1 ∧ GroupName.P4.Grid [3, 3] ∧
    0 ∉ (⟨[2, 3, 3, 1], fun i => nth i 1⟩ : Tensor ℚ).shape ∧
    GroupName.P4.group.sub (GroupName.P4.group.parseSubgroup (some "P2")) = .ok [0, 2] ∧
    SignalOn GroupName.P4.group none none ∧ SignalOn GroupName.P4.group (some 4) (some "") :=
  ⟨fun x x' y B B' hx hx' hy => by cases hy; exact ⟨x', _, rfl, hx, hx', fun _ _ _ _ h => h⟩, rfl, ⟨rfl, rfl⟩, by simp, rfl, rfl,
    _, rfl, rfl⟩

/-- the check on that layer, and on one that multiplies by the row number -/
example : checkEquivariance (fun x => .ok x) (⟨[2, 3, 3, 1], fun i => nth i 1⟩ : Tensor ℚ) GroupName.P4.group [1, 2] (some 3)
    (some "") none none = .ok 0 := by decide +kernel

example : checkEquivariance (fun x => .ok ⟨x.shape, fun i => (nth i 1 : ℚ) * x.get i⟩) (⟨[2, 3, 3, 1], fun _ => 1⟩ : Tensor ℚ)
    GroupName.P4.group [1, 2] (some 3) (some "") none none = .ok 2 := by decide +kernel

/-- the errors on concrete signals -/
example : checkEquivariance (fun x => .ok x) (⟨[2, 3, 3, 3, 1], fun _ => 1⟩ : Tensor ℚ) GroupName.P4.group [1, 2] (some 3) =
    .error .assertion :=
  C36_signal_refused _ _ _ _ 3 (by decide) _ _ _ [0, 1, 2, 3] rfl (by decide)

example : checkEquivariance (fun _ => .ok ⟨[2, 3, 3, 3, 1], fun _ => 1⟩) (⟨[2, 3, 3, 4, 1], fun _ => 1⟩ : Tensor ℚ)
    GroupName.P4.group [1, 2] (some 3) = .error .assertion :=
  C36_output_refused _ _ _ _ _ 3 _ _ _ (.inr ⟨[0, 1, 2, 3], rfl, by decide, rfl⟩) rfl (by decide) [0, 1, 2, 3] rfl (by decide)

example : lookup GroupName.P4.group.subgroup "P3" = .error .key := rfl

end GroCo
