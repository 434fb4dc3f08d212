import Verif.TracedLemmas
import Verif.Props.Calls

/-
Property C50: layers in traced graphs. `staticShape`, `BatchOrSpatial` and the traced calls are in Traced.lean, the rest of
the vocabulary in LayerSpec and PoolSpec.
-/

namespace GroCo
open Tensor

variable {α : Type}

/-- C50 if all sizes are known: tracing makes no difference, whatever the state of the layer and the input. -/
theorem C50_all_known [Field α] [LinearOrder α] (l : GroupConv α) (p : GroupPooling) (x : Tensor α) :
    l.callT [] x = l.call x ∧ p.callT [] x = p.call x := by
  have hm : ∀ (t : GroupTransforms) (x : Tensor α), t.mergeGroupAxisAndPadT [] x = t.mergeGroupAxisAndPad x := by
    intro t x
    unfold GroupTransforms.mergeGroupAxisAndPadT
    rw [staticShape_nil]
    rfl
  have hr : ∀ (t : GroupTransforms) (x : Tensor α), t.restoreGroupAxisT [] x = t.restoreGroupAxis x := by
    intro t x
    unfold GroupTransforms.restoreGroupAxisT
    rw [staticShape_nil]
    rfl
  constructor
  · have hb : GroupConv.bodyT [] l x = GroupConv.body l x := by
      unfold GroupConv.bodyT GroupConv.body
      have hp : ∀ k, l.transforms.prepareCallT [] k l.bias l.filters x = l.transforms.prepareCall k l.bias l.filters x := by
        intro k
        unfold GroupTransforms.prepareCallT GroupTransforms.prepareCall
        rw [hm]
        cases l.bias <;> rfl
      simp only [hp, hr]
      rfl
    unfold GroupConv.callT GroupConv.call
    cases l.checkInput x <;> simp only [backupAndRestore, hb]
  · unfold GroupPooling.callT GroupPooling.call
    simp only [hm, hr]

/-- C50 for convolutions (transposed if `tr`) in both data formats, proved part: if at most one size, of the batch or along
a spatial axis, is unknown while tracing and the others are positive, a traced call gives the same result or error and
leaves the same layer behind as an eager call. Missing: more unknown sizes, see `C50_two_unknown`. -/
theorem C50_convolution_partial [Semiring α] {a : ConvArgs α} {tr : Bool} {b : Option Nat} {n : List Nat} {g : Option Nat}
    {C : Nat} {k0 b0 : List Nat → α} {H : List Nat} {l : GroupConv α} (hl : BuiltConv a tr b n g C k0 b0 H l) (u : Nat)
    (hu : BatchOrSpatial a.dataFormat a.group.dim u) (x : Tensor α) (B : Nat) (m : List Nat) (hm : m.length = a.group.dim)
    (hx : x.shape = sigShape a.dataFormat B m g C) (hp : ∀ i, i < x.rank → i ≠ u → 0 < nth x.shape i) :
    l.callT [u] x = l.call x := by
  obtain ⟨kp, f⟩ := hl.facts
  exact convT_eq f.toConvCore hl.filters_pos hu x rfl hx hm hp

/-- C50 for pooling layers, proved part: the same for layers that are channels_last or do not pad. -/
theorem C50_pooling_partial [Field α] [LinearOrder α] {a : PoolArgs} {b : Option Nat} {n : List Nat} {g C : Nat} {H : List Nat}
    {l : GroupPooling} (hl : BuiltPool a b n g C H l)
    (hc : a.dataFormat = .channelsLast ∨ l.transforms.padState.needsPadding = false) (u : Nat)
    (hu : BatchOrSpatial a.dataFormat a.group.dim u) (x : Tensor α) (B : Nat) (m : List Nat) (hm : m.length = a.group.dim)
    (hx : x.shape = sigShape a.dataFormat B m (some g) C) (hp : ∀ i, i < x.rank → i ≠ u → 0 < nth x.shape i) :
    l.callT [u] x = l.call x :=
  poolT_eq hl hc hu x hx hm hp

/-- With two or more unknown sizes, such as those of images of any height and width, every traced call raises, for every
built convolution or transposed convolution and every input. -/
theorem C50_two_unknown [Semiring α] {a : ConvArgs α} {tr : Bool} {b : Option Nat} {n : List Nat} {g : Option Nat}
    {C : Nat} {k0 b0 : List Nat → α} {H : List Nat} {l : GroupConv α} (hl : BuiltConv a tr b n g C k0 b0 H l) (U : List Nat)
    (u v : Nat) (hu : u ∈ U) (hv : v ∈ U) (huv : u ≠ v) (hu' : BatchOrSpatial a.dataFormat a.group.dim u)
    (hv' : BatchOrSpatial a.dataFormat a.group.dim v) (x : Tensor α) : ∃ e, (l.callT U x).2 = .error e := by
  obtain ⟨kp, f⟩ := hl.facts
  rcases Nat.lt_or_gt_of_ne huv with h | h
  · exact convT_two f.toConvCore hu hv h hv' x
  · exact convT_two f.toConvCore hv hu h hu' x

/-- The same for pooling layers that are channels_last or do not pad. -/
theorem C50_two_unknown_pooling [Field α] [LinearOrder α] {a : PoolArgs} {b : Option Nat} {n : List Nat} {g C : Nat}
    {H : List Nat} {l : GroupPooling} (hl : BuiltPool a b n g C H l)
    (hc : a.dataFormat = .channelsLast ∨ l.transforms.padState.needsPadding = false) (U : List Nat) (u v : Nat)
    (hu : u ∈ U) (hv : v ∈ U) (huv : u ≠ v) (hu' : BatchOrSpatial a.dataFormat a.group.dim u)
    (hv' : BatchOrSpatial a.dataFormat a.group.dim v) (x : Tensor α) : ∃ e, l.callT U x = .error e := by
  rcases Nat.lt_or_gt_of_ne huv with h | h
  · exact poolT_two hl hc hu hv h hv' x
  · exact poolT_two hl hc hv hu h hu' x

set_option maxRecDepth 8000 in
/-- hypotheses of the theorems are met: layers in both data formats, unknown batch size or height, and two of them; the
calls return a value -/
example : (∃ l y, BuiltConv sizesConv false none [1, 1] (some 2) 1 (fun _ => 1) (fun _ => 0) [0, 1] l ∧
      (l.callT [0] ⟨[3, 1, 1, 2, 1], fun i => (nth i 3 : Int)⟩).2 = .ok y) ∧
    (∃ l y, BuiltConv sizesConv true none [1, 1] (some 2) 1 (fun _ => 1) (fun _ => 0) [0, 1] l ∧
      (l.callT [1] ⟨[3, 1, 1, 2, 1], fun i => (nth i 3 : Int)⟩).2 = .ok y) ∧
    (∃ l y, BuiltConv { sizesConv with dataFormat := .channelsFirst } false none [1, 1] (some 2) 1 (fun _ => 1) (fun _ => 0)
      [0, 1] l ∧ (l.callT [2] ⟨[3, 1, 1, 1, 2], fun i => (nth i 4 : Int)⟩).2 = .ok y) ∧
    (∃ l y, BuiltPool examplePool none [5, 5] 4 3 [0, 2] l ∧
      l.callT [0] (⟨[1, 5, 5, 4, 3], fun _ => 1⟩ : Tensor ℚ) = .ok y) ∧
    BatchOrSpatial .channelsLast 2 0 ∧ BatchOrSpatial .channelsLast 2 1 ∧ BatchOrSpatial .channelsFirst 2 2 := by
  refine ⟨⟨_, _, ⟨⟨_, rfl, rfl⟩, rfl, rfl⟩, rfl⟩, ⟨_, _, ⟨⟨_, rfl, rfl⟩, rfl, rfl⟩, rfl⟩, ⟨_, _, ⟨⟨_, rfl, rfl⟩, rfl, rfl⟩, rfl⟩,
    ⟨_, _, ⟨⟨_, rfl, rfl⟩, rfl, rfl⟩, rfl⟩, ?_, ?_, ?_⟩ <;> simp [BatchOrSpatial]

/-- C50 as stated, for convolutions: whichever sizes of the batch and the image are unknown while tracing, the traced call
gives what the eager call gives. -/
def TracedLikeEager : Prop :=
  ∀ (a : ConvArgs Int) (b : Option Nat) (n : List Nat) (g : Option Nat) (C : Nat) (k0 b0 : List Nat → Int) (H : List Nat)
    (l : GroupConv Int), BuiltConv a false b n g C k0 b0 H l →
  ∀ (U : List Nat), (∀ u ∈ U, BatchOrSpatial a.dataFormat a.group.dim u) →
  ∀ (x : Tensor Int) (B : Nat), x.shape = sigShape a.dataFormat B n g C → (∀ i, i < x.rank → 0 < nth x.shape i) →
    (l.callT U x).2 = (l.call x).2

/-- C50 fails: a layer that is not traced accepts the image, with height and width unknown tracing raises. -/
theorem C50_violation : ¬ TracedLikeEager := by
  intro h
  obtain ⟨l, y, hl, hy⟩ : ∃ l y, BuiltConv sizesConv false none [1, 1] none 1 (fun _ => 1) (fun _ => 0) [0, 1] l ∧
      (l.call ⟨[1, 1, 1, 1], fun _ => 1⟩).2 = .ok y := ⟨_, _, ⟨⟨_, rfl, rfl⟩, rfl, rfl⟩, rfl⟩
  have he := h _ _ _ _ _ _ _ _ _ hl [1, 2] (by simp [BatchOrSpatial, sizesConv, GroupName.dim])
    ⟨[1, 1, 1, 1], fun _ => 1⟩ 1 rfl (by decide)
  obtain ⟨e, he'⟩ := C50_two_unknown hl [1, 2] 1 2 (by simp) (by simp) (by simp) (by simp [BatchOrSpatial, sizesConv, GroupName.dim])
    (by simp [BatchOrSpatial, sizesConv, GroupName.dim]) ⟨[1, 1, 1, 1], fun _ => 1⟩
  rw [he', hy] at he
  exact absurd he (by simp)

end GroCo
