import Verif.Relational
import Verif.EquivLemmas

/-
The pooling layers in three related runs (see Relational.lean).
-/

namespace GroCo
open Tensor

variable {α β γ : Type} {R : α → β → γ → Prop} {x : Tensor α} {y : Tensor β} {z : Tensor γ}

/-- The reductions of related, non-empty lists are related. -/
def RedRel (R : α → β → γ → Prop) (r : List α → α) (s : List β → β) (t : List γ → γ) : Prop :=
  ∀ (l : List (List Nat)) (f : List Nat → α) (g : List Nat → β) (h : List Nat → γ), l ≠ [] →
    (∀ i ∈ l, R (f i) (g i) (h i)) → R (r (l.map f)) (s (l.map g)) (t (l.map h))

theorem filterMap_if {A B : Type} (l : List A) (c : A → Prop) [DecidablePred c] (f : A → B) :
    l.filterMap (fun k => if c k then some (f k) else none) = (l.filter fun k => decide (c k)).map f := by
  induction l with
  | nil => rfl
  | cons a l ih =>
    by_cases h : c a <;> simp [h, ih]

theorem reduceAxis_rel {r : List α → α} {s : List β → β} {t : List γ → γ} (hR : RedRel R r s t) (h : TRel R x y z) (a : Int) :
    RRel (TRel R) (reduceAxis r x a) (reduceAxis s y a) (reduceAxis t z a) := by
  unfold reduceAxis
  simp only [h.rank_left, h.rank_right, h.left, h.right]
  refine .same _ fun a ha => ?_
  have hlt : a < z.shape.length := by
    unfold normAxis Tensor.rank at ha
    split at ha
    · cases ha; omega
    · split at ha
      · cases ha; omega
      · cases ha
  split
  · exact .error _
  · rename_i h0
    refine .ok ⟨rfl, rfl, fun idx hv => ?_⟩
    have e : ∀ {A : Type} (f : List Nat → A), (List.range (nth z.shape a)).map (fun i => f (idx.insertIdx a i)) =
        ((List.range (nth z.shape a)).map fun i => idx.insertIdx a i).map f := by intros; simp
    simp only [e]
    refine hR _ _ _ _ (by simpa using h0) fun i hi => h.get _ ?_
    obtain ⟨j, hj, rfl⟩ := List.mem_map.1 hi
    have := valid_insertIdx (a := a) (n := nth z.shape a) (i := j) (by rw [List.length_eraseIdx]; split <;> omega) hv
      (by simpa using hj)
    rwa [insertIdx_eraseIdx_nth hlt] at this

/-- along an axis every pooling window contains a position of the input -/
theorem axis_window_meets {padding : KerasPadding} {n k s p : Nat} (hs : 0 < s) (hk : 0 < k)
    (hfit : k ≤ (poolPads padding n k s).1 + n + (poolPads padding n k s).2)
    (hp : p < ((poolPads padding n k s).1 + n + (poolPads padding n k s).2 - k) / s + 1) :
    ∃ j, j < k ∧ (0 : Int) ≤ (p * s + j : Int) - ((poolPads padding n k s).1 : Int) ∧
      (p * s + j : Int) - ((poolPads padding n k s).1 : Int) < n := by
  have hm : p * s ≤ (poolPads padding n k s).1 + n + (poolPads padding n k s).2 - k :=
    le_trans (Nat.mul_le_mul_right s (Nat.lt_succ_iff.1 hp)) (Nat.div_mul_le_self _ _)
  cases padding with
  | valid =>
    simp only [poolPads] at *
    refine ⟨0, hk, ?_, ?_⟩
    · simp; exact_mod_cast Nat.zero_le _
    · have : p * s < n := by omega
      simpa using (by exact_mod_cast this : (p : Int) * s < n)
  | same =>
    simp only [poolPads, samePads] at *
    have hT : sameTotal n k s ≤ k - 1 := by
      unfold sameTotal
      split <;> omega
    generalize sameTotal n k s = T at *
    refine ⟨T / 2 - p * s, by omega, ?_, ?_⟩
    · push_cast
      generalize hps : p * s = ps at *
      have : ((p : Int) * s) = (ps : Int) := by rw [← hps]; push_cast; rfl
      rw [this]
      omega
    · generalize hps : p * s = ps at *
      have : ((p : Int) * s) = (ps : Int) := by rw [← hps]; push_cast; rfl
      rw [this]
      omega

theorem poolLast_rel {r : List α → α} {s : List β → β} {t : List γ → γ} (hR : RedRel R r s t) (h : TRel R x y z)
    (padding : KerasPadding) (pool strides : List Nat) :
    RRel (TRel R) (poolLast r padding pool strides x) (poolLast s padding pool strides y)
      (poolLast t padding pool strides z) := by
  unfold poolLast
  simp only [h.rank_left, h.rank_right, h.left, h.right]
  split
  · rename_i hc
    obtain ⟨hr, hpl, hf⟩ := hc
    refine .ok ⟨rfl, rfl, fun idx hv => ?_⟩
    obtain ⟨b, p, f, rfl, hb, hp, hF, hl⟩ := valid_parts hv
    have hl' : p.length = strides.length := by rw [hl]; simp
    have e0 : nth (b :: p ++ [f]) (strides.length + 1) = f := nth_app0 (a := b :: p) (by simp [hl'])
    have e1 : nth (b :: p ++ [f]) 0 = b := rfl
    simp only [Tensor.rank] at hr
    obtain ⟨e, hs⟩ := spatial_parts hr
    simp only [e0, e1, filterMap_if]
    refine hR _ _ _ _ ?_ fun k hk => h.get _ ?_
    · have hj : ∀ i, ∃ j, i < strides.length → _ := fun i => by
        by_cases hi : i < strides.length
        · have hpi := hp.lt (i := i) (by simpa using hi)
          rw [nth_map_range, if_pos hi] at hpi
          have hfi := hf i hi
          have ep : ((List.range strides.length).map fun i => poolPads padding (nth (spatialPart strides.length z.shape) i)
              (nth pool i) (nth strides i)).getD i (0, 0) =
              poolPads padding (nth (spatialPart strides.length z.shape) i) (nth pool i) (nth strides i) := by
            simp [hi]
          rw [ep] at hpi hfi
          obtain ⟨j, hj⟩ := axis_window_meets hfi.1 hfi.2.1 hfi.2.2 hpi
          exact ⟨j, fun _ => hj⟩
        · exact ⟨0, fun h => absurd h hi⟩
      choose j hj using hj
      have hm : (List.range strides.length).map j ∈ (indices pool).filter fun k => decide (InBox
          (spatialPart strides.length z.shape) ((List.range strides.length).map fun i =>
            (nth (b :: p ++ [f]) (i + 1) * nth strides i + nth k i : Int) -
              ((((List.range strides.length).map fun i => poolPads padding (nth (spatialPart strides.length z.shape) i)
              (nth pool i) (nth strides i)).getD i (0, 0)).1 : Int))) := by
        rw [List.mem_filter, mem_indices, valid_iff]
        refine ⟨⟨by simp [hpl], fun i hi => ?_⟩, decide_eq_true ?_⟩
        · rw [nth_map_range, if_pos (by omega)]
          exact (hj i (by omega)).1
        · rw [inBox_iff]
          refine ⟨by simp [hs], fun i hi => ?_⟩
          rw [hs] at hi
          have := (hj i hi).2
          have e2 : nth (p ++ [f]) i = nth p i := by rw [nth_append, if_pos (by omega)]
          simp [hi, nth_map_range] at this ⊢
          rw [e2]
          exact this
      exact List.ne_nil_of_mem hm
    · have hk := (List.mem_filter.1 hk).2
      have := parts_valid hb (InBox.valid (of_decide_eq_true hk)) hF
      rwa [← e] at this
  · exact .error _

theorem kerasPool_rel {r : List α → α} {s : List β → β} {t : List γ → γ} (hR : RedRel R r s t) (h : TRel R x y z)
    (fmt : DataFormat) (padding : KerasPadding) (pool strides : List Nat) :
    RRel (TRel R) (kerasPool fmt r padding pool strides x) (kerasPool fmt s padding pool strides y)
      (kerasPool fmt t padding pool strides z) := by
  cases fmt with
  | channelsLast => exact poolLast_rel hR h _ _ _
  | channelsFirst =>
    exact .bind (moveaxis_rel h _ _) fun _ _ _ g => .bind (poolLast_rel hR g _ _ _) fun _ _ _ g => moveaxis_rel g _ _

theorem kerasGlobalPool_rel {r : List α → α} {s : List β → β} {t : List γ → γ} (hR : RedRel R r s t) (h : TRel R x y z)
    (fmt : DataFormat) (d : Nat) (keepdims : Bool) :
    RRel (TRel R) (kerasGlobalPool fmt d r keepdims x) (kerasGlobalPool fmt d s keepdims y)
      (kerasGlobalPool fmt d t keepdims z) := by
  unfold kerasGlobalPool
  simp only [h.rank_left, h.rank_right, h.left, h.right]
  split
  · exact .error _
  · rename_i hc
    rw [not_or] at hc
    obtain ⟨hr, h0⟩ := hc
    rw [not_not] at hr
    have hr : z.shape.length = d + 2 := hr
    have hne : indices (spatialShapeOf fmt d z.shape) ≠ [] := by
      have : ∀ s : List Nat, 0 ∉ s → Valid s (List.replicate s.length 0) := by
        intro s hs
        induction s with
        | nil => trivial
        | cons n s ih =>
          simp only [List.mem_cons, not_or] at hs
          exact ⟨by omega, ih hs.2⟩
      exact List.ne_nil_of_mem ((mem_indices _ _).2 (this _ h0))
    cases fmt with
    | channelsLast =>
      simp only
      refine .ok ⟨rfl, rfl, fun idx hv => ?_⟩
      simp only
      obtain ⟨b, p, f, rfl, hb, hp, hF, hl⟩ := valid_parts hv
      have e1 : nth (b :: p ++ [f]) 0 = b := rfl
      have e0 : nth (b :: p ++ [f]) (if keepdims then d + 1 else 1) = f :=
        nth_app0 (a := b :: p) (by cases keepdims <;> simp at hl ⊢ <;> simp [hl])
      obtain ⟨e, hs⟩ := spatial_parts hr
      simp only [e0, e1]
      refine hR _ _ _ _ hne fun i hi => h.get _ ?_
      have := parts_valid hb ((mem_indices _ _).1 hi) hF
      simp only [spatialShapeOf] at this
      unfold spatialPart at e
      rwa [← e] at this
    | channelsFirst =>
      simp only
      refine .ok ⟨rfl, rfl, fun idx hv => ?_⟩
      simp only
      match idx, hv with
      | b :: c :: p, hv =>
        refine hR _ _ _ _ hne fun i hi => h.get _ ?_
        have e : z.shape = nth z.shape 0 :: nth z.shape 1 :: spatialShapeOf .channelsFirst d z.shape := by
          match hz : z.shape, hr with
          | B :: C :: sp, hr =>
            simp only [List.length_cons, Nat.add_right_cancel_iff] at hr
            simp [spatialShapeOf, ← hr]
        rw [e]
        exact ⟨hv.1, hv.2.1, (mem_indices _ _).1 hi⟩

theorem expandDims_rel (h : TRel R x y z) (a : Int) :
    RRel (TRel R) (expandDims x a) (expandDims y a) (expandDims z a) := by
  unfold expandDims
  simp only [h.rank_left, h.rank_right, h.left, h.right]
  refine .same _ fun a ha => ?_
  have hle : a ≤ z.shape.length := by
    unfold normAxis Tensor.rank at ha
    split at ha
    · cases ha; omega
    · split at ha
      · cases ha; omega
      · cases ha
  exact .ok ⟨rfl, rfl, fun idx hv => h.get _ (valid_insert_erase hle hv).1⟩

theorem subgroupPooling_rel {r : List α → α} {s : List β → β} {t : List γ → γ} (hR : RedRel R r s t) (h : TRel R x y z)
    (T : GroupTransforms) :
    RRel (TRel R) (T.subgroupPooling r x) (T.subgroupPooling s y) (T.subgroupPooling t z) := by
  unfold GroupTransforms.subgroupPooling
  split
  · exact .error _
  · exact .bind (takeT_rel h _ _) fun _ _ _ g => reduceAxis_rel hR g _

variable [Field α] [LinearOrder α] [Field β] [LinearOrder β] [Field γ] [LinearOrder γ]

/-- zeros are added by the layer -/
theorem pool_call_rel (l : GroupPooling) (hR : RedRel R (l.poolType.reduce) (l.poolType.reduce) (l.poolType.reduce))
    (h0 : l.transforms.padState.needsPadding = true → R 0 0 0) (h : TRel R x y z) :
    RRel (TRel R) (l.call x) (l.call y) (l.call z) := by
  unfold GroupPooling.call
  refine .bind (subgroupPooling_rel hR h _) fun x y z h => .bind (P := TRel R) ?_ fun _ _ _ g =>
    .bind (kerasPool_rel hR g _ _ _ _) fun _ _ _ g => restoreGroupAxis_rel g _
  unfold GroupTransforms.mergeGroupAxisAndPad
  have key : ∀ {x : Tensor α} {y : Tensor β} {z : Tensor γ}, TRel R x y z →
      RRel (TRel R) (l.transforms.padState.call x) (l.transforms.padState.call y) (l.transforms.padState.call z) := by
    intro x y z h
    unfold PadState.call
    split
    · exact pad_rel h (h0 ‹_›) _
    · exact .ok h
  split
  · exact .bind (mergeAxes_rel h _ _) fun _ _ _ g => key g
  · exact key h

theorem globalPool_call_rel (l : GlobalGroupPooling)
    (hR : RedRel R (l.poolType.reduce) (l.poolType.reduce) (l.poolType.reduce)) (h : TRel R x y z) :
    RRel (TRel R) (l.call x) (l.call y) (l.call z) := by
  unfold GlobalGroupPooling.call GlobalGroupPooling.poolGroup
  refine .bind (reduceAxis_rel hR h _) fun x y z h => .bind (kerasGlobalPool_rel hR h _ _ _) fun _ _ _ g => ?_
  unfold GlobalGroupPooling.restoreGroupAxis
  split
  · exact expandDims_rel g _
  · exact .ok g

end GroCo
