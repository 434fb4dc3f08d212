import Verif.Props.Range
import Verif.PoolExactLemmas

/-
Property C55: exactly which pooling layers stay within the values of their input.
-/

namespace GroCo
open Tensor

variable {α : Type}

/-- a padding layer that pads does so along some axis -/
theorem pads_somewhere {o : PadOption} {allow : Bool} {d : Nat} {strides K n : List Nat} {b c : Option Nat} {st : PadState}
    (hn : n.length = d) (hK : K.length = d) (hs : strides.length = d) (h0 : 0 ∉ strides)
    (h : (EquivariantPadding.mk o allow d strides K true false).build (signalShape true b c n) = .ok st)
    (hp : st.needsPadding = true) : ∃ i, i < d ∧ 0 < ((epads st d).getD i (0, 0)).1 := by
  have hf := signal_fits (o := o) (allow := allow) (l := true) (tr := false) hn hK hs h0
  have hg := EquivariantPadding.build_onGrid (d := d) rfl hK h
  have he := EquivariantPadding.build_eq ⟨o, allow, d, strides, K, true, false⟩ b c hf
  simp only at he
  rw [h] at he
  split at he
  · cases he; simp at hp
  · rename_i hn'
    split at he
    · cases he; simp at hp
    · rename_i hne
      push Not at hne
      obtain ⟨i, hi, hne⟩ := hne
      have h5 := (build_amount hf h hn').1 i hi
      simp only [spatialAxis, if_true] at h5
      refine ⟨i, by omega, ?_⟩
      rw [nth_epads (by omega), ← amount_pads st d (i + 1) hg, h5.1]
      have := h5.2.2
      simp only
      omega

theorem reduce_above [Field α] [LinearOrder α] [IsStrictOrderedRing α] (t : PoolType) {l : List α} (h : ∀ v ∈ l, -1 ≤ v) (h0 : (0 : α) ∈ l) :
    t.reduce l ≠ -1 := by
  intro e
  cases t with
  | max =>
    have := le_maxOf h0
    have e' : maxOf l = -1 := e
    rw [e'] at this
    linarith
  | average =>
    have hpos : (0 : α) < l.length := by exact_mod_cast List.length_pos_of_mem h0
    have e' : l.sum / l.length = -1 := e
    rw [div_eq_iff (ne_of_gt hpos)] at e'
    obtain ⟨l1, l2, rfl⟩ := List.append_of_mem h0
    have b1 := (sum_bounds_below l1 fun v hv => h v (by simp [hv]))
    have b2 := (sum_bounds_below l2 fun v hv => h v (by simp [hv]))
    simp only [List.sum_append, List.sum_cons, List.length_append, List.length_cons, Nat.cast_add, Nat.cast_one] at e'
    linarith
where
  sum_bounds_below (l : List α) (H : ∀ v ∈ l, -1 ≤ v) : -(l.length : α) ≤ l.sum := by
    induction l with
    | nil => simp
    | cons a l ih =>
      have h1 := H a (by simp)
      have h2 := ih fun b hb => H b (by simp [hb])
      simp only [List.sum_cons, List.length_cons, Nat.cast_add, Nat.cast_one]
      linarith

/-- C55, exactly: a channels_last pooling layer keeps the range of every signal of the size it was built for if and only if its padding
layer adds no zeros. -/
theorem C55_exact [Field α] [LinearOrder α] [IsStrictOrderedRing α] {a : PoolArgs} {bt : Option Nat} {n : List Nat} {g C : Nat}
    {H : List Nat} {l : GroupPooling} (hl : BuiltPool a bt n g C H l) (hf : a.dataFormat = .channelsLast) (hC : 0 < C)
    (hcall : ∃ (x y : Tensor α) (B : Nat), x.shape = sigShape .channelsLast B n (some g) C ∧ l.call x = .ok y) :
    (∀ (lo hi : α) (x y : Tensor α) (B : Nat), x.shape = sigShape .channelsLast B n (some g) C →
      (∀ idx, Valid x.shape idx → lo ≤ x.get idx ∧ x.get idx ≤ hi) → l.call x = .ok y →
      ∀ idx, Valid y.shape idx → lo ≤ y.get idx ∧ y.get idx ≤ hi) ↔ Unpadded l.transforms := by
  constructor
  · intro hall
    by_contra hu
    have hp : l.transforms.padState.needsPadding = true := by
      unfold Unpadded at hu
      simpa using hu
    obtain ⟨opt, kp, _, hopt, _, f, _, hst⟩ := hl.facts hf
    have S := a.group.sym
    obtain ⟨sH, _, hH⟩ := parse_sub hl.elements
    have hpos : 0 < H.length := sub_pos S.tab hH
    have hps : a.paddingStrides.length = a.group.dim ∧ 0 ∉ a.paddingStrides := by
      unfold PoolArgs.paddingStrides
      have h1 := f.stridesLen
      have h2 := f.stridesPos
      unfold PoolArgs.windowStrides at h1 h2
      cases hst : a.strides with
      | none => simp
      | some s =>
        rw [hst] at h1 h2
        exact ⟨h1, h2⟩
    obtain ⟨i0, hi0, hlo0⟩ := pads_somewhere hl.dims f.sizeLen hps.1 hps.2 hst hp
    obtain ⟨cos, lo, hi, skip, skip', htile, hpads, hcalls⟩ := C33_uniform (α := α) hl hf opt hopt n hl.dims
    have hspos : ∀ i, i < a.group.dim → 0 < nth a.windowStrides i ∧ 0 < nth a.poolSize i := fun i hi =>
      ⟨Nat.pos_of_ne_zero fun h => f.stridesPos (h ▸ nth_mem _ _ (by rw [f.stridesLen]; exact hi)),
        Nat.pos_of_ne_zero fun h => f.sizePos (h ▸ nth_mem _ _ (by rw [f.sizeLen]; exact hi))⟩
    -- zeros are put before axis i0
    have hlo : 0 < nth lo i0 := by
      obtain ⟨e, h1, _, h3⟩ := epads_spec hl.dims f.sizeLen hps.1 hps.2 hst hi0
      obtain ⟨e', q1, q2, _⟩ := hpads i0 hi0
      have : e = e' := by
        revert h1 q1
        cases opt
        · rintro ⟨h1, _⟩ q1; exact h1.trans q1.symm
        · rintro ⟨h1, _⟩ q1; exact h1.trans q1.symm
        · rintro ⟨h1, h2⟩ ⟨q1, q2⟩; exact Nat.le_antisymm (h2 _ q1) (q2 _ h1)
        · rintro ⟨h1, h2⟩ ⟨q1, q2⟩; exact Nat.le_antisymm (h2 _ q1) (q2 _ h1)
      rw [h3] at hlo0
      rw [q2, ← this]
      exact hlo0
    obtain ⟨x1, y1, B1, hx1, hy1⟩ := hcall
    have hfit := ((hcalls x1 B1 hx1).1).1 ⟨y1, hy1⟩
    let x : Tensor α := ⟨sigShape .channelsLast 1 n (some g) C, fun _ => -1⟩
    obtain ⟨c1, c2⟩ := hcalls x 1 rfl
    obtain ⟨y, hy⟩ := c1.2 hfit
    obtain ⟨hys, hyg⟩ := c2 y hy
    have hv : Valid y.shape (0 :: (List.replicate a.group.dim 0) ++ [0, 0]) := by
      rw [hys]
      show Valid ([1] ++ ((List.range a.group.dim).map _) ++ [H.length, C]) _
      refine (valid_append (1 :: _) [H.length, C] (0 :: List.replicate a.group.dim 0) [0, 0] (by simp)).2
        ⟨⟨by omega, ?_⟩, hpos, hC, trivial⟩
      rw [valid_iff]
      refine ⟨by simp, fun i hi => ?_⟩
      have hi' : i < a.group.dim := by simpa using hi
      show nth (List.replicate a.group.dim 0) i < nth ((List.range a.group.dim).map _) i
      rw [nth_map_range, nth_replicate, if_pos hi', if_pos hi']
      exact Nat.succ_pos _
    have hb := hall (-1) (-1) x y 1 rfl (fun _ _ => ⟨le_refl _, le_refl _⟩) hy _ hv
    obtain ⟨qs, hqs, _, hval⟩ := hyg 0 _ 0 0 hv
    rw [hval] at hb
    refine reduce_above a.poolType ?_ ?_ (le_antisymm hb.2 hb.1)
    · intro v hv
      obtain ⟨q, _, rfl⟩ := List.mem_map.1 hv
      split
      · refine le_of_eq (reduce_const _ (fun v hv => ?_) ?_).symm
        · obtain ⟨t, _, rfl⟩ := List.mem_map.1 hv
          rfl
        · intro hnil
          have : cos = [] := by simpa using hnil
          obtain ⟨_, _, h3, _⟩ := htile
          have hord : 0 < a.group.group.order := sub_pos S.tab S.tab.own |>.trans_le (by simp)
          obtain ⟨_, _, c, hc, _⟩ := h3 0 hord
          rw [this] at hc
          simp at hc
      · simp
    · refine List.mem_map.2 ⟨(List.range a.group.dim).map fun i => -(nth lo i : Int), ?_, ?_⟩
      · rw [hqs, List.mem_filter, decide_eq_true_eq]
        refine ⟨List.mem_map.2 ⟨(List.range a.group.dim).map (nth skip), ?_, ?_⟩, ?_, ?_⟩
        · rw [mem_indices, valid_iff]
          refine ⟨by simp [f.sizeLen], fun i hi => ?_⟩
          rw [f.sizeLen] at hi
          rw [nth_map_range, if_pos hi]
          obtain ⟨e, _, _, _, q4, _⟩ := hpads i hi
          have := (hspos i hi)
          have hT : builtIn opt (nth n i + e) (nth a.poolSize i) (nth a.windowStrides i) < nth a.poolSize i := by
            have : sameTotal (nth n i + e) (nth a.poolSize i) (nth a.windowStrides i) < nth a.poolSize i := by
              unfold sameTotal
              split <;> omega
            cases opt <;> simp only [builtIn] <;> omega
          omega
        · unfold window
          rw [f.stridesLen]
          apply List.map_congr_left
          intro i hi
          have hi := List.mem_range.1 hi
          simp only [nth_map_range, nth_replicate, if_pos hi]
          push_cast
          omega
        · simp [hl.dims]
        · intro i hi
          rw [hl.dims] at hi
          have hget : ((List.range a.group.dim).map fun i => -(nth lo i : Int)).getD i 0 = -(nth lo i : Int) := by simp [hi]
          rw [hget]
          refine ⟨le_refl _, ?_⟩
          obtain ⟨e, _, q2, q3, q4, q5⟩ := hpads i hi
          have hsp := hspos i hi
          have hfi := hfit i hi
          have hT : builtIn opt (nth n i + e) (nth a.poolSize i) (nth a.windowStrides i) < nth a.poolSize i := by
            have : sameTotal (nth n i + e) (nth a.poolSize i) (nth a.windowStrides i) < nth a.poolSize i := by
              unfold sameTotal
              split <;> omega
            cases opt <;> simp only [builtIn] <;> omega
          omega
      · rw [if_neg]
        intro hin
        have := (inBox_iff.1 hin).2 i0 (by rw [hl.dims]; exact hi0)
        simp [hi0] at this
        omega
  · intro hu lo hi x y B _ hx hy
    exact C55_range_partial l (Or.inl hu) hx hy

set_option maxRecDepth 8000 in
/-- hypotheses are met, by a layer that pads and by one that does not -/
example : (∃ l y, BuiltPool evenSamePool none [2, 2] 2 1 [0, 1] l ∧ ¬ Unpadded l.transforms ∧
      l.call (⟨sigShape .channelsLast 1 [2, 2] (some 2) 1, fun _ => 1⟩ : Tensor ℚ) = .ok y) ∧
    ∃ l y, BuiltPool stridePool none [4, 4] 4 1 [0, 2] l ∧ Unpadded l.transforms ∧
      l.call (⟨sigShape .channelsLast 1 [4, 4] (some 4) 1, fun _ => 1⟩ : Tensor ℚ) = .ok y :=
  ⟨⟨_, _, ⟨⟨_, rfl, rfl⟩, rfl, rfl⟩, by unfold Unpadded; decide, rfl⟩, _, _, ⟨⟨_, rfl, rfl⟩, rfl, rfl⟩, rfl, rfl⟩

end GroCo
