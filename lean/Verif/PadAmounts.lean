import Verif.ConvLemmas
import Verif.Props.Padding

/-
Helper lemmas: the zeros a built convolution layer and Keras put around the grid.
-/

namespace GroCo
open Tensor

variable {α : Type}

theorem signal_fits {o : PadOption} {allow : Bool} {d : Nat} {strides K n : List Nat} {l tr : Bool} (hn : n.length = d)
    (hK : K.length = d) (hs : strides.length = d) (h0 : 0 ∉ strides) :
    (EquivariantPadding.mk o allow d strides K l tr).Fits n :=
  ⟨hn.symm, by simp [hK, hn], by simp [hs, hn], fun s hs => Nat.pos_of_ne_zero fun h => h0 (h ▸ hs)⟩

theorem amount_pads (st : PadState) (d i : Nat) (h : st.OnGrid d) : st.amount i = st.pads.getD i (0, 0) := by
  rcases h with rfl | ⟨es, _, rfl⟩
  · simp [PadState.amount]
  · simp [PadState.amount]

theorem nth_epads {st : PadState} {d i : Nat} (hi : i < d) :
    (epads st d).getD i (0, 0) =
      ((st.pads.getD (i + 1) (0, 0)).1.toNat, (st.pads.getD (i + 1) (0, 0)).2.toNat) := by
  simp [epads, hi]

/-- zeros added by the padding layer of a (not transposed) layer -/
theorem epads_spec {o : PadOption} {allow : Bool} {d : Nat} {strides K n : List Nat} {b c : Option Nat} {st : PadState}
    (hn : n.length = d) (hK : K.length = d) (hs : strides.length = d) (h0 : 0 ∉ strides)
    (h : (EquivariantPadding.mk o allow d strides K true false).build (signalShape true b c n) = .ok st) {i : Nat} (hi : i < d) :
    ∃ e, (match o with
      | .same | .valid => e = 0 ∧ (allow = false → Symmetric (nth n i) (nth K i) (nth strides i) (builtIn o (nth n i) (nth K i) (nth strides i)))
      | _ => Symmetric (nth n i) (nth K i) (nth strides i) (e + builtIn o (nth n i) (nth K i) (nth strides i)) ∧
          ∀ e', Symmetric (nth n i) (nth K i) (nth strides i) (e' + builtIn o (nth n i) (nth K i) (nth strides i)) → e ≤ e') ∧
      builtIn o (nth n i + e) (nth K i) (nth strides i) = builtIn o (nth n i) (nth K i) (nth strides i) ∧
      (epads st d).getD i (0, 0) = ((e + 1) / 2, e / 2) := by
  have hf := signal_fits (o := o) (allow := allow) (l := true) (tr := false) hn hK hs h0
  have hg := EquivariantPadding.build_onGrid (d := d) rfl hK h
  have hin : i < n.length := by omega
  rw [nth_epads hi, ← amount_pads st d (i + 1) hg]
  by_cases hp : o = .same ∨ o = .valid
  · refine ⟨0, ?_, rfl, ?_⟩
    · have hsym : allow = false → Symmetric (nth n i) (nth K i) (nth strides i) (builtIn o (nth n i) (nth K i) (nth strides i)) := by
        intro ha
        by_contra hns
        have := (C20_refused ⟨o, allow, d, strides, K, true, false⟩ hp ha rfl b c n hf).1.2 ⟨i, hin, hns⟩
        rw [show (EquivariantPadding.mk o allow d strides K true false).channelsLast = true from rfl] at this
        rw [h] at this
        exact absurd this (by simp)
      rcases hp with rfl | rfl
      · exact ⟨rfl, hsym⟩
      · exact ⟨rfl, hsym⟩
    · have hst : st = ⟨false, []⟩ := by
        have := EquivariantPadding.build_eq ⟨o, allow, d, strides, K, true, false⟩ b c hf
        simp only at this
        rw [h] at this
        split at this
        · cases this; rfl
        · split at this
          · cases this; rfl
          · exact absurd this (by simp [hp])
      subst hst
      rfl
  · have hp' : o = .sameEquiv ∨ o = .validEquiv := by cases o <;> simp_all
    obtain ⟨e, h1, h2, h3, h4⟩ := C18_minimal ⟨o, allow, d, strides, K, true, false⟩ hp' rfl b c n hf st h i hin
    have h5 := (build_amount hf h (by rintro ⟨h, _⟩; exact hp h)).1 i hin
    refine ⟨e, ?_, h2, ?_⟩
    · rcases hp' with rfl | rfl
      · exact ⟨h3, h4⟩
      · exact ⟨h3, h4⟩
    · simp only [spatialAxis, if_true] at h1 h5
      obtain ⟨h5, _, _⟩ := h5
      rw [h5] at h1 ⊢
      simp only at h1
      generalize ((EquivariantPadding.mk o allow d strides K true false).padAt n i).1 = q at *
      simp only [Prod.mk.injEq]
      omega

theorem nth_kpads {kp : KerasPadding} {strides dil K sp : List Nat} {i : Nat} (hi : i < strides.length) :
    (kpads kp strides dil K sp).getD i (0, 0) = match kp with
      | .valid => (0, 0)
      | .same => samePads (nth sp i) (dilated (nth K i) (nth dil i)) (nth strides i) := by
  cases kp <;> simp [kpads, hi]

theorem kpads_builtIn {o : PadOption} {kp : KerasPadding} {strides dil K sp : List Nat}
    (hk : kp = kerasOf o) {i : Nat} (hi : i < strides.length) :
    (kpads kp strides dil K sp).getD i (0, 0) =
      (builtIn o (nth sp i) (dilated (nth K i) (nth dil i)) (nth strides i) / 2,
        builtIn o (nth sp i) (dilated (nth K i) (nth dil i)) (nth strides i) -
          builtIn o (nth sp i) (dilated (nth K i) (nth dil i)) (nth strides i) / 2) := by
  rw [nth_kpads hi, hk]
  cases o <;> simp [samePads, builtIn, kerasOf]

/-- zeros after each axis -/
def totalAfter (st : PadState) (kp : KerasPadding) (strides dil K n : List Nat) : List Nat :=
  (List.range strides.length).map fun i =>
    ((kpads kp strides dil K (grow n (epads st strides.length))).getD i (0, 0)).2 + ((epads st strides.length).getD i (0, 0)).2

theorem nth_padded {st : PadState} {kp : KerasPadding} {strides dil K m : List Nat} (hm : m.length = strides.length) {i : Nat}
    (hi : i < strides.length) :
    nth (padded st kp strides dil K m) i =
      nth (totalBefore st kp strides dil K m) i + nth m i + nth (totalAfter st kp strides dil K m) i := by
  unfold padded totalBefore totalAfter
  rw [nth_grow (by rw [length_grow (by rw [length_epads, hm])]; omega) (by
      rw [length_grow (by rw [length_epads, hm])]; simp [kpads, hm]), nth_grow (by omega) (by rw [length_epads, hm]),
    nth_map_range, nth_map_range, if_pos hi, if_pos hi, nth_befores, nth_befores]
  omega

theorem padsTo_ok {o : PadOption} {kp : KerasPadding} {allow : Bool} {d : Nat} {strides dil K n m : List Nat} {b c : Option Nat}
    {st : PadState} (hn : n.length = d) (hm : m.length = d) (hK : K.length = d) (hs : strides.length = d) (h0 : 0 ∉ strides)
    (hk : kp = kerasOf o)
    (h : (EquivariantPadding.mk o allow d strides K true false).build (signalShape true b c n) = .ok st) {i : Nat} (hi : i < d) :
    PadsTo o (nth n i) (nth m i) (nth K i) (nth strides i) (nth dil i) (nth (totalBefore st kp strides dil K m) i)
      (nth (totalAfter st kp strides dil K m) i) := by
  obtain ⟨e, h1, h2, h3⟩ := epads_spec hn hK hs h0 h hi
  have hg : nth (grow m (epads st d)) i = nth m i + e := by
    rw [nth_grow (by omega) (by rw [length_epads, hm]), h3]
    simp only
    omega
  refine ⟨e, ?_, ?_, ?_⟩
  · cases o
    · exact h1.1
    · exact h1.1
    · exact h1
    · exact h1
  · unfold totalBefore
    rw [nth_map_range, if_pos (by omega), nth_befores, nth_befores, kpads_builtIn hk (by omega), hs, h3, hg]
    simp only
    omega
  · unfold totalBefore totalAfter
    rw [nth_map_range, nth_map_range, if_pos (by omega), nth_befores, nth_befores, kpads_builtIn hk (by omega), hs, h3, hg,
      if_pos hi]
    simp only
    omega

end GroCo
