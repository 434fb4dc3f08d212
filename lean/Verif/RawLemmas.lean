import Verif.Raw
import Verif.RebuildLemmas

/-
Helper lemmas about arguments as written.
-/

namespace GroCo

variable {α : Type}

theorem cast_entries (d : Nat) (s : SizeArg) : (s.cast d).entries = s.standardize d := by cases s <;> rfl

theorem cast_rows (d : Nat) (s : SizeArg) : (s.cast d).rows = if s.isList then some d else none := by cases s <;> rfl

/-- the padding layer as in the model with tuples only -/
def ArrayPadding.flat (p : ArrayPadding) : EquivariantPadding :=
  ⟨p.paddingOption, p.allowNonEquivariance, p.dimensions, p.strides.entries, p.kernelSizes.entries, true, p.transpose⟩

/-- with vectors the padding layer is the one with tuples; with a matrix it fails exactly where padding is needed -/
theorem arrayPadding_build (p : ArrayPadding) (hr : ∀ r, p.rows = some r → 0 < r) (shape : List (Option Nat)) (st : PadState) :
    p.build shape = .ok st ↔ p.flat.build shape = .ok st ∧ (p.rows ≠ none → st.needsPadding = false) := by
  unfold ArrayPadding.build EquivariantPadding.build EquivariantPadding.spatialShape ArrayPadding.flat
  dsimp only
  split
  · simp only [res_pure]
    constructor
    · intro h
      exact ⟨h, fun _ => by cases h; rfl⟩
    · exact fun h => h.1
  · simp only [if_true]
    generalize (List.mapM _ _ : Res (List Nat)) = sp
    cases sp with
    | error e =>
      constructor
      · intro h; cases h
      · intro h; cases h.1
    | ok sp =>
      simp only [res_bind_ok]
      split
      · simp
      · generalize List.map _ (List.range sp.length) = row
        cases hrows : p.rows with
        | none => simp
        | some r =>
          have hmem : ∀ e, e ∈ (List.range r).flatMap (fun _ => row) ↔ e ∈ row := by
            intro e
            simp only [List.mem_flatMap, List.mem_range]
            exact ⟨fun ⟨_, _, h⟩ => h, fun h => ⟨0, hr r hrows, h⟩⟩
          simp only [hmem]
          split
          · simp only [res_pure]
            constructor
            · intro h
              exact ⟨h, fun _ => by cases h; rfl⟩
            · exact fun h => h.1
          · split
            · simp
            · split
              · simp
              · simp only [res_pure, reduceCtorEq, false_iff, not_and]
                intro h
                cases h
                simp

theorem makePadding_flat (o : PadOption) (al : Bool) (d : Nat) (s k : SizeArg) (tr : Bool) :
    (makePadding o al d s k tr).flat = ⟨o, al, d, s.standardize d, k.standardize d, true, tr⟩ := by
  unfold makePadding ArrayPadding.flat
  rw [cast_entries, cast_entries]

theorem makePadding_build (o : PadOption) (al : Bool) {d : Nat} (hd : 0 < d) (s k : SizeArg) (tr : Bool)
    (shape : List (Option Nat)) (st : PadState) : (makePadding o al d s k tr).build shape = .ok st ↔
      (⟨o, al, d, s.standardize d, k.standardize d, true, tr⟩ : EquivariantPadding).build shape = .ok st ∧
        (k.isList ∨ s.isList → st.needsPadding = false) := by
  have hrow : (makePadding o al d s k tr).rows = if k.isList ∨ s.isList then some d else none := by
    unfold makePadding ArrayPadding.rows
    simp only [cast_rows]
    cases k <;> cases s <;> simp [SizeArg.isList]
  rw [arrayPadding_build _ ?_, makePadding_flat, hrow]
  · split <;> simp_all
  · intro r h
    rw [hrow] at h
    split at h
    · cases h; exact hd
    · cases h

theorem conv_padState {l l1 : GroupConv α} {shape : List (Option Nat)} {k0 b0 : List Nat → α}
    (h : l.build shape k0 b0 = .ok l1) :
    l.transforms.equivariantPadding.build l1.transforms.reshapedInput = .ok l1.transforms.padState := by
  obtain ⟨t, I, J, ht, e⟩ := conv_build_inv h
  rw [transforms_build_eq] at ht
  obtain ⟨r, -, ht⟩ := bind_eq_ok ht
  obtain ⟨st, hst, ht⟩ := bind_eq_ok ht
  rw [e]
  cases ht
  exact hst

theorem pool_padState {l l1 : GroupPooling} {shape : List (Option Nat)} (h : l.build shape = .ok l1) :
    l.transforms.equivariantPadding.build l1.transforms.reshapedInput = .ok l1.transforms.padState := by
  obtain ⟨t, I, ht, rfl⟩ := pool_build_inv h
  rw [transforms_build_eq] at ht
  obtain ⟨r, -, ht⟩ := bind_eq_ok ht
  obtain ⟨st, hst, ht⟩ := bind_eq_ok ht
  cases ht
  exact hst

end GroCo
