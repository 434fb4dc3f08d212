import Verif.Props.Translate

/-
Property C56 for every padding option: where pooling layers commute with translations.
-/

namespace GroCo
open Tensor

variable {α : Type}

/-- C56 for every padding option: if a signal is moved by `t` strides along each axis and nothing is pushed off the grid then the
result of the pooling layer at `p + t` is that of the original signal at `p`, provided that the windows at these two positions have the
same offsets inside the signal with its `lo` and `hi` zeros; in particular if both windows lie inside. -/
theorem C56_windows [Field α] [LinearOrder α] {a : PoolArgs} {bt : Option Nat} {n : List Nat}
    {g C : Nat} {H : List Nat} {l : GroupPooling} (hl : BuiltPool a bt n g C H l) (hf : a.dataFormat = .channelsLast)
    (opt : PadOption) (hopt : formatPaddingOption a.padding = .ok opt) (m : List Nat) (hm : m.length = a.group.dim) :
    ∃ lo hi skip skip' : List Nat,
      (∀ i, i < a.group.dim → PoolPads opt (nth n i) (nth m i) (nth a.poolSize i) (nth a.windowStrides i)
        (nth a.paddingStrides i) (nth lo i) (nth hi i) (nth skip i) (nth skip' i)) ∧
      ∀ (x x' : Tensor α) (B : Nat), x.shape = sigShape .channelsLast B m (some g) C → x'.shape = x.shape →
      ∀ t : List Int, t.length = a.group.dim →
      Translated a.group.dim (List.zipWith (fun (s : Nat) (u : Int) => s * u) a.windowStrides t) x x' →
      ((∃ y, l.call x = .ok y) ↔ ∃ y, l.call x' = .ok y) ∧
      ∀ y y', l.call x = .ok y → l.call x' = .ok y' → y'.shape = y.shape ∧
        ∀ b p p' i o, Valid y.shape (b :: p ++ [i, o]) → Valid y.shape (b :: p' ++ [i, o]) →
          p'.map Int.ofNat = List.zipWith (· + ·) (p.map Int.ofNat) t →
          (∀ k, Valid a.poolSize k →
            (InExtended lo m hi (window ((List.range a.group.dim).map fun i => nth skip i + nth lo i) a.windowStrides
                (List.replicate a.group.dim 1) p k) ↔
              InExtended lo m hi (window ((List.range a.group.dim).map fun i => nth skip i + nth lo i) a.windowStrides
                (List.replicate a.group.dim 1) p' k))) →
          y'.get (b :: p' ++ [i, o]) = y.get (b :: p ++ [i, o]) := by
  obtain ⟨cos, lo, hi, skip, skip', htile, hpads, hall⟩ := C33_uniform (α := α) hl hf opt hopt m hm
  refine ⟨lo, hi, skip, skip', hpads, ?_⟩
  intro x x' B hx hx' t ht hmove
  have hX' := hx'.trans hx
  obtain ⟨r1, v1⟩ := hall x B hx
  obtain ⟨r2, v2⟩ := hall x' B hX'
  refine ⟨r1.trans r2.symm, ?_⟩
  intro y y' hy hy'
  obtain ⟨s1, g1⟩ := v1 y hy
  obtain ⟨s2, g2⟩ := v2 y' hy'
  refine ⟨s2.trans s1.symm, ?_⟩
  intro b p p' i o hv hv' hpp hwin
  obtain ⟨qs, eq, -, hg⟩ := g1 b p i o hv
  obtain ⟨qs', eq', -, hg'⟩ := g2 b p' i o (by rw [s2, ← s1]; exact hv')
  rw [hg, hg', eq, eq']
  refine congrArg a.poolType.reduce ?_
  generalize hT : ((List.range a.group.dim).map fun i => nth skip i + nth lo i) = tot at *
  rw [List.filter_map, List.filter_map, List.map_map, List.map_map]
  have hfil : (indices a.poolSize).filter ((fun q => decide (InExtended lo m hi q)) ∘ fun k =>
        window tot a.windowStrides (List.replicate a.group.dim 1) p' k) =
      (indices a.poolSize).filter ((fun q => decide (InExtended lo m hi q)) ∘ fun k =>
        window tot a.windowStrides (List.replicate a.group.dim 1) p k) := by
    apply List.filter_congr
    intro k hk
    simp only [Function.comp_apply, decide_eq_decide]
    exact (hwin k ((mem_indices _ _).1 hk)).symm
  rw [hfil]
  apply List.map_congr_left
  intro k hk
  simp only [Function.comp_apply]
  have hstr : a.windowStrides.length = a.group.dim := by
    obtain ⟨opt', kp, cos', e1, e2, f, -, -⟩ := hl.facts hf
    exact f.stridesLen
  rw [s1, sigShape] at hv hv'
  have hpl := hv.length
  simp only [List.length_append, List.length_cons, List.length_nil, List.length_map, List.length_range, Option.toList_some] at hpl
  obtain ⟨⟨hb, hp⟩, hi', ho, _⟩ := (valid_append (B :: (List.range a.group.dim).map fun i =>
      (nth skip i + (nth lo i + nth m i + nth hi i) + nth skip' i - nth a.poolSize i) / nth a.windowStrides i + 1) [H.length, C]
    (b :: p) [i, o] (by simp; omega)).1 (by simpa using hv)
  show poolValue a H cos x' m b (winZ tot a.windowStrides (List.replicate a.group.dim 1) p' k) i o =
    poolValue a H cos x m b (winZ tot a.windowStrides (List.replicate a.group.dim 1) p k) i o
  rw [poolValue_read, poolValue_read]
  refine congrArg a.poolType.reduce (List.map_congr_left fun t' ht' => ?_)
  have hwl : ∀ p, (winZ tot a.windowStrides (List.replicate a.group.dim 1) p k).length = m.length := fun p => by
    rw [length_winZ, hstr, hm]
  have hR : Valid [g, C] [a.group.group.comp (nth H i) t', o] := by
    obtain ⟨cos', -, hg, -⟩ := C33_subgroup_pooling (α := α) hl
    rw [hg]
    obtain ⟨_, _, cos', _, _, f, -, -⟩ := hl.facts hf
    obtain ⟨sH, hsH, hH, -⟩ := f.sub
    exact ⟨a.group.sym.tab.laws.closed _ _ (a.group.sym.sub_lt hH (nth_mem _ _ hi')) (htile.2.1 t' ht'), ho, trivial⟩
  have hsig : sigShape .channelsLast B m (some g) C = B :: m ++ [g, C] := by simp [sigShape]
  rw [← read0_sig (hx.trans hsig) hb (hwl p) hR, ← read0_sig (hX'.trans hsig) hb (hwl p') hR,
    ← hmove b _ _ ((hwl p).trans hm)]
  refine congrArg (read0 x') (congrArg (fun q => (b : Int) :: q ++ _) ?_)
  exact winZ_moved _ _ _ _ _ _ _ (hstr.trans ht.symm) (by rw [hstr]; omega) hpp

/-- an average pooling layer with padding 'same' and windows of size 2, which start at their position and may stick out at the end -/
def evenAverage : PoolArgs := { averagePool "same" with poolSize := [2, 2], allowNonEquivariance := true }

set_option maxRecDepth 8000 in
/-- hypotheses are met: the windows at [1, 1] and [0, 0] lie inside 3x3 signals. The layer is one for which C56 fails at other positions. -/
example : (∃ l y y', BuiltPool evenAverage none [3, 3] 2 1 [0, 1] l ∧ l.call (dot (α := ℚ) 1 1) = .ok y ∧
      l.call (dot (α := ℚ) 0 0) = .ok y' ∧ y.shape = [1, 3, 3, 2, 1]) ∧
    formatPaddingOption evenAverage.padding = .ok .same ∧
    Translated 2 (List.zipWith (fun (s : Nat) (u : Int) => s * u) [1, 1] [-1, -1]) (dot (α := ℚ) 1 1) (dot 0 0) ∧
    (∀ i, i < 2 → PoolPads .same 3 3 2 1 1 0 0 0 1) ∧
    (∀ k ∈ indices [2, 2], InExtended [0, 0] [3, 3] [0, 0] (window [0, 0] [1, 1] [1, 1] [1, 1] k) ∧
      InExtended [0, 0] [3, 3] [0, 0] (window [0, 0] [1, 1] [1, 1] [0, 0] k)) :=
  ⟨⟨_, _, _, ⟨⟨_, rfl, rfl⟩, rfl, rfl⟩, rfl, rfl, rfl⟩, rfl, dot_moved, fun _ _ => ⟨0, rfl, rfl, rfl, rfl, rfl⟩, by decide⟩

end GroCo
