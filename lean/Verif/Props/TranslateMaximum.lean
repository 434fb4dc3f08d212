import Verif.Props.TranslateWindows

/-
Property C56 for the maximum of signals without negative entries, such as those after a ReLU.
-/

namespace GroCo
open Tensor

variable {α : Type}

/-- the maxima of a function without negative values over two sets outside of whose intersection it is zero are the same -/
theorem maxOf_agree {K : Type} [LinearOrder α] [Zero α] {A A' : List K} {V : K → α} (hA : A ≠ []) (hA' : A' ≠ [])
    (h0 : ∀ k, 0 ≤ V k) (h1 : ∀ k ∈ A, k ∉ A' → V k = 0) (h2 : ∀ k ∈ A', k ∉ A → V k = 0) :
    maxOf (A.map V) = maxOf (A'.map V) := by
  have key : ∀ A A' : List K, A ≠ [] → A' ≠ [] → (∀ k ∈ A, k ∉ A' → V k = 0) → maxOf (A.map V) ≤ maxOf (A'.map V) := by
    intro A A' hA hA' h1
    obtain ⟨k, hk, e⟩ := List.mem_map.1 (maxOf_mem (l := A.map V) (by simpa using hA))
    rw [← e]
    by_cases h : k ∈ A'
    · exact le_maxOf (List.mem_map.2 ⟨k, h, rfl⟩)
    · rw [h1 k hk h]
      obtain ⟨k', hk'⟩ := List.exists_mem_of_ne_nil _ hA'
      exact (h0 k').trans (le_maxOf (List.mem_map.2 ⟨k', hk', rfl⟩))
  exact le_antisymm (key A A' hA hA' h1) (key A' A hA' hA h2)

theorem inBox_inExtended {lo m hi : List Nat} {q : List Int} (h : InBox m q) : InExtended lo m hi q := by
  obtain ⟨h1, h2⟩ := inBox_iff.1 h
  refine ⟨h1, fun i hi' => ?_⟩
  have := h2 i hi'
  omega

/-- C56 for the maximum of signals without negative entries, with every padding option: if a signal is moved by `t` strides along
each axis and nothing is pushed off the grid, the result of the pooling layer is moved by `t`. -/
theorem C56_maximum_partial [Field α] [LinearOrder α] {a : PoolArgs} {bt : Option Nat} {n : List Nat}
    {g C : Nat} {H : List Nat} {l : GroupPooling} (hl : BuiltPool a bt n g C H l) (hf : a.dataFormat = .channelsLast)
    (hmax : a.poolType = .max) (x x' : Tensor α) (B : Nat) (m : List Nat) (hm : m.length = a.group.dim)
    (hx : x.shape = sigShape .channelsLast B m (some g) C) (hx' : x'.shape = x.shape)
    (hpos : ∀ idx, Valid x.shape idx → 0 ≤ x.get idx) (t : List Int) (ht : t.length = a.group.dim)
    (hmove : Translated a.group.dim (List.zipWith (fun (s : Nat) (u : Int) => s * u) a.windowStrides t) x x') :
    ((∃ y, l.call x = .ok y) ↔ ∃ y, l.call x' = .ok y) ∧
    ∀ y y', l.call x = .ok y → l.call x' = .ok y' → y'.shape = y.shape ∧
      ∀ b p p' i o, Valid y.shape (b :: p ++ [i, o]) → Valid y.shape (b :: p' ++ [i, o]) →
        p'.map Int.ofNat = List.zipWith (· + ·) (p.map Int.ofNat) t → y'.get (b :: p' ++ [i, o]) = y.get (b :: p ++ [i, o]) := by
  obtain ⟨opt, kp, cos0, hopt, e2, f, -, -⟩ := hl.facts hf
  obtain ⟨cos, lo, hi, skip, skip', htile, hpads, hall⟩ := C33_uniform (α := α) hl hf opt hopt m hm
  have hX' := hx'.trans hx
  obtain ⟨r1, v1⟩ := hall x B hx
  obtain ⟨r2, v2⟩ := hall x' B hX'
  refine ⟨r1.trans r2.symm, ?_⟩
  intro y y' hy hy'
  obtain ⟨s1, g1⟩ := v1 y hy
  obtain ⟨s2, g2⟩ := v2 y' hy'
  refine ⟨s2.trans s1.symm, ?_⟩
  intro b p p' i o hv hv' hpp
  obtain ⟨qs, eq, hne, hg⟩ := g1 b p i o hv
  obtain ⟨qs', eq', hne', hg'⟩ := g2 b p' i o (by rw [s2, ← s1]; exact hv')
  rw [hg, hg']
  rw [eq] at hne ⊢
  rw [eq'] at hne' ⊢
  generalize hT : ((List.range a.group.dim).map fun i => nth skip i + nth lo i) = tot at *
  rw [List.filter_map] at hne hne' ⊢
  rw [List.filter_map, List.map_map, List.map_map]
  have hstr : a.windowStrides.length = a.group.dim := f.stridesLen
  rw [s1, sigShape] at hv hv'
  have hpl := hv.length
  simp only [List.length_append, List.length_cons, List.length_nil, List.length_map, List.length_range, Option.toList_some] at hpl
  obtain ⟨⟨hb, hp⟩, hi', ho, _⟩ := (valid_append (B :: (List.range a.group.dim).map fun i =>
      (nth skip i + (nth lo i + nth m i + nth hi i) + nth skip' i - nth a.poolSize i) / nth a.windowStrides i + 1) [H.length, C]
    (b :: p) [i, o] (by simp; omega)).1 (by simpa using hv)
  have hwl : ∀ p k, (winZ tot a.windowStrides (List.replicate a.group.dim 1) p k).length = m.length := fun p k => by
    rw [length_winZ, hstr, hm]
  have hR : ∀ t' ∈ cos, Valid [g, C] [a.group.group.comp (nth H i) t', o] := by
    intro t' ht'
    obtain ⟨cos', -, hg, -⟩ := C33_subgroup_pooling (α := α) hl
    rw [hg]
    obtain ⟨sH, hsH, hH, -⟩ := f.sub
    exact ⟨a.group.sym.tab.laws.closed _ _ (a.group.sym.sub_lt hH (nth_mem _ _ hi')) (htile.2.1 t' ht'), ho, trivial⟩
  have hsig : sigShape .channelsLast B m (some g) C = B :: m ++ [g, C] := by simp [sigShape]
  -- the values at corresponding offsets of the two windows are the same
  have hsame : ∀ k, poolValue a H cos x' m b (winZ tot a.windowStrides (List.replicate a.group.dim 1) p' k) i o =
      poolValue a H cos x m b (winZ tot a.windowStrides (List.replicate a.group.dim 1) p k) i o := by
    intro k
    rw [poolValue_read, poolValue_read]
    refine congrArg a.poolType.reduce (List.map_congr_left fun t' ht' => ?_)
    rw [← read0_sig (hx.trans hsig) hb (hwl p k) (hR t' ht'), ← read0_sig (hX'.trans hsig) hb (hwl p' k) (hR t' ht'),
      ← hmove b _ _ ((hwl p k).trans hm)]
    refine congrArg (read0 x') (congrArg (fun q => (b : Int) :: q ++ _) ?_)
    exact winZ_moved _ _ _ _ _ _ _ (hstr.trans ht.symm) (by rw [hstr]; omega) hpp
  have hpos' : ∀ q, 0 ≤ read0 x q := by
    intro q
    unfold read0
    split
    · rename_i h; exact hpos _ (inBox_toNat h)
    · exact le_refl _
  have hnn : ∀ k, 0 ≤ poolValue a H cos x m b (winZ tot a.windowStrides (List.replicate a.group.dim 1) p k) i o := by
    intro k
    rw [poolValue_read, hmax]
    show 0 ≤ maxOf _
    by_cases hc : cos = []
    · subst hc; exact le_refl _
    · obtain ⟨t', ht', e⟩ := List.mem_map.1 (maxOf_mem (l := cos.map fun t => readAt x m b
        (winZ tot a.windowStrides (List.replicate a.group.dim 1) p k) [a.group.group.comp (nth H i) t, o]) (by simpa using hc))
      rw [← e, ← read0_sig (hx.trans hsig) hb (hwl p k) (hR t' ht')]
      exact hpos' _
  have hout : ∀ (z : Tensor α) p k, ¬ InExtended lo m hi (winZ tot a.windowStrides (List.replicate a.group.dim 1) p k) →
      poolValue a H cos z m b (winZ tot a.windowStrides (List.replicate a.group.dim 1) p k) i o = 0 := fun z p k h =>
    if_neg fun h' => h (inBox_inExtended h')
  rw [hmax]
  show maxOf _ = maxOf _
  have e : ∀ A : List (List Nat), A.map (fun k => poolValue a H cos x' m b
        (winZ tot a.windowStrides (List.replicate a.group.dim 1) p' k) i o) =
      A.map (fun k => poolValue a H cos x m b (winZ tot a.windowStrides (List.replicate a.group.dim 1) p k) i o) := fun A =>
    List.map_congr_left fun k _ => hsame k
  have c : ∀ (z : Tensor α) p, ((fun q : List Int => if InBox m q then PoolType.max.reduce (cos.map fun t =>
        z.get (b :: q.map Int.toNat ++ [a.group.group.comp (nth H i) t, o])) else 0) ∘
        fun k => window tot a.windowStrides (List.replicate a.group.dim 1) p k) =
      fun k => poolValue a H cos z m b (winZ tot a.windowStrides (List.replicate a.group.dim 1) p k) i o := by
    intro z p
    funext k
    unfold poolValue
    rw [hmax]
    rfl
  rw [c, c, e]
  refine maxOf_agree (by simpa using hne') (by simpa using hne) hnn ?_ ?_
  · intro k hk hk'
    rw [List.mem_filter] at hk hk'
    refine hout _ _ _ fun h => hk' ⟨hk.1, ?_⟩
    exact decide_eq_true h
  · intro k hk hk'
    rw [List.mem_filter] at hk hk'
    rw [← hsame]
    refine hout _ _ _ fun h => hk' ⟨hk.1, ?_⟩
    exact decide_eq_true h

/-- `averagePool` with the maximum -/
def maximumPool (padding : String) : PoolArgs := { averagePool padding with poolType := .max }

set_option maxRecDepth 8000 in
/-- hypotheses are met with padding 'same', for which the mean does not move along (`C56_violation`): when the bright position is moved
from the middle to the corner so is the maximum -/
example : ∃ l y y', BuiltPool (maximumPool "same") none [3, 3] 2 1 [0, 1] l ∧ l.call (dot (α := ℚ) 1 1) = .ok y ∧
    l.call (dot (α := ℚ) 0 0) = .ok y' ∧ y'.get [0, 0, 0, 0, 0] = y.get [0, 1, 1, 0, 0] := by
  obtain ⟨l, y, y', hl, hy, hy', hs⟩ : ∃ l y y', BuiltPool (maximumPool "same") none [3, 3] 2 1 [0, 1] l ∧
      l.call (dot (α := ℚ) 1 1) = .ok y ∧ l.call (dot (α := ℚ) 0 0) = .ok y' ∧ y.shape = [1, 3, 3, 2, 1] :=
    ⟨_, _, _, ⟨⟨_, rfl, rfl⟩, rfl, rfl⟩, rfl, rfl, rfl⟩
  refine ⟨l, y, y', hl, hy, hy', ?_⟩
  refine ((C56_maximum_partial hl rfl rfl (dot 1 1) (dot 0 0) 1 [3, 3] rfl rfl rfl ?_ [-1, -1] rfl dot_moved).2 y y' hy hy').2
    0 [1, 1] [0, 0] 0 0 (by rw [hs]; decide) (by rw [hs]; decide) rfl
  intro idx _
  unfold dot
  simp only
  split <;> decide

end GroCo
