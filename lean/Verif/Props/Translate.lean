import Verif.TranslateLemmas
import Verif.BatchLemmas
import Verif.Props.Slices
import Verif.Props.Pooling
import Verif.Props.Transpose

/-
Properties C46 (transposed layers) and C56 (pooling layers): translations.
-/

namespace GroCo
open Tensor

variable {α : Type}

/-- C46 for transposed layers: if a signal is moved by `t` along each axis and nothing is pushed off the grid, the output is
moved by `t` strides. -/
theorem C46_transposed [Semiring α] {a : ConvArgs α} {bt : Option Nat} {n : List Nat}
    {g : Option Nat} {C : Nat} {k0 b0 : List Nat → α} {H : List Nat} {l : GroupConv α}
    (hl : BuiltConv a true bt n g C k0 b0 H l) (hf : a.dataFormat = .channelsLast)
    (x x' : Tensor α) (B : Nat) (m : List Nat) (hm : m.length = a.group.dim) (hx : x.shape = sigShape .channelsLast B m g C)
    (hx' : x'.shape = x.shape) (t : List Int) (ht : t.length = a.group.dim) (hmove : Translated a.group.dim t x x') :
    ∃ y y', (l.call x).2 = .ok y ∧ (l.call x').2 = .ok y' ∧ y'.shape = y.shape ∧
      ∀ b p p' i o, Valid y.shape (b :: p ++ [i, o]) → Valid y.shape (b :: p' ++ [i, o]) →
        p'.map Int.ofNat = List.zipWith (· + ·) (p.map Int.ofNat) (List.zipWith (fun (s : Nat) (u : Int) => s * u) a.strides t) →
          y'.get (b :: p' ++ [i, o]) = y.get (b :: p ++ [i, o]) := by
  obtain ⟨opt, kp, e1, e2, f, hp⟩ := hl.facts_last hf
  have hX' := hx'.trans hx
  obtain ⟨y, hy, hs₁, hg₁⟩ := convT_call_last f hf hx hm
  obtain ⟨y', hy', hs₂, hg₂⟩ := convT_call_last f hf hX' hm
  refine ⟨y, y', by rw [hy], by rw [hy'], hs₂.trans hs₁.symm, ?_⟩
  intro b p p' i o hv hv' hpp
  rw [hs₁] at hv hv'
  have hpl := hv.length
  have hpl' := hv'.length
  simp only [List.length_append, List.length_cons, List.length_nil] at hpl hpl'
  obtain ⟨⟨hb, hp⟩, hi, ho, _⟩ := (valid_append _ _ (b :: p) [i, o] (by simp only [List.length_cons]; omega)).1 hv
  obtain ⟨⟨-, hp'⟩, -⟩ := (valid_append _ _ (b :: p') [i, o] (by simp only [List.length_cons]; omega)).1 hv'
  rw [hg₁ b p i o hb hp hi ho, hg₂ b p' i o hb hp' hi ho]
  refine congrArg a.activation (congrArg (· + _) ?_)
  apply sum_congr
  intro k hk
  apply sum_congr
  intro c hc
  rw [List.mem_range] at hc
  refine congrArg (· * _) ?_
  have hsl := f.stridesLen
  have hsp : ∀ i, i < a.strides.length → 0 < nth a.strides i := fun i hi =>
    Nat.pos_of_ne_zero fun h => f.stridesPos (h ▸ nth_mem _ _ hi)
  have hpl2 : p.length = a.strides.length := by rw [hp.length, length_upSizes]
  have hpl3 : p'.length = a.strides.length := by rw [hp'.length, length_upSizes]
  have hRs : sigShape .channelsLast B m g C = B :: m ++ (g.toList ++ [C]) := by cases g <;> rfl
  have hR := valid_rest hc
  by_cases hS : ∃ z, Source (befores (epads l.transforms.padState a.group.dim)) a.strides a.dilation
      (upCrop kp a.strides a.dilation a.kernelSize (grow m (epads l.transforms.padState a.group.dim))) p k z
  · obtain ⟨z, hz⟩ := hS
    rw [spread_source hsp (by omega) hz, spread_source hsp (by omega) (source_moved (by omega) hpl2 hpp hz)]
    rw [← read0_sig (hx.trans hRs) hb (by rw [hz.1]; omega) hR,
      ← read0_sig (hX'.trans hRs) hb (by simp [hz.1]; omega) hR]
    exact hmove b z _ (by rw [hz.1]; omega)
  · rw [spread_no_source (by omega) (not_exists.1 hS), spread_no_source (by omega)]
    intro z hz
    apply hS
    refine ⟨_, source_moved (t := t.map (- ·)) (by simp; omega) hpl3 ?_ hz⟩
    rw [hpp]
    apply List.ext_getElem
    · simp; omega
    · intro i h1 h2
      simp

/-! ### C56 -/

theorem reduce_zeros [Field α] [LinearOrder α] {β : Type} (t : PoolType) (l : List β) : t.reduce (l.map fun _ => (0 : α)) = 0 := by
  cases t with
  | max =>
    by_cases hl : l = []
    · subst hl; rfl
    · obtain ⟨_, _, e⟩ := List.mem_map.1 (maxOf_mem (l := l.map fun _ => (0 : α)) (by simpa using hl))
      exact e.symm
  | average => simp [PoolType.reduce, meanOf]

theorem poolValue_read [Field α] [LinearOrder α] (a : PoolArgs) (H cos : List Nat) (x : Tensor α) (m : List Nat) (b : Nat)
    (z : List Int) (i c : Nat) : poolValue a H cos x m b z i c =
      a.poolType.reduce (cos.map fun t => readAt x m b z [a.group.group.comp (nth H i) t, c]) := by
  unfold poolValue readAt
  split
  · rfl
  · rw [reduce_zeros]

/-- C56, the part that holds: with padding 'valid' or 'valid_equiv', if a signal is moved by `t` strides along each axis and
nothing is pushed off the grid, the result of the pooling layer is moved by `t`. Missing: padding 'same' and 'same_equiv', for
which it fails, and channels_first. -/
theorem C56_translation_partial [Field α] [LinearOrder α] {a : PoolArgs} {bt : Option Nat} {n : List Nat}
    {g C : Nat} {H : List Nat} {l : GroupPooling} (hl : BuiltPool a bt n g C H l) (hf : a.dataFormat = .channelsLast)
    (hopt : formatPaddingOption a.padding = .ok .valid ∨ formatPaddingOption a.padding = .ok .validEquiv)
    (x x' : Tensor α) (B : Nat) (m : List Nat) (hm : m.length = a.group.dim) (hx : x.shape = sigShape .channelsLast B m (some g) C)
    (hx' : x'.shape = x.shape) (t : List Int) (ht : t.length = a.group.dim)
    (hmove : Translated a.group.dim (List.zipWith (fun (s : Nat) (u : Int) => s * u) a.windowStrides t) x x') :
    ((∃ y, l.call x = .ok y) ↔ ∃ y, l.call x' = .ok y) ∧
    ∀ y y', l.call x = .ok y → l.call x' = .ok y' → y'.shape = y.shape ∧
      ∀ b p p' i o, Valid y.shape (b :: p ++ [i, o]) → Valid y.shape (b :: p' ++ [i, o]) →
        p'.map Int.ofNat = List.zipWith (· + ·) (p.map Int.ofNat) t → y'.get (b :: p' ++ [i, o]) = y.get (b :: p ++ [i, o]) := by
  obtain ⟨opt, kp, cos, e1, e2, f, rfl, hst⟩ := hl.facts hf
  have hkp : kp = .valid := by
    rw [padding_agree e1 e2]
    rcases hopt with h | h <;> rw [h] at e1 <;> cases e1 <;> rfl
  subst hkp
  have hX' := hx'.trans hx
  obtain ⟨c1, d1⟩ := pool_call_last f hx hm
  obtain ⟨c2, d2⟩ := pool_call_last f hX' hm
  refine ⟨⟨?_, ?_⟩, ?_⟩
  · rintro ⟨y, hy⟩
    obtain ⟨z, hz, -⟩ := d2 (c1 y hy)
    exact ⟨z, by rw [hz]⟩
  · rintro ⟨y, hy⟩
    obtain ⟨z, hz, -⟩ := d1 (c2 y hy)
    exact ⟨z, by rw [hz]⟩
  intro y y' hy hy'
  have hfit := c1 y hy
  obtain ⟨z₁, hz₁, hs₁, hg₁⟩ := d1 hfit
  obtain ⟨z₂, hz₂, hs₂, hg₂⟩ := d2 hfit
  rw [hz₁] at hy
  rw [hz₂] at hy'
  cases hy
  cases hy'
  refine ⟨hs₂.trans hs₁.symm, ?_⟩
  intro b p p' i o hv hv' hpp
  rw [hs₁] at hv hv'
  have hpl := hv.length
  have hpl' := hv'.length
  simp only [List.length_append, List.length_cons, List.length_nil] at hpl hpl'
  obtain ⟨⟨hb, hp⟩, hi, ho, _⟩ := (valid_append _ _ (b :: p) [i, o] (by simp only [List.length_cons]; omega)).1 hv
  obtain ⟨⟨-, hp'⟩, -⟩ := (valid_append _ _ (b :: p') [i, o] (by simp only [List.length_cons]; omega)).1 hv'
  rw [hg₁ b p i o hb hp hi ho, hg₂ b p' i o hb hp' hi ho]
  have hGl : (poolGrid a l m).length = a.group.dim := by
    unfold poolGrid
    rw [length_grow (by rw [length_epads, hm]), hm]
  have hz : ∀ i, nth (befores (poolSkip a .valid (poolGrid a l m))) i = 0 := by
    intro i
    unfold nth befores poolSkip ppads poolPads
    simp only [List.map_map, List.getD_eq_getElem?_getD, List.getElem?_map]
    cases (List.range a.windowStrides.length)[i]? <;> rfl
  have hgrow : grow (poolGrid a l m) (poolSkip a .valid (poolGrid a l m)) = poolGrid a l m := by
    have hl' : (poolSkip a .valid (poolGrid a l m)).length = (poolGrid a l m).length := by
      unfold poolSkip
      rw [length_ppads, f.stridesLen, hGl]
    apply ext_nth (length_grow hl')
    intro i hi
    rw [length_grow hl'] at hi
    rw [nth_grow hi hl']
    have : i < a.windowStrides.length := by rw [f.stridesLen, ← hGl]; exact hi
    simp [poolSkip, ppads, poolPads, this]
  rw [hgrow] at hfit hp hp'
  have hin : ∀ p, Valid (poolOut a.windowStrides a.poolSize (poolGrid a l m)) p → ∀ k ∈ indices a.poolSize,
      InBox (poolGrid a l m) (winZ (befores (poolSkip a .valid (poolGrid a l m))) a.windowStrides (ones a.group.dim) p k) := by
    intro p hp k hk
    rw [mem_indices] at hk
    rw [inBox_iff, length_winZ, f.stridesLen, hGl]
    refine ⟨rfl, fun j hj => ?_⟩
    have hj' : j < a.windowStrides.length := by rw [f.stridesLen]; exact hj
    have h1 := hfit j hj'
    have h2 := hp.lt (i := j) (by rw [length_poolOut]; exact hj')
    have h3 := hk.lt (i := j) (by rw [f.sizeLen]; exact hj)
    unfold poolOut at h2
    rw [nth_map_range, if_pos hj'] at h2
    have h4 : nth p j * nth a.windowStrides j ≤ nth (poolGrid a l m) j - nth a.poolSize j :=
      le_trans (Nat.mul_le_mul_right _ (Nat.lt_succ_iff.1 h2)) (Nat.div_mul_le_self _ _)
    have h5 : nth (ones a.group.dim) j = 1 := by simp [ones, nth, hj]
    simp only [winZ, List.getD_eq_getElem?_getD, List.getElem?_map, List.getElem?_range hj', Option.map_some,
      Option.getD_some, hz, h5]
    generalize hw : nth p j * nth a.windowStrides j = w at h4
    have : (nth p j : Int) * nth a.windowStrides j = w := by rw [← hw]; push_cast; rfl
    rw [this]
    push_cast
    omega
  have hval : ∀ (x : Tensor α) p, Valid (poolOut a.windowStrides a.poolSize (poolGrid a l m)) p →
      poolFormula a H cos (befores (poolSkip a .valid (poolGrid a l m))) (poolTot a l .valid m) (poolGrid a l m) x m b p i o =
        a.poolType.reduce ((indices a.poolSize).map fun k =>
          poolValue a H cos x m b (winZ (poolTot a l .valid m) a.windowStrides (ones a.group.dim) p k) i o) := by
    intro x p hp
    unfold poolFormula
    refine congrArg a.poolType.reduce ?_
    rw [← List.filterMap_eq_map]
    apply List.filterMap_congr
    intro k hk
    rw [if_pos (hin p hp k hk)]
    rfl
  rw [hval x p hp, hval x' p' hp']
  refine congrArg a.poolType.reduce (List.map_congr_left fun k _ => ?_)
  rw [poolValue_read, poolValue_read]
  refine congrArg a.poolType.reduce (List.map_congr_left fun t' ht' => ?_)
  have hwl : ∀ p, (winZ (poolTot a l .valid m) a.windowStrides (ones a.group.dim) p k).length = m.length := fun p => by
    rw [length_winZ, f.stridesLen, hm]
  have hR : Valid [a.group.group.order, C] [a.group.group.comp (nth H i) t', o] := by
    obtain ⟨sH, hsH, hH, hcos⟩ := f.sub
    obtain ⟨cos', hcos', ht⟩ := C10_cosets a.group sH H hH
    rw [hcos] at hcos'
    cases hcos'
    exact ⟨a.group.sym.tab.laws.closed _ _ (a.group.sym.sub_lt hH (nth_mem _ _ hi)) (ht.2.1 t' ht'), ho, trivial⟩
  have hsig : sigShape .channelsLast B m (some a.group.group.order) C = B :: m ++ [a.group.group.order, C] := rfl
  rw [← read0_sig (hx.trans hsig) hb (hwl p) hR, ← read0_sig (hX'.trans hsig) hb (hwl p') hR,
    ← hmove b _ _ ((hwl p).trans hm)]
  refine congrArg (read0 x') (congrArg (fun q => (b : Int) :: q ++ _) ?_)
  exact winZ_moved _ _ _ _ _ _ _ (f.stridesLen.trans ht.symm)
    (by rw [hp.length, length_poolOut]) hpp

/-- the full statement of C56, for channels_last layers -/
def PoolingCommutes : Prop :=
  ∀ (a : PoolArgs) (bt : Option Nat) (n : List Nat) (g C : Nat) (H : List Nat) (l : GroupPooling), BuiltPool a bt n g C H l →
    a.dataFormat = .channelsLast → ∀ (x x' y y' : Tensor ℚ) (B : Nat) (t : List Int),
    x.shape = sigShape .channelsLast B n (some g) C → x'.shape = x.shape → t.length = a.group.dim →
    Translated a.group.dim (List.zipWith (fun (s : Nat) (u : Int) => s * u) a.windowStrides t) x x' →
    l.call x = .ok y → l.call x' = .ok y' → y'.shape = y.shape ∧
      ∀ b p p' i o, Valid y.shape (b :: p ++ [i, o]) → Valid y.shape (b :: p' ++ [i, o]) →
        p'.map Int.ofNat = List.zipWith (· + ·) (p.map Int.ofNat) t → y'.get (b :: p' ++ [i, o]) = y.get (b :: p ++ [i, o])

/-- an average pooling layer on P2 -/
def averagePool (padding : String) : PoolArgs :=
  { group := .P2, subgroup := some "", poolType := .average, poolSize := [3, 3], strides := some [1, 1], padding := padding,
    allowNonEquivariance := false, dataFormat := .channelsLast }

/-- one bright position of a 3x3 signal on P2 -/
def dot {α : Type} [Zero α] [One α] (u v : Nat) : Tensor α := ⟨[1, 3, 3, 2, 1], fun i => if i = [0, u, v, 0, 0] then 1 else 0⟩

theorem read0_dot {α : Type} [Zero α] [One α] {u v : Nat} (hu : u < 3) (hv : v < 3) (b : Nat) (q0 q1 : Int) (r : List Int) :
    read0 (dot (α := α) u v) ((b : Int) :: q0 :: q1 :: r) = if b = 0 ∧ q0 = u ∧ q1 = v ∧ r = [0, 0] then 1 else 0 := by
  unfold read0 dot
  by_cases h : b = 0 ∧ q0 = u ∧ q1 = v ∧ r = [0, 0]
  · rw [if_pos h]
    obtain ⟨rfl, rfl, rfl, rfl⟩ := h
    rw [if_pos (by simp [InBox]; omega)]
    simp
  · rw [if_neg h]
    split
    · rename_i hb
      refine if_neg ?_
      intro he
      apply h
      match r, hb with
      | [r0, r1], hb =>
        simp [InBox] at hb he ⊢
        omega
    · rfl

theorem dot_moved : Translated 2 (List.zipWith (fun (s : Nat) (u : Int) => s * u) [1, 1] [-1, -1]) (dot (α := ℚ) 1 1) (dot 0 0) := by
  intro b q r hq
  match q, hq with
  | [q0, q1], _ =>
    show read0 _ ((b : Int) :: (q0 + 1 * -1) :: (q1 + 1 * -1) :: r) = read0 _ ((b : Int) :: q0 :: q1 :: r)
    rw [read0_dot (by decide) (by decide), read0_dot (by decide) (by decide)]
    congr 1
    apply propext
    constructor <;> rintro ⟨h1, h2, h3, h4⟩ <;> refine ⟨h1, ?_, ?_, h4⟩ <;> push_cast at * <;> omega

set_option maxRecDepth 8000 in
/-- C56 fails: with padding 'same' the mean is taken over the positions inside the signal, 1/9 becomes 1/4 when the bright
position and its window are moved to the corner. -/
theorem C56_violation : ¬ PoolingCommutes := by
  intro h
  have := (h (averagePool "same") none [3, 3] 2 1 [0, 1] _ ⟨⟨_, rfl, rfl⟩, rfl, rfl⟩ rfl (dot 1 1) (dot 0 0) _ _ 1 [-1, -1] rfl rfl
    rfl dot_moved rfl rfl).2 0 [1, 1] [0, 0] 0 0 (by decide +kernel) (by decide +kernel) rfl
  revert this
  decide +kernel

set_option maxRecDepth 8000 in
/-- hypotheses are met -/
example : (∃ l y y', BuiltPool (averagePool "valid") none [3, 3] 2 1 [0, 1] l ∧ l.call (dot (α := ℚ) 1 1) = .ok y ∧
      l.call (dot (α := ℚ) 0 0) = .ok y') ∧
    formatPaddingOption (averagePool "valid").padding = .ok .valid ∧
    Translated 2 (List.zipWith (fun (s : Nat) (u : Int) => s * u) [1, 1] [-1, -1]) (dot (α := ℚ) 1 1) (dot 0 0) :=
  ⟨⟨_, _, _, ⟨⟨_, rfl, rfl⟩, rfl, rfl⟩, rfl, rfl⟩, rfl, dot_moved⟩

set_option maxRecDepth 8000 in
/-- hypotheses of the theorem on transposed layers are met -/
example : (∃ l, BuiltConv exampleTranspose true none [4, 4] (some 2) 1 (fun _ => 1) (fun _ => 0) [0, 2] l) ∧
    Translated 2 [1, -1] (dot (α := Int) 1 1) (dot 2 0) := by
  refine ⟨⟨_, ⟨_, rfl, rfl⟩, rfl, rfl⟩, ?_⟩
  intro b q r hq
  match q, hq with
  | [q0, q1], _ =>
    show read0 _ ((b : Int) :: (q0 + 1) :: (q1 + -1) :: r) = read0 _ ((b : Int) :: q0 :: q1 :: r)
    rw [read0_dot (by decide) (by decide), read0_dot (by decide) (by decide)]
    congr 1
    apply propext
    constructor <;> rintro ⟨h1, h2, h3, h4⟩ <;> refine ⟨h1, ?_, ?_, h4⟩ <;> push_cast at * <;> omega

end GroCo
