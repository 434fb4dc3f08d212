import Verif.TransposeEquiv
import Verif.CheckLemmas

/-
Helper lemmas: the layers treat the entries of a batch independently.
-/

namespace GroCo
open Tensor

variable {α : Type}

theorem batchwise_of {f : Tensor α → Res (Tensor α)} {s t : List Nat} {P : Prop} {V : (List Nat → α) → List Nat → α}
    (h1 : ∀ x y B, x.shape = B :: s → f x = .ok y → P)
    (h2 : P → ∀ x B, x.shape = B :: s → ∃ y, f x = .ok y ∧ y.shape = B :: t ∧
      ∀ b idx, b < B → Valid t idx → y.get (b :: idx) = V (fun j => x.get (b :: j)) idx)
    (h3 : ∀ u v : List Nat → α, (∀ j, Valid s j → u j = v j) → ∀ idx, Valid t idx → V u idx = V v idx) : Batchwise f s := by
  intro x x' y B B' hx hx' hy
  have hP := h1 x y B hx hy
  obtain ⟨y1, e1, s1, g1⟩ := h2 hP x B hx
  obtain ⟨y', e', s', g'⟩ := h2 hP x' B' hx'
  rw [hy] at e1
  cases e1
  refine ⟨y', t, e', s1, s', ?_⟩
  intro b b' hb hb' hxx idx hidx
  rw [g1 b idx hb hidx, g' b' idx hb' hidx]
  exact h3 _ _ hxx idx hidx

theorem valid_rest {g : Option Nat} {C c : Nat} (hc : c < chanO g C) : Valid (g.toList ++ [C]) (restIdx g C c) := by
  cases g with
  | none => exact ⟨hc, trivial⟩
  | some g =>
    have hC : 0 < C := Nat.pos_of_ne_zero fun h => by simp [chanO, h] at hc
    exact ⟨(Nat.div_lt_iff_lt_mul hC).2 hc, Nat.mod_lt _ hC, trivial⟩

theorem conv_batchwise [Semiring α] {a : ConvArgs α} {g : Option Nat} {C : Nat} {k0 b0 : List Nat → α}
    {A D : List Nat} {l : GroupConv α} {kp : KerasPadding} (f : ConvFacts a false g C k0 b0 A D l kp)
    (hf : a.dataFormat = .channelsLast) {m : List Nat} (hm : m.length = a.group.dim) :
    Batchwise (fun x => (l.call x).2) (m ++ (g.toList ++ [C])) := by
  have hlen : (outSizes a.strides a.dilation a.kernelSize
      (padded l.transforms.padState kp a.strides a.dilation a.kernelSize m)).length = a.group.dim := by
    simp [outSizes, f.stridesLen]
  refine batchwise_of (t := outSizes a.strides a.dilation a.kernelSize
      (padded l.transforms.padState kp a.strides a.dilation a.kernelSize m) ++ [A.length, a.filters])
    (V := fun u idx => convFormula a g C k0 b0 A D (totalBefore l.transforms.padState kp a.strides a.dilation a.kernelSize m)
      ⟨[], fun j => u j.tail⟩ m 0 (idx.take a.group.dim) (nth idx a.group.dim) (nth idx (a.group.dim + 1)))
    (fun x y B hx hy => (conv_call_last f hf (x := x) (B := B) (n := m) hx hm).1 y hy) ?_ ?_
  · intro hfit x B hx
    obtain ⟨y, ey, hys, hyg⟩ := (conv_call_last f hf (x := x) (B := B) (n := m) hx hm).2 hfit
    refine ⟨y, by simp [ey], hys, ?_⟩
    intro b idx hb hidx
    obtain ⟨p, r, rfl, hp, hr⟩ := valid_append_split hidx
    have hpl : p.length = a.group.dim := by rw [hp.length, hlen]
    match r, hr with
    | [i, o], hr =>
    have t1 : (p ++ [i, o]).take a.group.dim = p := by simp [← hpl]
    have t2 : nth (p ++ [i, o]) a.group.dim = i := by lay hpl
    have t3 : nth (p ++ [i, o]) (a.group.dim + 1) = o := by lay hpl
    simp only [t1, t2, t3]
    exact hyg b p i o hb hp hr.1 hr.2.1
  · intro u v huv idx _
    unfold convFormula
    refine congrArg a.activation (congrArg (· + _) ?_)
    apply sum_congr
    intro k _
    apply sum_congr
    intro c hc
    rw [List.mem_range] at hc
    refine congrArg (· * _) ?_
    unfold readAt
    split
    · rename_i hin
      exact huv _ ((valid_append _ _ _ _ hin.valid.length).2 ⟨hin.valid, valid_rest hc⟩)
    · rfl

theorem convT_batchwise [Semiring α] {a : ConvArgs α} {g : Option Nat} {C : Nat} {k0 b0 : List Nat → α}
    {A D : List Nat} {l : GroupConv α} {kp : KerasPadding} (f : ConvFacts a true g C k0 b0 A D l kp)
    (hf : a.dataFormat = .channelsLast) {m : List Nat} (hm : m.length = a.group.dim) :
    Batchwise (fun x => (l.call x).2) (m ++ (g.toList ++ [C])) := by
  have hlen : (upSizes kp a.strides a.dilation a.kernelSize (grow m (epads l.transforms.padState a.group.dim))).length =
      a.group.dim := by rw [length_upSizes, f.stridesLen]
  refine batchwise_of (P := True) (t := upSizes kp a.strides a.dilation a.kernelSize
      (grow m (epads l.transforms.padState a.group.dim)) ++ [A.length, a.filters])
    (V := fun u idx => a.activation ((((indices a.kernelSize).map fun k =>
            ((List.range (chanO g C)).map fun c =>
              spread (befores (epads l.transforms.padState a.group.dim)) a.strides a.dilation
                (upCrop kp a.strides a.dilation a.kernelSize (grow m (epads l.transforms.padState a.group.dim)))
                ⟨[], fun j => u j.tail⟩ m 0 (idx.take a.group.dim) k
                (restIdx g C c) * weightOf a true g C k0 D (nth A (nth idx a.group.dim)) k c
                  (nth idx (a.group.dim + 1))).sum).sum) +
              if a.useBias then b0 [nth idx (a.group.dim + 1)] else 0))
    (fun x y B hx hy => trivial) ?_ ?_
  · intro _ x B hx
    obtain ⟨y, ey, hys, hyg⟩ := convT_call_last f hf (x := x) (B := B) (n := m) hx hm
    refine ⟨y, by simp [ey], hys, ?_⟩
    intro b idx hb hidx
    obtain ⟨p, r, rfl, hp, hr⟩ := valid_append_split hidx
    have hpl : p.length = a.group.dim := by rw [hp.length, hlen]
    match r, hr with
    | [i, o], hr =>
    have t1 : (p ++ [i, o]).take a.group.dim = p := by simp [← hpl]
    have t2 : nth (p ++ [i, o]) a.group.dim = i := by lay hpl
    have t3 : nth (p ++ [i, o]) (a.group.dim + 1) = o := by lay hpl
    simp only [t1, t2, t3]
    exact hyg b p i o hb hp hr.1 hr.2.1
  · intro u v huv idx _
    refine congrArg a.activation (congrArg (· + _) ?_)
    apply sum_congr
    intro k _
    apply sum_congr
    intro c hc
    rw [List.mem_range] at hc
    refine congrArg (· * _) ?_
    unfold spread
    apply sum_congr
    intro p hp
    rw [mem_indices] at hp
    split
    · exact huv _ ((valid_append _ _ _ _ hp.length).2 ⟨hp, valid_rest hc⟩)
    · rfl

theorem pool_batchwise [Field α] [LinearOrder α] {a : PoolArgs} {H cos : List Nat} {l : GroupPooling} {kp : KerasPadding}
    (f : PoolFacts a H cos l kp) (hcos : ∀ h ∈ H, ∀ c ∈ cos, a.group.group.comp h c < a.group.group.order)
    {C : Nat} {m : List Nat} (hm : m.length = a.group.dim) :
    Batchwise (α := α) (fun x => l.call x) (m ++ [a.group.group.order, C]) := by
  have hlen : (poolOut a.windowStrides a.poolSize
      (grow (poolGrid a l m) (poolSkip a kp (poolGrid a l m)))).length = a.group.dim := by
    rw [length_poolOut, f.stridesLen]
  refine batchwise_of (t := poolOut a.windowStrides a.poolSize
      (grow (poolGrid a l m) (poolSkip a kp (poolGrid a l m))) ++ [H.length, C])
    (V := fun u idx => poolFormula a H cos (befores (poolSkip a kp (poolGrid a l m))) (poolTot a l kp m)
      (poolGrid a l m) ⟨[], fun j => u j.tail⟩ m 0 (idx.take a.group.dim) (nth idx a.group.dim) (nth idx (a.group.dim + 1)))
    (fun x y B hx hy => (pool_call_last f (x := x) (B := B) (m := m) (C := C) hx hm).1 y hy) ?_ ?_
  · intro hfit x B hx
    obtain ⟨y, ey, hys, hyg⟩ := (pool_call_last f (x := x) (B := B) (m := m) (C := C) hx hm).2 hfit
    refine ⟨y, by simp [ey], hys, ?_⟩
    intro b idx hb hidx
    obtain ⟨p, r, rfl, hp, hr⟩ := valid_append_split hidx
    have hpl : p.length = a.group.dim := by rw [hp.length, hlen]
    match r, hr with
    | [i, o], hr =>
    have t1 : (p ++ [i, o]).take a.group.dim = p := by simp [← hpl]
    have t2 : nth (p ++ [i, o]) a.group.dim = i := by lay hpl
    have t3 : nth (p ++ [i, o]) (a.group.dim + 1) = o := by lay hpl
    simp only [t1, t2, t3]
    exact hyg b p i o hb hp hr.1 hr.2.1
  · intro u v huv idx hidx
    obtain ⟨p, r, rfl, hp, hr⟩ := valid_append_split hidx
    have hpl : p.length = a.group.dim := by rw [hp.length, hlen]
    match r, hr with
    | [i, o], hr =>
    have t2 : nth (p ++ [i, o]) a.group.dim = i := by lay hpl
    have t3 : nth (p ++ [i, o]) (a.group.dim + 1) = o := by lay hpl
    unfold poolFormula
    refine congrArg a.poolType.reduce ?_
    apply List.filterMap_congr
    intro k _
    split
    · refine congrArg some ?_
      unfold poolValue
      split
      · rename_i hin
        refine congrArg a.poolType.reduce ?_
        apply List.map_congr_left
        intro c hc
        refine huv _ ((valid_append _ _ _ _ hin.valid.length).2 ⟨hin.valid, ?_, ?_, trivial⟩)
        · rw [t2]; exact hcos _ (nth_mem _ _ hr.1) _ hc
        · rw [t3]; exact hr.2.1
      · rfl
    · rfl

end GroCo
