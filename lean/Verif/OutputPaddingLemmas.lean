import Verif.OutputPadding
import Verif.ExactTLemmas

/-
Helper lemmas for C81: transposed layers with `output_padding`.
-/

namespace GroCo
open Tensor

variable {α : Type}

/-- output sizes of a transposed convolution with `output_padding` -/
def upSizesW (kp : KerasPadding) (op strides dil K n : List Nat) : List Nat :=
  (List.range strides.length).map fun i =>
    (transposeOutPadded kp (nth n i) (dilated (nth K i) (nth dil i)) (nth strides i) (nth op i)).1

/-- positions cut off at the start of the output -/
def upCropW (kp : KerasPadding) (op strides dil K n : List Nat) : List Nat :=
  (List.range strides.length).map fun i =>
    (transposeOutPadded kp (nth n i) (dilated (nth K i) (nth dil i)) (nth strides i) (nth op i)).2

theorem length_upSizesW (kp : KerasPadding) (op strides dil K n : List Nat) : (upSizesW kp op strides dil K n).length = strides.length := by
  simp [upSizesW]

theorem convTransposeLastPadded_ok [Semiring α] (kp : KerasPadding) {op strides dil K n : List Nat} {B C F : Nat} {x w : Tensor α}
    (hx : x.shape = B :: n ++ [C]) (hw : w.shape = K ++ [F, C]) (hn : n.length = strides.length)
    (hK : K.length = strides.length) (hs : ∀ i, i < strides.length → 0 < nth strides i)
    (hk : ∀ i, i < strides.length → 0 < nth K i) :
    ∃ y, convTransposeLastPadded kp op strides dil x w = .ok y ∧ y.shape = B :: upSizesW kp op strides dil K n ++ [F] ∧
      ∀ b q o, q.length = strides.length → y.get (b :: q ++ [o]) =
        ((indices K).map fun k => ((List.range C).map fun c =>
          (match upPos strides dil (upCropW kp op strides dil K n) q k n with
            | some p => x.get (b :: p ++ [c])
            | none => 0) * w.get (k ++ [o, c])).sum).sum := by
  have hxr : x.rank = strides.length + 2 := by simp [Tensor.rank, hx, hn]
  have hwr : w.rank = strides.length + 2 := by simp [Tensor.rank, hw, hK]
  have h1 : spatialPart strides.length x.shape = n := by rw [hx]; exact spatialPart_cons hn
  have h2 : w.shape.take strides.length = K := by rw [hw, ← hK]; simp
  have h3 : nth w.shape strides.length = F := by rw [hw]; lay hK
  have h4 : nth x.shape (strides.length + 1) = C := by
    rw [hx]; exact nth_app0 (a := B :: n) (by simp [hn])
  have h5 : nth w.shape (strides.length + 1) = C := by rw [hw]; lay hK
  have h6 : nth x.shape 0 = B := by rw [hx]; simp
  unfold convTransposeLastPadded
  simp only [h1, h2, h3, h4, h5, h6, hxr, hwr, true_and]
  rw [if_pos (fun i hi => ⟨hs i hi, hk i hi⟩)]
  refine ⟨_, rfl, by simp [upSizesW, Function.comp_def], ?_⟩
  intro b q o hq
  have g1 : nth (b :: q ++ [o]) (strides.length + 1) = o := nth_app0 (a := b :: q) (by simp [hq])
  simp only [g1, spatialPart_cons hq]
  simp [upCropW, Function.comp_def]
  rfl

theorem callPadded_parts [Semiring α] {a : ConvArgs α} {tr : Bool} {g : Option Nat} {C : Nat} {k0 b0 : List Nat → α}
    {A D : List Nat} {l : GroupConv α} {kp : KerasPadding} (f : ConvCore a tr g C k0 b0 A D l kp) (op : List Nat) {x y : Tensor α}
    (hc : l.checkInput x = .ok ()) (hy : l.transforms.mergeGroupAxisAndPad x = .ok y) {w : Tensor α}
    (hw : l.transforms.transformKernel (⟨kShape a tr g C, k0⟩ : Tensor α) = .ok w) :
    ∃ b', (if a.useBias then ∃ c, b' = some c ∧ c.shape = [A.length * a.filters] ∧
        ∀ i o, i < A.length → o < a.filters → c.get [i * a.filters + o] = b0 [o] else b' = none) ∧
      l.callPadded op x = match (do
          let y ← ({ l with kernel := some w, bias := b', filters := a.filters * A.length } : GroupConv α).superCallPadded op y
          l.transforms.restoreGroupAxis y) with
        | .ok z => (l, .ok z)
        | .error e => ({ l with kernel := some w, bias := b', filters := a.filters * A.length }, .error e) := by
  have hb : ∃ b', (if a.useBias then ∃ c, b' = some c ∧ c.shape = [A.length * a.filters] ∧
        ∀ i o, i < A.length → o < a.filters → c.get [i * a.filters + o] = b0 [o] else b' = none) ∧
      l.transforms.prepareCall (⟨kShape a tr g C, k0⟩ : Tensor α) l.bias l.filters x =
        .ok (w, b', a.filters * A.length, y) := by
    unfold GroupTransforms.prepareCall
    have := f.bias
    by_cases hu : a.useBias
    · rw [if_pos hu] at this
      obtain ⟨h1, c, h2, h3, h4⟩ := this
      refine ⟨some c, by rw [if_pos hu]; exact ⟨c, rfl, h3, h4⟩, ?_⟩
      simp only [hy, hw, h1, h2, Except.map, f.order, res_bind_ok, res_pure, f.filters]
    · rw [if_neg hu] at this
      refine ⟨none, by rw [if_neg hu], ?_⟩
      simp only [hy, hw, this, f.order, res_bind_ok, res_pure, f.filters]
  obtain ⟨b', hb1, hb2⟩ := hb
  refine ⟨b', hb1, ?_⟩
  unfold GroupConv.callPadded
  rw [hc]
  simp only [backupAndRestore, GroupConv.bodyPadded, f.kernel, hb2]
  cases hz : (({ l with kernel := some w, bias := b', filters := a.filters * A.length } : GroupConv α).superCallPadded op y >>=
      fun y => l.transforms.restoreGroupAxis y) with
  | ok z =>
    simp only
    rw [← f.kernel]
  | error e => simp only

/-- Calling a built transposed channels_last layer with `output_padding`. -/
theorem callPadded_last [Semiring α] {a : ConvArgs α} {g : Option Nat} {C : Nat} {k0 b0 : List Nat → α}
    {A D : List Nat} {l : GroupConv α} {kp : KerasPadding} (f : ConvFacts a true g C k0 b0 A D l kp) (op : List Nat)
    (hf : a.dataFormat = .channelsLast) {x : Tensor α} {B : Nat} {n : List Nat}
    (hx : x.shape = sigShape .channelsLast B n g C) (hn : n.length = a.group.dim) :
    ∃ y, l.callPadded op x = (l, .ok y) ∧
      y.shape = B :: upSizesW kp op a.strides a.dilation a.kernelSize (grow n (epads l.transforms.padState a.group.dim)) ++
        [A.length, a.filters] ∧
      ∀ b q i o, b < B →
        Valid (upSizesW kp op a.strides a.dilation a.kernelSize (grow n (epads l.transforms.padState a.group.dim))) q →
        i < A.length → o < a.filters →
          y.get (b :: q ++ [i, o]) = convTFormula a g C k0 b0 A D (befores (epads l.transforms.padState a.group.dim))
            (upCropW kp op a.strides a.dilation a.kernelSize (grow n (epads l.transforms.padState a.group.dim))) x n b q i o := by
  obtain ⟨y, ey, hy, hyg⟩ := mergePad_last f hf x hx hn
  obtain ⟨w, ew, hw, hwg⟩ := f.transformed
  simp only [if_true] at hw hwg
  obtain ⟨b', hb', hcall⟩ := callPadded_parts f.toConvCore op (checkInput_last f hf hx hn) ey ew
  have hsl := f.stridesLen
  have hsp : ∀ i, i < a.strides.length → 0 < nth a.strides i := fun i hi =>
    Nat.pos_of_ne_zero fun h => f.stridesPos (h ▸ nth_mem _ _ hi)
  have hkp : ∀ i, i < a.strides.length → 0 < nth a.kernelSize i := fun i hi =>
    Nat.pos_of_ne_zero fun h => f.kernelPos (h ▸ nth_mem _ _ (by rw [f.kernelLen, ← hsl]; exact hi))
  have hn1 : (grow n (epads l.transforms.padState a.group.dim)).length = a.strides.length := by
    rw [length_grow (by rw [length_epads, hn]), hn, hsl]
  obtain ⟨u, eu, hu, hug⟩ := convTransposeLastPadded_ok (op := op) (dil := a.dilation) kp hy hw hn1 (by rw [f.kernelLen, hsl]) hsp hkp
  obtain ⟨v, ev, hv, hvg⟩ := bias_act a.activation hb' u hu
  have hsuper : ({ l with kernel := some w, bias := b', filters := a.filters * A.length } : GroupConv α).superCallPadded op y = .ok v := by
    rw [← ev]
    simp only [GroupConv.superCallPadded, f.fmt, hf, convTransposePadded, f.padding,
      f.strides, f.dilation, f.act, eu, res_bind_ok]
    cases b' <;> rfl
  obtain ⟨z, ez, hz, hzg⟩ := restore_last f hf v hv (by rw [length_upSizesW, hsl])
  refine ⟨z, ?_, hz, ?_⟩
  · rw [hcall, hsuper]
    simp only [res_bind_ok, ez]
  · intro b q i o hb hq hi ho
    have hql : q.length = a.strides.length := by rw [hq.length, length_upSizesW]
    rw [hzg b q i o hb hq hi ho, hvg b q i o hq.length hi ho, hug b q _ hql]
    refine congrArg a.activation (congrArg (· + _) ?_)
    apply sum_congr
    intro k hk
    rw [mem_indices] at hk
    apply sum_congr
    intro c hc
    rw [List.mem_range] at hc
    rw [hwg k c i o hk hc hi ho]
    refine congrArg (· * _) ?_
    exact upPos_spread hsp (by rw [hn, hsl]) (by rw [length_epads, hsl]) fun q' hq' =>
      hyg b q' c hb (by rw [hq', hsl]) hc

/-- the output is symmetric along an axis -/
theorem mirrorW_iff {opt : PadOption} {n k s b a op : Nat} (hs : 0 < s) (hn : 0 < n) (hba : b = a ∨ b = a + 1) (hop : op < s) :
    (sizeWith opt (b + n + a) k s op + 2 * cutWith opt k op + s = (n + 2 * b) * s + k) ↔
    b = a ∧ ((opt = .valid ∨ opt = .validEquiv) ∧ op = 0 ∨ (opt = .same ∨ opt = .sameEquiv) ∧ op ≤ k ∧ op % 2 = 0) := by
  have hsub : ∀ m, 0 < m → (m - 1) * s + s = m * s := by
    intro m hm
    obtain ⟨j, rfl⟩ : ∃ j, m = j + 1 := ⟨m - 1, by omega⟩
    rw [Nat.add_sub_cancel]; ring
  have hm := hsub (b + n + a) (by omega)
  rcases hba with rfl | rfl
  · have e : b + n + b = n + 2 * b := by omega
    rw [e] at hm ⊢
    cases opt <;>
      simp only [sizeWith, cutWith, reduceCtorEq, false_and, or_false, false_or, true_and, or_self, true_or, or_true] <;>
      generalize (n + 2 * b - 1) * s = t at hm ⊢ <;> generalize (n + 2 * b) * s = u at hm ⊢ <;> omega
  · have e : (n + 2 * (a + 1)) * s = (a + 1 + n + a) * s + s := by ring
    rw [e]
    have hne : ¬ (a + 1 = a) := by omega
    cases opt <;> simp only [sizeWith, cutWith, hne, false_and, iff_false] <;>
      generalize (a + 1 + n + a - 1) * s = t at hm ⊢ <;> generalize (a + 1 + n + a) * s = u at hm ⊢ <;> omega

/-- the first position of the input contributes to some position of the output -/
theorem first_hit {opt : PadOption} {b n a k s op : Nat} (hn : 0 < n) (hk : 0 < k) (h : 0 < sizeWith opt (b + n + a) k s op) :
    b * s + (cutWith opt k op - b * s) - cutWith opt k op < sizeWith opt (b + n + a) k s op := by
  have h1 : (b + n + a - 1) * s = b * s + (n - 1 + a) * s := by
    rw [← Nat.add_mul]
    congr 1
    omega
  cases opt <;> simp only [sizeWith, cutWith] at h ⊢ <;> rw [h1] at h ⊢ <;> generalize b * s = t at * <;>
    generalize (n - 1 + a) * s = u at * <;> omega

/-- the `output_padding` Keras uses if none is given -/
theorem default_padding {opt : PadOption} {m k s : Nat} (hm : 0 < m) (hs : 0 < s) :
    transposeOutPadded (kerasOf opt) m k s (if opt = .valid ∨ opt = .validEquiv then s - k else s - k % 2) =
      transposeOut (kerasOf opt) m k s := by
  have e : m * s = (m - 1) * s + s := by
    obtain ⟨j, rfl⟩ : ∃ j, m = j + 1 := ⟨m - 1, by omega⟩
    rw [Nat.add_sub_cancel]; ring
  cases opt <;> simp only [transposeOutPadded, transposeOut, kerasOf, reduceCtorEq, or_self, or_true, true_or, if_true, if_false,
    Prod.mk.injEq, true_and, e, and_true] <;> generalize (m - 1) * s = t <;> omega

end GroCo
