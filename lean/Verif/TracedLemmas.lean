import Verif.Traced
import Verif.MovedLemmas

/-
Helper lemmas: layers in traced graphs.
-/

namespace GroCo
open Tensor

variable {α : Type}

theorem staticShape_nil (s : List Nat) : staticShape [] s = s.map some := by
  apply List.ext_getElem
  · simp [staticShape]
  · intro i h1 h2
    simp [staticShape, nth, show i < s.length by simpa [staticShape] using h1]

theorem staticShape_one {s : List Nat} {u : Nat} (hu : u < s.length) : staticShape [u] s = unknownAt s (some u) := by
  apply List.ext_getElem
  · simp [staticShape, unknownAt]
  · intro i h1 h2
    have hi : i < s.length := by simpa [staticShape] using h1
    simp only [staticShape, unknownAt, List.getElem_map, List.getElem_range, List.mem_singleton, List.getElem_set, nth]
    by_cases h : u = i
    · simp [h]
    · have h' : ¬ i = u := fun e => h e.symm
      simp [h, h', hi]

/-- all sizes except that of axis `u` are positive -/
def PosBut (u : Nat) (s : List Nat) : Prop := ∀ i, i < s.length → i ≠ u → 0 < nth s i

/-- attributes of built transforms that matter for the number of axes -/
structure AxisFacts (t : GroupTransforms) (fmt : DataFormat) (d : Nat) (v : Bool) (m : Nat) : Prop where
  gv : t.groupValuedInput = v
  fmtT : t.dataFormat = fmt
  caxis : t.channelsAxis = if fmt = .channelsFirst then 1 else d + 1 + (if v then 1 else 0)
  gaxis : t.groupAxis = groupAxis fmt d
  order : t.orderOf (some t.actingGroup) = .ok m
  pos : 0 < m

theorem BatchOrSpatial.lt {fmt : DataFormat} {d u : Nat} (h : BatchOrSpatial fmt d u) : u < groupAxis fmt d := by
  cases fmt <;> simp only [BatchOrSpatial, groupAxis] at * <;> omega

theorem length_sig {fmt : DataFormat} {B : Nat} {n : List Nat} {g : Option Nat} {C : Nat} :
    (sigShape fmt B n g C).length = n.length + 2 + g.toList.length := by
  cases fmt <;> simp [sigShape] <;> omega

/-- merging -/
theorem mergeT_eq [Zero α] {t : GroupTransforms} {fmt : DataFormat} {d m : Nat} {g : Option Nat} {C : Nat}
    (f : AxisFacts t fmt d g.isSome m) {u : Nat} (hu : BatchOrSpatial fmt d u) (x : Tensor α) {B : Nat} {n : List Nat}
    (hx : x.shape = sigShape fmt B n g C) (hn : n.length = d) (hp : PosBut u x.shape) :
    t.mergeGroupAxisAndPadT [u] x = t.mergeGroupAxisAndPad x := by
  unfold GroupTransforms.mergeGroupAxisAndPadT GroupTransforms.mergeGroupAxisAndPad
  cases g with
  | none => rw [f.gv]; rfl
  | some g =>
    have hr : x.rank = d + 3 := by
      simp only [Tensor.rank, hx, length_sig, hn]; rfl
    have hlt := hu.lt
    have hr' : x.shape.length = d + 3 := hr
    rw [f.gv, f.caxis, f.gaxis, staticShape_one (by cases fmt <;> simp only [groupAxis] at hlt <;> omega)]
    simp only [Option.isSome_some, if_true]
    rw [mergeAxesS_eq x (some u) (m := groupAxis fmt d) (t := if fmt = .channelsFirst then 1 else d + 1 + 1)]
    · apply normAxis_nat; cases fmt <;> simp [groupAxis] <;> omega
    · apply normAxis_nat; cases fmt <;> simp <;> omega
    · left; constructor <;> omega
    · cases fmt <;> simp [groupAxis]
    · simp only [ne_eq, Option.some.injEq]; omega
    · cases fmt <;> simp [BatchOrSpatial] at * <;> omega
    · intro k hk
      cases hk
      exact ⟨by cases fmt <;> simp only [groupAxis] at hlt <;> omega, hp⟩

/-- restoring -/
theorem restoreT_eq {t : GroupTransforms} {fmt : DataFormat} {d m : Nat} {v : Bool} (f : AxisFacts t fmt d v m)
    {u : Nat} (hu : BatchOrSpatial fmt d u) (y : Tensor α) {B F : Nat} {n : List Nat}
    (hy : y.shape = sigShape fmt B n none (m * F)) (hn : n.length = d) (hp : PosBut u y.shape) :
    t.restoreGroupAxisT [u] y = t.restoreGroupAxis y := by
  have hr : y.rank = d + 2 := by
    simp only [Tensor.rank, hy, length_sig, hn]; rfl
  have hr' : y.shape.length = d + 2 := hr
  have hlt : u < d + 2 := by cases fmt <;> simp [BatchOrSpatial] at hu <;> omega
  unfold GroupTransforms.restoreGroupAxisT GroupTransforms.restoreGroupAxis
  have hax : (if t.groupValuedInput = true ∧ t.dataFormat = .channelsLast then
      (t.channelsAxis : Int) - 1 else t.channelsAxis) = ((if fmt = .channelsFirst then 1 else d + 1 : Nat) : Int) := by
    rw [f.gv, f.fmtT, f.caxis]
    cases fmt <;> cases v <;> simp
  simp only [hax, f.order, res_bind_ok]
  rw [staticShape_one (by omega), splitAxesS_eq y (some u) (k := if fmt = .channelsFirst then 1 else d + 1) (q := F)]
  · apply normAxis_nat; cases fmt <;> simp <;> omega
  · cases fmt <;> simp [BatchOrSpatial] at * <;> omega
  · exact f.pos
  · rw [hy]
    cases fmt with
    | channelsFirst => rfl
    | channelsLast => exact nth_app0 (a := B :: n) (by simp [hn])
  · intro k hk
    cases hk
    exact ⟨by omega, hp⟩

/-! ### positive sizes -/

theorem posBut_sig {fmt : DataFormat} {d u B C : Nat} {n : List Nat} (hn : n.length = d) (hu : BatchOrSpatial fmt d u) :
    PosBut u (sigShape fmt B n none C) ↔ (u ≠ 0 → 0 < B) ∧ 0 < C ∧
      ∀ i, i < d → u ≠ i + (if fmt = .channelsFirst then 2 else 1) → 0 < nth n i := by
  cases fmt with
  | channelsFirst =>
    simp only [BatchOrSpatial] at hu
    simp only [PosBut, sigShape, Option.toList_none, List.append_nil, List.length_cons, hn, if_true]
    constructor
    · intro h
      refine ⟨fun h0 => h 0 (by omega) (by omega), h 1 (by omega) (by omega), fun i hi hiu => h (i + 2) (by omega) (by omega)⟩
    · rintro ⟨h0, h1, h2⟩ i hi hiu
      match i with
      | 0 => exact h0 (by omega)
      | 1 => exact h1
      | i + 2 => exact h2 i (by omega) (by omega)
  | channelsLast =>
    simp only [BatchOrSpatial] at hu
    have hl : (B :: n).length = d + 1 := by simp [hn]
    have e1 : nth (B :: n ++ [C]) (d + 1) = C := nth_app0 hl
    simp only [PosBut, sigShape, Option.toList_none, List.nil_append, List.length_append, hl, List.length_singleton,
      reduceCtorEq, if_false]
    constructor
    · intro h
      refine ⟨fun h0 => h 0 (by omega) (by omega), e1 ▸ h (d + 1) (by omega) (by omega), fun i hi hiu => ?_⟩
      have := h (i + 1) (by omega) (by omega)
      rwa [List.cons_append, nth_cons_succ, nth_append, if_pos (by omega)] at this
    · rintro ⟨h0, h1, h2⟩ i hi hiu
      match i with
      | 0 => exact h0 (by omega)
      | i + 1 =>
        by_cases hid : i = d
        · rw [hid, e1]; exact h1
        · rw [List.cons_append, nth_cons_succ, nth_append, if_pos (by omega)]
          exact h2 i (by omega) (by omega)

theorem posBut_some {fmt : DataFormat} {d u B g C : Nat} {n : List Nat} (hn : n.length = d) (hu : BatchOrSpatial fmt d u)
    (h : PosBut u (sigShape fmt B n (some g) C)) : PosBut u (sigShape fmt B n none (g * C)) := by
  rw [posBut_sig hn hu]
  cases fmt with
  | channelsFirst =>
    simp only [BatchOrSpatial] at hu
    have hl : (B :: C :: n).length = d + 2 := by simp [hn]
    have e1 : nth (B :: C :: n ++ [g]) (d + 2) = g := nth_app0 hl
    simp only [PosBut, sigShape, Option.toList_some, List.length_append, hl, List.length_singleton] at h
    have hg := h (d + 2) (by omega) (by omega)
    rw [e1] at hg
    refine ⟨fun h0 => h 0 (by omega) (by omega), Nat.mul_pos hg (h 1 (by omega) (by omega)), fun i hi hiu => ?_⟩
    have := h (i + 2) (by omega) (by simp only [if_true] at hiu; omega)
    rwa [List.cons_append, List.cons_append, nth_cons_succ, nth_cons_succ, nth_append, if_pos (by omega)] at this
  | channelsLast =>
    simp only [BatchOrSpatial] at hu
    have hl : (B :: n).length = d + 1 := by simp [hn]
    have e1 : nth (B :: n ++ [g, C]) (d + 1) = g := nth_app0 hl
    have e2 : nth (B :: n ++ [g, C]) (d + 1 + 1) = C := nth_app hl 1
    simp only [PosBut, sigShape, Option.toList_some, List.length_append, hl, List.length_singleton,
      List.singleton_append] at h
    have hg := h (d + 1) (by simp) (by omega)
    have hC := h (d + 1 + 1) (by simp) (by omega)
    rw [e1] at hg
    rw [e2] at hC
    refine ⟨fun h0 => h 0 (by simp) (by omega), Nat.mul_pos hg hC, fun i hi hiu => ?_⟩
    have := h (i + 1) (by omega) (by simp only [reduceCtorEq, if_false] at hiu; omega)
    rwa [List.cons_append, nth_cons_succ, nth_append, if_pos (by omega)] at this

theorem posBut_pad [Zero α] {x y : Tensor α} {ps : List (Nat × Nat)} {u : Nat} (h : pad x ps = .ok y)
    (hp : PosBut u x.shape) : PosBut u y.shape ∧ y.shape.length = x.shape.length := by
  unfold pad at h
  split at h
  · rename_i hl
    simp only [Tensor.rank] at hl
    cases h
    refine ⟨?_, by simp [hl]⟩
    intro i hi hiu
    simp only [List.length_zipWith] at hi
    have := hp i (by omega) hiu
    rw [nth_eq_getElem _ _ (by omega)] at this
    rw [nth_eq_getElem _ _ (by simpa using hi), List.getElem_zipWith]
    omega
  · exact absurd h (by simp)

/-- merging and padding keeps sizes positive -/
theorem mergePad_pos [Zero α] {t : GroupTransforms} {fmt : DataFormat} {d m : Nat} {g : Option Nat} {C : Nat}
    (f : AxisFacts t fmt d g.isSome m) {u : Nat} (hu : BatchOrSpatial fmt d u) {x y : Tensor α} {B : Nat} {n : List Nat}
    (hx : x.shape = sigShape fmt B n g C) (hn : n.length = d) (hp : PosBut u x.shape)
    (h : t.mergeGroupAxisAndPad x = .ok y) : PosBut u y.shape := by
  have key : ∀ z : Tensor α, PosBut u z.shape → t.padState.call z = .ok y → PosBut u y.shape := by
    intro z hz h
    unfold PadState.call at h
    split at h
    · exact (posBut_pad h hz).1
    · cases h
      exact hz
  unfold GroupTransforms.mergeGroupAxisAndPad at h
  rw [f.gv, f.caxis, f.gaxis] at h
  cases g with
  | none => exact key x hp h
  | some g =>
    simp only [Option.isSome_some, if_true] at h
    rw [hx] at hp
    obtain ⟨z, hz, h⟩ := bind_eq_ok h
    refine key z ?_ h
    cases fmt with
    | channelsFirst =>
      obtain ⟨z', hz', hs, _⟩ := merge_first x hx hn
      have hz'' : mergeAxes x ((groupAxis .channelsFirst d : Nat) : Int) ((1 : Nat) : Int) = .ok z' := hz'
      simp only [if_true] at hz
      rw [hz''] at hz
      cases hz
      rw [hs]
      simpa [sigShape] using posBut_some hn hu hp
    | channelsLast =>
      obtain ⟨z', hz', hs, _⟩ := merge_last x hx hn
      have hz'' : mergeAxes x ((groupAxis .channelsLast d : Nat) : Int) ((d + 1 + 1 : Nat) : Int) = .ok z' := hz'
      simp only [reduceCtorEq, if_false] at hz
      rw [hz''] at hz
      cases hz
      rw [hs]
      exact posBut_some hn hu hp

/-! ### shapes of Keras's results -/

/-- an operation on channels_last signals with `d` dimensions whose result has `F C` channels if the argument has `C` -/
def KeepsAxes (d : Nat) (F : Nat → Nat) (op : Tensor α → Res (Tensor α)) : Prop :=
  ∀ x y, op x = .ok y → ∃ B n C n', x.shape = B :: n ++ [C] ∧ n.length = d ∧ y.shape = B :: n' ++ [F C] ∧ n'.length = d ∧
    ∀ i, i < d → 0 < nth n i → 0 < nth n' i

theorem split_shape {s : List Nat} {d : Nat} (h : s.length = d + 2) :
    ∃ n, s = nth s 0 :: n ++ [nth s (d + 1)] ∧ n.length = d := by
  refine ⟨spatialPart d s, ?_, by simp [spatialPart, h]⟩
  apply ext_nth
  · simp [spatialPart, h]
  · intro i hi
    match i with
    | 0 => rfl
    | i + 1 =>
      have hl : (spatialPart d s).length = d := by simp [spatialPart, h]
      rw [List.cons_append, nth_cons_succ, nth_append, hl]
      by_cases hid : i < d
      · rw [if_pos hid]
        simp only [spatialPart, nth, List.getElem?_take, List.getElem?_drop]
        simp [hid, Nat.add_comm]
      · rw [if_neg hid, show i = d by omega]
        simp

theorem convLast_keeps [Semiring α] (kp : KerasPadding) (strides dil : List Nat) (w : Tensor α) :
    KeepsAxes strides.length (fun _ => nth w.shape (strides.length + 1)) (fun x => convLast kp strides dil x w) := by
  intro x y h
  unfold convLast at h
  obtain ⟨x', hx', h⟩ := bind_eq_ok h
  unfold convValid at h
  simp only at h
  split at h
  · rename_i hc
    cases h
    unfold pad at hx'
    split at hx'
    · rename_i hl
      cases hx'
      obtain ⟨n, hn, hnl⟩ := split_shape (s := x.shape) (d := strides.length) (by
        have := hc.1
        simp only [Tensor.rank, List.length_zipWith] at this hl
        omega)
      refine ⟨nth x.shape 0, n, nth x.shape (strides.length + 1), (List.range strides.length).map fun i =>
        (nth (spatialPart strides.length (List.zipWith (fun n p => p.1 + n + p.2) x.shape (kerasPads kp strides dil
          (List.take strides.length w.shape) (spatialPart strides.length x.shape)))) i -
            dilated (nth (List.take strides.length w.shape) i) (nth dil i)) / nth strides i + 1, hn, hnl, ?_, by simp, ?_⟩
      · simp only
        congr 2
        rw [hn]
        cases kp <;> simp [kerasPads]
      · intro i hi _
        rw [nth_map_range, if_pos hi]
        exact Nat.succ_pos _
    · exact absurd hx' (by simp)
  · exact absurd h (by simp)

theorem convTransposeLast_keeps [Semiring α] (kp : KerasPadding) (strides dil : List Nat) (w : Tensor α) :
    KeepsAxes strides.length (fun _ => nth w.shape strides.length) (fun x => convTransposeLast kp strides dil x w) := by
  intro x y h
  unfold convTransposeLast at h
  simp only at h
  split at h
  · rename_i hc
    cases h
    obtain ⟨n, hn, hnl⟩ := split_shape (s := x.shape) (d := strides.length) hc.1
    have hsp : spatialPart strides.length x.shape = n := by
      rw [hn]
      simp [spatialPart, ← hnl]
    refine ⟨_, n, _, _, hn, hnl, rfl, by simp, ?_⟩
    intro i hi hni
    have h2 := (hc.2.2.2 i hi).1
    rw [hsp, List.map_map, nth_map_range, if_pos hi]
    have := Nat.mul_pos hni h2
    simp only [Function.comp]
    cases kp <;> simp only [transposeOut] <;> omega
  · exact absurd h (by simp)

theorem poolLast_keeps (reduce : List α → α) (kp : KerasPadding) (pool strides : List Nat) :
    KeepsAxes strides.length id (poolLast reduce kp pool strides) := by
  intro x y h
  unfold poolLast at h
  simp only at h
  split at h
  · rename_i hc
    cases h
    obtain ⟨n, hn, hnl⟩ := split_shape (s := x.shape) (d := strides.length) hc.1
    refine ⟨_, n, _, _, hn, hnl, rfl, by simp, ?_⟩
    intro i hi hni
    rw [nth_map_range, if_pos hi]
    exact Nat.succ_pos _
  · exact absurd h (by simp)

/-- the same operation in either data format -/
def inFormat (fmt : DataFormat) (op : Tensor α → Res (Tensor α)) (x : Tensor α) : Res (Tensor α) :=
  match fmt with
  | .channelsLast => op x
  | .channelsFirst => do
    let x ← moveaxis x 1 (-1)
    let y ← op x
    moveaxis y (-1) 1

theorem KeepsAxes.inFormat {d : Nat} {F : Nat → Nat} {op : Tensor α → Res (Tensor α)} (h : KeepsAxes d F op)
    (fmt : DataFormat) {x y : Tensor α} (hy : inFormat fmt op x = .ok y) :
    ∃ B n C n', x.shape = sigShape fmt B n none C ∧ n.length = d ∧ y.shape = sigShape fmt B n' none (F C) ∧ n'.length = d ∧
      ∀ i, i < d → 0 < nth n i → 0 < nth n' i := by
  cases fmt with
  | channelsLast =>
    obtain ⟨B, n, C, n', h1, h2, h3, h4, h5⟩ := h x y hy
    exact ⟨B, n, C, n', by simpa [sigShape] using h1, h2, by simpa [sigShape] using h3, h4, h5⟩
  | channelsFirst =>
    obtain ⟨x1, e1, hy⟩ := bind_eq_ok (r := moveaxis x 1 (-1)) hy
    obtain ⟨y1, e2, e3⟩ := bind_eq_ok (r := op x1) hy
    obtain ⟨B, n, C, n', h1, h2, h3, h4, h5⟩ := h x1 y1 e2
    have hx2 : ∃ B' C' m, x.shape = B' :: C' :: m := by
      match hs : x.shape with
      | [] => simp [moveaxis, Tensor.rank, hs, normAxis] at e1
      | [b] => simp [moveaxis, Tensor.rank, hs, normAxis] at e1
      | b :: c :: m => exact ⟨b, c, m, rfl⟩
    obtain ⟨B', C', m, hx2⟩ := hx2
    obtain ⟨x2, e4, h6, _⟩ := moveaxis_first x hx2
    rw [e1] at e4
    cases e4
    obtain ⟨y2, e5, h7, _⟩ := moveaxis_last y1 h3
    rw [e3] at e5
    cases e5
    rw [h6] at h1
    simp only [List.cons_append, List.cons.injEq] at h1
    obtain ⟨rfl, h1⟩ := h1
    obtain ⟨h8, h9⟩ := List.append_inj' h1 rfl
    cases h8
    cases h9
    exact ⟨B', n, C, n', by simpa [sigShape] using hx2, h2, by simpa [sigShape] using h7, h4, h5⟩

theorem conv_inFormat [Semiring α] (fmt : DataFormat) (kp : KerasPadding) (strides dil : List Nat) (x w : Tensor α) :
    conv fmt kp strides dil x w = inFormat fmt (fun x => convLast kp strides dil x w) x := by
  cases fmt <;> rfl

theorem convTranspose_inFormat [Semiring α] (fmt : DataFormat) (kp : KerasPadding) (strides dil : List Nat) (x w : Tensor α) :
    convTranspose fmt kp strides dil x w = inFormat fmt (fun x => convTransposeLast kp strides dil x w) x := by
  cases fmt <;> rfl

theorem kerasPool_inFormat (fmt : DataFormat) (reduce : List α → α) (kp : KerasPadding) (pool strides : List Nat) (x : Tensor α) :
    kerasPool fmt reduce kp pool strides x = inFormat fmt (poolLast reduce kp pool strides) x := by
  cases fmt <;> rfl

theorem addBias_shape [Semiring α] {fmt : DataFormat} {F : Nat} {y b z : Tensor α} (h : addBias fmt F y b = .ok z) :
    z.shape = y.shape := by
  unfold addBias at h
  obtain ⟨_, _, h⟩ := bind_eq_ok h
  simp only at h
  split at h
  · cases h; rfl
  · exact absurd h (by simp)

/-- the shape of the result of the Keras layer with kernel `w` -/
theorem superCall_shape [Semiring α] {l : GroupConv α} {w x y : Tensor α} (hw : l.kernel = some w) (h : l.superCall x = .ok y) :
    ∃ B n C n', x.shape = sigShape l.dataFormat B n none C ∧ n.length = l.strides.length ∧
      y.shape = sigShape l.dataFormat B n' none
        (nth w.shape (l.strides.length + if l.transforms.transpose then 0 else 1)) ∧ n'.length = l.strides.length ∧
      ∀ i, i < l.strides.length → 0 < nth n i → 0 < nth n' i := by
  unfold GroupConv.superCall at h
  rw [hw] at h
  simp only at h
  have key : ∀ v : Tensor α, (match l.bias with
      | none => Except.ok v
      | some b => addBias l.dataFormat l.filters v b) >>= (fun v => pure (mapT l.activation v)) = Except.ok (ε := Err) y →
      y.shape = v.shape := by
    intro v hv
    obtain ⟨z, hz, hv⟩ := bind_eq_ok hv
    cases hv
    split at hz
    · cases hz; rfl
    · exact (show (mapT l.activation z).shape = z.shape from rfl).trans (addBias_shape hz)
  split at h
  · rename_i ht
    unfold baseConvTransposeCall at h
    obtain ⟨v, hv, h⟩ := bind_eq_ok h
    have hs := key v (by
      rw [← h]; cases l.bias <;> rfl)
    rw [convTranspose_inFormat] at hv
    obtain ⟨B, n, C, n', h1, h2, h3, h4, h5⟩ := (convTransposeLast_keeps _ _ _ w).inFormat _ hv
    exact ⟨B, n, C, n', h1, h2, by rw [hs, h3, ht]; rfl, h4, h5⟩
  · rename_i ht
    unfold baseConvCall at h
    obtain ⟨v, hv, h⟩ := bind_eq_ok h
    have hs := key v (by
      rw [← h]; cases l.bias <;> rfl)
    rw [conv_inFormat] at hv
    obtain ⟨B, n, C, n', h1, h2, h3, h4, h5⟩ := (convLast_keeps _ _ _ w).inFormat _ hv
    exact ⟨B, n, C, n', h1, h2, by rw [hs, h3, if_neg ht], h4, h5⟩

/-! ### convolutions -/

theorem ConvCore.axes {a : ConvArgs α} {tr : Bool} {g : Option Nat} {C : Nat} {k0 b0 : List Nat → α}
    {A D : List Nat} {l : GroupConv α} {kp : KerasPadding} (f : ConvCore a tr g C k0 b0 A D l kp) :
    AxisFacts l.transforms a.dataFormat a.group.dim g.isSome A.length := by
  obtain ⟨s, hs⟩ := f.subA
  refine ⟨f.gv, f.fmtT, ?_, ?_, f.order, sub_pos a.group.sym.tab hs⟩
  · rw [f.caxis]
    cases a.dataFormat <;> simp
  · rw [f.gaxis]
    cases a.dataFormat <;> simp [groupAxis]

theorem BuiltConv.filters_pos {a : ConvArgs α} {tr : Bool} {b : Option Nat} {n : List Nat} {g : Option Nat} {C : Nat}
    {k0 b0 : List Nat → α} {H : List Nat} {l : GroupConv α} (hl : BuiltConv a tr b n g C k0 b0 H l) : 0 < a.filters := by
  obtain ⟨l0, h0, h1⟩ := hl.built
  unfold GroupConv.init at h0
  obtain ⟨t, _, h0⟩ := bind_eq_ok h0
  obtain ⟨kp, _, h0⟩ := bind_eq_ok h0
  split at h0
  · exact absurd h0 (by simp)
  · rename_i h
    simp only [not_or] at h
    exact Nat.pos_of_ne_zero h.2.2.2.2.2.1

theorem bind_congr_ok {β γ : Type} {r : Res β} {f g : β → Res γ} (h : ∀ y, r = .ok y → f y = g y) : r >>= f = r >>= g := by
  cases r with
  | error e => rfl
  | ok y => exact h y rfl

/-- what `prepare_call` makes of the kernel -/
theorem prepareCall_kernel [Zero α] {t : GroupTransforms} {k w x y : Tensor α} {b b' : Option (Tensor α)} {F F' : Nat}
    (h : t.prepareCall k b F x = .ok (w, b', F', y)) : t.transformKernel k = .ok w ∧ t.mergeGroupAxisAndPad x = .ok y := by
  unfold GroupTransforms.prepareCall at h
  obtain ⟨y', hy, h⟩ := bind_eq_ok h
  obtain ⟨w', hw, h⟩ := bind_eq_ok h
  cases b with
  | none =>
    obtain ⟨m, hm, h⟩ := bind_eq_ok (r := t.orderOf (some t.actingGroup)) h
    cases h
    exact ⟨hw, hy⟩
  | some b =>
    obtain ⟨c, hc, h⟩ := bind_eq_ok (r := (t.repeatBias b).map some) h
    obtain ⟨m, hm, h⟩ := bind_eq_ok (r := t.orderOf (some t.actingGroup)) h
    cases h
    exact ⟨hw, hy⟩

theorem convT_eq [Semiring α] {a : ConvArgs α} {tr : Bool} {g : Option Nat} {C : Nat} {k0 b0 : List Nat → α}
    {A D : List Nat} {l : GroupConv α} {kp : KerasPadding} (f : ConvCore a tr g C k0 b0 A D l kp) (hF : 0 < a.filters)
    {u : Nat} (hu : BatchOrSpatial a.dataFormat a.group.dim u) (x : Tensor α) {B Cx : Nat} {n : List Nat} {gx : Option Nat}
    (hgx : gx.isSome = g.isSome) (hx : x.shape = sigShape a.dataFormat B n gx Cx) (hn : n.length = a.group.dim)
    (hp : PosBut u x.shape) : l.callT [u] x = l.call x := by
  have fa := f.axes
  rw [← hgx] at fa
  unfold GroupConv.callT GroupConv.call
  cases l.checkInput x with
  | error e => rfl
  | ok _ =>
    have hbody : GroupConv.bodyT [u] l x = GroupConv.body l x := by
      unfold GroupConv.bodyT GroupConv.body
      rw [f.kernel]
      have hpc : l.transforms.prepareCallT [u] (⟨kShape a tr g C, k0⟩ : Tensor α) l.bias l.filters x =
          l.transforms.prepareCall (⟨kShape a tr g C, k0⟩ : Tensor α) l.bias l.filters x := by
        unfold GroupTransforms.prepareCallT GroupTransforms.prepareCall
        rw [mergeT_eq fa hu x hx hn hp]
        cases l.bias <;> rfl
      simp only [hpc]
      cases hc : l.transforms.prepareCall (⟨kShape a tr g C, k0⟩ : Tensor α) l.bias l.filters x with
      | error e => rfl
      | ok r =>
        obtain ⟨w, b', F', y⟩ := r
        obtain ⟨hw, hy⟩ := prepareCall_kernel hc
        obtain ⟨w', ew, hws, _⟩ := f.transformed
        rw [hw] at ew
        cases ew
        simp only
        refine congrArg (Prod.mk _) ?_
        apply bind_congr_ok
        intro z hz
        obtain ⟨B', n1, C', n2, h1, h2, h3, h4, h5⟩ := superCall_shape rfl hz
        simp only [f.fmt, f.strides, f.stridesLen, f.transp] at h1 h2 h3 h4 h5
        have hF' : nth w.shape (a.group.dim + if tr = true then 0 else 1) = A.length * a.filters := by
          rw [hws]
          cases tr with
          | true => exact nth_app0 f.kernelLen
          | false => exact nth_app f.kernelLen 1
        rw [hF'] at h3
        have hyp := mergePad_pos fa hu hx hn hp hy
        have hzp : PosBut u z.shape := by
          rw [h1, posBut_sig h2 hu] at hyp
          rw [h3, posBut_sig h4 hu]
          exact ⟨hyp.1, Nat.mul_pos fa.pos hF, fun i hi hiu => h5 i hi (hyp.2.2 i hi hiu)⟩
        exact restoreT_eq fa hu z h3 h4 hzp
    simp only [backupAndRestore, hbody]

/-! ### two unknown sizes -/

theorem resolve_two {size : Nat} {s : List Int} (h : 2 ≤ s.count (-1)) : resolveShape size s = .error .value := by
  unfold resolveShape
  rw [if_neg, if_neg]
  · omega
  · intro hs
    have hm : (-1 : Int) ∈ s := List.count_pos_iff.1 (by omega)
    have := List.all_eq_true.1 hs _ hm
    simp at this

theorem count_format (s : List (Option Nat)) : (formatBatchDim s).count (-1) = s.count none := by
  induction s with
  | nil => rfl
  | cons a s ih =>
    unfold formatBatchDim at ih ⊢
    cases a with
    | none => simp [ih]
    | some n =>
      rw [List.map_cons, List.count_cons_of_ne (by simp), List.count_cons_of_ne (by simp), ih]

theorem count_set_some {s : List (Option Nat)} {k a b : Nat} (h : s[k]? = some (some a)) :
    (s.set k (some b)).count none = s.count none := by
  obtain ⟨hk, h⟩ := List.getElem?_eq_some_iff.1 h
  rw [List.set_eq_take_append_cons_drop, if_pos hk]
  conv_rhs => rw [← List.take_append_drop k s, List.drop_eq_getElem_cons hk, h]
  simp

theorem splitShapes_count {s r : List (Option Nat)} {f : Nat} {ax : Int} (h : splitShapes s f ax = .ok r) :
    r.count none = s.count none := by
  unfold splitShapes at h
  obtain ⟨k, hk, h⟩ := bind_eq_ok h
  split at h
  · rename_i n hn
    split at h
    · exact absurd h (by simp)
    · cases h
      rw [← count_set_some (b := n / f) hn]
      simp only [sliceTo, sliceFrom, List.count_append]
      rw [List.count_eq_zero_of_not_mem (l := [some f]) (by simp), Nat.add_zero, ← List.count_append,
        List.take_append_drop]
  · exact absurd h (by simp)

theorem reshape_two {x : Tensor α} {s : List (Option Nat)} (h : 2 ≤ s.count none) :
    reshape x (formatBatchDim s) = .error .value := by
  unfold reshape
  rw [resolve_two (by rw [count_format]; exact h)]
  rfl

theorem static_two {U s : List Nat} {u v : Nat} (hu : u ∈ U) (hv : v ∈ U) (huv : u < v) (hl : v < s.length) :
    2 ≤ (staticShape U s).count none := by
  have hs : (staticShape U s)[u]? = some none ∧ (staticShape U s)[v]? = some none := by
    constructor
    · simp [staticShape, hu, show u < s.length by omega]
    · simp [staticShape, hv, hl]
  obtain ⟨⟨h1, h2⟩, ⟨h3, h4⟩⟩ := hs.imp List.getElem?_eq_some_iff.1 List.getElem?_eq_some_iff.1
  rw [← List.take_append_drop v (staticShape U s), List.count_append]
  have e1 : 0 < ((staticShape U s).take v).count none := by
    rw [List.count_pos_iff, List.mem_iff_getElem]
    exact ⟨u, by simp; omega, by simp [h2]⟩
  have e2 : 0 < ((staticShape U s).drop v).count none := by
    rw [List.count_pos_iff, List.drop_eq_getElem_cons h3, h4]
    simp
  omega

theorem restoreT_two {t : GroupTransforms} {U : List Nat} {u v : Nat} (hu : u ∈ U) (hv : v ∈ U) (huv : u < v) (y : Tensor α)
    (hl : v < y.rank) : ∃ e, t.restoreGroupAxisT U y = .error e := by
  cases h : t.restoreGroupAxisT U y with
  | error e => exact ⟨e, rfl⟩
  | ok z =>
    exfalso
    unfold GroupTransforms.restoreGroupAxisT at h
    simp only at h
    obtain ⟨m, hm, h⟩ := bind_eq_ok h
    obtain ⟨w, hw, h⟩ := bind_eq_ok h
    unfold splitAxesS at hw
    obtain ⟨s, hs, hw⟩ := bind_eq_ok hw
    rw [reshape_two (by rw [splitShapes_count hs]; exact static_two hu hv huv hl)] at hw
    exact absurd hw (by simp)

theorem convT_two [Semiring α] {a : ConvArgs α} {tr : Bool} {g : Option Nat} {C : Nat} {k0 b0 : List Nat → α}
    {A D : List Nat} {l : GroupConv α} {kp : KerasPadding} (f : ConvCore a tr g C k0 b0 A D l kp) {U : List Nat}
    {u v : Nat} (hu : u ∈ U) (hv : v ∈ U) (huv : u < v) (hl : BatchOrSpatial a.dataFormat a.group.dim v) (x : Tensor α) :
    ∃ e, (l.callT U x).2 = .error e := by
  unfold GroupConv.callT
  cases l.checkInput x with
  | error e => exact ⟨e, rfl⟩
  | ok _ =>
    suffices h : ∃ e, (GroupConv.bodyT U l x).2 = .error e by
      obtain ⟨e, h⟩ := h
      refine ⟨e, ?_⟩
      simp only [backupAndRestore]
      cases hb : GroupConv.bodyT U l x with
      | mk l' r =>
        rw [hb] at h
        simp only at h
        rw [h]
    unfold GroupConv.bodyT
    rw [f.kernel]
    simp only
    cases l.transforms.prepareCallT U (⟨kShape a tr g C, k0⟩ : Tensor α) l.bias l.filters x with
    | error e => exact ⟨e, rfl⟩
    | ok r =>
      obtain ⟨w, b', F', y⟩ := r
      simp only
      cases hz : ({ l with kernel := some w, bias := b', filters := F' } : GroupConv α).superCall y with
      | error e => exact ⟨e, rfl⟩
      | ok z =>
        obtain ⟨B', n1, C', n2, h1, h2, h3, h4, h5⟩ := superCall_shape rfl hz
        rw [res_bind_ok]
        apply restoreT_two hu hv huv
        simp only [f.fmt, f.strides, f.stridesLen] at h3 h4
        simp only [Tensor.rank, h3, length_sig, h4]
        cases hf : a.dataFormat <;> simp only [hf, BatchOrSpatial] at hl <;> simp <;> omega

/-! ### pooling -/

/-- attributes of a built pooling layer that is channels_last or pads nothing -/
theorem BuiltPool.axes {a : PoolArgs} {b : Option Nat} {n : List Nat} {g C : Nat} {H : List Nat} {l : GroupPooling}
    (hl : BuiltPool a b n g C H l) (hc : a.dataFormat = .channelsLast ∨ l.transforms.padState.needsPadding = false) :
    AxisFacts l.transforms a.dataFormat a.group.dim true H.length ∧ l.dataFormat = a.dataFormat ∧
      l.strides.length = a.group.dim ∧
      (LastFacts l.transforms a.group.dim true H.length ∧ a.dataFormat = .channelsLast ∨
        l.transforms.padState = ⟨false, []⟩ ∧ a.dataFormat = .channelsFirst) := by
  cases hf : a.dataFormat with
  | channelsLast =>
    obtain ⟨opt, kp, cos, _, _, f, _, _⟩ := hl.facts hf
    refine ⟨⟨f.last.gv, f.last.fmtT, f.last.caxis, f.last.gaxis, f.last.order, f.last.pos⟩, f.fmt.trans ?_,
      by rw [f.strides, f.stridesLen], .inl ⟨f.last, rfl⟩⟩
    first | rfl | exact hf
  | channelsFirst =>
    obtain ⟨opt, kp, cos, _, _, f, _, hst⟩ := hl.facts_first hf
    have hp : l.transforms.padState = ⟨false, []⟩ := unpadded_state hst (hc.resolve_left (by simp [hf]))
    have f := f hp
    exact ⟨⟨f.first.gv, f.first.fmtT, f.first.caxis, f.first.gaxis, f.first.order, f.first.pos⟩, f.fmt,
      by rw [f.strides, f.stridesLen], .inr ⟨hp, rfl⟩⟩

theorem poolT_eq [Field α] [LinearOrder α] {a : PoolArgs} {b : Option Nat} {n : List Nat} {g C : Nat} {H : List Nat}
    {l : GroupPooling} (hl : BuiltPool a b n g C H l)
    (hc : a.dataFormat = .channelsLast ∨ l.transforms.padState.needsPadding = false) {u : Nat}
    (hu : BatchOrSpatial a.dataFormat a.group.dim u) (x : Tensor α) {B Cx : Nat} {m : List Nat}
    (hx : x.shape = sigShape a.dataFormat B m (some g) Cx) (hm : m.length = a.group.dim) (hp : PosBut u x.shape) :
    l.callT [u] x = l.call x := by
  obtain ⟨fa, hfmt, hsl, hcase⟩ := hl.axes hc
  obtain ⟨s, cos, I, hH, hcos, hI, hIs, hIg, rfl, hax⟩ := hl.coset_facts
  have hsig : ∀ k, ∃ P R, P.length = groupAxis a.dataFormat a.group.dim ∧ sigShape a.dataFormat B m (some k) Cx = P ++ k :: R ∧
      ∀ k', sigShape a.dataFormat B m (some k') Cx = P ++ k' :: R := by
    intro k
    cases a.dataFormat with
    | channelsLast => exact ⟨B :: m, [Cx], by simp [groupAxis, hm], rfl, fun _ => rfl⟩
    | channelsFirst => exact ⟨B :: Cx :: m, [], by simp [groupAxis, hm], rfl, fun _ => rfl⟩
  obtain ⟨P, R, hPl, hPs, hPs'⟩ := hsig a.group.group.order
  obtain ⟨z, ez, hz, _⟩ := subgroupPooling_ok hH hcos hI hIs hIg l.poolType.reduce (x := x) (hx.trans hPs) (hax.trans hPl.symm)
  rw [← hPs' H.length] at hz
  have hpz : PosBut u z.shape := by
    intro i hi hiu
    have hr : z.shape.length = x.shape.length := by rw [hz, hx, length_sig, length_sig]; rfl
    have := hp i (by omega) hiu
    rw [hx, hPs'] at this
    rw [hz, hPs']
    by_cases hiP : i = P.length
    · rw [hiP, nth_app0 rfl]
      exact fa.pos
    · rw [nth_append] at this ⊢
      split at this
      · rename_i h; rw [if_pos h]; exact this
      · rename_i h
        rw [if_neg h]
        obtain ⟨j, hj⟩ : ∃ j, i - P.length = j + 1 := ⟨i - P.length - 1, by omega⟩
        rw [hj, nth_cons_succ] at this ⊢
        exact this
  unfold GroupPooling.callT GroupPooling.call
  simp only [ez, res_bind_ok]
  rw [mergeT_eq (g := some H.length) fa hu z hz hm hpz]
  apply bind_congr_ok
  intro y hy
  apply bind_congr_ok
  intro w hw
  have hyp := mergePad_pos (g := some H.length) fa hu hz hm hpz hy
  rw [kerasPool_inFormat, hfmt] at hw
  obtain ⟨B', n1, C', n2, h1, h2, h3, h4, h5⟩ := (poolLast_keeps _ _ _ _).inFormat _ hw
  rw [hsl] at h2 h4 h5
  have hC' : C' = H.length * Cx := by
    rcases hcase with ⟨fl, hf⟩ | ⟨hst, hf⟩
    · rw [hf] at hz h1
      obtain ⟨y', ey, hy', _⟩ := LastFacts.mergePad (g := some H.length) (C := Cx) fl z hz hm
      rw [hy] at ey
      cases ey
      rw [hy'] at h1
      simp only [sigShape, Option.toList_none, List.nil_append] at h1
      have := (List.append_inj' h1 rfl).2
      simp only [List.cons.injEq, and_true, chanO] at this
      exact this.symm
    · rw [hf] at hz h1
      have hca := fa.caxis
      have hga := fa.gaxis
      rw [hf] at hca hga
      obtain ⟨y', ey, hy', _⟩ := merge_first z hz hm
      unfold GroupTransforms.mergeGroupAxisAndPad at hy
      rw [fa.gv, hca, hga, hst] at hy
      have ey' : mergeAxes z ((groupAxis .channelsFirst a.group.dim : Nat) : Int) ((1 : Nat) : Int) = .ok y' := ey
      simp only [if_true, ey', res_bind_ok] at hy
      cases hy
      rw [hy'] at h1
      simp only [sigShape, Option.toList_none, List.append_nil, List.cons.injEq] at h1
      exact h1.2.1.symm
  simp only [id] at h3
  rw [hC'] at h3 h1
  refine restoreT_eq fa hu w h3 h4 ?_
  rw [h1, posBut_sig h2 hu] at hyp
  rw [h3, posBut_sig h4 hu]
  exact ⟨hyp.1, hyp.2.1, fun i hi hiu => h5 i hi (hyp.2.2 i hi hiu)⟩

theorem poolT_two [Field α] [LinearOrder α] {a : PoolArgs} {b : Option Nat} {n : List Nat} {g C : Nat} {H : List Nat}
    {l : GroupPooling} (hl : BuiltPool a b n g C H l)
    (hc : a.dataFormat = .channelsLast ∨ l.transforms.padState.needsPadding = false) {U : List Nat} {u v : Nat}
    (hu : u ∈ U) (hv : v ∈ U) (huv : u < v) (hl' : BatchOrSpatial a.dataFormat a.group.dim v) (x : Tensor α) :
    ∃ e, l.callT U x = .error e := by
  obtain ⟨fa, hfmt, hsl, hcase⟩ := hl.axes hc
  cases h : l.callT U x with
  | error e => exact ⟨e, rfl⟩
  | ok z =>
    exfalso
    unfold GroupPooling.callT at h
    obtain ⟨x1, _, h⟩ := bind_eq_ok h
    obtain ⟨x2, _, h⟩ := bind_eq_ok h
    obtain ⟨y, hy, h⟩ := bind_eq_ok h
    rw [kerasPool_inFormat, hfmt] at hy
    obtain ⟨B', n1, C', n2, h1, h2, h3, h4, h5⟩ := (poolLast_keeps _ _ _ _).inFormat _ hy
    obtain ⟨e, he⟩ := restoreT_two (t := l.transforms) hu hv huv y (by
      simp only [Tensor.rank, h3, length_sig, h4, hsl]
      cases hf : a.dataFormat <;> simp only [hf, BatchOrSpatial] at hl' <;> simp <;> omega)
    rw [he] at h
    exact absurd h (by simp)

end GroCo
