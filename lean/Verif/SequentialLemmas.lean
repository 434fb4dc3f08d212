import Verif.Sequential
import Verif.Props.ShapeExact
import Verif.Props.Check

/-
Helper lemmas: the shapes announced by the layers of a model.
-/

namespace GroCo
open Tensor

variable {α : Type}

theorem known_list : ∀ {l : List (Option Nat)}, none ∉ l → ∃ t : List Nat, l = t.map some
  | [], _ => ⟨[], rfl⟩
  | none :: _, h => absurd (List.mem_cons_self ..) h
  | some v :: l, h => by
    obtain ⟨t, rfl⟩ := known_list (l := l) (fun h' => h (List.mem_cons_of_mem _ h'))
    exact ⟨v :: t, rfl⟩

/-- a shape with known sizes except for the batch size is that of a signal -/
theorem split_signal {d : Nat} {t : List Nat} (h : t.length = d + 1 ∨ t.length = d + 2) :
    ∃ n g C, n.length = d ∧ t = n ++ g.toList ++ [C] ∧ (t.length = d + 2 ↔ g ≠ none) := by
  rcases h with h | h
  · refine ⟨t.take d, none, nth t d, by simp [h], ?_, by simp [h]⟩
    apply ext_nth
    · simp [h]
    · intro i hi
      rw [Option.toList_none, List.append_nil, nth_append]
      split
      · rename_i hc
        simp only [List.length_take, h] at hc
        simp [nth, List.getElem?_take, show i < d by omega]
      · rename_i hc
        simp only [List.length_take, h] at hc
        obtain rfl : i = d := by omega
        simp [h, nth]
  · refine ⟨t.take d, some (nth t d), nth t (d + 1), by simp [h], ?_, by simp [h]⟩
    apply ext_nth
    · simp [h]
    · intro i hi
      simp only [Option.toList_some, List.append_assoc, List.cons_append, List.nil_append]
      rw [nth_append]
      split
      · rename_i hc
        simp only [List.length_take, h] at hc
        simp [nth, List.getElem?_take, show i < d by omega]
      · rename_i hc
        simp only [List.length_take, h] at hc
        obtain rfl | rfl : i = d ∨ i = d + 1 := by omega
        · simp [h, nth]
        · simp [h, nth]

theorem inputShape_last (b : Option Nat) (n : List Nat) (g : Option Nat) (C : Nat) :
    inputShape .channelsLast b n g C = b :: (n ++ g.toList ++ [C]).map some := by
  cases g <;> simp [inputShape]

theorem sigShape_last (B : Nat) (n : List Nat) (g : Option Nat) (C : Nat) :
    sigShape .channelsLast B n g C = B :: (n ++ g.toList ++ [C]) := by
  cases g <;> simp [sigShape]

/-- sizes that are announced and known are those of the tensor -/
theorem announces_known {b : Option Nat} {B : Nat} {t u : List Nat} (hB : ∀ v, b = some v → B = v) :
    Announces (b :: t.map some) (B :: u) ↔ t = u := by
  constructor
  · rintro ⟨h1, h2⟩
    apply ext_nth
    · simpa using h1
    · intro i hi
      have := h2 (i + 1) (nth t i) (by simp [nth, hi])
      simpa [nth] using this.symm
  · rintro rfl
    refine ⟨by simp, ?_⟩
    intro i k h
    cases i with
    | zero => exact hB k (by simpa using h)
    | succ i =>
      by_cases hi : i < t.length
      · simpa [nth, hi] using h
      · exact absurd h (by simp [hi])

theorem mapM_known {K S D : List Nat} {kp : KerasPadding} {n : List Nat} : ∀ {is : List Nat} {ou : List (Option Nat)},
    (∀ i ∈ is, i < n.length) →
    is.mapM (fun i => convOutSize kp ((n.map some).getD i none) (nth K i) (nth S i) (nth D i)) = .ok ou → none ∉ ou
  | [], ou, _, h => by cases h; simp
  | i :: is, ou, hi, h => by
    rw [List.mapM_cons] at h
    obtain ⟨o, e, h⟩ := bind_eq_ok h
    obtain ⟨os, e', h⟩ := bind_eq_ok h
    cases h
    have := mapM_known (fun j hj => hi j (List.mem_cons_of_mem _ hj)) e'
    have hin := hi i (List.mem_cons_self ..)
    have hg : (n.map some).getD i none = some (nth n i) := by simp [nth, hin]
    rw [hg] at e
    have : o ≠ none := by
      unfold convOutSize at e
      cases kp
      · simp only at e
        cases e; simp
      · simp only at e
        split at e
        · cases e
        · cases e; simp
    simp only [List.mem_cons, not_or]
    exact ⟨fun h => this h.symm, by assumption⟩

/-- what a built channels_last layer announces has known sizes, except for the batch size -/
theorem announced_known {a : ConvArgs α} {tr : Bool} {bt : Option Nat} {n : List Nat} {g : Option Nat} {C : Nat}
    {k0 b0 : List Nat → α} {H : List Nat} {l : GroupConv α} [Semiring α] (hl : BuiltConv a tr bt n g C k0 b0 H l)
    (hf : a.dataFormat = .channelsLast) {arg s : List (Option Nat)} (h : l.computeOutputShape arg = .ok s) :
    ∃ t : List Nat, s = bt :: t.map some := by
  obtain ⟨h1, h2, h3⟩ := hl.shape_facts
  obtain ⟨opt, kp, e1, e2, f, hst⟩ := hl.facts_last hf
  have hn := hl.dims
  have hlen : (signalShape DataFormat.channelsLast.isLast bt (some (chanO g C)) n).length = a.strides.length + 2 := by
    simp [signalShape, DataFormat.isLast, hn, f.stridesLen]
  have hsp : spatialShapeOf DataFormat.channelsLast a.strides.length (signalShape DataFormat.channelsLast.isLast bt (some (chanO g C)) n) =
      n.map some := by
    simp [spatialShapeOf, signalShape, DataFormat.isLast, f.stridesLen, ← hn]
  have h0 : (signalShape DataFormat.channelsLast.isLast bt (some (chanO g C)) n).getD 0 none = bt := by
    simp [signalShape, DataFormat.isLast]
  have hga : l.transforms.groupAxis = a.group.dim + 1 := by rw [f.gaxis, hf]; rfl
  have key : ∀ ou : List (Option Nat), none ∉ ou →
      ∃ t : List Nat, l.transforms.correctOutputShape ([bt] ++ ou ++ [some a.filters]) = bt :: t.map some := by
    intro ou ho
    unfold GroupTransforms.correctOutputShape
    rw [hga]
    obtain ⟨t, ht⟩ := known_list (l := (ou ++ [some a.filters]).take a.group.dim ++ [some l.transforms.group.group.order] ++
      (ou ++ [some a.filters]).drop a.group.dim) (by
        intro hm
        have ho' : none ∉ ou ++ [some a.filters] := by simp [ho]
        rcases List.mem_append.1 hm with hm | hm
        · rcases List.mem_append.1 hm with hm | hm
          · exact ho' (List.mem_of_mem_take hm)
          · simp at hm
        · exact ho' (List.mem_of_mem_drop hm))
    exact ⟨t, by rw [← ht]; simp⟩
  unfold GroupConv.computeOutputShape at h
  rw [f.transp, h1, h2, f.fmt, f.padding, f.strides, f.dilation, f.filters, hf] at h
  cases tr with
  | false =>
    simp only [Bool.false_eq_true, if_false] at h
    obtain ⟨out, eo, es⟩ := bind_eq_ok h
    cases es
    simp only [convOutputShape, hlen, ne_eq, not_true_eq_false, if_false, hsp] at eo
    obtain ⟨ou, em, eo⟩ := bind_eq_ok eo
    cases eo
    rw [h0]
    exact key ou (mapM_known (by intro i hi; rw [List.mem_range, f.stridesLen] at hi; omega) em)
  | true =>
    simp only [if_true] at h
    obtain ⟨out, eo, es⟩ := bind_eq_ok h
    cases es
    simp only [convTransposeOutputShape, hlen, ne_eq, not_true_eq_false, if_false, hsp] at eo
    cases eo
    rw [h0]
    refine key _ ?_
    intro hm
    obtain ⟨i, hi, e⟩ := List.mem_map.1 hm
    rw [List.mem_range, f.stridesLen, ← hn] at hi
    simp [hi] at e

theorem transforms_build_gv {t t' : GroupTransforms} {shape : List (Option Nat)} (h : t.build shape = .ok t') :
    shape.length = t.dimensions + 3 ∨ t'.reshapedInput = shape := by
  by_cases hg : shape.length = t.dimensions + 3
  · exact Or.inl hg
  · right
    unfold GroupTransforms.build at h
    simp only [hg, decide_false, Bool.false_eq_true, if_false, and_false] at h
    obtain ⟨r, er, h⟩ := bind_eq_ok h
    cases er
    obtain ⟨st, est, h⟩ := bind_eq_ok h
    cases h
    rfl

/-- a shape a convolution layer can be built on is that of a signal -/
theorem built_of {a : ConvArgs α} {tr : Bool} {bt : Option Nat} {t : List Nat} {k0 b0 : List Nat → α} {l0 l : GroupConv α}
    (hf : a.dataFormat = .channelsLast) {H : List Nat} (hH : a.group.group.sub (a.group.group.parseSubgroup a.subgroup) = .ok H)
    (h0 : GroupConv.init a a.group.dim tr = .ok l0) (h : l0.build (bt :: t.map some) k0 b0 = .ok l) :
    ∃ n g C, t = n ++ g.toList ++ [C] ∧ BuiltConv a tr bt n g C k0 b0 H l := by
  have hlen : t.length = a.group.dim + 1 ∨ t.length = a.group.dim + 2 := by
    obtain ⟨s, m, opt, kp, e1, e2, e3, e4, e5, e6, e7, e8, e9, rfl⟩ := conv_init_inv h0
    unfold GroupConv.build at h
    obtain ⟨t1, ht, h⟩ := bind_eq_ok h
    obtain ⟨ch, _, h⟩ := bind_eq_ok h
    obtain ⟨os, ho, h⟩ := bind_eq_ok h
    rcases transforms_build_gv ht with hl | hl
    · right
      simpa [initTransforms] using hl
    · left
      unfold GroupConv.computeOutputShape at ho
      simp only [hl] at ho
      split at ho
      · obtain ⟨out, eo, -⟩ := bind_eq_ok ho
        unfold convTransposeOutputShape at eo
        simp only [List.length_cons, List.length_map, e6] at eo
        split at eo
        · cases eo
        · omega
      · obtain ⟨out, eo, -⟩ := bind_eq_ok ho
        unfold convOutputShape at eo
        simp only [List.length_cons, List.length_map, e6] at eo
        split at eo
        · cases eo
        · omega
  obtain ⟨n, g, C, hn, rfl, -⟩ := split_signal hlen
  refine ⟨n, g, C, rfl, ⟨l0, h0, ?_⟩, hn, hH⟩
  rw [hf, inputShape_last]
  exact h

/-- the layer a list of arguments and a shape give is unique -/
theorem BuiltConv.unique {a : ConvArgs α} {tr : Bool} {bt : Option Nat} {n : List Nat} {g : Option Nat} {C : Nat}
    {k0 b0 : List Nat → α} {H H' : List Nat} {l l' : GroupConv α} (hl : BuiltConv a tr bt n g C k0 b0 H l)
    (hl' : BuiltConv a tr bt n g C k0 b0 H' l') : l = l' := by
  obtain ⟨l0, e, e1⟩ := hl.built
  obtain ⟨l0', e', e1'⟩ := hl'.built
  rw [e] at e'
  cases e'
  rw [e1] at e1'
  cases e1'
  rfl

theorem BuiltPool.unique {a : PoolArgs} {bt : Option Nat} {n : List Nat} {g C : Nat} {H H' : List Nat} {l l' : GroupPooling}
    (hl : BuiltPool a bt n g C H l) (hl' : BuiltPool a bt n g C H' l') : l = l' := by
  obtain ⟨l0, e, e1⟩ := hl.built
  obtain ⟨l0', e', e1'⟩ := hl'.built
  rw [e] at e'
  cases e'
  rw [e1] at e1'
  cases e1'
  rfl

/-- the traced shape of a layer that treats the entries of a batch independently -/
theorem tracedShape_iff [Zero α] {f : Tensor α → Res (Tensor α)} {t : List Nat} (hf : Batchwise f t) {bt : Option Nat}
    {s : List (Option Nat)} (h : tracedShape f (bt :: t.map some) = .ok s) {x u : Tensor α} {B : Nat} (hx : x.shape = B :: t)
    (hu : f x = .ok u) : ∃ t', s = bt :: t'.map some ∧ u.shape = B :: t' := by
  obtain ⟨y, ey, h⟩ := bind_eq_ok h
  cases h
  have hm : (bt :: t.map some).map (fun v => v.getD 1) = bt.getD 1 :: t := by simp [List.map_map, Function.comp_def]
  obtain ⟨u', t', eu, h1, h2, -⟩ := hf _ x y (bt.getD 1) B hm hx ey
  rw [hu] at eu
  cases eu
  exact ⟨t', by simp [h1], h2⟩

theorem tracedShape_total [Zero α] {f : Tensor α → Res (Tensor α)} {t : List Nat} (hf : Batchwise f t) {x u : Tensor α} {B : Nat}
    (hx : x.shape = B :: t) (hu : f x = .ok u) (bt : Option Nat) : ∃ s, tracedShape f (bt :: t.map some) = .ok s := by
  have hm : (bt :: t.map some).map (fun v => v.getD 1) = bt.getD 1 :: t := by simp [List.map_map, Function.comp_def]
  obtain ⟨y, t', ey, -, -, -⟩ := hf x ⟨(bt :: t.map some).map (fun v => v.getD 1), fun _ => 0⟩ u B (bt.getD 1) hx hm hu
  unfold tracedShape
  rw [ey]
  exact ⟨_, rfl⟩

/-- the traced shape exists if the call on a tensor of the shape does -/
theorem tracedShape_ok [Zero α] {f : Tensor α → Res (Tensor α)} {t t' : List Nat} {bt : Option Nat}
    (h : ∀ (x : Tensor α) (B : Nat), x.shape = B :: t → ∃ y, f x = .ok y ∧ y.shape = B :: t') :
    tracedShape f (bt :: t.map some) = .ok (bt :: t'.map some) := by
  have hm : (bt :: t.map some).map (fun v => v.getD 1) = bt.getD 1 :: t := by simp [List.map_map, Function.comp_def]
  obtain ⟨y, ey, hy⟩ := h ⟨(bt :: t.map some).map (fun v => v.getD 1), fun _ => 0⟩ (bt.getD 1) hm
  unfold tracedShape
  rw [ey]
  simp [hy]

end GroCo

namespace GroCo
open Tensor

variable {α : Type}

/-- a layer with another recorded shape -/
def GroupConv.recorded (l : GroupConv α) (r : List (Option Nat)) : GroupConv α :=
  { l with transforms := { l.transforms with reshapedInput := r } }

theorem recorded_call [Semiring α] (l : GroupConv α) (r : List (Option Nat)) (x : Tensor α) :
    ((l.recorded r).call x).2 = (l.call x).2 := by
  have hb : ∀ x : Tensor α, ((l.recorded r).body x).2 = (l.body x).2 := by
    intro x
    unfold GroupConv.body
    cases hk : l.kernel with
    | none => simp only [GroupConv.recorded, hk]
    | some k =>
      simp only [GroupConv.recorded, hk]
      rw [show ({ l.transforms with reshapedInput := r } : GroupTransforms).prepareCall k l.bias l.filters x =
        l.transforms.prepareCall k l.bias l.filters x from rfl]
      cases l.transforms.prepareCall k l.bias l.filters x with
      | error e => rfl
      | ok p => rfl
  unfold GroupConv.call
  rw [show (l.recorded r).checkInput x = l.checkInput x from rfl]
  cases l.checkInput x with
  | error e => rfl
  | ok u =>
    unfold backupAndRestore
    have := hb x
    cases h1 : (l.recorded r).body x with
    | mk l1 r1 => 
      cases h2 : l.body x with
      | mk l2 r2 =>
        rw [h1, h2] at this
        simp only at this
        subst this
        cases r1 <;> rfl

theorem merge_batch {b b' : Option Nat} {r r1 : List (Option Nat)} {m c : Nat} (hm : m ≠ 0) (hc : c ≠ 0)
    (h : mergeShapes (b :: r) (m : Int) (c : Int) = .ok r1) :
    ∃ r', r1 = b :: r' ∧ mergeShapes (b' :: r) (m : Int) (c : Int) = .ok (b' :: r') := by
  obtain ⟨m, rfl⟩ := Nat.exists_eq_succ_of_ne_zero hm
  obtain ⟨c, rfl⟩ := Nat.exists_eq_succ_of_ne_zero hc
  unfold mergeShapes at h ⊢
  obtain ⟨i, ei, h⟩ := bind_eq_ok h
  obtain ⟨j, ej, h⟩ := bind_eq_ok h
  have hi : i = m.succ := by
    unfold pyIndex at ei
    split at ei
    · cases ei; simp
    · split at ei
      · omega
      · cases ei
  have hj : j = c.succ := by
    unfold pyIndex at ej
    split at ej
    · cases ej; simp
    · split at ej
      · omega
      · cases ej
  subst hi hj
  have e : (b' :: r).length = (b :: r).length := rfl
  rw [e, ei, ej]
  simp only [res_bind_ok, List.getElem?_cons_succ, List.set_cons_succ, List.eraseIdx_cons_succ] at h ⊢
  split at h
  · cases h
    exact ⟨_, rfl, rfl⟩
  · cases h

theorem transforms_channels {t t1 : GroupTransforms} {shape : List (Option Nat)} (h2 : t.channelsAxis ≠ 0) (h : t.build shape = .ok t1) :
    t1.channelsAxis ≠ 0 := by
  rw [transforms_build_eq] at h
  obtain ⟨r, _, h⟩ := bind_eq_ok h
  obtain ⟨st, _, h⟩ := bind_eq_ok h
  cases h
  simp only
  split <;> omega

/-- the batch size of the shape a layer is built on is recorded and otherwise not used -/
theorem transforms_batch {t t1 : GroupTransforms} {b b' : Option Nat} {r : List (Option Nat)} (h1 : t.groupAxis ≠ 0)
    (h2 : t.channelsAxis ≠ 0) (h : t.build (b :: r) = .ok t1) :
    ∃ r', t1.reshapedInput = b :: r' ∧ t.build (b' :: r) = .ok { t1 with reshapedInput := b' :: r' } := by
  unfold GroupTransforms.build at h ⊢
  have el : (b' :: r).length = (b :: r).length := rfl
  rw [el]
  have eg : getIdx (b' :: r) t.groupAxis = getIdx (b :: r) t.groupAxis := by
    obtain ⟨m, hm⟩ := Nat.exists_eq_succ_of_ne_zero h1
    rw [hm]; rfl
  have ep : ∀ r', t.equivariantPadding.build (b' :: r') = t.equivariantPadding.build (b :: r') := by
    intro r'
    unfold EquivariantPadding.build
    rw [show t.equivariantPadding.spatialShape (b' :: r') = t.equivariantPadding.spatialShape (b :: r') from rfl]
  by_cases hg : (b :: r).length = t.dimensions + 3
  · simp only [hg, decide_true, if_true, and_true] at h ⊢
    obtain ⟨o, eo, h⟩ := bind_eq_ok h
    obtain ⟨sz, es, h⟩ := bind_eq_ok h
    rw [eg, eo, es]
    simp only [res_bind_ok]
    split at h
    · rename_i hs
      rw [if_pos hs]
      obtain ⟨r1, er, h⟩ := bind_eq_ok h
      obtain ⟨r', rfl, em⟩ := merge_batch (b' := b') h1 (by split <;> omega) er
      rw [em]
      simp only [res_bind_ok]
      rw [ep]
      obtain ⟨st, est, h⟩ := bind_eq_ok h
      cases h
      exact ⟨r', rfl, by rw [est]; rfl⟩
    · cases h
  · simp only [hg, decide_false, Bool.false_eq_true, if_false, and_false] at h ⊢
    obtain ⟨r1, er, h⟩ := bind_eq_ok h
    cases er
    obtain ⟨st, est, h⟩ := bind_eq_ok h
    cases h
    exact ⟨r, rfl, by rw [← ep] at est; simp only [res_bind_ok, est]; rfl⟩

theorem outputShape_batch {fmt : DataFormat} {kp : KerasPadding} {K S D : List Nat} {F : Nat} {b b' : Option Nat}
    {r o : List (Option Nat)} (h : convOutputShape fmt kp K S D F (b :: r) = .ok o) :
    ∃ o', convOutputShape fmt kp K S D F (b' :: r) = .ok o' := by
  unfold convOutputShape at h ⊢
  have el : (b' :: r).length = (b :: r).length := rfl
  have es : spatialShapeOf fmt S.length (b' :: r) = spatialShapeOf fmt S.length (b :: r) := by cases fmt <;> rfl
  simp only [el, es] at h ⊢
  split at h
  · cases h
  · rename_i hc
    rw [if_neg hc]
    obtain ⟨ou, eu, h⟩ := bind_eq_ok h
    rw [eu]
    cases fmt <;> exact ⟨_, rfl⟩

theorem outputShapeT_batch {fmt : DataFormat} {kp : KerasPadding} {K S D : List Nat} {F : Nat} {b b' : Option Nat}
    {r o : List (Option Nat)} (h : convTransposeOutputShape fmt kp K S D F (b :: r) = .ok o) :
    ∃ o', convTransposeOutputShape fmt kp K S D F (b' :: r) = .ok o' := by
  unfold convTransposeOutputShape at h ⊢
  have el : (b' :: r).length = (b :: r).length := rfl
  simp only [el] at h ⊢
  split at h
  · cases h
  · rename_i hc
    rw [if_neg hc]
    cases fmt <;> exact ⟨_, rfl⟩

theorem buildConv_recorded (t : GroupTransforms) (r : List (Option Nat)) (kernel : Tensor α) (bias : Option (Tensor α)) {t2 : GroupTransforms}
    (h : t.buildConv kernel bias = .ok t2) :
    ({ t with reshapedInput := r } : GroupTransforms).buildConv kernel bias = .ok { t2 with reshapedInput := r } := by
  cases bias with
  | none =>
    unfold GroupTransforms.buildConv at h ⊢
    obtain ⟨J, eJ, h⟩ := bind_eq_ok h
    obtain ⟨I, eI, h⟩ := bind_eq_ok h
    cases h
    cases eJ
    have e1 : ({ t with reshapedInput := r } : GroupTransforms).computeTransformedKernelIndices kernel = .ok I := eI
    simp only [e1]
    rfl
  | some v =>
    unfold GroupTransforms.buildConv at h ⊢
    obtain ⟨J, eJ, h⟩ := bind_eq_ok h
    obtain ⟨I, eI, h⟩ := bind_eq_ok h
    cases h
    have e1 : ({ t with reshapedInput := r } : GroupTransforms).computeTransformedKernelIndices kernel = .ok I := eI
    have e2 : (({ t with reshapedInput := r } : GroupTransforms).computeRepeatedBiasIndices v).map some = .ok J := eJ
    simp only [e1, e2]
    rfl

theorem conv_batch {a : ConvArgs α} {tr : Bool} {l0 l : GroupConv α} (h0 : GroupConv.init a a.group.dim tr = .ok l0)
    {b : Option Nat} {r : List (Option Nat)} {k0 b0 : List Nat → α} (h : l0.build (b :: r) k0 b0 = .ok l) (b' : Option Nat) :
    ∃ r', l0.build (b' :: r) k0 b0 = .ok (l.recorded r') := by
  obtain ⟨s, m, opt, kp, e1, e2, e3, e4, e5, e6, e7, e8, e9, rfl⟩ := conv_init_inv h0
  unfold GroupConv.build at h ⊢
  obtain ⟨t, ht, h⟩ := bind_eq_ok h
  have hga : (initTransforms a.toGroupArgs m opt a.group.dim tr).groupAxis ≠ 0 := by simp [initTransforms]
  have hca : (initTransforms a.toGroupArgs m opt a.group.dim tr).channelsAxis ≠ 0 := by
    simp only [initTransforms]; split <;> omega
  obtain ⟨r', hr, ht'⟩ := transforms_batch (b' := b') hga hca ht
  obtain ⟨ch, hch, h⟩ := bind_eq_ok h
  obtain ⟨os, hos, h⟩ := bind_eq_ok h
  obtain ⟨t2, ht2, h⟩ := bind_eq_ok h
  refine ⟨b' :: r', ?_⟩
  simp only [ht', res_bind_ok]
  have hos' : ∃ os', (⟨{ t with reshapedInput := b' :: r' }, a.kernelSize, a.strides, a.dilation, kp, a.dataFormat, a.useBias,
      a.activation, a.filters, none, none, none⟩ : GroupConv α).computeOutputShape (b' :: r') = .ok os' ∧ r' ≠ [] := by
    unfold GroupConv.computeOutputShape at hos ⊢
    simp only [hr] at hos ⊢
    split at hos
    · rename_i htr
      rw [if_pos htr]
      obtain ⟨o, eo, _⟩ := bind_eq_ok hos
      obtain ⟨o', eo'⟩ := outputShapeT_batch (b' := b') eo
      rw [eo']
      refine ⟨_, rfl, ?_⟩
      rintro rfl
      unfold convTransposeOutputShape at eo
      simp at eo
    · rename_i htr
      rw [if_neg htr]
      obtain ⟨o, eo, _⟩ := bind_eq_ok hos
      obtain ⟨o', eo'⟩ := outputShape_batch (b' := b') eo
      rw [eo']
      refine ⟨_, rfl, ?_⟩
      rintro rfl
      unfold convOutputShape at eo
      simp at eo
  obtain ⟨os', hos', hne⟩ := hos'
  have hch' : channelsOf a.dataFormat (b' :: r') = .ok ch := by
    rw [← hch, hr]
    unfold channelsOf
    simp only [List.length_cons]
    have : ∃ i, channelAxis a.dataFormat (r'.length + 1) = i + 1 := by
      have : r'.length ≠ 0 := fun h => hne (List.length_eq_zero_iff.1 h)
      unfold channelAxis
      split
      · exact ⟨0, rfl⟩
      · exact ⟨r'.length - 1, by omega⟩
    obtain ⟨i, hi⟩ := this
    rw [hi]
    rfl
  rw [hch']
  simp only [res_bind_ok]
  rw [hos']
  simp only [res_bind_ok]
  simp only at ht2
  rw [buildConv_recorded _ _ _ _ ht2]
  cases h
  have hx : t2.channelsAxis ≠ 0 := by
    obtain ⟨J, I, _, _, e⟩ := buildConv_inv ht2
    have := transforms_channels hca ht
    rw [e]
    exact this
  have hget : (b' :: r).getD t2.channelsAxis none = (b :: r).getD t2.channelsAxis none := by
    obtain ⟨v, hv⟩ := Nat.exists_eq_succ_of_ne_zero hx
    rw [hv]
    rfl
  simp only [res_bind_ok, hget]
  rfl

/-- a pooling layer with another recorded shape -/
def GroupPooling.recorded (l : GroupPooling) (r : List (Option Nat)) : GroupPooling :=
  { l with transforms := { l.transforms with reshapedInput := r } }

theorem recorded_pool [Field α] [LinearOrder α] (l : GroupPooling) (r : List (Option Nat)) (x : Tensor α) :
    (l.recorded r).call x = l.call x := rfl

theorem pool_batch {a : PoolArgs} {l0 l : GroupPooling} (h0 : GroupPooling.init a a.group.dim = .ok l0) {b : Option Nat}
    {r : List (Option Nat)} (h : l0.build (b :: r) = .ok l) (b' : Option Nat) : ∃ r', l0.build (b' :: r) = .ok (l.recorded r') := by
  obtain ⟨s, m, opt, kp, e1, e2, e3, e4, e5, e6, e7, e8, rfl⟩ := pool_init_inv h0
  unfold GroupPooling.build at h ⊢
  obtain ⟨t, ht, h⟩ := bind_eq_ok h
  obtain ⟨t2, ht2, h⟩ := bind_eq_ok h
  obtain ⟨r', hr, ht'⟩ := transforms_batch (b' := b') (by simp [initTransforms]) (by simp only [initTransforms]; split <;> omega) ht
  refine ⟨b' :: r', ?_⟩
  simp only [ht', res_bind_ok]
  unfold GroupTransforms.buildPool at ht2 ⊢
  obtain ⟨c, ec, ht2⟩ := bind_eq_ok ht2
  obtain ⟨I, eI, ht2⟩ := bind_eq_ok ht2
  obtain ⟨H, eH, ht2⟩ := bind_eq_ok ht2
  obtain ⟨I', eI', ht2⟩ := bind_eq_ok ht2
  cases ht2
  cases h
  simp only [ec, eI, eH, eI', res_bind_ok]
  rfl

/-- a layer that has been built announces a shape -/
theorem build_announces {l0 l : GroupConv α} {shape : List (Option Nat)} {k0 b0 : List Nat → α} (h : l0.build shape k0 b0 = .ok l)
    (arg : List (Option Nat)) : ∃ s, l.computeOutputShape arg = .ok s := by
  unfold GroupConv.build at h
  obtain ⟨t, ht, h⟩ := bind_eq_ok h
  obtain ⟨ch, hch, h⟩ := bind_eq_ok h
  obtain ⟨os, hos, h⟩ := bind_eq_ok h
  obtain ⟨t2, ht2, h⟩ := bind_eq_ok h
  obtain ⟨J, I, _, _, rfl⟩ := buildConv_inv ht2
  cases h
  exact ⟨os, hos⟩

end GroCo
