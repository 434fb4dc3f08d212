import Verif.PoolEquiv
import Verif.TransposeEquiv

/-
Helper lemmas: transposed and pooling layers in channels_first that pad nothing, and equivariance carried over from
channels_last.
-/

namespace GroCo
open Tensor

variable {α : Type}

/-- a padding layer that need not pad -/
theorem unpadded_state {p : EquivariantPadding} {shape : List (Option Nat)} {st : PadState} (h : p.build shape = .ok st)
    (hn : st.needsPadding = false) : st = ⟨false, []⟩ := by
  unfold EquivariantPadding.build at h
  split at h
  · cases h; rfl
  · obtain ⟨sp, hsp, h⟩ := bind_eq_ok h
    split at h
    · exact absurd h (by simp)
    · simp only at h
      split at h
      · cases h; rfl
      · split at h
        · exact absurd h (by simp)
        · split at h
          · exact absurd h (by simp)
          · cases h
            exact absurd hn (by simp)

theorem grow_none {n : List Nat} {d : Nat} (hn : n.length = d) : grow n (epads ⟨false, []⟩ d) = n := by
  refine grow_zeros (by rw [length_epads, hn]) ?_
  intro p hp
  simp only [epads, List.mem_map] at hp
  obtain ⟨i, _, rfl⟩ := hp
  simp

theorem shiftBack_none {q : List Int} {d : Nat} (hq : q.length = d) : shiftBack q (epads ⟨false, []⟩ d) = q := by
  apply List.ext_getElem
  · simp [shiftBack, length_epads, hq]
  · intro i h1 h2
    simp [shiftBack, epads]

/-- Calling a built transposed channels_first layer that pads nothing: the formula of `convT_call_last` for the input
with the channels moved to the end. -/
theorem convT_call_first [Semiring α] {a : ConvArgs α} {g : Option Nat} {C : Nat} {k0 b0 : List Nat → α}
    {A D : List Nat} {l : GroupConv α} {kp : KerasPadding} (f : ConvFacts a true g C k0 b0 A D l kp)
    (hf : a.dataFormat = .channelsFirst) (hst : l.transforms.padState = ⟨false, []⟩) {x1 x : Tensor α} {B : Nat} {n : List Nat}
    (hx : ChannelsMoved B n g C x1 x) (hn : n.length = a.group.dim) :
    ∃ y, l.call x = (l, .ok y) ∧
      y.shape = B :: a.filters :: upSizes kp a.strides a.dilation a.kernelSize (grow n (epads ⟨false, []⟩ a.group.dim)) ++
        [A.length] ∧
      ∀ b q i o, b < B →
        Valid (upSizes kp a.strides a.dilation a.kernelSize (grow n (epads ⟨false, []⟩ a.group.dim))) q →
        i < A.length → o < a.filters →
          y.get (b :: o :: q ++ [i]) = a.activation ((((indices a.kernelSize).map fun k =>
            ((List.range (chanO g C)).map fun c =>
              spread (befores (epads ⟨false, []⟩ a.group.dim)) a.strides a.dilation
                (upCrop kp a.strides a.dilation a.kernelSize (grow n (epads ⟨false, []⟩ a.group.dim))) x1 n b q k
                (restIdx g C c) * weightOf a true g C k0 D (nth A i) k c o).sum).sum) +
              if a.useBias then b0 [o] else 0) := by
  obtain ⟨y, z, ey, ez, hz, hzg⟩ := (f.first hf hst).mergePad hx hn
  obtain ⟨w, ew, hw, hwg⟩ := f.transformed
  simp only [if_true] at hw hwg
  obtain ⟨b', hb', hcall⟩ := call_parts f.toConvCore (checkInput_first f hf hx.first hn) ey ew
  have hsl := f.stridesLen
  have hsp : ∀ i, i < a.strides.length → 0 < nth a.strides i := fun i hi =>
    Nat.pos_of_ne_zero fun h => f.stridesPos (h ▸ nth_mem _ _ hi)
  have hkp : ∀ i, i < a.strides.length → 0 < nth a.kernelSize i := fun i hi =>
    Nat.pos_of_ne_zero fun h => f.kernelPos (h ▸ nth_mem _ _ (by rw [f.kernelLen, ← hsl]; exact hi))
  have hg0 : grow n (epads ⟨false, []⟩ a.group.dim) = n := grow_none hn
  obtain ⟨u, eu, hu, hug⟩ := convTransposeLast_ok (dil := a.dilation) kp hz hw (by rw [hn, hsl]) (by rw [f.kernelLen, hsl]) hsp hkp
  obtain ⟨u', eu', hu', hug'⟩ := moveaxis_last u hu
  obtain ⟨v, ev, hv, hvg⟩ := bias_act_first a.activation hb' u' hu'
  have hsuper : ({ l with kernel := some w, bias := b', filters := a.filters * A.length } : GroupConv α).superCall y = .ok v := by
    rw [← ev]
    simp only [GroupConv.superCall, f.transp, if_true, baseConvTransposeCall, f.fmt, hf, convTranspose, f.padding,
      f.strides, f.dilation, f.act, ez, eu, eu', res_bind_ok]
    cases b' <;> rfl
  obtain ⟨r, er, hr, hrg⟩ := (f.first hf hst).restore v hv (by rw [length_upSizes, hsl])
  rw [hg0]
  refine ⟨r, ?_, hr, ?_⟩
  · rw [hcall, hsuper]
    simp only [res_bind_ok, er]
  · intro b q i o hb hq hi ho
    have hql : q.length = a.strides.length := by rw [hq.length, length_upSizes]
    rw [hrg b q i o hb hq hi ho, hvg b q i o hi ho, hug' b q _ hq.length, hug b q _ hql]
    refine congrArg a.activation (congrArg (· + _) ?_)
    apply sum_congr
    intro k hk
    rw [mem_indices] at hk
    apply sum_congr
    intro c hc
    rw [List.mem_range] at hc
    rw [hwg k c i o hk hc hi ho]
    refine congrArg (· * _) ?_
    have := upPos_spread (strides := a.strides) (dil := a.dilation) (crop := upCrop kp a.strides a.dilation a.kernelSize n)
      (q := q) (k := k) (n := n) (r := restIdx g C c) (ps := epads ⟨false, []⟩ a.group.dim) (x := x1) (y := z) (b := b) (c := c)
      hsp (by rw [hn, hsl]) (by rw [length_epads, hsl]) fun q' hq' => by
        rw [hg0, shiftBack_none (by rw [hq', hsl])]
        exact hzg b q' c hb (by rw [hq', hsl]) hc
    rw [hg0] at this
    exact this

/-! ### pooling -/

/-- attributes of a built channels_first pooling layer that pads nothing -/
structure PoolFirst (a : PoolArgs) (H cos : List Nat) (l : GroupPooling) (kp : KerasPadding) : Prop where
  first : FirstFacts l.transforms a.group.dim true H.length
  sizeLen : a.poolSize.length = a.group.dim
  stridesLen : a.windowStrides.length = a.group.dim
  sub : ∃ s, a.group.group.parseSubgroup a.subgroup = some s ∧ lookup a.group.group.subgroup s = .ok H ∧
    lookup a.group.group.cosets s = .ok cos
  indices : ∃ I, l.transforms.poolingIndices = some I ∧ I.shape = [H.length, cos.length] ∧
    ∀ i j, I.get [i, j] = a.group.group.comp (nth H i) (nth cos j)
  poolType : l.poolType = a.poolType
  poolSize : l.poolSize = a.poolSize
  strides : l.strides = a.windowStrides
  padding : l.padding = kp
  fmt : l.dataFormat = .channelsFirst

theorem BuiltPool.facts_first {a : PoolArgs} {b : Option Nat} {n : List Nat} {g C : Nat} {H : List Nat} {l : GroupPooling}
    (hl : BuiltPool a b n g C H l) (hf : a.dataFormat = .channelsFirst) :
    ∃ opt kp cos, formatPaddingOption a.padding = .ok opt ∧ standardizePadding (builtInPaddingOption a.padding) = .ok kp ∧
      (l.transforms.padState = ⟨false, []⟩ → PoolFirst a H cos l kp) ∧ g = a.group.group.order ∧
      EquivariantPadding.build ⟨opt, a.allowNonEquivariance, a.group.dim, a.paddingStrides, a.poolSize, true, false⟩
        (signalShape false b (some (g * C)) n) = .ok l.transforms.padState := by
  obtain ⟨l0, h0, h1⟩ := hl.built
  obtain ⟨s', hs', hH⟩ := parse_sub hl.elements
  obtain ⟨s, m, opt, kp, e1, e2, e3, e4, e5, e6, e7, e8, rfl⟩ := pool_init_inv h0
  have : s = s' := by
    rw [e1] at hs'
    cases hs'; rfl
  subst this
  have hm := groupDict_name e2
  unfold GroupPooling.build at h1
  rw [show inputShape a.dataFormat b n (some g) C = inputShape .channelsFirst b n (some g) C by rw [hf]] at h1
  obtain ⟨t, ht, h1⟩ := bind_eq_ok h1
  obtain ⟨t', ht', h1⟩ := bind_eq_ok h1
  cases h1
  obtain ⟨st, hst, hord, ht⟩ := transforms_build_first (by exact hf) hl.dims ht
  have hgrp : t.group = a.group := by rw [ht]; rfl
  have hsub : t.subgroup = m := by rw [ht]; rfl
  have hgood : GoodGroup a.group.group.toGroupData := by
    have T := a.group.sym.tab
    exact ⟨T.laws, ⟨T.compLen, T.rowLen⟩, T.invLen, T.subNames, by rw [T.cosNames]; exact T.subNames⟩
  obtain ⟨H', cos, I, hH', hcos, rfl, hI, hIg⟩ := buildPool_ok ht' (by rw [hgrp]; exact hgood)
  rw [hgrp, hsub, hm] at hH' hcos
  rw [hH] at hH'
  cases hH'
  rw [hgrp] at hIg
  have hact : t.actingGroup = s := by rw [ht]; exact hm
  have hg := hord g rfl
  have hgo : g = a.group.group.order := by
    have e : (initTransforms ⟨a.group, a.subgroup, a.poolSize, a.strides.getD (List.replicate a.group.dim 1), a.padding,
              a.allowNonEquivariance, a.dataFormat⟩ m opt a.group.dim false).orderOf
        (some a.group.group.name) = .ok a.group.group.order := by
      unfold GroupTransforms.orderOf
      have : a.group.group.sub (some a.group.group.name) = .ok (List.range a.group.group.order) := a.group.sym.tab.own
      show (a.group.group.sub (some a.group.group.name) >>= _) = _
      rw [this]
      simp [res_bind_ok, res_pure]
    have hg' : Except.ok g = Except.ok a.group.group.order := hg.symm.trans e
    cases hg'; rfl
  refine ⟨opt, kp, cos, e3, e4, ?_, hgo, ?_⟩
  · intro hp
    have hord' : t.orderOf (some t.actingGroup) = .ok H.length := by
      unfold GroupTransforms.orderOf
      rw [hgrp, hact]
      show (lookup a.group.group.subgroup s >>= _) = _
      rw [hH]
      rfl
    refine ⟨⟨?_, ?_, ?_, ?_, hp, hord', sub_pos a.group.sym.tab hH⟩, e5, e6, ⟨s, e1, hH, hcos⟩, ⟨I, rfl, hI, hIg⟩,
      rfl, rfl, rfl, rfl, hf⟩
    · show t.groupValuedInput = _
      rw [ht]; rfl
    · show t.dataFormat = _
      rw [ht]; exact hf
    · show t.channelsAxis = _
      rw [ht]
    · show t.groupAxis = _
      rw [ht]
      simp [initTransforms, hf]
  · have : t.padState = st := by rw [ht]
    rw [this]
    exact hst

theorem subgroupPooling_first {a : PoolArgs} {H cos : List Nat} {l : GroupPooling} {kp : KerasPadding}
    (f : PoolFirst a H cos l kp) (reduce : List α → α) {x : Tensor α} {B C : Nat} {m : List Nat}
    (hx : x.shape = sigShape .channelsFirst B m (some a.group.group.order) C) (hm : m.length = a.group.dim) :
    ∃ z, l.transforms.subgroupPooling reduce x = .ok z ∧ z.shape = sigShape .channelsFirst B m (some H.length) C ∧
      ∀ b p i c, b < B → Valid m p → i < H.length → c < C →
        z.get (b :: c :: p ++ [i]) = reduce (cos.map fun t => x.get (b :: c :: p ++ [a.group.group.comp (nth H i) t])) := by
  obtain ⟨s, _, hH, hcos⟩ := f.sub
  obtain ⟨I, hI, hIs, hIg⟩ := f.indices
  obtain ⟨z, e1, e2, e3⟩ := subgroupPooling_ok hH hcos hI hIs hIg reduce (P := B :: C :: m) (R := []) hx
    (by rw [f.first.gaxis]; simp [hm])
  exact ⟨z, e1, e2, fun b p i c _ hp _ _ => e3 (b :: c :: p) i [] (by simp [hp.length])⟩

/-- Pooling in both data formats, if neither layer pads. -/
theorem pool_moved [Field α] [LinearOrder α] {a a' : PoolArgs} {H cos : List Nat} {l l' : GroupPooling} {kp : KerasPadding}
    (f : PoolFacts a H cos l kp) (f' : PoolFirst a' H cos l' kp) (haa : a' = { a with dataFormat := .channelsFirst })
    (hst : l.transforms.padState = ⟨false, []⟩) {x x' : Tensor α} {B C : Nat} {m : List Nat} (hm : m.length = a.group.dim)
    (hx : ChannelsMoved B m (some a.group.group.order) C x x') :
    (∀ y', l'.call x' = .ok y' → ∃ y, l.call x = .ok y) ∧
    ∀ y, l.call x = .ok y → ∃ y', l'.call x' = .ok y' ∧
      ∃ out, out = poolOut a.windowStrides a.poolSize (grow m (ppads kp a.windowStrides a.poolSize m)) ∧
        ChannelsMoved B out (some H.length) C y y' := by
  subst haa
  obtain ⟨s, _, hH, hcos⟩ := f.sub
  have T := a.group.sym.tab
  obtain ⟨_, _, hcl, _⟩ := T.cosets _ (lookup_mem hcos) H hH
  have hHl := (T.subs _ (lookup_mem hH)).2.2.2.1
  obtain ⟨z, ez, hz, hzg⟩ := subgroupPooling_last f a.poolType.reduce hx.last hm
  obtain ⟨z', ez', hz', hzg'⟩ := subgroupPooling_first f' a.poolType.reduce hx.first hm
  have hmov : ChannelsMoved B m (some H.length) C z z' := by
    refine ⟨hz, hz', ?_⟩
    intro b p c hb hp hc
    obtain ⟨q, r, rfl, hq, hr⟩ := valid_append_split hp
    match r, hr with
    | [i], ⟨hi, _⟩ =>
      have h1 := hzg b q i c hb hq hi hc
      have h2 := hzg' b q i c hb hq hi hc
      simp only [List.cons_append, List.append_assoc, List.nil_append] at h1 h2 ⊢
      rw [h1, h2]
      congr 1
      apply List.map_congr_left
      intro t ht
      have := hx.get b (q ++ [a.group.group.comp (nth H i) t]) c hb ((valid_append m [a.group.group.order] q _ hq.length).2
        ⟨hq, by simp [T.laws.closed _ _ (hHl _ (nth_mem _ _ hi)) (hcl _ ht)]⟩) hc
      simpa using this
  obtain ⟨u, eu, hu, hug⟩ := f.last.mergePad (g := some H.length) (C := C) z hz hm
  rw [hst, grow_none hm] at hu hug
  obtain ⟨v, u', ev, eu', hu', hug'⟩ := f'.first.mergePad (g := some H.length) hmov hm
  have hNl : m.length = a.windowStrides.length := by rw [f.stridesLen, hm]
  have hKl : a.poolSize.length = a.windowStrides.length := by rw [f.sizeLen, f.stridesLen]
  have hk := poolLast_ok a.poolType.reduce kp (strides := a.windowStrides) (K := a.poolSize) (n := m) (B := B)
    (C := H.length * C) (x := u) hu hNl hKl
  have hk' := poolLast_ok a.poolType.reduce kp (strides := a.windowStrides) (K := a.poolSize) (n := m) (B := B)
    (C := H.length * C) (x := u') hu' hNl hKl
  have hcall : l.call x = (poolLast a.poolType.reduce kp a.poolSize a.windowStrides u >>= fun y =>
      l.transforms.restoreGroupAxis y) := by
    unfold GroupPooling.call
    rw [f.poolType, ez]
    simp only [res_bind_ok, eu, f.fmt, f.padding, f.poolSize, f.strides, kerasPool]
  have hcall' : l'.call x' = (poolLast a.poolType.reduce kp a.poolSize a.windowStrides u' >>= fun y =>
      moveaxis y (-1) 1 >>= fun y => l'.transforms.restoreGroupAxis y) := by
    unfold GroupPooling.call
    rw [f'.poolType, ez']
    have hws : l'.strides = a.windowStrides := f'.strides
    simp only [res_bind_ok, ev, f'.fmt, f'.padding, f'.poolSize, hws, kerasPool, eu']
    cases poolLast a.poolType.reduce kp a.poolSize a.windowStrides u' <;> rfl
  rw [hcall, hcall']
  have main : PoolFits a.windowStrides a.poolSize (grow m (ppads kp a.windowStrides a.poolSize m)) →
      ∃ y y', (poolLast a.poolType.reduce kp a.poolSize a.windowStrides u >>= fun y => l.transforms.restoreGroupAxis y) = .ok y ∧
        (poolLast a.poolType.reduce kp a.poolSize a.windowStrides u' >>= fun y => moveaxis y (-1) 1 >>= fun y =>
          l'.transforms.restoreGroupAxis y) = .ok y' ∧
        ChannelsMoved B (poolOut a.windowStrides a.poolSize (grow m (ppads kp a.windowStrides a.poolSize m)))
          (some H.length) C y y' := by
    intro hfit
    obtain ⟨w, ew, hw, hwg⟩ := hk.2 hfit
    obtain ⟨w', ew', hw', hwg'⟩ := hk'.2 hfit
    obtain ⟨y, ey, hy, hyg⟩ := f.last.restore w hw (by rw [length_poolOut, f.stridesLen])
    obtain ⟨v', ev', hv', hvg'⟩ := moveaxis_last w' hw'
    obtain ⟨y', ey', hy', hyg'⟩ := f'.first.restore v' hv' (by rw [length_poolOut, f.stridesLen])
    refine ⟨y, y', by rw [ew]; simp only [res_bind_ok, ey], by rw [ew']; simp only [res_bind_ok, ev', ey'], hy, hy', ?_⟩
    intro b p c hb hp hc
    obtain ⟨q, r, rfl, hq, hr⟩ := valid_append_split hp
    match r, hr with
    | [i], ⟨hi, _⟩ =>
      have h1 := hyg b q i c hb hq hi hc
      have h2 := hyg' b q i c hb hq hi hc
      have hql : q.length = a.windowStrides.length := by rw [hq.length, length_poolOut]
      rw [hwg b q _ hql] at h1
      rw [hvg' b q _ hq.length, hwg' b q _ hql] at h2
      simp only [List.cons_append, List.append_assoc, List.nil_append] at h1 h2 ⊢
      rw [h1, h2]
      congr 1
      apply List.filterMap_congr
      intro k hk
      generalize hwin : winZ (befores (ppads kp a.windowStrides a.poolSize m)) a.windowStrides (ones a.windowStrides.length) q k = Q
      have hQ : Q.length = a.group.dim := by rw [← hwin, length_winZ, f.stridesLen]
      split
      · rename_i hin
        have e1 := hug b Q (i * C + c) hb hQ (mul_add_lt hi hc)
        have e2 := hug' b Q (i * C + c) hb hQ (mul_add_lt hi hc)
        rw [shiftBack_none hQ] at e1
        have e3 := e2.trans e1.symm
        have r1 : ∀ t : Tensor α, readAt t m b Q [i * C + c] = t.get (b :: Q.map Int.toNat ++ [i * C + c]) := fun t => if_pos hin
        rw [r1, r1] at e3
        simpa using e3
      · rfl
  constructor
  · intro y' hy'
    obtain ⟨w, hw, _⟩ := bind_eq_ok hy'
    obtain ⟨y, _, hy, _⟩ := main (hk'.1 w hw)
    exact ⟨y, hy⟩
  · intro y hy
    obtain ⟨w, hw, _⟩ := bind_eq_ok hy
    obtain ⟨y2, y', hy2, hy', hmv⟩ := main (hk.1 w hw)
    rw [hy2] at hy
    cases hy
    exact ⟨y', hy', _, rfl, hmv⟩

/-! ### equivariance -/

/-- acting on the two versions of a signal -/
theorem action_moved [Zero α] (n : GroupName) {x x' : Tensor α} {B : Nat} {m : List Nat} {g : Option Nat} {C : Nat}
    (hx : ChannelsMoved B m g C x x') (hm : n.Grid m) {s : String} {A D : List Nat} {ta td : Option String}
    (hta : n.group.parseSubgroup ta = some s) (hA : lookup n.group.subgroup s = .ok A)
    (hdom : match (generalizing := false) g with
      | none => td = none
      | some g' => g' = D.length ∧ ∃ sD, n.group.parseSubgroup td = some sD ∧ lookup n.group.subgroup sD = .ok D)
    (hAD : ∀ e ∈ A, e ∈ D) :
    ∃ y y', n.group.action x (spatialAxes .channelsLast n.dim) 0 (some (groupAxis .channelsLast n.dim : Int)) ta td = .ok y ∧
      n.group.action x' (spatialAxes .channelsFirst n.dim) 0 (some (groupAxis .channelsFirst n.dim : Int)) ta td = .ok y' ∧
      y'.shape = A.length :: x'.shape ∧
      ∀ i, i < A.length → ChannelsMoved B m g C (slice y 0 i) (slice y' 0 i) := by
  have S := n.sym
  obtain ⟨y, ey, hy, hyg⟩ := act_last n x hx.last hm hta hA hdom hAD
  obtain ⟨y', ey', hy', hyg'⟩ := act_first n x' hx.first hm hta hA hdom hAD
  refine ⟨y, y', ey, ey', hy', ?_⟩
  intro i hi
  obtain ⟨h1, h2⟩ := hyg i hi
  obtain ⟨h1', h2'⟩ := hyg' i hi
  have hh := nth_mem _ _ hi
  refine ⟨h1.trans hx.last, h1'.trans hx.first, ?_⟩
  intro b p c hb hp hc
  cases g with
  | none =>
    have hp0 : Valid m p := by simpa using hp
    have hpb := S.valid_back hm (S.sub_lt hA hh) hp0
    have e1 := h2 b p c hb hp0 hc
    have e2 := h2' b p c hb hp0 hc
    have e3 := hx.get b _ c hb (by simpa using hpb) hc
    simp only [restIdx, turnChan] at e1 e2
    rw [e1, ← e3]
    simpa [restIdx, turnChan] using e2
  | some g' =>
    obtain ⟨rfl, sD, htd, hD⟩ := hdom
    obtain ⟨q, r, rfl, hq, hr⟩ := valid_append_split hp
    match r, hr with
    | [j], ⟨hj, _⟩ =>
      have hpb := S.valid_back hm (S.sub_lt hA hh) hq
      have ht := S.turn_lt hD (hAD _ hh) hj
      have e1 := h2 b q (j * C + c) hb hq (mul_add_lt hj hc)
      have e2 := h2' b q (j * C + c) hb hq (mul_add_lt hj hc)
      have e3 := hx.get b (back n.els m (nth A i) q ++ [turn n.group.toGroupData D (nth A i) j]) c hb
        ((valid_append m [D.length] _ _ hpb.length).2 ⟨hpb, by simp [ht]⟩) hc
      simp only [restIdx, turnChan, div_of hc, mod_of hc] at e1 e2
      simp only [List.cons_append, List.append_assoc, List.nil_append] at e1 e2 e3 ⊢
      rw [e1, ← e3]
      simpa using e2

theorem sigShape_last_inj {B : Nat} {n n' : List Nat} {g : Option Nat} {C : Nat}
    (h : sigShape .channelsLast B n g C = sigShape .channelsLast B n' g C) : n = n' := by
  simpa [sigShape] using h

/-- If a channels_last layer commutes with the group, so does a channels_first layer with the same values. -/
theorem commutes_moved [Zero α] (n : GroupName) {f f' : Tensor α → Res (Tensor α)} {x x' y y' : Tensor α} {B : Nat}
    {m out : List Nat} {g : Option Nat} {C F g2 : Nat} {s : String} {A D E : List Nat} {ta dx dy : Option String}
    (hta : n.group.parseSubgroup ta = some s) (hA : lookup n.group.subgroup s = .ok A) (hm : n.Grid m) (hO : n.Grid out)
    (hx : ChannelsMoved B m g C x x') (hy : ChannelsMoved B out (some g2) F y y')
    (hdx : match (generalizing := false) g with
      | none => dx = none
      | some g' => g' = D.length ∧ ∃ sD, n.group.parseSubgroup dx = some sD ∧ lookup n.group.subgroup sD = .ok D)
    (hAD : ∀ e ∈ A, e ∈ D)
    (hdy : g2 = E.length ∧ ∃ sE, n.group.parseSubgroup dy = some sE ∧ lookup n.group.subgroup sE = .ok E) (hAE : ∀ e ∈ A, e ∈ E)
    (hff : ∀ z z', ChannelsMoved B m g C z z' → ∀ w, f z = .ok w → ∃ w', f' z' = .ok w' ∧ ∃ o, ChannelsMoved B o (some g2) F w w')
    (h : Commutes n.group n.dim .channelsLast ta A.length dx dy f x y) :
    Commutes n.group n.dim .channelsFirst ta A.length dx dy f' x' y' := by
  obtain ⟨gx, gx', e1, e1', hs1, hm1⟩ := action_moved n hx hm hta hA hdx hAD
  obtain ⟨gy, gy', e2, e2', hs2, hm2⟩ := action_moved n hy hO hta hA (D := E) (td := dy) hdy hAE
  obtain ⟨hx0, hy0, c1, c2, c3, c4, c5⟩ := h
  cases (show Except.ok gx = Except.ok hx0 from e1.symm.trans c1)
  cases (show Except.ok gy = Except.ok hy0 from e2.symm.trans c3)
  refine ⟨gx', gy', e1', hs1, e2', hs2, ?_⟩
  intro i hi
  obtain ⟨z, hz, hsame⟩ := c5 i hi
  obtain ⟨z', hz', o, ho⟩ := hff _ _ (hm1 i hi) z hz
  have hmi := hm2 i hi
  have hoo : o = out := by
    refine sigShape_last_inj (B := B) (g := some g2) (C := F) ?_
    rw [← ho.last, ← hmi.last]
    exact hsame.1
  subst hoo
  refine ⟨z', hz', by rw [ho.first, hmi.first], ?_⟩
  intro idx hv
  rw [ho.first] at hv
  match idx, hv with
  | b :: c :: p, ⟨hb, hc, hp⟩ =>
    rw [ho.get b p c hb hp hc, hmi.get b p c hb hp hc]
    apply hsame.2
    rw [ho.last, show sigShape .channelsLast B o (some g2) F = (B :: (o ++ [g2])) ++ [F] by simp [sigShape]]
    have hp' : Valid (o ++ [g2]) p := by simpa using hp
    exact (valid_append _ _ (b :: p) _ (by simp [hp'.length])).2 ⟨⟨hb, hp'⟩, by simp [hc]⟩

/-- grids whose sizes depend on sizes that respect the axes exchanged by the group -/
theorem grid_of_sizes (n : GroupName) {m K s r out : List Nat} (hm : n.Grid m) (hK : n.Grid K) (hs : n.Grid s) (hr : n.Grid r)
    (hl : out.length = n.dim) (φ : Nat → Nat → Nat → Nat → Nat)
    (h : ∀ i, i < n.dim → nth out i = φ (nth m i) (nth K i) (nth s i) (nth r i)) : n.Grid out := by
  apply n.grid_of hl
  intro i j hi hj hlink
  rw [h i hi, h j hj, hlink _ hm, hlink _ hK, hlink _ hs, hlink _ hr]

/-! ### the three kinds of layers -/

theorem conv_moved [Semiring α] {a a' : ConvArgs α} (hlast : a.dataFormat = .channelsLast)
    (hfirst : a' = { a with dataFormat := .channelsFirst })
    {bt bt' : Option Nat} {n n' : List Nat} {g : Option Nat} {C : Nat} {k0 b0 : List Nat → α} {H : List Nat} {l l' : GroupConv α}
    (hl : BuiltConv a false bt n g C k0 b0 H l) (hl' : BuiltConv a' false bt' n' g C k0 b0 H l')
    (hu : l.transforms.padState.needsPadding = false) (hu' : l'.transforms.padState.needsPadding = false)
    {x x' : Tensor α} {B : Nat} {m : List Nat} (hm : m.length = a.group.dim) (hx : ChannelsMoved B m g C x x') :
    ((∃ y, (l.call x).2 = .ok y) ↔ ∃ y', (l'.call x').2 = .ok y') ∧
    ∀ y y', (l.call x).2 = .ok y → (l'.call x').2 = .ok y' →
      ∃ out, ChannelsMoved B out (some H.length) a.filters y y' ∧
        (a.group.Grid m → a.group.Grid a.strides → a.group.Grid a.dilation → a.group.Grid out) := by
  subst hfirst
  obtain ⟨opt, kp, e1, e2, f, hst⟩ := hl.facts_last hlast
  obtain ⟨opt', kp', e1', e2', f', hst'⟩ := hl'.facts_first rfl
  cases (show Except.ok opt = Except.ok opt' from e1.symm.trans e1')
  cases (show Except.ok kp = Except.ok kp' from e2.symm.trans e2')
  have h0 := unpadded_state hst hu
  have h0' := unpadded_state hst' hu'
  obtain ⟨c1, c2⟩ := conv_call_last f hlast hx.last hm
  obtain ⟨d1, d2⟩ := conv_call_first f' rfl h0' hx hm
  rw [h0] at c1 c2
  refine ⟨⟨?_, ?_⟩, ?_⟩
  · rintro ⟨y, hy⟩
    obtain ⟨y', hy', _⟩ := d2 (c1 y hy)
    exact ⟨y', congrArg Prod.snd hy'⟩
  · rintro ⟨y, hy⟩
    obtain ⟨y', hy', _⟩ := c2 (d1 y hy)
    exact ⟨y', congrArg Prod.snd hy'⟩
  · intro y y' hy hy'
    obtain ⟨z, hz, hzs, hzg⟩ := c2 (c1 y hy)
    obtain ⟨z', hz', hzs', hzg'⟩ := d2 (c1 y hy)
    rw [hz] at hy
    rw [hz'] at hy'
    cases hy
    cases hy'
    refine ⟨_, ⟨hzs, hzs', ?_⟩, ?_⟩
    · intro b p c hb hp hc
      obtain ⟨q, r, rfl, hq, hr⟩ := valid_append_split hp
      match r, hr with
      | [i], ⟨hi, _⟩ =>
        have h1 := hzg b q i c hb hq hi hc
        have h2 := hzg' b q i c hb hq hi hc
        rw [List.cons_append, List.cons_append] at h2
        rw [h2, List.cons_append, List.append_assoc]
        exact h1.symm
    · intro hgm hgs hgd
      have hnl : m.length = a.strides.length := by rw [hm, f.stridesLen]
      have hagree := padding_agree e1 e2
      refine grid_of_sizes a.group hgm f.grid hgs hgd (by rw [length_outSizes, f.stridesLen]) (fun m k s r =>
        (builtIn opt m (dilated k r) s / 2 + m + (builtIn opt m (dilated k r) s - builtIn opt m (dilated k r) s / 2) -
          dilated k r) / s + 1) ?_
      intro i hi
      have hi' : i < a.strides.length := by rw [f.stridesLen]; exact hi
      rw [outSizes, nth_map_range, if_pos hi', padded, grow_none hnl, nth_grow (by omega) (by simp [kpads, hnl]),
        kpads_builtIn hagree hi']

theorem convT_moved [Semiring α] {a a' : ConvArgs α} (hlast : a.dataFormat = .channelsLast)
    (hfirst : a' = { a with dataFormat := .channelsFirst })
    {bt bt' : Option Nat} {n n' : List Nat} {g : Option Nat} {C : Nat} {k0 b0 : List Nat → α} {H : List Nat} {l l' : GroupConv α}
    (hl : BuiltConv a true bt n g C k0 b0 H l) (hl' : BuiltConv a' true bt' n' g C k0 b0 H l')
    (hu : l.transforms.padState.needsPadding = false) (hu' : l'.transforms.padState.needsPadding = false)
    {x x' : Tensor α} {B : Nat} {m : List Nat} (hm : m.length = a.group.dim) (hx : ChannelsMoved B m g C x x') :
    ∃ y y', (l.call x).2 = .ok y ∧ (l'.call x').2 = .ok y' ∧
      ∃ out, ChannelsMoved B out (some a.group.group.order) a.filters y y' ∧
        (a.group.Grid m → a.group.Grid a.strides → a.group.Grid a.dilation → a.group.Grid out) := by
  subst hfirst
  obtain ⟨opt, kp, e1, e2, f, hst⟩ := hl.facts_last hlast
  obtain ⟨opt', kp', e1', e2', f', hst'⟩ := hl'.facts_first rfl
  cases (show Except.ok opt = Except.ok opt' from e1.symm.trans e1')
  cases (show Except.ok kp = Except.ok kp' from e2.symm.trans e2')
  have h0 := unpadded_state hst hu
  have h0' := unpadded_state hst' hu'
  obtain ⟨z, hz, hzs, hzg⟩ := convT_call_last f hlast hx.last hm
  obtain ⟨z', hz', hzs', hzg'⟩ := convT_call_first f' rfl h0' hx hm
  rw [h0] at hzs hzg
  have hlen : (actingOf a.group true H).length = a.group.group.order := by simp [actingOf]
  refine ⟨z, z', congrArg Prod.snd hz, congrArg Prod.snd hz', _, ⟨by rw [hzs, hlen]; rfl, ?_, ?_⟩, ?_⟩
  · refine hzs'.trans ?_
    show _ :: _ :: _ ++ [(actingOf a.group true H).length] = _
    rw [hlen]
    rfl
  · intro b p c hb hp hc
    obtain ⟨q, r, rfl, hq, hr⟩ := valid_append_split hp
    match r, hr with
    | [i], ⟨hi, _⟩ =>
      have hi' : i < (actingOf a.group true H).length := by rw [hlen]; exact hi
      have h1 := hzg b q i c hb hq hi' hc
      have h2 := hzg' b q i c hb hq hi' hc
      rw [List.cons_append, List.cons_append] at h2
      rw [h2, List.cons_append, List.append_assoc]
      exact h1.symm
  · intro hgm hgs hgd
    refine grid_of_sizes a.group hgm f.grid hgs hgd (by rw [length_upSizes, f.stridesLen]) (fun m k s r =>
      (transposeOut kp m (dilated k r) s).1) ?_
    intro i hi
    rw [upSizes, nth_map_range, if_pos (by rw [f.stridesLen]; exact hi), grow_none hm]

theorem poolOut_grid {a : PoolArgs} {opt : PadOption} {kp : KerasPadding} (hk : kp = kerasOf opt) {m : List Nat}
    (hm : a.group.Grid m) (hK : a.group.Grid a.poolSize) (hs : a.group.Grid a.windowStrides) (hml : m.length = a.group.dim)
    (hsl : a.windowStrides.length = a.group.dim) :
    a.group.Grid (poolOut a.windowStrides a.poolSize (grow m (ppads kp a.windowStrides a.poolSize m))) := by
  refine grid_of_sizes a.group hm hK hs hs (by rw [length_poolOut, hsl]) (fun m k s _ =>
    (builtIn opt m k s / 2 + m + (builtIn opt m k s - builtIn opt m k s / 2) - k) / s + 1) ?_
  intro i hi
  have hi' : i < a.windowStrides.length := by rw [hsl]; exact hi
  rw [poolOut, nth_map_range, if_pos hi', nth_grow (by omega) (by rw [length_ppads, hsl, hml]), getD_ppads hk hi']

end GroCo
