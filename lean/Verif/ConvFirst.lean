import Verif.PadAmounts

/-
Helper lemmas: channels_first layers whose padding layer pads nothing.
-/

namespace GroCo
open Tensor

variable {α : Type}

/-- merging the group axis into the channels, channels_first -/
theorem merge_first (x : Tensor α) {B : Nat} {n : List Nat} {g C d : Nat} (hx : x.shape = B :: C :: n ++ [g])
    (hn : n.length = d) :
    ∃ y, mergeAxes x ((d + 1 + 1 : Nat) : Int) ((1 : Nat) : Int) = .ok y ∧ y.shape = B :: (g * C) :: n ∧
      ∀ b p c, b < B → Valid n p → c < g * C → y.get (b :: c :: p) = x.get (b :: (c % C) :: p ++ [c / C]) := by
  have hr : x.rank = d + 3 := by simp [Tensor.rank, hx, hn]
  obtain ⟨y, e, hs, hg⟩ := mergeAxes_ok x (am := ((d + 1 + 1 : Nat) : Int)) (at' := ((1 : Nat) : Int)) (m := d + 1 + 1) (t := 1)
    (normAxis_nat (by omega)) (normAxis_nat (by omega)) (by left; omega) (by omega)
  have hl : ∀ u v : Nat, (u :: v :: n).length = d + 1 + 1 := by simp [hn]
  have e1 : nth x.shape 1 = C := by rw [hx]; rfl
  have e2 : nth x.shape (d + 1 + 1) = g := by rw [hx]; exact nth_app0 (hl B C)
  have hs' : y.shape = B :: (g * C) :: n := by
    rw [hs, e1, e2, hx]
    simp only [List.cons_append, List.set_cons_succ, List.set_cons_zero]
    rw [show B :: (C * g) :: (n ++ [g]) = (B :: (C * g) :: n) ++ [g] by simp, erase_app0 (hl _ _)]
    simp [Nat.mul_comm]
  refine ⟨y, e, hs', ?_⟩
  intro b p c hb hp hc
  have hpl : ∀ u v : Nat, (u :: v :: p).length = d + 1 + 1 := by simp [hp.length, hn]
  rw [hg _ (by rw [hs']; exact ⟨hb, hc, hp⟩), e1]
  have e1 : after (d + 1 + 1) 1 = 1 := by simp [after]
  rw [e1]
  congr 1
  simp only [List.set_cons_succ, List.set_cons_zero, nth_cons_succ, nth_cons_zero]
  conv_lhs => rw [← List.append_nil (b :: c % C :: p)]
  rw [insert_app0 (hpl _ _)]

theorem moveaxis_first (x : Tensor α) {B C : Nat} {n : List Nat} (hx : x.shape = B :: C :: n) :
    ∃ y, moveaxis x 1 (-1) = .ok y ∧ y.shape = B :: n ++ [C] ∧
      ∀ b p c, p.length = n.length → y.get (b :: p ++ [c]) = x.get (b :: c :: p) := by
  have hr : x.rank = n.length + 2 := by simp [Tensor.rank, hx]
  obtain ⟨y, e, hs, hg⟩ := moveaxis_ok x (s := 1) (d := n.length + 1) (by omega) (by omega)
  refine ⟨y, ?_, ?_, ?_⟩
  · rw [moveaxis_norm x (a := 1) (b := -1) (s := 1) (d := n.length + 1) (normAxis_of (by omega) (by omega))
      (normAxis_of (by omega) (by omega))]
    exact e
  · rw [hs, hx]
    simp only [List.eraseIdx_cons_succ, List.eraseIdx_cons_zero, nth_cons_succ, nth_cons_zero]
    conv_lhs => rw [← List.append_nil (B :: n)]
    rw [insert_app0 (by simp)]
  · intro b p c hp
    rw [hg _ (by simp [hp, hr])]
    have hl : (b :: p).length = n.length + 1 := by simp [hp]
    rw [erase_app0 hl, nth_app0 hl]
    simp

theorem moveaxis_last (y : Tensor α) {B C : Nat} {n : List Nat} (hy : y.shape = B :: n ++ [C]) :
    ∃ z, moveaxis y (-1) 1 = .ok z ∧ z.shape = B :: C :: n ∧
      ∀ b p c, p.length = n.length → z.get (b :: c :: p) = y.get (b :: p ++ [c]) := by
  have hr : y.rank = n.length + 2 := by simp [Tensor.rank, hy]
  obtain ⟨z, e, hs, hg⟩ := moveaxis_ok y (s := n.length + 1) (d := 1) (by omega) (by omega)
  refine ⟨z, ?_, ?_, ?_⟩
  · rw [moveaxis_norm y (a := -1) (b := 1) (s := n.length + 1) (d := 1) (normAxis_of (by omega) (by omega))
      (normAxis_of (by omega) (by omega))]
    exact e
  · have hl : (B :: n).length = n.length + 1 := by simp
    rw [hs, hy, erase_app0 hl, nth_app0 hl]
    simp
  · intro b p c hp
    rw [hg _ (by simp [hp, hr])]
    have hl : (b :: p).length = n.length + 1 := by simp [hp]
    simp only [List.eraseIdx_cons_succ, List.eraseIdx_cons_zero, nth_cons_succ, nth_cons_zero]
    conv_lhs => rw [← List.append_nil (b :: p)]
    rw [insert_app0 hl]

/-- attributes of built transforms of channels_first signals with `d` dimensions that are not padded; `m` elements act -/
structure FirstFacts (t : GroupTransforms) (d : Nat) (v : Bool) (m : Nat) : Prop where
  gv : t.groupValuedInput = v
  fmtT : t.dataFormat = .channelsFirst
  caxis : t.channelsAxis = 1
  gaxis : t.groupAxis = d + 1 + 1
  unpadded : t.padState = ⟨false, []⟩
  order : t.orderOf (some t.actingGroup) = .ok m
  pos : 0 < m

/-- merging and (not) padding, then moving the channels to the end -/
theorem FirstFacts.mergePad [Zero α] {t : GroupTransforms} {d : Nat} {g : Option Nat} {M C : Nat} (f : FirstFacts t d g.isSome M)
    {x1 x : Tensor α} {B : Nat} {n : List Nat} (hx : ChannelsMoved B n g C x1 x) (hn : n.length = d) :
    ∃ y z, t.mergeGroupAxisAndPad x = .ok y ∧ moveaxis y 1 (-1) = .ok z ∧ z.shape = B :: n ++ [chanO g C] ∧
      ∀ b q c, b < B → q.length = d → c < chanO g C →
        readAt z n b q [c] = readAt x1 n b q (restIdx g C c) := by
  unfold GroupTransforms.mergeGroupAxisAndPad
  rw [f.gv, f.caxis, f.gaxis, f.unpadded]
  cases g with
  | none =>
    simp only [Option.isSome_none, Bool.false_eq_true, if_false, res_bind_ok]
    obtain ⟨z, ez, hz, hzg⟩ := moveaxis_first x (B := B) (C := C) (n := n) (by rw [hx.first]; simp [sigShape])
    refine ⟨x, z, rfl, ez, hz, ?_⟩
    intro b q c hb hq hc
    apply readAt_congr
    intro p hp
    rw [hzg b p c hp.length]
    exact hx.get b p c hb (by simpa using hp) hc
  | some g =>
    simp only [Option.isSome_some, if_true]
    obtain ⟨y, ey, hy, hyg⟩ := merge_first x (B := B) (g := g) (C := C) (n := n) (by rw [hx.first]; simp [sigShape]) hn
    obtain ⟨z, ez, hz, hzg⟩ := moveaxis_first y hy
    refine ⟨y, z, ?_, ez, hz, ?_⟩
    · have ey' : mergeAxes x ((d + 1 + 1 : Nat) : Int) ((1 : Nat) : Int) = .ok y := ey
      rw [ey', res_bind_ok]
      rfl
    · intro b q c hb hq hc
      apply readAt_congr
      intro p hp
      have hc' : c < g * C := hc
      have hC : 0 < C := Nat.pos_of_ne_zero (by rintro rfl; simp at hc')
      rw [hzg b p c hp.length, hyg b p c hb hp hc']
      have := hx.get b (p ++ [c / C]) (c % C) hb ((valid_append n [g] p [c / C] hp.length).2
        ⟨hp, by simp [Nat.div_lt_of_lt_mul (by rwa [Nat.mul_comm] at hc')]⟩) (Nat.mod_lt _ hC)
      simpa [restIdx] using this

/-- restoring the group axis, channels_first -/
theorem FirstFacts.restore {t : GroupTransforms} {d : Nat} {v : Bool} {M : Nat} (f : FirstFacts t d v M) (y : Tensor α)
    {B F : Nat} {n : List Nat} (hy : y.shape = B :: (M * F) :: n) (hn : n.length = d) :
    ∃ z, t.restoreGroupAxis y = .ok z ∧ z.shape = B :: F :: n ++ [M] ∧
      ∀ b p i o, b < B → Valid n p → i < M → o < F → z.get (b :: o :: p ++ [i]) = y.get (b :: (i * F + o) :: p) := by
  have hr : y.rank = d + 2 := by simp [Tensor.rank, hy, hn]
  obtain ⟨u, e, hs, hg⟩ := splitAxes_ok y (ax := ((1 : Nat) : Int)) (k := 1) (left := M) (q := F)
    (normAxis_nat (by omega)) f.pos (by rw [hy]; rfl)
  have hs' : u.shape = B :: M :: F :: n := by
    rw [hs, hy]; simp
  have hur : u.rank = d + 3 := by simp [Tensor.rank, hs', hn]
  obtain ⟨z, ez, hz, hzg⟩ := moveaxis_ok u (s := 1) (d := d + 1 + 1) (by omega) (by omega)
  have hz' : z.shape = B :: F :: n ++ [M] := by
    rw [hz, hs']
    simp only [List.eraseIdx_cons_succ, List.eraseIdx_cons_zero, nth_cons_succ, nth_cons_zero]
    conv_lhs => rw [← List.append_nil (B :: F :: n)]
    rw [insert_app0 (by simp [hn])]
  refine ⟨z, ?_, hz', ?_⟩
  · unfold GroupTransforms.restoreGroupAxis
    have hax : (if t.groupValuedInput = true ∧ t.dataFormat = .channelsLast then
        (t.channelsAxis : Int) - 1 else t.channelsAxis) = ((1 : Nat) : Int) := by
      rw [f.fmtT, f.caxis]
      simp
    simp only [hax, f.order, res_bind_ok, e, f.gaxis, ez]
  · intro b p i o hb hp hi ho
    have hl : ∀ u v : Nat, (u :: v :: p).length = d + 1 + 1 := by simp [hp.length, hn]
    rw [hzg _ (by simp [hp.length, hn, hur]), erase_app0 (hl _ _), nth_app0 (hl _ _)]
    simp only [List.eraseIdx_cons_zero, List.append_nil, nth_cons_zero, List.insertIdx_succ_cons, List.insertIdx_zero]
    rw [hg _ (by rw [hs']; exact ⟨hb, hi, ho, hp⟩)]
    rfl

theorem ConvFacts.first {a : ConvArgs α} {tr : Bool} {g : Option Nat} {C : Nat} {k0 b0 : List Nat → α}
    {A D : List Nat} {l : GroupConv α} {kp : KerasPadding} (f : ConvFacts a tr g C k0 b0 A D l kp)
    (hf : a.dataFormat = .channelsFirst) (hst : l.transforms.padState = ⟨false, []⟩) :
    FirstFacts l.transforms a.group.dim g.isSome A.length := by
  have hca := f.caxis
  have hga := f.gaxis
  rw [hf] at hca hga
  simp only [if_true, reduceCtorEq, if_false] at hca hga
  obtain ⟨s, hs⟩ := f.subA
  exact ⟨f.gv, f.fmtT.trans hf, hca, hga, hst, f.order, sub_pos a.group.sym.tab hs⟩

/-- adding the bias and applying the activation, channels_first -/
theorem bias_act_first [Semiring α] (φ : α → α) {useBias : Bool} {b' : Option (Tensor α)} {b0 : List Nat → α} {m F : Nat}
    (hb : if useBias then ∃ c, b' = some c ∧ c.shape = [m * F] ∧
        ∀ i o, i < m → o < F → c.get [i * F + o] = b0 [o] else b' = none)
    (y : Tensor α) {B : Nat} {n : List Nat} (hy : y.shape = B :: (m * F) :: n) :
    ∃ z, (do
        let y ← match b' with
          | none => .ok y
          | some b => addBias .channelsFirst (F * m) y b
        return mapT φ y) = Except.ok (ε := Err) z ∧ z.shape = B :: (m * F) :: n ∧
      ∀ b p i o, i < m → o < F →
        z.get (b :: (i * F + o) :: p) = φ (y.get (b :: (i * F + o) :: p) + if useBias then b0 [o] else 0) := by
  by_cases hu : useBias
  · rw [if_pos hu] at hb
    obtain ⟨c, rfl, hc, hcg⟩ := hb
    have hre : reshape c [((F * m : Nat) : Int)] = .ok ⟨[F * m], fun idx => c.get (unravel c.shape (ravel [F * m] idx))⟩ :=
      reshape_nat c (s := [F * m]) (by simp [hc, Nat.mul_comm])
    have hsz : nth y.shape (channelAxis .channelsFirst y.rank) = F * m := by
      rw [hy, Nat.mul_comm]
      rfl
    refine ⟨_, by simp only [addBias, hre, res_bind_ok, hsz, if_true, res_pure]; rfl, by simp only [mapT, hy], ?_⟩
    intro b p i o hi ho
    have hlt := mul_add_lt hi ho
    have e1 : nth (b :: (i * F + o) :: p) (channelAxis .channelsFirst y.rank) = i * F + o := rfl
    simp only [mapT, e1, if_pos hu, hc]
    congr 2
    rw [show ravel [F * m] [i * F + o] = ravel [m * F] [i * F + o] by simp [ravel],
      unravel_ravel (by simp [hlt]), hcg i o hi ho]
  · rw [if_neg hu] at hb
    subst hb
    refine ⟨_, rfl, by simp [mapT, hy], ?_⟩
    intro b p i o hi ho
    simp [mapT, hu]

theorem checkInput_first {a : ConvArgs α} {tr : Bool} {g : Option Nat} {C : Nat} {k0 b0 : List Nat → α}
    {A D : List Nat} {l : GroupConv α} {kp : KerasPadding} (f : ConvFacts a tr g C k0 b0 A D l kp)
    (hf : a.dataFormat = .channelsFirst) {x : Tensor α} {B : Nat} {n : List Nat}
    (hx : x.shape = sigShape .channelsFirst B n g C) (hn : n.length = a.group.dim) : l.checkInput x = .ok () := by
  unfold GroupConv.checkInput
  rw [f.spec, f.fmt, hf]
  have hr : ¬ x.rank < a.group.dim + 2 := by simp [Tensor.rank, hx, hn, sigShape]
  simp only [hr, if_false, channelAxis, hx, sigShape]
  rw [if_pos]
  rfl

/-- Calling a built (not transposed) channels_first layer that pads nothing: the formula of `conv_call_last` for the input
with the channels moved to the end. -/
theorem conv_call_first [Semiring α] {a : ConvArgs α} {g : Option Nat} {C : Nat} {k0 b0 : List Nat → α}
    {A D : List Nat} {l : GroupConv α} {kp : KerasPadding} (f : ConvFacts a false g C k0 b0 A D l kp)
    (hf : a.dataFormat = .channelsFirst) (hst : l.transforms.padState = ⟨false, []⟩) {x1 x : Tensor α} {B : Nat}
    {n : List Nat} (hx : ChannelsMoved B n g C x1 x) (hn : n.length = a.group.dim) :
    (∀ y, (l.call x).2 = .ok y → FitsIn a.strides a.dilation a.kernelSize
      (padded ⟨false, []⟩ kp a.strides a.dilation a.kernelSize n)) ∧
    (FitsIn a.strides a.dilation a.kernelSize (padded ⟨false, []⟩ kp a.strides a.dilation a.kernelSize n) →
      ∃ y, l.call x = (l, .ok y) ∧
        y.shape = B :: a.filters :: outSizes a.strides a.dilation a.kernelSize
          (padded ⟨false, []⟩ kp a.strides a.dilation a.kernelSize n) ++ [A.length] ∧
        ∀ b p i o, b < B → Valid (outSizes a.strides a.dilation a.kernelSize
            (padded ⟨false, []⟩ kp a.strides a.dilation a.kernelSize n)) p → i < A.length → o < a.filters →
          y.get (b :: o :: p ++ [i]) = a.activation ((((indices a.kernelSize).map fun k =>
            ((List.range (chanO g C)).map fun c =>
              readAt x1 n b (winZ (totalBefore ⟨false, []⟩ kp a.strides a.dilation a.kernelSize n)
                a.strides a.dilation p k) (restIdx g C c) * weightOf a false g C k0 D (nth A i) k c o).sum).sum) +
              if a.useBias then b0 [o] else 0)) := by
  obtain ⟨y, z, ey, ez, hz, hzg⟩ := (f.first hf hst).mergePad hx hn
  obtain ⟨w, ew, hw, hwg⟩ := f.transformed
  simp only [Bool.false_eq_true, if_false] at hw hwg
  obtain ⟨b', hb', hcall⟩ := call_parts f.toConvCore (checkInput_first f hf hx.first hn) ey ew
  have hsl := f.stridesLen
  have hzero : ∀ p ∈ epads ⟨false, []⟩ a.strides.length, p = (0, 0) := by
    intro p hp
    simp only [epads, List.mem_map] at hp
    obtain ⟨i, _, rfl⟩ := hp
    simp
  have hgrow : grow n (epads ⟨false, []⟩ a.strides.length) = n :=
    grow_zeros (by rw [length_epads, hn, hsl]) hzero
  have hconv := convLast_ok kp hz hw (by rw [hsl, hn]) (by rw [f.kernelLen, hsl]) (by rw [f.dilationLen, hsl])
  have hpad : grow n (kpads kp a.strides a.dilation a.kernelSize n) =
      padded ⟨false, []⟩ kp a.strides a.dilation a.kernelSize n := by
    unfold padded; rw [hgrow]
  have htot : befores (kpads kp a.strides a.dilation a.kernelSize n) =
      totalBefore ⟨false, []⟩ kp a.strides a.dilation a.kernelSize n := by
    unfold totalBefore
    rw [hgrow]
    apply ext_nth
    · simp [befores, kpads]
    · intro i hi
      have hi' : i < a.strides.length := by simpa [befores, kpads] using hi
      rw [nth_map_range, if_pos hi', nth_befores (epads _ _), nth_epads hi']
      simp
  rw [hpad, htot] at hconv
  have hsuper : ({ l with kernel := some w, bias := b', filters := a.filters * A.length } : GroupConv α).superCall y =
      (do
        let y ← convLast kp a.strides a.dilation z w
        let y ← moveaxis y (-1) 1
        let y ← match b' with
          | none => .ok y
          | some b => addBias .channelsFirst (a.filters * A.length) y b
        return mapT a.activation y) := by
    simp only [GroupConv.superCall, f.transp, Bool.false_eq_true, if_false, baseConvCall, f.fmt, hf, conv, f.padding,
      f.strides, f.dilation, f.act, ez, res_bind_ok]
    cases convLast kp a.strides a.dilation z w with
    | error e => rfl
    | ok u => cases b' <;> rfl
  constructor
  · intro v hv
    rw [hcall, hsuper] at hv
    cases hcl : convLast kp a.strides a.dilation z w with
    | error e => rw [hcl] at hv; exact absurd hv (by simp)
    | ok u => exact hconv.1 u hcl
  · intro hfit
    obtain ⟨u, eu, hu, hug⟩ := hconv.2 hfit
    obtain ⟨u', eu', hu', hug'⟩ := moveaxis_last u hu
    obtain ⟨v, ev, hv, hvg⟩ := bias_act_first a.activation hb' u' hu'
    obtain ⟨r, er, hr, hrg⟩ := (f.first hf hst).restore v hv (by rw [length_outSizes, hsl])
    refine ⟨r, ?_, hr, ?_⟩
    · rw [hcall, hsuper, eu]
      simp only [res_bind_ok, eu'] at ev ⊢
      rw [ev]
      simp only [res_bind_ok, er]
    · intro b p i o hb hp hi ho
      rw [hrg b p i o hb hp hi ho, hvg b p i o hi ho, hug' b p _ hp.length, hug b p _ hb hp (mul_add_lt hi ho)]
      refine congrArg a.activation (congrArg (· + _) ?_)
      apply sum_congr
      intro k hk
      rw [mem_indices] at hk
      apply sum_congr
      intro c hc
      rw [List.mem_range] at hc
      rw [hwg k c i o hk hc hi ho, hzg b _ c hb (by rw [length_winZ, hsl]) hc]

end GroCo
