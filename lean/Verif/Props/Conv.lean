import Verif.WeightLemmas

/-
Properties C22, C26 and C27: what GroupConv2D/3D compute. The vocabulary is in LayerSpec; `a.group.motion e` is the matrix
of group element `e` (see C03) and `indices K` lists the multi-indices of an array of shape `K`.
-/

namespace GroCo
open Tensor

variable {α : Type}

/-- C22: a built GroupConv layer called on a signal with grid sizes `m` computes the group convolution. `before` and
`after` are the zeros around the grid; `src i k` is the position that element `i` of the subgroup moves to `k`. The call
returns exactly if the (dilated) kernel fits into the padded grid. -/
theorem C22_group_convolution [Semiring α] {a : ConvArgs α} {bt : Option Nat} {n : List Nat} {g : Option Nat} {C : Nat}
    {k0 b0 : List Nat → α} {H : List Nat} {l : GroupConv α} (hl : BuiltConv a false bt n g C k0 b0 H l)
    (hf : a.dataFormat = .channelsLast) (opt : PadOption) (hopt : formatPaddingOption a.padding = .ok opt)
    (x : Tensor α) (B : Nat) (m : List Nat) (hm : m.length = a.group.dim)
    (hx : x.shape = sigShape .channelsLast B m g C) :
    ∃ (before after : List Nat) (src : Nat → List Nat → List Nat),
      (∀ i, i < a.group.dim → PadsTo opt (nth n i) (nth m i) (nth a.kernelSize i) (nth a.strides i) (nth a.dilation i)
        (nth before i) (nth after i)) ∧
      (∀ i k, i < H.length → Valid a.kernelSize k → Valid a.kernelSize (src i k) ∧
        MovesTo (a.group.motion (nth H i)) (List.range a.group.dim) a.kernelSize (src i k) k) ∧
      ((∃ y, (l.call x).2 = .ok y) ↔ ∀ i, i < a.group.dim →
        dilated (nth a.kernelSize i) (nth a.dilation i) ≤ nth before i + nth m i + nth after i) ∧
      ∀ y, (l.call x).2 = .ok y →
        y.shape = sigShape .channelsLast B ((List.range a.group.dim).map fun i =>
          (nth before i + nth m i + nth after i - dilated (nth a.kernelSize i) (nth a.dilation i)) / nth a.strides i + 1)
          (some H.length) a.filters ∧
        ∀ (b : Nat) (p : List Nat) (i o : Nat), Valid y.shape (b :: p ++ [i, o]) →
          (g = none → y.get (b :: p ++ [i, o]) = a.activation (
            ((indices a.kernelSize).map fun k => ((List.range C).map fun (c : Nat) =>
              read0 x ((b : Int) :: window before a.strides a.dilation p k ++ [(c : Int)]) * k0 (src i k ++ [c, o])).sum).sum
            + if a.useBias then b0 [o] else 0)) ∧
          (∀ g', g = some g' → g' = a.group.group.order ∧ y.get (b :: p ++ [i, o]) = a.activation (
            ((indices a.kernelSize).map fun k => ((List.range g').map fun (j : Nat) => ((List.range C).map fun (c : Nat) =>
              read0 x ((b : Int) :: window before a.strides a.dilation p k ++ [(j : Int), (c : Int)]) *
                k0 (src i k ++ [a.group.group.comp (nth a.group.group.inverses (nth H i)) j * C + c, o])).sum).sum).sum
            + if a.useBias then b0 [o] else 0)) := by
  obtain ⟨opt', kp, hopt', hkp, f, hst⟩ := hl.facts_last hf
  rw [hopt] at hopt'
  cases hopt'
  have hA : actingOf a.group false H = H := rfl
  have hD : domainOf a.group false H = List.range a.group.group.order := rfl
  rw [hA, hD] at f
  have hagree := padding_agree hopt hkp
  have hpos : ∀ i, i < a.group.dim → 0 < nth a.strides i ∧ 0 < nth a.kernelSize i := fun i hi =>
    ⟨Nat.pos_of_ne_zero fun h => f.stridesPos (h ▸ nth_mem _ _ (by rw [f.stridesLen]; exact hi)),
      Nat.pos_of_ne_zero fun h => f.kernelPos (h ▸ nth_mem _ _ (by rw [f.kernelLen]; exact hi))⟩
  have hHlt : ∀ i, i < H.length → nth H i < a.group.group.order := fun i hi => by
    obtain ⟨s, hs⟩ := f.subA
    exact (a.group.sym.tab.subs _ (lookup_mem hs)).2.2.2.1 _ (nth_mem _ _ hi)
  obtain ⟨hc1, hc2⟩ := conv_call_last f hf hx hm
  have hml : m.length = a.strides.length := by rw [hm, f.stridesLen]
  have hfits : FitsIn a.strides a.dilation a.kernelSize
      (padded l.transforms.padState kp a.strides a.dilation a.kernelSize m) ↔ ∀ i, i < a.group.dim →
        dilated (nth a.kernelSize i) (nth a.dilation i) ≤
          nth (totalBefore l.transforms.padState kp a.strides a.dilation a.kernelSize m) i + nth m i +
            nth (totalAfter l.transforms.padState kp a.strides a.dilation a.kernelSize m) i := by
    unfold FitsIn
    rw [f.stridesLen]
    constructor
    · intro h i hi
      rw [← nth_padded hml (by rw [f.stridesLen]; exact hi)]
      exact (h i hi).2.2
    · intro h i hi
      rw [nth_padded hml (by rw [f.stridesLen]; exact hi)]
      exact ⟨(hpos i hi).1, (hpos i hi).2, h i hi⟩
  refine ⟨totalBefore l.transforms.padState kp a.strides a.dilation a.kernelSize m,
    totalAfter l.transforms.padState kp a.strides a.dilation a.kernelSize m,
    fun i k => back a.group.els a.kernelSize (nth H i) k, ?_, ?_, ?_, ?_⟩
  · intro i hi
    exact padsTo_ok hl.dims hm f.kernelLen f.stridesLen f.stridesPos hagree hst hi
  · intro i k hi hk
    exact ⟨a.group.sym.valid_back f.grid (hHlt i hi) hk, back_moves _ f.grid (hHlt i hi) hk⟩
  · rw [← hfits]
    constructor
    · rintro ⟨y, hy⟩
      exact hc1 y hy
    · intro h
      obtain ⟨y, hy, _⟩ := hc2 h
      exact ⟨y, by rw [hy]⟩
  · intro y hy
    obtain ⟨y', hy', hs, hg⟩ := hc2 (hc1 y hy)
    rw [hy'] at hy
    cases hy
    have hout : outSizes a.strides a.dilation a.kernelSize
        (padded l.transforms.padState kp a.strides a.dilation a.kernelSize m) =
        (List.range a.group.dim).map fun i =>
          (nth (totalBefore l.transforms.padState kp a.strides a.dilation a.kernelSize m) i + nth m i +
            nth (totalAfter l.transforms.padState kp a.strides a.dilation a.kernelSize m) i -
            dilated (nth a.kernelSize i) (nth a.dilation i)) / nth a.strides i + 1 := by
      unfold outSizes
      rw [f.stridesLen]
      apply List.map_congr_left
      intro i hi
      rw [List.mem_range] at hi
      rw [nth_padded hml (by rw [f.stridesLen]; exact hi)]
    refine ⟨by rw [hs, hout]; rfl, ?_⟩
    intro b p i o hv
    have hv' := hv
    rw [hs] at hv'
    have hpl : (b :: p).length = (B :: outSizes a.strides a.dilation a.kernelSize
        (padded l.transforms.padState kp a.strides a.dilation a.kernelSize m)).length := by
      have := hv'.length
      simp only [List.length_append, List.length_cons, List.length_nil] at this
      simp only [List.length_cons]
      omega
    obtain ⟨⟨hb, hp⟩, hi, ho, _⟩ := (valid_append _ _ _ _ hpl).1 hv'
    have key := hg b p i o hb hp hi ho
    have hwl : ∀ k, (window (totalBefore l.transforms.padState kp a.strides a.dilation a.kernelSize m)
        a.strides a.dilation p k).length = m.length := fun k => by simp [window, hml]
    constructor
    · rintro rfl
      rw [key]
      refine congrArg a.activation (congrArg (· + _) ?_)
      apply sum_congr
      intro k hk
      rw [mem_indices] at hk
      apply sum_congr
      intro c hc
      rw [List.mem_range] at hc
      have hc' : c < C := hc
      have hr := read0_sig (x := x) (R := [C]) (r := [c]) hx hb (hwl k) (by simp [hc'])
      rw [weight_lift f.grid (hHlt i hi) hk hc' ho]
      exact congrArg₂ (· * ·) hr.symm rfl
    · rintro g' rfl
      have hg' := f.size g' rfl
      rw [List.length_range] at hg'
      refine ⟨hg', ?_⟩
      subst hg'
      rw [key]
      refine congrArg a.activation (congrArg (· + _) ?_)
      apply sum_congr
      intro k hk
      rw [mem_indices] at hk
      rw [show chanO (some a.group.group.order) C = a.group.group.order * C from rfl, sum_range_mul]
      apply sum_congr
      intro j hj
      apply sum_congr
      intro c hc
      rw [List.mem_range] at hj hc
      have hr := read0_sig (x := x) (R := [a.group.group.order, C]) (r := [j, c]) hx hb (hwl k) (by simp [hc, hj])
      rw [weight_group f.grid (hHlt i hi) hk hj hc ho]
      simp only [restIdx, div_of hc, mod_of hc]
      exact congrArg₂ (· * ·) hr.symm rfl

/-- a P4 layer with subgroup P2, strides 2, on 5x5 images with three channels -/
def exampleConv : ConvArgs Int :=
  { group := .P4, subgroup := some "P2", kernelSize := [3, 3], strides := [2, 2], padding := "same_equiv",
    allowNonEquivariance := false, dataFormat := .channelsLast, filters := 2, dilation := [1, 1], useBias := true,
    activation := id }

/-- hypotheses are met, with and without group axis -/
example : (∃ l, BuiltConv exampleConv false none [5, 5] none 3 (fun _ => 1) (fun _ => 0) [0, 2] l) ∧
    (∃ l, BuiltConv exampleConv false none [5, 5] (some 4) 3 (fun _ => 1) (fun _ => 0) [0, 2] l) ∧
    formatPaddingOption exampleConv.padding = .ok .sameEquiv ∧ PadsTo .sameEquiv 5 5 3 2 1 1 1 := by
  refine ⟨⟨_, ⟨_, rfl, rfl⟩, rfl, rfl⟩, ⟨_, ⟨_, rfl, rfl⟩, rfl, rfl⟩, by decide, 0, ⟨⟨by decide, by decide⟩, ?_⟩, by decide, by decide⟩
  intro e' _
  exact Nat.zero_le _

/-- C26: the output of a lifting layer at the identity (element 0 of every subgroup) is the ordinary Keras convolution,
with the stored kernel and bias, of the input after the padding layer `st`; one returns exactly if the other does. -/
theorem C26_identity_slice [Semiring α] {a : ConvArgs α} {bt : Option Nat} {n : List Nat} {C : Nat}
    {k0 b0 : List Nat → α} {H : List Nat} {l : GroupConv α} (hl : BuiltConv a false bt n none C k0 b0 H l)
    (hf : a.dataFormat = .channelsLast) (x : Tensor α) (B : Nat) (m : List Nat) (hm : m.length = a.group.dim)
    (hx : x.shape = sigShape .channelsLast B m none C) :
    ∃ opt kp st xp, formatPaddingOption a.padding = .ok opt ∧ standardizePadding (builtInPaddingOption a.padding) = .ok kp ∧
      EquivariantPadding.build ⟨opt, a.allowNonEquivariance, a.group.dim, a.strides, a.kernelSize, true, false⟩
        (inputShape .channelsLast bt n none C) = .ok st ∧ st.call x = .ok xp ∧
      let keras := baseConvCall .channelsLast kp a.strides a.dilation a.filters a.activation
        ⟨a.kernelSize ++ [C, a.filters], k0⟩ (if a.useBias then some ⟨[a.filters], b0⟩ else none) xp
      ((∃ y, (l.call x).2 = .ok y) ↔ ∃ z, keras = .ok z) ∧
      ∀ y z, (l.call x).2 = .ok y → keras = .ok z → (slice y (a.group.dim + 1) 0).Same z := by
  obtain ⟨opt, kp, hopt, hkp, f, hst⟩ := hl.facts_last hf
  have hA : actingOf a.group false H = H := rfl
  rw [hA] at f
  obtain ⟨xp, exp, hxp, hxpg⟩ := padState_call f.onGrid x (C := C) hx hm
  refine ⟨opt, kp, l.transforms.padState, xp, hopt, hkp, ?_, exp, ?_⟩
  · rw [← hst]; rfl
  intro keras
  obtain ⟨hc1, hc2⟩ := conv_call_last f hf hx hm
  have hsl := f.stridesLen
  have hn1 : (grow m (epads l.transforms.padState a.group.dim)).length = a.strides.length := by
    rw [length_grow (by rw [length_epads, hm]), hm, hsl]
  have hconv := convLast_ok kp (w := ⟨a.kernelSize ++ [C, a.filters], k0⟩) (F := a.filters) hxp rfl hn1
    (by rw [f.kernelLen, hsl]) (by rw [f.dilationLen, hsl])
  have hpad : grow (grow m (epads l.transforms.padState a.group.dim)) (kpads kp a.strides a.dilation a.kernelSize
      (grow m (epads l.transforms.padState a.group.dim))) =
        padded l.transforms.padState kp a.strides a.dilation a.kernelSize m := by
    unfold padded; rw [hsl]
  rw [hpad] at hconv
  have hk1 : ∀ z, keras = .ok z → FitsIn a.strides a.dilation a.kernelSize
      (padded l.transforms.padState kp a.strides a.dilation a.kernelSize m) := by
    intro z hz
    simp only [keras, baseConvCall, conv] at hz
    obtain ⟨u, hu, _⟩ := bind_eq_ok hz
    exact hconv.1 u hu
  have hk2 : FitsIn a.strides a.dilation a.kernelSize
      (padded l.transforms.padState kp a.strides a.dilation a.kernelSize m) → ∃ z, keras = .ok z ∧
      z.shape = B :: outSizes a.strides a.dilation a.kernelSize
        (padded l.transforms.padState kp a.strides a.dilation a.kernelSize m) ++ [a.filters] ∧
      ∀ b p o, b < B → Valid (outSizes a.strides a.dilation a.kernelSize
          (padded l.transforms.padState kp a.strides a.dilation a.kernelSize m)) p → o < a.filters →
        z.get (b :: p ++ [o]) = a.activation ((((indices a.kernelSize).map fun k => ((List.range C).map fun c =>
            readAt x m b (winZ (totalBefore l.transforms.padState kp a.strides a.dilation a.kernelSize m)
              a.strides a.dilation p k) [c] * k0 (k ++ [c, o])).sum).sum) + if a.useBias then b0 [o] else 0) := by
    intro hfit
    obtain ⟨u, eu, hu, hug⟩ := hconv.2 hfit
    obtain ⟨z, ez, hz, hzg⟩ := bias_act (m := 1) (F := a.filters) (b0 := b0) a.activation (useBias := a.useBias)
      (b' := if a.useBias then some ⟨[a.filters], b0⟩ else none) (by
        by_cases hb : a.useBias
        · simp only [hb, if_true]
          refine ⟨_, rfl, by simp, ?_⟩
          intro i o hi ho
          have : i = 0 := by omega
          subst this
          simp
        · simp [hb]) u (by rw [Nat.one_mul]; exact hu)
    refine ⟨z, ?_, by rw [hz, Nat.one_mul], ?_⟩
    · simp only [keras, baseConvCall, conv, eu, res_bind_ok]
      rw [Nat.mul_one] at ez
      exact ez
    · intro b p o hb hp ho
      have := hzg b p 0 o hp.length (by omega) ho
      rw [Nat.zero_mul, Nat.zero_add] at this
      rw [this, hug b p o hb hp ho]
      refine congrArg a.activation (congrArg (· + _) ?_)
      apply sum_congr
      intro k hk
      apply sum_congr
      intro c hc
      rw [List.mem_range] at hc
      rw [hxpg b _ c hb (by rw [length_winZ, hsl]) hc, shiftBack_winZ (by rw [length_epads, hsl])]
      unfold totalBefore
      rw [hsl]
  constructor
  · constructor
    · rintro ⟨y, hy⟩
      obtain ⟨z, hz, _⟩ := hk2 (hc1 y hy)
      exact ⟨z, hz⟩
    · rintro ⟨z, hz⟩
      obtain ⟨y, hy, _⟩ := hc2 (hk1 z hz)
      exact ⟨y, by rw [hy]⟩
  · intro y z hy hz
    have hfit := hc1 y hy
    obtain ⟨y', hy', hys, hyg⟩ := hc2 hfit
    obtain ⟨z', hz', hzs, hzg⟩ := hk2 hfit
    rw [hy'] at hy
    cases hy
    rw [hz'] at hz
    cases hz
    have hol : (B :: outSizes a.strides a.dilation a.kernelSize
        (padded l.transforms.padState kp a.strides a.dilation a.kernelSize m)).length = a.group.dim + 1 := by
      simp [length_outSizes, hsl]
    have hsh : (slice y (a.group.dim + 1) 0).shape = z.shape := by
      simp only [slice, hys, hzs]
      lay hol
    have hH : ∃ t, H = 0 :: t := by
      obtain ⟨s, hs⟩ := f.subA
      have := (a.group.sym.tab.subs _ (lookup_mem hs)).2.2.1
      cases H with
      | nil => simp at this
      | cons h t => simp at this; exact ⟨t, by rw [this]⟩
    obtain ⟨t, rfl⟩ := hH
    refine ⟨hsh, ?_⟩
    intro idx hv
    rw [hsh, hzs] at hv
    obtain ⟨bp, r, rfl, hbp, hr⟩ := valid_append_split hv
    match bp, hbp, r, hr with
    | b :: p, ⟨hb, hp⟩, [o], ⟨ho, _⟩ =>
      have hpl : (b :: p).length = a.group.dim + 1 := by simp [hp.length, length_outSizes, hsl]
      rw [hzg b p o hb hp ho]
      have e1 : (slice y (a.group.dim + 1) 0).get (b :: p ++ [o]) = y.get (b :: p ++ [0, o]) := by
        simp only [slice]
        lay hpl
      rw [e1, hyg b p 0 o hb hp (by simp) ho]
      refine congrArg a.activation (congrArg (· + _) ?_)
      apply sum_congr
      intro k hk
      rw [mem_indices] at hk
      apply sum_congr
      intro c hc
      rw [List.mem_range] at hc
      rw [nth_cons_zero, weight_lift (C := C) f.grid a.group.sym.tab.pos hk hc ho,
        a.group.sym.back_one (by rw [hk.length, f.kernelLen])]
      rfl

/-- C27: for each element `i` of the subgroup the transformed kernel of a GroupConv layer is a rearrangement of the stored
kernel (`σ i` permutes the indices of the stored kernel), and the bias repeats the stored bias. -/
theorem C27_weights_shared {a : ConvArgs α} {bt : Option Nat} {n : List Nat} {g : Option Nat} {C : Nat}
    {k0 b0 : List Nat → α} {H : List Nat} {l : GroupConv α} (hl : BuiltConv a false bt n g C k0 b0 H l) :
    ∃ kernel w, l.kernel = some kernel ∧ kernel.shape = a.kernelSize ++ [g.getD 1 * C, a.filters] ∧ kernel.get = k0 ∧
      l.transforms.transformKernel kernel = .ok w ∧
      w.shape = a.kernelSize ++ [g.getD 1 * C, H.length * a.filters] ∧
      (∃ σ : Nat → List Nat → List Nat, (∀ i, i < H.length → ((indices kernel.shape).map (σ i)).Perm (indices kernel.shape)) ∧
        ∀ k c i o, Valid a.kernelSize k → c < g.getD 1 * C → i < H.length → o < a.filters →
          w.get (k ++ [c, i * a.filters + o]) = k0 (σ i (k ++ [c, o]))) ∧
      if a.useBias then ∃ bias v, l.bias = some bias ∧ bias.shape = [a.filters] ∧ bias.get = b0 ∧
          l.transforms.repeatBias bias = .ok v ∧ v.shape = [H.length * a.filters] ∧
          ∀ i o, i < H.length → o < a.filters → v.get [i * a.filters + o] = b0 [o]
        else l.bias = none := by
  obtain ⟨kp, f⟩ := hl.facts
  have hA : actingOf a.group false H = H := rfl
  have hD : domainOf a.group false H = List.range a.group.group.order := rfl
  rw [hA, hD] at f
  have S := a.group.sym
  have hch : g.getD 1 * C = chanO g C := by cases g <;> simp [chanO]
  have hg : ∀ g', g = some g' → g' = (List.range a.group.group.order).length := f.size
  have hown := S.tab.own
  have hHlt : ∀ i, i < H.length → nth H i < a.group.group.order := fun i hi => by
    obtain ⟨s, hs⟩ := f.subA
    exact (a.group.sym.tab.subs _ (lookup_mem hs)).2.2.2.1 _ (nth_mem _ _ hi)
  obtain ⟨w, ew, hw, hwg⟩ := f.transformed
  rw [hch]
  refine ⟨_, w, f.kernel, rfl, rfl, ew, hw, ?_, ?_⟩
  · refine ⟨fun i idx => back a.group.els a.kernelSize (nth H i) (idx.take a.group.dim) ++
      [turnChan a.group.group.toGroupData (List.range a.group.group.order) g C (nth H i) (nth idx a.group.dim), nth idx (a.group.dim + 1)], ?_, ?_⟩
    · intro i hi
      apply perm_map_self (nodup_indices _)
      · intro idx hidx
        rw [mem_indices] at hidx ⊢
        obtain ⟨k, c, o, rfl, hk, hc, ho⟩ := two_of_valid hidx
        have hkl : k.length = a.group.dim := by rw [hk.length, f.kernelLen]
        simp only [← hkl]
        simp only [nth, List.getD_eq_getElem?_getD, List.take_left', List.getElem?_append_right, Nat.le_refl, Nat.sub_self,
          List.getElem?_cons_zero, Option.getD_some, Nat.le_add_right, Nat.add_sub_cancel_left, List.getElem?_cons_succ]
        exact valid_two.2 ⟨S.valid_back f.grid (hHlt i hi) hk, S.turnChan_lt hown hg (List.mem_range.2 (hHlt i hi)) hc, ho⟩
      · intro idx hidx idx' hidx' h
        rw [mem_indices] at hidx hidx'
        obtain ⟨k, c, o, rfl, hk, hc, ho⟩ := two_of_valid hidx
        obtain ⟨k', c', o', rfl, hk', hc', ho'⟩ := two_of_valid hidx'
        have hkl : k.length = a.group.dim := by rw [hk.length, f.kernelLen]
        have hkl' : k'.length = a.group.dim := by rw [hk'.length, f.kernelLen]
        have hb : ∀ e k, e < a.group.group.order → (back a.group.els a.kernelSize e k).length = a.group.dim :=
          fun e k he => S.length_back he
        have e1 : ∀ (k : List Nat) (c o : Nat), k.length = a.group.dim → (k ++ [c, o]).take a.group.dim = k ∧
            nth (k ++ [c, o]) a.group.dim = c ∧ nth (k ++ [c, o]) (a.group.dim + 1) = o := by
          intro k c o hk
          rw [← hk]; simp [nth]
        simp only [e1 k c o hkl, e1 k' c' o' hkl'] at h
        obtain ⟨h1, h2⟩ := List.append_inj h (by rw [hb _ _ (hHlt i hi), hb _ _ (hHlt i hi)])
        simp only [List.cons.injEq, and_true] at h2
        rw [S.back_inj f.grid (hHlt i hi) hk hk' h1, S.turnChan_inj hown hg (List.mem_range.2 (hHlt i hi)) hc hc' h2.1, h2.2]
    · intro k c i o hk hc hi ho
      have hkl : k.length = a.group.dim := by rw [hk.length, f.kernelLen]
      have := hwg k c i o hk hc hi ho
      simp only [Bool.false_eq_true, if_false] at this
      rw [this, weight_false (by simpa using hg) f.grid (hHlt i hi) hk hc ho, ← hkl]
      simp [nth]
  · have := f.bias
    split
    · rename_i hb
      rw [if_pos hb] at this
      obtain ⟨h1, v, h2, h3, h4⟩ := this
      exact ⟨_, v, h1, rfl, rfl, h2, h3, h4⟩
    · rename_i hb
      rw [if_neg hb] at this
      exact this

/-- hypotheses of C26 and C27 are met -/
example : ∃ l, BuiltConv exampleConv false none [5, 5] none 3 (fun _ => 1) (fun _ => 0) [0, 2] l :=
  ⟨_, ⟨_, rfl, rfl⟩, rfl, rfl⟩

end GroCo
