import Verif.Props.FirstStack

/-
Property C26 for channels_first layers that pad nothing themselves.
-/

namespace GroCo
open Tensor

variable {α : Type}

/-- C26 for channels_first: the output of a lifting layer that pads nothing itself at the identity (element 0 of every subgroup) is the
ordinary channels_first Keras convolution of the input, with the stored kernel and bias; one returns exactly if the other does. -/
theorem C26_channels_first [Semiring α] {a : ConvArgs α} {bt : Option Nat} {n : List Nat} {C : Nat}
    {k0 b0 : List Nat → α} {H : List Nat} {l : GroupConv α} (hl : BuiltConv a false bt n none C k0 b0 H l)
    (hf : a.dataFormat = .channelsFirst) (hu : Unpadded l.transforms) (x : Tensor α) (B : Nat) (m : List Nat)
    (hm : m.length = a.group.dim) (hx : x.shape = sigShape .channelsFirst B m none C) :
    ∃ kp, standardizePadding (builtInPaddingOption a.padding) = .ok kp ∧
      let keras := baseConvCall .channelsFirst kp a.strides a.dilation a.filters a.activation
        ⟨a.kernelSize ++ [C, a.filters], k0⟩ (if a.useBias then some ⟨[a.filters], b0⟩ else none) x
      ((∃ y, (l.call x).2 = .ok y) ↔ ∃ z, keras = .ok z) ∧
      ∀ y z, (l.call x).2 = .ok y → keras = .ok z → (slice y (a.group.dim + 2) 0).Same z := by
  obtain ⟨opt, kp, hopt, hkp, f, hst⟩ := hl.facts_first hf
  have hA : actingOf a.group false H = H := rfl
  rw [hA] at f
  refine ⟨kp, hkp, ?_⟩
  intro keras
  have mx := toLast_moved x hx
  obtain ⟨hc1, hc2⟩ := conv_call_first f hf (unpadded_state hst hu) mx hm
  generalize toLast x (sigShape .channelsLast B m none C) = x1 at mx hc1 hc2
  have hsl := f.stridesLen
  obtain ⟨xm, exm, hxm, hxmg⟩ := moveaxis_first x (B := B) (C := C) (n := m) (by rw [hx]; simp [sigShape])
  have hconv := convLast_ok kp (w := ⟨a.kernelSize ++ [C, a.filters], k0⟩) (F := a.filters) hxm rfl (hm.trans hsl.symm)
    (by rw [f.kernelLen, hsl]) (by rw [f.dilationLen, hsl])
  have hzero : ∀ p ∈ epads ⟨false, []⟩ a.strides.length, p = (0, 0) := by
    intro p hp
    simp only [epads, List.mem_map] at hp
    obtain ⟨i, _, rfl⟩ := hp
    simp
  have hgrow : grow m (epads ⟨false, []⟩ a.strides.length) = m :=
    grow_zeros (by rw [length_epads, hm, hsl]) hzero
  have hpad : grow m (kpads kp a.strides a.dilation a.kernelSize m) =
      padded ⟨false, []⟩ kp a.strides a.dilation a.kernelSize m := by
    unfold padded; rw [hgrow]
  have htot : befores (kpads kp a.strides a.dilation a.kernelSize m) =
      totalBefore ⟨false, []⟩ kp a.strides a.dilation a.kernelSize m := by
    unfold totalBefore
    rw [hgrow]
    apply ext_nth
    · simp [befores, kpads]
    · intro i hi
      have hi' : i < a.strides.length := by simpa [befores, kpads] using hi
      rw [nth_map_range, if_pos hi', nth_befores (epads _ _), nth_epads hi']
      simp
  rw [hpad, htot] at hconv
  have hk1 : ∀ z, keras = .ok z → FitsIn a.strides a.dilation a.kernelSize
      (padded ⟨false, []⟩ kp a.strides a.dilation a.kernelSize m) := by
    intro z hz
    simp only [keras, baseConvCall, conv, exm, res_bind_ok] at hz
    obtain ⟨u, hu, _⟩ := bind_eq_ok hz
    obtain ⟨u', hu', _⟩ := bind_eq_ok hu
    exact hconv.1 u' hu'
  have hk2 : FitsIn a.strides a.dilation a.kernelSize
      (padded ⟨false, []⟩ kp a.strides a.dilation a.kernelSize m) → ∃ z, keras = .ok z ∧
      z.shape = B :: a.filters :: outSizes a.strides a.dilation a.kernelSize
        (padded ⟨false, []⟩ kp a.strides a.dilation a.kernelSize m) ∧
      ∀ b p o, b < B → Valid (outSizes a.strides a.dilation a.kernelSize
          (padded ⟨false, []⟩ kp a.strides a.dilation a.kernelSize m)) p → o < a.filters →
        z.get (b :: o :: p) = a.activation ((((indices a.kernelSize).map fun k => ((List.range C).map fun c =>
            readAt x1 m b (winZ (totalBefore ⟨false, []⟩ kp a.strides a.dilation a.kernelSize m)
              a.strides a.dilation p k) [c] * k0 (k ++ [c, o])).sum).sum) + if a.useBias then b0 [o] else 0) := by
    intro hfit
    obtain ⟨u, eu, hu, hug⟩ := hconv.2 hfit
    obtain ⟨u', eu', hu', hug'⟩ := moveaxis_last u hu
    obtain ⟨z, ez, hz, hzg⟩ := bias_act_first (m := 1) (F := a.filters) (b0 := b0) a.activation (useBias := a.useBias)
      (b' := if a.useBias then some ⟨[a.filters], b0⟩ else none) (by
        by_cases hb : a.useBias
        · simp only [hb, if_true]
          refine ⟨_, rfl, by simp, ?_⟩
          intro i o hi ho
          have : i = 0 := by omega
          subst this
          simp
        · simp [hb]) u' (by rw [Nat.one_mul]; exact hu')
    refine ⟨z, ?_, by rw [hz, Nat.one_mul], ?_⟩
    · simp only [keras, baseConvCall, conv, exm, eu, eu', res_bind_ok]
      rw [Nat.mul_one] at ez
      exact ez
    · intro b p o hb hp ho
      have := hzg b p 0 o (by omega) ho
      rw [Nat.zero_mul, Nat.zero_add] at this
      rw [this, hug' b p o hp.length, hug b p o hb hp ho]
      refine congrArg a.activation (congrArg (· + _) ?_)
      apply sum_congr
      intro k hk
      apply sum_congr
      intro c hc
      rw [List.mem_range] at hc
      refine congrArg (· * _) ?_
      refine readAt_congr fun q hq => ?_
      have e := mx.get b q c hb (by simpa using hq) hc
      rw [hxmg b q c hq.length, e]
  constructor
  · constructor
    · rintro ⟨y, hy⟩
      obtain ⟨z, hz, _⟩ := hk2 (hc1 y hy)
      exact ⟨z, hz⟩
    · rintro ⟨z, hz⟩
      obtain ⟨y, hy, _⟩ := hc2 (hk1 z hz)
      exact ⟨y, by rw [hy]⟩
  · intro y z hy hz
    have hfit := hc1 y hy
    obtain ⟨y', hy', hys, hyg⟩ := hc2 hfit
    obtain ⟨z', hz', hzs, hzg⟩ := hk2 hfit
    rw [hy'] at hy
    cases hy
    rw [hz'] at hz
    cases hz
    have hol : (B :: a.filters :: outSizes a.strides a.dilation a.kernelSize
        (padded ⟨false, []⟩ kp a.strides a.dilation a.kernelSize m)).length = a.group.dim + 2 := by
      simp [length_outSizes, hsl]
    have hsh : (slice y (a.group.dim + 2) 0).shape = z.shape := by
      simp only [slice, hys, hzs]
      rw [erase_app0 hol]
      simp
    have hH : ∃ t, H = 0 :: t := by
      obtain ⟨s, hs⟩ := f.subA
      have := (a.group.sym.tab.subs _ (lookup_mem hs)).2.2.1
      cases H with
      | nil => simp at this
      | cons h t => simp at this; exact ⟨t, by rw [this]⟩
    obtain ⟨t, rfl⟩ := hH
    refine ⟨hsh, ?_⟩
    intro idx hv
    rw [hsh, hzs] at hv
    match idx, hv with
    | b :: o :: p, ⟨hb, ho, hp⟩ =>
      have hpl : (b :: o :: p).length = a.group.dim + 2 := by simp [hp.length, length_outSizes, hsl]
      rw [hzg b p o hb hp ho]
      have e1 : (slice y (a.group.dim + 2) 0).get (b :: o :: p) = y.get (b :: o :: p ++ [0]) := by
        simp only [slice]
        conv_lhs => rw [← List.append_nil (b :: o :: p)]
        rw [insert_app0 hpl]
      rw [e1, hyg b p 0 o hb hp (by simp) ho]
      refine congrArg a.activation (congrArg (· + _) ?_)
      apply sum_congr
      intro k hk
      rw [mem_indices] at hk
      apply sum_congr
      intro c hc
      rw [List.mem_range] at hc
      rw [nth_cons_zero, weight_lift (C := C) f.grid a.group.sym.tab.pos hk hc ho,
        a.group.sym.back_one (by rw [hk.length, f.kernelLen])]
      rfl

set_option maxRecDepth 8000 in
/-- hypotheses are met, and the layer returns -/
example : ∃ l, BuiltConv strideConvFirst false none [5, 5] none 3 (fun _ => 1) (fun _ => 0) [0, 2] l ∧ Unpadded l.transforms ∧
    ∃ y, (l.call ⟨sigShape .channelsFirst 1 [5, 5] none 3, fun _ => 1⟩).2 = .ok y :=
  ⟨_, ⟨⟨_, rfl, rfl⟩, rfl, rfl⟩, rfl, _, rfl⟩

end GroCo
