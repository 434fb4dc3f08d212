import Verif.Props.Shape
import Verif.TotalLemmas
import Verif.GroupAxisLemmas
import Verif.ExactTLemmas

/-
Property C28, exactly: which layers announce the shape of their output.
-/

namespace GroCo
open Tensor

variable {α : Type}

/-- the size Keras announces along an axis, as a quotient -/
theorem convOutSize_int {o : PadOption} {n k s : Nat} (hk : 0 < k) (hs : 0 < s) {r : Option Nat}
    (h : convOutSize (kerasOf o) (some n) k s 1 = .ok r) :
    ∃ q : Nat, r = some q ∧ (q : Int) = ((n : Int) + builtIn o n k s - k) / s + 1 := by
  have hd : dilated k 1 = k := by unfold dilated; omega
  have hv : ∀ {r : Option Nat}, convOutSize .valid (some n) k s 1 = .ok r → ∃ q : Nat, r = some q ∧ (q : Int) = ((n : Int) - k) / s + 1 := by
    intro r h
    simp only [convOutSize, hd] at h
    split at h
    · cases h
    · cases h
      exact ⟨_, rfl, by omega⟩
  have hsm : ∀ {r : Option Nat}, convOutSize .same (some n) k s 1 = .ok r →
      ∃ q : Nat, r = some q ∧ (q : Int) = ((n : Int) + sameTotal n k s - k) / s + 1 := by
    intro r h
    simp only [convOutSize] at h
    cases h
    refine ⟨_, rfl, ?_⟩
    have h1 := Nat.div_add_mod n s
    have h2 := Nat.mod_lt n hs
    generalize n / s = q at *
    generalize n % s = t at *
    have e1 : s * q = q * s := Nat.mul_comm _ _
    have hs' : (0 : Int) < s := by exact_mod_cast hs
    have key : ∀ v : Int, ∀ w : Int, w * s ≤ v → v < (w + 1) * s → v / s = w := by
      intro v w h1 h2
      rw [Int.ediv_eq_iff_of_pos hs']
      have : (w + 1) * (s : Int) = w * s + s := by ring
      constructor <;> linarith
    have keyN : ∀ v w : Nat, w * s ≤ v → v < (w + 1) * s → v / s = w := by
      intro v w h1 h2
      rw [Nat.div_eq_iff hs]
      have : (w + 1) * s = w * s + s := by ring
      omega
    have e2 : ((q * s : Nat) : Int) = (q : Int) * s := by push_cast; ring
    unfold sameTotal
    split
    · rename_i h0
      have h0 : n % s = 0 := h0
      have ht : t = 0 := by
        have := Nat.mul_add_mod s q t
        rw [h1, h0, Nat.mod_eq_of_lt h2] at this
        exact this.symm
      subst ht
      rw [keyN (n + s - 1) q (by omega) (by rw [Nat.add_mul]; omega), key _ ((q : Int) - 1)]
      · ring
      · have : ((q : Int) - 1) * s = q * s - s := by ring
        rw [this]; omega
      · have : ((q : Int) - 1 + 1) * s = q * s := by ring
        rw [this]; omega
    · rename_i h0
      have h0 : ¬ n % s = 0 := h0
      have ht : n % s = t := by
        have := Nat.mul_add_mod s q t
        rwa [h1, Nat.mod_eq_of_lt h2] at this
      rw [ht] at h0 ⊢
      rw [keyN (n + s - 1) (q + 1) (by rw [Nat.add_mul]; omega) (by rw [Nat.add_mul, Nat.add_mul]; omega), key _ (q : Int)]
      · push_cast; ring
      · omega
      · have : ((q : Int) + 1) * s = q * s + s := by ring
        rw [this]; omega
  cases o with
  | same => exact hsm h
  | sameEquiv => exact hsm h
  | valid => obtain ⟨q, h1, h2⟩ := hv h; exact ⟨q, h1, by simpa [builtIn] using h2⟩
  | validEquiv => obtain ⟨q, h1, h2⟩ := hv h; exact ⟨q, h1, by simpa [builtIn] using h2⟩

theorem mapM_getD {β γ : Type} {f : β → Res γ} : ∀ {l : List β} {r : List γ}, l.mapM f = .ok r →
    ∀ (i : Nat) (b : β) (d : γ), l[i]? = some b → f b = .ok (r.getD i d)
  | [], r, h, i, b, d, hb => by simp at hb
  | a :: l, r, h, i, b, d, hb => by
    rw [List.mapM_cons] at h
    obtain ⟨c, hc, h⟩ := bind_eq_ok h
    obtain ⟨cs, hcs, h⟩ := bind_eq_ok h
    cases h
    cases i with
    | zero =>
      simp only [List.getElem?_cons_zero, Option.some.injEq] at hb
      subst hb
      simpa using hc
    | succ i =>
      simp only [List.getElem?_cons_succ] at hb
      simpa using mapM_getD hcs i b d hb

/-- if the size Keras announces along an axis is that of the output then the padding layer adds nothing -/
theorem no_zeros {o : PadOption} {n k s r e q : Nat} (hk : 0 < k) (hs : 0 < s) (hsr : r = 1 ∨ s = 1)
    (hal : e = 0 ∨ ((n : Int) + (e + builtIn o n k s : Nat) - k) % s = 0) (hb : builtIn o (n + e) k s = builtIn o n k s)
    (hfit : dilated k r ≤ n + e + builtIn o (n + e) (dilated k r) s) (h : convOutSize (kerasOf o) (some n) k s r = .ok (some q))
    (hq : (n + e + builtIn o (n + e) (dilated k r) s - dilated k r) / s + 1 = q) : e = 0 := by
  rcases hsr with rfl | rfl
  · have hd : dilated k 1 = k := by unfold dilated; omega
    rw [hd, hb] at hq hfit
    obtain ⟨q', hq1, hq2⟩ := convOutSize_int hk hs h
    cases hq1
    rcases hal with h | h
    · exact h
    by_contra hne
    have hs' : (0 : Int) < s := by exact_mod_cast hs
    generalize builtIn o n k s = b at *
    obtain ⟨w, hw⟩ := Int.dvd_of_emod_eq_zero h
    have hw' : ((n + e + b - k : Nat) : Int) = s * w := by
      rw [← hw]; push_cast; omega
    have hdiv : (((n + e + b - k) / s : Nat) : Int) = w := by
      rw [Int.natCast_div, hw', Int.mul_ediv_cancel_left _ hs'.ne']
    have hlt : ((n : Int) + b - k) / s < w := by
      apply Int.ediv_lt_of_lt_mul hs'
      rw [mul_comm, ← hw]
      push_cast
      omega
    omega
  · have hpos : 0 < dilated k r := by unfold dilated; omega
    generalize hD : dilated k r = D at *
    have hsame : ∀ q, (n + e + sameTotal (n + e) D 1 - D) / 1 + 1 = q → q = n → e = 0 := by
      intro q h1 h2
      have : sameTotal (n + e) D 1 = D - 1 := by
        unfold sameTotal
        rw [if_pos (Nat.mod_one _)]
      rw [this, Nat.div_one] at h1
      omega
    have hvalid : ∀ q, (n + e - D) / 1 + 1 = q → D ≤ n + e → ¬ ((n : Int) - D) / 1 + 1 < 0 → (((n : Int) - D) / 1 + 1).toNat = q → e = 0 := by
      intro q h1 h2 h3 h4
      omega
    cases o with
    | same | sameEquiv =>
      simp only [kerasOf, convOutSize] at h
      cases h
      exact hsame _ hq (by simp)
    | valid | validEquiv =>
      simp only [kerasOf, convOutSize, hD] at h
      split at h
      · cases h
      · rename_i hlt
        cases h
        simp only [builtIn] at hq hfit
        exact hvalid _ hq (by omega) (by exact_mod_cast hlt) (by simp)

theorem convOutSize_known {kp : KerasPadding} {n k s r : Nat} {q : Option Nat} (h : convOutSize kp (some n) k s r = .ok q) :
    ∃ m, q = some m := by
  unfold convOutSize at h
  cases kp with
  | same => cases h; exact ⟨_, rfl⟩
  | valid =>
    simp only at h
    split at h
    · cases h
    · cases h; exact ⟨_, rfl⟩

/-- when the least number of extra zeros is none -/
theorem zeros_iff {o : PadOption} {allow : Bool} {n k s e : Nat}
    (h : match o with
      | .same | .valid => e = 0 ∧ (allow = false → Symmetric n k s (builtIn o n k s))
      | _ => Symmetric n k s (e + builtIn o n k s) ∧ ∀ e', Symmetric n k s (e' + builtIn o n k s) → e ≤ e') :
    e = 0 ↔ o = .valid ∨ o = .same ∨ Symmetric n k s (builtIn o n k s) := by
  have key : (Symmetric n k s (e + builtIn o n k s) ∧ ∀ e', Symmetric n k s (e' + builtIn o n k s) → e ≤ e') →
      (e = 0 ↔ Symmetric n k s (builtIn o n k s)) := by
    rintro ⟨h1, h2⟩
    constructor
    · rintro rfl
      rwa [Nat.zero_add] at h1
    · intro h
      have := h2 0 (by rwa [Nat.zero_add])
      omega
  cases o
  · simp [h.1]
  · simp [h.1]
  · simpa using key h
  · simpa using key h

/-- C28, exactly, for channels_last layers: the announced shape is that of the output if and only if the layer is
on the whole group and along every axis Keras's own padding is already symmetric, or need not be because the option is 'valid' or
'same', so that the padding layer adds nothing. -/
theorem C28_exact [Semiring α] {a : ConvArgs α} {bt : Option Nat} {n : List Nat} {g : Option Nat} {C : Nat}
    {k0 b0 : List Nat → α} {H : List Nat} {l : GroupConv α} (hl : BuiltConv a false bt n g C k0 b0 H l)
    (hf : a.dataFormat = .channelsLast) (opt : PadOption)
    (hopt : formatPaddingOption a.padding = .ok opt)
    (x : Tensor α) (B : Nat) (hB : ∀ b, bt = some b → B = b) (hx : x.shape = sigShape .channelsLast B n g C) (y : Tensor α)
    (hy : (l.call x).2 = .ok y) (arg : List (Option Nat)) :
    (∃ s, l.computeOutputShape arg = .ok s ∧ Announces s y.shape) ↔
      H.length = a.group.group.order ∧ (opt = .valid ∨ opt = .same ∨ ∀ i, i < a.group.dim →
        Symmetric (nth n i) (nth a.kernelSize i) (nth a.strides i) (builtIn opt (nth n i) (nth a.kernelSize i) (nth a.strides i))) := by
  obtain ⟨h1, h2, h3⟩ := hl.shape_facts
  have hn := hl.dims
  obtain ⟨opt', kp, e1, e2, f, hst⟩ := hl.facts_last hf
  rw [hopt] at e1
  cases e1
  have hagree := padding_agree hopt e2
  obtain ⟨c1, c2⟩ := conv_call_last f hf hx hn
  have hfit := c1 y hy
  obtain ⟨z, hz, hzs, -⟩ := c2 hfit
  rw [hz] at hy
  cases hy
  have hA : actingOf a.group false H = H := rfl
  rw [hA] at hzs
  have hpos : ∀ i, i < a.group.dim → 0 < nth a.strides i ∧ 0 < nth a.kernelSize i := fun i hi =>
    ⟨(hfit i (by rw [f.stridesLen]; exact hi)).1, (hfit i (by rw [f.stridesLen]; exact hi)).2.1⟩
  have hsr : ∀ i, i < a.group.dim → nth a.dilation i = 1 ∨ nth a.strides i = 1 := by
    intro i hi
    obtain ⟨l0, hi0, -⟩ := hl.built
    obtain ⟨-, c0, c3⟩ := conv_init_checks hi0
    have hdl : a.dilation.length = a.group.dim := by
      obtain ⟨_, _, _, _, _, _, _, _, _, _, h, _⟩ := conv_init_inv hi0
      exact h
    have m1 := nth_mem a.strides i (by rw [f.stridesLen]; exact hi)
    have m2 := nth_mem a.dilation i (by rw [hdl]; exact hi)
    by_contra hc
    refine c3 ⟨⟨_, m1, ?_⟩, ⟨_, m2, ?_⟩⟩
    · have := (hpos i hi).1
      omega
    · have : nth a.dilation i ≠ 0 := fun h => c0 (h ▸ m2)
      omega
  -- the extra zeros along each axis
  have hax : ∀ i, i < a.group.dim → ∃ e, (e = 0 ↔ opt = .valid ∨ opt = .same ∨ Symmetric (nth n i) (nth a.kernelSize i) (nth a.strides i)
        (builtIn opt (nth n i) (nth a.kernelSize i) (nth a.strides i))) ∧
      (e = 0 ∨ ((nth n i : Int) + (e + builtIn opt (nth n i) (nth a.kernelSize i) (nth a.strides i) : Nat) - nth a.kernelSize i) % nth a.strides i = 0) ∧
      builtIn opt (nth n i + e) (nth a.kernelSize i) (nth a.strides i) = builtIn opt (nth n i) (nth a.kernelSize i) (nth a.strides i) ∧
      dilated (nth a.kernelSize i) (nth a.dilation i) ≤
        nth n i + e + builtIn opt (nth n i + e) (dilated (nth a.kernelSize i) (nth a.dilation i)) (nth a.strides i) ∧
      nth y.shape (i + 1) = (nth n i + e + builtIn opt (nth n i + e) (dilated (nth a.kernelSize i) (nth a.dilation i)) (nth a.strides i) -
        dilated (nth a.kernelSize i) (nth a.dilation i)) / nth a.strides i + 1 := by
    intro i hi
    obtain ⟨e, q1, q2, q3⟩ := epads_spec hn f.kernelLen f.stridesLen f.stridesPos hst hi
    obtain ⟨e', p1, p2, p3⟩ := padsTo_ok (dil := a.dilation) hn hn f.kernelLen f.stridesLen f.stridesPos hagree hst hi
    have hee : e' = e := by
      cases opt
      · simp only at p1 q1; omega
      · simp only at p1 q1; omega
      · simp only at p1 q1; have := p1.2 e q1.1; have := q1.2 e' p1.1; omega
      · simp only at p1 q1; have := p1.2 e q1.1; have := q1.2 e' p1.1; omega
    subst hee
    have hg := (hfit i (by rw [f.stridesLen]; exact hi)).2.2
    rw [nth_padded (by rw [hn, f.stridesLen]) (by rw [f.stridesLen]; exact hi)] at hg
    refine ⟨e', zeros_iff q1, ?_, q2, by omega, ?_⟩
    · cases opt
      · exact Or.inl q1.1
      · exact Or.inl q1.1
      · exact Or.inr q1.1.2
      · exact Or.inr q1.1.2
    · rw [hzs, List.cons_append, nth_cons_succ, nth_append, if_pos (by rw [length_outSizes, f.stridesLen]; exact hi), outSizes,
        nth_map_range, if_pos (by rw [f.stridesLen]; exact hi), nth_padded (by rw [hn, f.stridesLen]) (by rw [f.stridesLen]; exact hi)]
      have hT : nth (totalBefore l.transforms.padState kp a.strides a.dilation a.kernelSize n) i + nth n i +
          nth (totalAfter l.transforms.padState kp a.strides a.dilation a.kernelSize n) i =
          nth n i + e' + builtIn opt (nth n i + e') (dilated (nth a.kernelSize i) (nth a.dilation i)) (nth a.strides i) := by omega
      rw [hT]
  have hgrp : nth y.shape (a.group.dim + 1) = H.length := by
    rw [hzs, List.cons_append, nth_cons_succ, nth_append, if_neg (by rw [length_outSizes, f.stridesLen]; omega), length_outSizes,
      f.stridesLen]
    simp [nth]
  constructor
  · rintro ⟨s, es, has⟩
    unfold GroupConv.computeOutputShape at es
    rw [f.transp, h1, h2, f.fmt, f.padding, f.strides, f.dilation, f.filters, hf] at es
    simp only [Bool.false_eq_true, if_false] at es
    obtain ⟨out, eo, es⟩ := bind_eq_ok es
    cases es
    have hlen : (signalShape DataFormat.channelsLast.isLast bt (some (chanO g C)) n).length = a.strides.length + 2 := by
      simp [signalShape, DataFormat.isLast, hn, f.stridesLen]
    have hsp : spatialShapeOf DataFormat.channelsLast a.strides.length (signalShape DataFormat.channelsLast.isLast bt (some (chanO g C)) n) =
        n.map some := by
      simp [spatialShapeOf, signalShape, DataFormat.isLast, f.stridesLen, ← hn]
    simp only [convOutputShape, hlen, ne_eq, not_true_eq_false, if_false, hsp] at eo
    obtain ⟨ou, em, eo⟩ := bind_eq_ok eo
    cases eo
    have hou : ou.length = a.group.dim := by rw [mapM_length em, List.length_range, f.stridesLen]
    have hga : l.transforms.groupAxis = a.group.dim + 1 := by rw [f.gaxis, hf]; rfl
    unfold GroupTransforms.correctOutputShape at has
    rw [h3, hga] at has
    have htake : ([(signalShape DataFormat.channelsLast.isLast bt (some (chanO g C)) n).getD 0 none] ++ ou ++ [some a.filters]).take
        (a.group.dim + 1) = [(signalShape DataFormat.channelsLast.isLast bt (some (chanO g C)) n).getD 0 none] ++ ou := by
      rw [List.take_append_of_le_length (by simp [hou]), List.take_of_length_le (by simp [hou])]
    rw [htake] at has
    refine ⟨?_, ?_⟩
    · have := has.2 (a.group.dim + 1) a.group.group.order (by simp [← hou])
      rw [hgrp] at this
      exact this
    · by_cases hv : opt = .valid ∨ opt = .same
      · rcases hv with h | h
        · exact Or.inl h
        · exact Or.inr (Or.inl h)
      refine Or.inr (Or.inr ?_)
      intro i hi
      obtain ⟨e, he, hal, hb, hfi, hsz⟩ := hax i hi
      have hci := mapM_getD em i i none (by simp [f.stridesLen, hi])
      rw [show (n.map some).getD i none = some (nth n i) by rw [← hn] at hi; simp [nth, hi], hagree] at hci
      obtain ⟨q, hq1⟩ := convOutSize_known hci
      rw [hq1] at hci
      have hq3 := has.2 (i + 1) q (by
        rw [← hq1]
        have hi' : i < ou.length := by rw [hou]; exact hi
        simp [List.getD_eq_getElem?_getD, List.getElem?_append, hi'])
      rw [hsz] at hq3
      have h0 : e = 0 := no_zeros (hpos i hi).2 (hpos i hi).1 (hsr i hi) hal hb hfi hci hq3
      rcases he.1 h0 with h | h | h
      · exact absurd (Or.inl h) hv
      · exact absurd (Or.inr h) hv
      · exact h
  · rintro ⟨hH, hcond⟩
    have he0 : ∀ i, i < a.group.dim → nth (padded l.transforms.padState kp a.strides a.dilation a.kernelSize n) i =
        nth (grow n (kpads kp a.strides a.dilation a.kernelSize n)) i := by
      intro i hi
      obtain ⟨e', q1, q2, q3⟩ := epads_spec hn f.kernelLen f.stridesLen f.stridesPos hst hi
      have h0 : e' = 0 := (zeros_iff q1).2 (hcond.imp id (Or.imp id fun h => h i hi))
      subst h0
      have hsl := f.stridesLen
      unfold padded
      have hg : nth (grow n (epads l.transforms.padState a.strides.length)) i = nth n i := by
        rw [nth_grow (by omega) (by rw [length_epads, hn, hsl]), hsl, q3]
        simp
      rw [nth_grow (by rw [length_grow (by rw [length_epads, hn, hsl])]; omega) (by
          rw [length_grow (by rw [length_epads, hn, hsl])]; simp [kpads, hn, hsl]), nth_kpads (by omega), hg,
        nth_grow (n := n) (ps := kpads kp a.strides a.dilation a.kernelSize n) (by omega) (by simp [kpads, hn, hsl]), nth_kpads (by omega)]
    have hpe : padded l.transforms.padState kp a.strides a.dilation a.kernelSize n = grow n (kpads kp a.strides a.dilation a.kernelSize n) := by
      have hsl := f.stridesLen
      apply ext_nth
      · unfold padded
        rw [length_grow (by rw [length_grow (by rw [length_epads, hn, hsl])]; simp [kpads, hn, hsl]), length_grow (by rw [length_epads, hn, hsl]),
          length_grow (by simp [kpads, hn, hsl])]
      · intro i hi
        apply he0
        unfold padded at hi
        rw [length_grow (by rw [length_grow (by rw [length_epads, hn, hsl])]; simp [kpads, hn, hsl]), length_grow (by rw [length_epads, hn, hsl])] at hi
        omega
    rw [hpe] at hfit hzs
    refine ⟨inputShape .channelsLast bt (outSizes a.strides a.dilation a.kernelSize
        (grow n (kpads kp a.strides a.dilation a.kernelSize n))) (some a.group.group.order) a.filters, ?_, ?_⟩
    · unfold GroupConv.computeOutputShape
      rw [f.transp, h1, h2, f.fmt, f.padding, f.strides, f.dilation, f.filters, hf]
      simp only [Bool.false_eq_true, if_false]
      rw [convOutputShape_ok (by rw [hn, f.stridesLen]) hfit, res_bind_ok, res_pure]
      unfold GroupTransforms.correctOutputShape
      rw [h3, insert_group (fmt := .channelsLast) (d := a.group.dim) (by rw [length_outSizes, f.stridesLen]) (by rw [f.gaxis, hf])]
    · rw [hzs]
      exact (announces_iff hB).2 hH

/-- `plainConv` with 'valid_equiv' -/
def equivConv : ConvArgs Int := { plainConv with padding := "valid_equiv", allowNonEquivariance := false }

/-- hypotheses are met by a layer that announces its output: images of size 5 need no zeros -/
example : ∃ l y, BuiltConv equivConv false none [5, 5] none 3 (fun _ => 1) (fun _ => 0) [0, 1] l ∧
    (l.call ⟨sigShape .channelsLast 1 [5, 5] none 3, fun _ => 1⟩).2 = .ok y ∧
    formatPaddingOption equivConv.padding = .ok .validEquiv ∧ [0, 1].length = equivConv.group.group.order ∧
    ∀ i, i < 2 → Symmetric (nth [5, 5] i) (nth equivConv.kernelSize i) (nth equivConv.strides i)
      (builtIn .validEquiv (nth [5, 5] i) (nth equivConv.kernelSize i) (nth equivConv.strides i)) := by
  refine ⟨_, _, ⟨⟨_, rfl, rfl⟩, rfl, rfl⟩, rfl, rfl, rfl, ?_⟩
  intro i hi
  rcases i with _ | _ | i
  · exact ⟨rfl, rfl⟩
  · exact ⟨rfl, rfl⟩
  · omega

/-- and by a layer that does not: images of size 6 get a zero on each side -/
example : ∃ l y, BuiltConv equivConv false none [6, 6] none 3 (fun _ => 1) (fun _ => 0) [0, 1] l ∧
    (l.call ⟨sigShape .channelsLast 1 [6, 6] none 3, fun _ => 1⟩).2 = .ok y ∧
    ¬ Symmetric 6 (nth equivConv.kernelSize 0) (nth equivConv.strides 0) (builtIn .validEquiv 6 (nth equivConv.kernelSize 0) (nth equivConv.strides 0)) := by
  refine ⟨_, _, ⟨⟨_, rfl, rfl⟩, rfl, rfl⟩, rfl, ?_⟩
  rintro ⟨-, h⟩
  revert h
  decide

/-- a layer with dilation and an even kernel -/
def wideEven : ConvArgs Int :=
  { equivConv with padding := "same_equiv", kernelSize := [2, 2], strides := [1, 1], dilation := [2, 2] }

/-- and by one with dilation: the zero that the even kernel needs is not announced -/
example : ∃ l y, BuiltConv wideEven false none [4, 4] none 1 (fun _ => 1) (fun _ => 0) [0, 1] l ∧
    (l.call ⟨sigShape .channelsLast 1 [4, 4] none 1, fun _ => 1⟩).2 = .ok y ∧ y.shape = [1, 5, 5, 2, 1] ∧
    l.computeOutputShape [] = .ok [none, some 4, some 4, some 2, some 1] := by
  exact ⟨_, _, ⟨⟨_, rfl, rfl⟩, rfl, rfl⟩, rfl, rfl, rfl⟩

theorem extraT_eq_zero {o : PadOption} {n k s : Nat} (hs : 0 < s) :
    extraT o n k s = 0 ↔ o = .valid ∨ o = .same ∨ Symmetric n k s (ownZeros true o n k s) := by
  have hs' : (0 : Int) < s := by exact_mod_cast hs
  have e0 : computeEquivariantPadding o true n k s = computeExtraPadding n k s (ownZeros true o n k s : Nat) :=
    padAt_own (p := ⟨o, false, 1, [s], [k], true, true⟩) (sp := [n]) (i := 0) ⟨rfl, rfl, rfl, by simpa using hs⟩ (by simp)
  have h1 : (computeEquivariantPadding o true n k s).1 = 0 ↔ Symmetric n k s (ownZeros true o n k s) := by
    rw [e0, extra_eq_zero _ _ _ hs']
    unfold Symmetric
    rw [← Int.natCast_inj]
    push_cast
    rfl
  have h2 : 0 ≤ (computeEquivariantPadding o true n k s).1 := by
    rw [e0]
    simp only [computeExtraPadding]
    have h3 := Int.emod_nonneg (-((n : Int) + (ownZeros true o n k s : Nat) - k)) hs'.ne'
    have h4 := Int.emod_nonneg ((-((n : Int) + (ownZeros true o n k s : Nat) - k)) % s + (ownZeros true o n k s : Nat)) (show (2 : Int) ≠ 0 by decide)
    have := Int.mul_nonneg h4 hs'.le
    omega
  unfold extraT
  split
  · rename_i h
    simp only [true_iff]
    rcases h with h | h
    · exact Or.inr (Or.inl h)
    · exact Or.inl h
  · rename_i h
    rw [← h1]
    constructor
    · intro h; exact Or.inr (Or.inr (by omega))
    · rintro (h' | h' | h')
      · exact absurd (Or.inr h') h
      · exact absurd (Or.inl h') h
      · omega

/-- C28, exactly, for transposed channels_last layers, with any dilation: the announced shape is that of the output if and only if
along every axis the zeros counted for Keras (`ownZeros`: those of the convolution that the layer is the transpose of) are already
symmetric, or need not be because the option is 'valid' or 'same', so that the padding layer adds nothing. The subgroup does not
matter. -/
theorem C28_transposed_exact [Semiring α] {a : ConvArgs α} {bt : Option Nat} {n : List Nat} {g : Option Nat} {C : Nat}
    {k0 b0 : List Nat → α} {H : List Nat} {l : GroupConv α} (hl : BuiltConv a true bt n g C k0 b0 H l)
    (hf : a.dataFormat = .channelsLast) (opt : PadOption) (hopt : formatPaddingOption a.padding = .ok opt)
    (x : Tensor α) (B : Nat) (hB : ∀ b, bt = some b → B = b) (hx : x.shape = sigShape .channelsLast B n g C) (y : Tensor α)
    (hy : (l.call x).2 = .ok y) (arg : List (Option Nat)) :
    (∃ s, l.computeOutputShape arg = .ok s ∧ Announces s y.shape) ↔
      (opt = .valid ∨ opt = .same ∨ ∀ i, i < a.group.dim →
        Symmetric (nth n i) (nth a.kernelSize i) (nth a.strides i) (ownZeros true opt (nth n i) (nth a.kernelSize i) (nth a.strides i))) := by
  obtain ⟨h1, h2, h3⟩ := hl.shape_facts
  have hn := hl.dims
  obtain ⟨opt', kp, e1, e2, f, hst⟩ := hl.facts_last hf
  rw [hopt] at e1
  cases e1
  have hsl := f.stridesLen
  obtain ⟨z, hz, hzs, -⟩ := convT_call_last f hf hx hn
  rw [hz] at hy
  cases hy
  have hA : actingOf a.group true H = List.range a.group.group.order := rfl
  rw [hA, List.length_range] at hzs
  have hcomp : l.computeOutputShape arg = .ok (inputShape .channelsLast bt (upSizes kp a.strides a.dilation a.kernelSize n)
      (some a.group.group.order) a.filters) := by
    unfold GroupConv.computeOutputShape
    rw [f.transp, h1, h2, f.fmt, f.padding, f.strides, f.dilation, f.filters, hf]
    simp only [if_true]
    rw [convTransposeOutputShape_ok (by rw [hn, hsl]), res_bind_ok, res_pure]
    unfold GroupTransforms.correctOutputShape
    rw [h3, insert_group (fmt := .channelsLast) (d := a.group.dim) (by rw [length_upSizes, hsl]) (by rw [f.gaxis, hf])]
  rw [hcomp]
  have hsig : y.shape = sigShape .channelsLast B
      (upSizes kp a.strides a.dilation a.kernelSize (grow n (epads l.transforms.padState a.group.dim))) (some a.group.group.order) a.filters := by
    rw [hzs]; simp [sigShape]
  have hgl : (grow n (epads l.transforms.padState a.group.dim)).length = a.group.dim := by
    rw [length_grow (by rw [length_epads, hn]), hn]
  have hmono : ∀ (m m' D s : Nat), 0 < s → (transposeOut kp m D s).1 = (transposeOut kp m' D s).1 → m = m' := by
    intro m m' D s hs h
    have key : m * s = m' * s → m = m' := Nat.eq_of_mul_eq_mul_right hs
    cases kp <;> simp only [transposeOut] at h <;> exact key (by omega)
  have hax : ∀ i, i < a.group.dim → ∃ e, (e = 0 ↔ opt = .valid ∨ opt = .same ∨ Symmetric (nth n i) (nth a.kernelSize i) (nth a.strides i)
        (ownZeros true opt (nth n i) (nth a.kernelSize i) (nth a.strides i))) ∧
      nth (grow n (epads l.transforms.padState a.group.dim)) i = nth n i + e := by
    intro i hi
    have q1 := (epadsT hn f.kernelLen f.stridesLen f.stridesPos hst hi).1
    have hs : 0 < nth a.strides i := Nat.pos_of_ne_zero fun h => f.stridesPos (h ▸ nth_mem _ _ (by omega))
    refine ⟨_, extraT_eq_zero hs, ?_⟩
    rw [amount_pads _ _ _ f.onGrid] at q1
    rw [nth_grow (by omega) (by rw [length_epads, hn]), nth_epads hi, q1]
    simp only [Int.toNat_natCast]
    omega
  constructor
  · rintro ⟨s, es, has⟩
    cases es
    by_cases hv : opt = .valid ∨ opt = .same
    · rcases hv with h | h
      · exact Or.inl h
      · exact Or.inr (Or.inl h)
    refine Or.inr (Or.inr ?_)
    intro i hi
    obtain ⟨e, he, hg⟩ := hax i hi
    have hi' : i < a.strides.length := by omega
    have hs : 0 < nth a.strides i := Nat.pos_of_ne_zero fun h => f.stridesPos (h ▸ nth_mem _ _ hi')
    have := has.2 (i + 1) (nth (upSizes kp a.strides a.dilation a.kernelSize n) i) (by
      simp [inputShape, nth, length_upSizes, hi', List.getElem?_append])
    rw [hzs, List.cons_append, nth_cons_succ, nth_append, if_pos (by rw [length_upSizes]; exact hi')] at this
    unfold upSizes at this
    rw [nth_map_range, nth_map_range, if_pos hi', if_pos hi', hg] at this
    have h0 := hmono _ _ _ _ hs this
    rcases he.1 (by omega) with h | h | h
    · exact absurd (Or.inl h) hv
    · exact absurd (Or.inr h) hv
    · exact h
  · intro hcond
    refine ⟨_, rfl, ?_⟩
    have hge : grow n (epads l.transforms.padState a.group.dim) = n := by
      apply ext_nth
      · rw [hgl, hn]
      · intro i hi
        obtain ⟨e, he, hg⟩ := hax i (by omega)
        have := he.2 (hcond.imp id (Or.imp id fun h => h i (by omega)))
        omega
    rw [hge] at hsig
    rw [hsig]
    exact announces_of hB

/-- a transposed layer with an even kernel -/
def growingTranspose : ConvArgs Int := { shapeTranspose with strides := [1, 1], padding := "same_equiv", allowNonEquivariance := false }

/-- hypotheses are met by a layer that does not announce its output: the padding layer adds a zero along each axis -/
example : ∃ l y, BuiltConv growingTranspose true none [2, 3] (some 1) 1 (fun _ => 1) (fun _ => 0) [0] l ∧
    (l.call ⟨sigShape .channelsLast 1 [2, 3] (some 1) 1, fun _ => 1⟩).2 = .ok y ∧ y.shape = [1, 3, 4, 2, 1] ∧
    l.computeOutputShape [] = .ok [none, some 2, some 3, some 2, some 1] ∧
    formatPaddingOption growingTranspose.padding = .ok .sameEquiv ∧
    ¬ Symmetric 2 (nth growingTranspose.kernelSize 0) (nth growingTranspose.strides 0) (ownZeros true .sameEquiv 2 (nth growingTranspose.kernelSize 0) (nth growingTranspose.strides 0)) := by
  refine ⟨_, _, ⟨⟨_, rfl, rfl⟩, rfl, rfl⟩, rfl, rfl, rfl, rfl, ?_⟩
  rintro ⟨h, -⟩
  revert h
  decide

/-- and by one that does -/
example : ∃ l y, BuiltConv { growingTranspose with kernelSize := [3, 3] } true none [2, 3] (some 1) 1 (fun _ => 1) (fun _ => 0) [0] l ∧
    (l.call ⟨sigShape .channelsLast 1 [2, 3] (some 1) 1, fun _ => 1⟩).2 = .ok y ∧ y.shape = [1, 2, 3, 2, 1] ∧
    l.computeOutputShape [] = .ok [none, some 2, some 3, some 2, some 1] := by
  exact ⟨_, _, ⟨⟨_, rfl, rfl⟩, rfl, rfl⟩, rfl, rfl, rfl⟩

end GroCo
