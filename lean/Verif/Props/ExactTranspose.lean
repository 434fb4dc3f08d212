import Verif.ExactTLemmas
import Verif.Props.Exact
import Verif.Props.Transpose

/-
Property C69: which transposed convolutions are equivariant. The vocabulary (`Hits`, `HitsMoved`, `MovesOutput`, `TransposeOk`) is
in LayerSpec and MovedSpec.
-/

namespace GroCo
open Tensor

variable {α : Type}

/-- C69: a transposed layer on images of sizes `n`, whose padding layer adds `before` and `after` zeros, moves its output with its
input, whatever its weights are, exactly if element `h` of its subgroup keeps the sizes of the output and moves the contributions
into each other. Nothing is assumed about allow_non_equivariance, strides or dilation. The activation must be able to tell some
value from zero. -/
theorem C69_contributions [Semiring α] {a : ConvArgs α} {bt : Option Nat} {n : List Nat} {g : Option Nat} {C : Nat}
    {k0 b0 : List Nat → α} {H : List Nat} {l : GroupConv α} (hl : BuiltConv a true bt n g C k0 b0 H l)
    (hf : a.dataFormat = .channelsLast) (opt : PadOption) (hopt : formatPaddingOption a.padding = .ok opt)
    (v : α) (hv : a.activation v ≠ a.activation 0) (hC : 0 < C) (h : Nat) (hh : h ∈ H) (hn : KeepsSizes (a.group.motion h) n)
    (before after crop out : List Nat) (hbl : before.length = a.group.dim)
    (hamt : ∀ i, i < a.group.dim → l.transforms.padState.amount (i + 1) = ((nth before i : Int), (nth after i : Int)))
    (hcrop : crop = (List.range a.group.dim).map fun i => cutOff opt (dilated (nth a.kernelSize i) (nth a.dilation i)) (nth a.strides i))
    (hout : out = (List.range a.group.dim).map fun i => (nth before i + nth n i + nth after i) * nth a.strides i + excess opt (dilated (nth a.kernelSize i) (nth a.dilation i)) (nth a.strides i)) :
    (∀ k1 b1, MovesOutput a.group H (List.range a.group.group.order) h (fun x => ((l.assign k1 b1).call x).2) n g C a.filters) ↔
      KeepsSizes (a.group.motion h) out ∧
      HitsMoved (a.group.motion h) n out a.kernelSize before a.strides a.dilation crop := by
  obtain ⟨opt', kp, hopt', hkp, f, hst⟩ := hl.facts_last hf
  rw [hopt] at hopt'
  cases hopt'
  have hagree := padding_agree hopt hkp
  obtain ⟨sH, _, hH⟩ := parse_sub hl.elements
  have hh' := a.group.sym.sub_lt hH hh
  have hel := length_epads l.transforms.padState a.group.dim
  have hps : ∀ i, i < a.group.dim → (epads l.transforms.padState a.group.dim).getD i (0, 0) = (nth before i, nth after i) := by
    intro i hi
    have := hamt i hi
    rw [amount_pads _ _ _ f.onGrid] at this
    rw [nth_epads hi, this]
    simp
  have hgrow : ∀ i, i < a.group.dim → nth (grow n (epads l.transforms.padState a.group.dim)) i =
      nth before i + nth n i + nth after i := by
    intro i hi
    rw [nth_grow (by rw [hl.dims]; exact hi) (by rw [hel, hl.dims]), hps i hi]
  have hF : 0 < a.filters := by
    obtain ⟨_, _, _, hz, _⟩ := (C44_transposed a hf bt n g C k0 b0 H hl.dims hl.elements).1 ⟨l, hl⟩
    exact hz.filters
  have hb : before = befores (epads l.transforms.padState a.group.dim) := by
    apply ext_nth
    · rw [hbl, length_befores, hel]
    · intro i hi
      rw [hbl] at hi
      rw [nth_befores, hps i hi]
  have ho : out = upSizes kp a.strides a.dilation a.kernelSize (grow n (epads l.transforms.padState a.group.dim)) := by
    rw [hout]
    unfold upSizes
    rw [f.stridesLen]
    apply List.map_congr_left
    intro i hi
    rw [hgrow i (List.mem_range.1 hi), hagree]
    cases opt <;> rfl
  have hc : crop = upCrop kp a.strides a.dilation a.kernelSize (grow n (epads l.transforms.padState a.group.dim)) := by
    rw [hcrop]
    unfold upCrop
    rw [f.stridesLen]
    apply List.map_congr_left
    intro i hi
    rw [hgrow i (List.mem_range.1 hi), hagree]
    cases opt <;> rfl
  have := convT_exact hl (fun k1 b1 => C53_assign hl) hf hv hC hF hh ((keeps_iff _ hh' _).1 hn) hkp hb ho hc
  rw [← keeps_iff _ hh'] at this
  exact this

/-- C69: a transposed layer without dilation, on a grid the group acts on, whose padding layer adds `before` and `after` zeros,
moves its output with its input for all elements of its subgroup and all weights exactly if the following holds along every axis
that the subgroup mirrors: the stride is at most the size of the kernel, equally many zeros are added at both ends and, with 'same'
or 'same_equiv', the size of the kernel and the stride are both even or both odd. -/
theorem C69_exact [Semiring α] {a : ConvArgs α} {bt : Option Nat} {n : List Nat} {g : Option Nat} {C : Nat}
    {k0 b0 : List Nat → α} {H : List Nat} {l : GroupConv α} (hl : BuiltConv a true bt n g C k0 b0 H l)
    (hf : a.dataFormat = .channelsLast) (opt : PadOption) (hopt : formatPaddingOption a.padding = .ok opt)
    (hdil : a.dilation = List.replicate a.group.dim 1) (hn : a.group.Grid n) (hs : a.group.Grid a.strides) (hpos : 0 ∉ n)
    (v : α) (hv : a.activation v ≠ a.activation 0) (hC : 0 < C) (before after : List Nat) (hbl : before.length = a.group.dim)
    (hamt : ∀ i, i < a.group.dim → l.transforms.padState.amount (i + 1) = ((nth before i : Int), (nth after i : Int))) :
    (∀ h k1 b1, h ∈ H → MovesOutput a.group H (List.range a.group.group.order) h (fun x => ((l.assign k1 b1).call x).2) n g C
      a.filters) ↔
    ∀ i : Fin a.group.dim, (∃ h ∈ H, a.group.motion h i i = -1) →
      nth a.strides i ≤ nth a.kernelSize i ∧ nth before i = nth after i ∧
      (opt = .valid ∨ opt = .validEquiv ∨ (nth a.kernelSize i - nth a.strides i) % 2 = 0) := by
  have S := a.group.sym
  obtain ⟨opt', kp, hopt', hkp, f, hst⟩ := hl.facts_last hf
  rw [hopt] at hopt'
  cases hopt'
  obtain ⟨sH, _, hH⟩ := parse_sub hl.elements
  have hone : ∀ i, i < a.group.dim → nth a.dilation i = 1 := fun i hi => by rw [hdil]; simp [nth, hi]
  have hspos : ∀ i, i < a.group.dim → 0 < nth a.strides i := fun i hi =>
    Nat.pos_of_ne_zero fun h => f.stridesPos (h ▸ nth_mem _ _ (by rw [f.stridesLen]; exact hi))
  have hkpos : ∀ i, i < a.group.dim → 0 < nth a.kernelSize i := fun i hi =>
    Nat.pos_of_ne_zero fun h => f.kernelPos (h ▸ nth_mem _ _ (by rw [f.kernelLen]; exact hi))
  have hnpos : ∀ i, i < a.group.dim → 0 < nth n i := fun i hi =>
    Nat.pos_of_ne_zero fun h => hpos (h ▸ nth_mem _ _ (by rw [hl.dims]; exact hi))
  have hdk : ∀ i, i < a.group.dim → dilated (nth a.kernelSize i) (nth a.dilation i) = nth a.kernelSize i := fun i hi => by
    rw [hone i hi]; have := hkpos i hi; simp [dilated]; omega
  have hd : a.group.Grid a.dilation := by
    apply a.group.grid_of (by rw [hdil]; simp)
    intro i j hi hj _
    rw [hone i hi, hone j hj]
  have hba : ∀ i, i < a.group.dim → nth before i = nth after i ∨ nth before i = nth after i + 1 := by
    intro i hi
    have h1 := (epadsT hl.dims f.kernelLen f.stridesLen f.stridesPos hst hi).1
    rw [hamt i hi] at h1
    simp only [Prod.mk.injEq] at h1
    omega
  have hlink : ∀ i j, i < a.group.dim → j < a.group.dim → nth n i = nth n j → nth a.strides i = nth a.strides j →
      nth a.kernelSize i = nth a.kernelSize j → nth before i = nth before j ∧ nth after i = nth after j := by
    intro i j hi hj l1 l2 l3
    have h1 := (epadsT hl.dims f.kernelLen f.stridesLen f.stridesPos hst hi).1
    have h2 := (epadsT hl.dims f.kernelLen f.stridesLen f.stridesPos hst hj).1
    rw [hamt i hi] at h1
    rw [hamt j hj, ← l1, ← l2, ← l3] at h2
    have := h1.trans h2.symm
    simp only [Prod.mk.injEq, Nat.cast_inj] at this
    exact this
  have key := fun h (hh : h ∈ H) => C69_contributions hl hf opt hopt v hv hC h hh
    ((keeps_iff _ (S.sub_lt hH hh) _).2 (hn.kept (S.sub_lt hH hh))) before after _ _ hbl hamt rfl rfl
  generalize hout : ((List.range a.group.dim).map fun i => (nth before i + nth n i + nth after i) * nth a.strides i + excess opt (dilated (nth a.kernelSize i) (nth a.dilation i)) (nth a.strides i)) = out at key
  generalize hcrop : ((List.range a.group.dim).map fun i => cutOff opt (dilated (nth a.kernelSize i) (nth a.dilation i)) (nth a.strides i)) = crop at key
  have hol : out.length = a.group.dim := by rw [← hout]; simp
  have hcl : crop.length = a.group.dim := by rw [← hcrop]; simp
  have hno : ∀ i, i < a.group.dim → nth out i = (nth before i + nth n i + nth after i) * nth a.strides i + excess opt (nth a.kernelSize i) (nth a.strides i) := by
    intro i hi
    rw [← hout, nth_map_range, if_pos hi, hdk i hi]
  have hnc : ∀ i, i < a.group.dim → nth crop i = cutOff opt (nth a.kernelSize i) (nth a.strides i) := by
    intro i hi
    rw [← hcrop, nth_map_range, if_pos hi, hdk i hi]
  have hgeo : ∀ i, i < a.group.dim → (nth out i + 2 * nth crop i + nth a.strides i =
      (nth n i + 2 * nth before i) * nth a.strides i + nth a.kernelSize i ↔
      nth a.strides i ≤ nth a.kernelSize i ∧ nth before i = nth after i ∧
        (opt = .valid ∨ opt = .validEquiv ∨ (nth a.kernelSize i - nth a.strides i) % 2 = 0)) := by
    intro i hi
    rw [hno i hi, hnc i hi]
    exact mirrorT_iff (hspos i hi) (hkpos i hi) (hba i hi)
  have hlinks : ∀ i j, i < a.group.dim → j < a.group.dim → (∀ u, a.group.Grid u → nth u i = nth u j) →
      nth before i = nth before j ∧ nth out i = nth out j ∧ nth crop i = nth crop j := by
    intro i j hi hj hu
    have l1 := hu _ hn
    have l2 := hu _ hs
    have l3 := hu _ f.grid
    obtain ⟨h1, h2⟩ := hlink i j hi hj l1 l2 l3
    rw [hno i hi, hno j hj, hnc i hi, hnc j hj, h1, h2, l1, l2, l3]
    exact ⟨rfl, rfl, rfl⟩
  have hbG : a.group.Grid before := a.group.grid_of hbl fun i j hi hj hu => (hlinks i j hi hj hu).1
  have hOG : a.group.Grid out := a.group.grid_of hol fun i j hi hj hu => (hlinks i j hi hj hu).2.1
  have hcG : a.group.Grid crop := a.group.grid_of hcl fun i j hi hj hu => (hlinks i j hi hj hu).2.2
  constructor
  · rintro hall ⟨i, hi⟩ ⟨h, hh, hneg⟩
    have hh' := S.sub_lt hH hh
    obtain ⟨_, hW⟩ := (key h hh).1 fun k1 b1 => hall h k1 b1 hh
    refine (hgeo i hi).1 ?_
    -- the first position of the input, the first offset with which it contributes, and the position it contributes to
    have hcK : ∀ j, j < a.group.dim → nth crop j < nth a.kernelSize j := by
      intro j hj
      have h1 := hkpos j hj
      have h2 := hspos j hj
      rw [hnc j hj]
      cases opt <;> simp only [cutOff] <;> omega
    have hn0 : ∀ j, nth (List.replicate a.group.dim 0) j = 0 := fun j => by rw [nth_replicate]; split <;> rfl
    have hp : Valid n (List.replicate a.group.dim 0) := by
      rw [valid_iff]
      refine ⟨by simp [hl.dims], fun j hj => ?_⟩
      rw [hl.dims] at hj
      rw [hn0]
      exact hnpos j hj
    obtain ⟨k, hk⟩ : ∃ k, k = (List.range a.group.dim).map fun j => nth crop j - nth before j * nth a.strides j := ⟨_, rfl⟩
    obtain ⟨q, hq⟩ : ∃ q, q = (List.range a.group.dim).map fun j => nth before j * nth a.strides j + nth k j - nth crop j := ⟨_, rfl⟩
    have nk : ∀ j, j < a.group.dim → nth k j = nth crop j - nth before j * nth a.strides j := fun j hj => by
      rw [hk, nth_map_range, if_pos hj]
    have nq : ∀ j, j < a.group.dim → nth q j = nth before j * nth a.strides j + nth k j - nth crop j := fun j hj => by
      rw [hq, nth_map_range, if_pos hj]
    have hkv : Valid a.kernelSize k := by
      rw [valid_iff]
      refine ⟨by rw [hk, f.kernelLen]; simp, fun j hj => ?_⟩
      rw [f.kernelLen] at hj
      rw [nk j hj]
      have := hcK j hj
      omega
    have hqv : Valid out q := by
      rw [valid_iff]
      refine ⟨by rw [hq, hol]; simp, fun j hj => ?_⟩
      rw [hol] at hj
      rw [nq j hj, nk j hj, hno j hj]
      have h1 : (nth before j + nth n j + nth after j) * nth a.strides j =
        nth before j * nth a.strides j + (nth n j + nth after j) * nth a.strides j := by ring
      have h2 : 0 < (nth n j + nth after j) * nth a.strides j :=
        Nat.mul_pos (by have := hnpos j hj; omega) (hspos j hj)
      rw [h1]
      generalize nth before j * nth a.strides j = t at *
      generalize (nth n j + nth after j) * nth a.strides j = u at *
      omega
    obtain ⟨p', hp', ep⟩ := (hn.kept hh').surj hh' hp
    obtain ⟨k', hk', ek⟩ := (f.grid.kept hh').surj hh' hkv
    obtain ⟨q', hq', eq⟩ := (hOG.kept hh').surj hh' hqv
    have mp := Kept.moves hh' (hn.kept hh') hp'
    have mk := Kept.moves hh' (f.grid.kept hh') hk'
    have mq := Kept.moves hh' (hOG.kept hh') hq'
    rw [ep] at mp
    rw [ek] at mk
    rw [eq] at mq
    have hr : Hits before a.strides a.dilation crop (List.replicate a.group.dim 0) k q := by
      intro j hj
      rw [f.stridesLen] at hj
      rw [hn0, hone j hj, nq j hj, nk j hj, Nat.zero_add]
      generalize nth before j * nth a.strides j = t at *
      omega
    have hr' := (hW _ _ _ _ _ _ hp hp' hkv hk' hqv hq' mp mk mq).1 hr i (by rw [f.stridesLen]; exact hi)
    have hr0 := hr i (by rw [f.stridesLen]; exact hi)
    have m1 := moves_mirror hh' hneg mp
    have m2 := moves_mirror hh' hneg mk
    have m3 := moves_mirror hh' hneg mq
    simp only [hn0] at m1 m2 m3 hr0
    rw [hone i hi] at hr' hr0
    rw [← m1, ← m2, ← m3]
    have : (nth p' i + 0 + 1 + 2 * nth before i) * nth a.strides i =
      (nth p' i + nth before i) * nth a.strides i + (0 + nth before i) * nth a.strides i + nth a.strides i := by ring
    omega
  · intro hall h k1 b1 hh
    have hh' := S.sub_lt hH hh
    refine (key h hh).2 ⟨(keeps_iff _ hh' _).2 (hOG.kept hh'), ?_⟩ k1 b1
    refine (hitsMoved_iff hh' (hn.kept hh') (hOG.kept hh') (f.grid.kept hh')).2 fun p k q hp hk hq => ?_
    refine hits_pull (S.wf hh') f.stridesLen hl.dims hol f.kernelLen (hn.kept hh').2 (hOG.kept hh').2 (f.grid.kept hh').2 (hs.kept hh').2
      (hd.kept hh').2 (hbG.kept hh').2 (hcG.kept hh').2 ?_ hp hk hq
    intro i hi hneg
    have := (hgeo i hi).2 (hall ⟨i, hi⟩ (mirror_of_neg _ hH hh hi hneg))
    rw [this, hone i hi]
    have := hkpos i hi
    omega

/-- C69: a transposed layer without dilation that is accepted with allow_non_equivariance=False moves its output with its input,
for all elements of its subgroup and all weights, exactly if its configuration is `TransposeOk` along every axis the subgroup
mirrors: the stride is at most the size of the kernel and, with 'same' or 'same_equiv', the differences of kernel and stride
and the zeros Keras adds in the convolution are even. So C31 cannot be improved. -/
theorem C69_accepted [Semiring α] {a : ConvArgs α} {bt : Option Nat} {n : List Nat} {g : Option Nat} {C : Nat}
    {k0 b0 : List Nat → α} {H : List Nat} {l : GroupConv α} (hl : BuiltConv a true bt n g C k0 b0 H l)
    (hf : a.dataFormat = .channelsLast) (hallow : a.allowNonEquivariance = false)
    (opt : PadOption) (hopt : formatPaddingOption a.padding = .ok opt)
    (hdil : a.dilation = List.replicate a.group.dim 1) (hn : a.group.Grid n) (hs : a.group.Grid a.strides) (hpos : 0 ∉ n)
    (v : α) (hv : a.activation v ≠ a.activation 0) (hC : 0 < C) :
    (∀ h k1 b1, h ∈ H → MovesOutput a.group H (List.range a.group.group.order) h (fun x => ((l.assign k1 b1).call x).2) n g C
      a.filters) ↔
    ∀ i : Fin a.group.dim, (∃ h ∈ H, a.group.motion h i i = -1) →
      TransposeOk opt (nth n i) (nth a.kernelSize i) (nth a.strides i) 1 := by
  obtain ⟨opt', kp, hopt', hkp, f, hst⟩ := hl.facts_last hf
  rw [hopt] at hopt'
  cases hopt'
  have hep := fun i (hi : i < a.group.dim) => epadsT hl.dims f.kernelLen f.stridesLen f.stridesPos hst hi
  rw [C69_exact hl hf opt hopt hdil hn hs hpos v hv hC
    ((List.range a.group.dim).map fun i => extraT opt (nth n i) (nth a.kernelSize i) (nth a.strides i) -
      extraT opt (nth n i) (nth a.kernelSize i) (nth a.strides i) / 2)
    ((List.range a.group.dim).map fun i => extraT opt (nth n i) (nth a.kernelSize i) (nth a.strides i) / 2) (by simp) (fun i hi => by
      rw [nth_map_range, nth_map_range, if_pos hi, if_pos hi]
      exact (hep i hi).1)]
  refine forall_congr' fun i => imp_congr Iff.rfl ?_
  obtain ⟨i, hi⟩ := i
  simp only
  rw [nth_map_range, nth_map_range, if_pos hi, if_pos hi]
  obtain ⟨_, h1, h2⟩ := hep i hi
  replace h1 := h1 hallow
  replace h2 := h2 hallow
  have hsp : 0 < nth a.strides i := Nat.pos_of_ne_zero fun h => f.stridesPos (h ▸ nth_mem _ _ (by rw [f.stridesLen]; exact hi))
  unfold computeEquivariantPadding at h1 h2
  rw [extra_total, h1] at h2
  generalize extraT opt (nth n i) (nth a.kernelSize i) (nth a.strides i) = e at *
  have hv : opt = .valid ∨ opt = .validEquiv → nth a.strides i ≤ nth a.kernelSize i →
      computeBuiltInPadding opt true (nth n i) (nth a.kernelSize i) (nth a.strides i) = 0 := by
    rintro (rfl | rfl) hle <;> simp only [computeBuiltInPadding, if_true, relu] <;> omega
  have hsm : opt = .same ∨ opt = .sameEquiv →
      computeBuiltInPadding opt true (nth n i) (nth a.kernelSize i) (nth a.strides i) =
        sameTotal (nth n i) (nth a.kernelSize i) (nth a.strides i) := by
    rintro (rfl | rfl) <;> exact builtIn_same _ _ _ hsp
  unfold TransposeOk
  generalize computeBuiltInPadding opt true (nth n i) (nth a.kernelSize i) (nth a.strides i) = t at *
  generalize sameTotal (nth n i) (nth a.kernelSize i) (nth a.strides i) = t' at *
  cases opt
  · have := hsm (Or.inl rfl)
    simp only [reduceCtorEq, false_or, true_or, true_and]
    omega
  · simp only [true_or, and_true]
    constructor
    · intro h; exact h.1
    · intro h
      have := hv (Or.inl rfl) h
      omega
  · have := hsm (Or.inr rfl)
    simp only [reduceCtorEq, false_or, true_or, true_and]
    omega
  · simp only [true_or, or_true, and_true]
    constructor
    · intro h; exact h.1
    · intro h
      have := hv (Or.inr rfl) h
      omega

/-- C69: the question left open in tests/conv_test_base.py, why transposed layers with kernels of size 3 are not equivariant for all
strides: with 'valid_equiv' they are for strides up to 3; with 'same_equiv' they are for stride 1, and for stride 3 unless the size
of the image leaves rest 2 when divided by 3. -/
theorem C69_kernel_three (n s : Nat) (hs : 0 < s) :
    (TransposeOk .validEquiv n 3 s 1 ↔ s ≤ 3) ∧ (TransposeOk .sameEquiv n 3 s 1 ↔ s = 1 ∨ s = 3 ∧ n % 3 ≠ 2) := by
  refine ⟨⟨fun h => h.1, fun h => ⟨h, Or.inl rfl, Or.inr (Or.inl rfl)⟩⟩, ?_⟩
  unfold TransposeOk sameTotal
  simp only [reduceCtorEq, false_or, true_or, true_and]
  constructor
  · rintro ⟨h1, h2, h3⟩
    have : s = 1 ∨ s = 2 ∨ s = 3 := by omega
    rcases this with rfl | rfl | rfl
    · exact Or.inl rfl
    · omega
    · refine Or.inr ⟨rfl, ?_⟩
      split at h3 <;> omega
  · rintro (rfl | ⟨rfl, h⟩)
    · refine ⟨by omega, by omega, ?_⟩
      rw [if_pos (Nat.mod_one n)]
    · refine ⟨by omega, by omega, ?_⟩
      split <;> omega

/-- the transposed layers of the tests: kernels of size 3, 'same_equiv' -/
def testTranspose (s : Nat) : ConvArgs Int :=
  { group := .P4, subgroup := some "", kernelSize := [3, 3], strides := [s, s], padding := "same_equiv",
    allowNonEquivariance := false, dataFormat := .channelsLast, filters := 1, dilation := [1, 1], useBias := false,
    activation := id }

theorem P4_mirrors : ∃ h ∈ [0, 1, 2, 3], GroupName.P4.motion h ⟨0, by decide⟩ ⟨0, by decide⟩ = -1 := by decide

/-- The premises of C69 are met by the P4 layers of the tests. Strides 3 on images of size 3 are equivariant. -/
example : ∃ l, BuiltConv (testTranspose 3) true none [3, 3] none 1 (fun _ => 1) (fun _ => 0) [0, 1, 2, 3] l ∧
    ∀ h k1 b1, h ∈ [0, 1, 2, 3] → MovesOutput .P4 [0, 1, 2, 3] (List.range 4) h (fun x => ((l.assign k1 b1).call x).2) [3, 3] none 1 1 := by
  have hl : BuiltConv (testTranspose 3) true none [3, 3] none 1 (fun _ => 1) (fun _ => 0) [0, 1, 2, 3] _ := ⟨⟨_, rfl, rfl⟩, rfl, rfl⟩
  refine ⟨_, hl, (C69_accepted hl rfl rfl .sameEquiv rfl rfl ⟨rfl, rfl⟩ ⟨rfl, rfl⟩ (by decide) 1 (by decide) (by decide)).2 ?_⟩
  intro i _
  have h3 : TransposeOk .sameEquiv 3 3 3 1 := (C69_kernel_three 3 3 (by decide)).2.2 (Or.inr ⟨rfl, by decide⟩)
  match i with
  | ⟨0, _⟩ => exact h3
  | ⟨1, _⟩ => exact h3

/-- Strides 5, which the tests leave out, are accepted and are not equivariant for some weights. -/
theorem C69_stride_five : ∃ l, BuiltConv (testTranspose 5) true none [5, 5] none 1 (fun _ => 1) (fun _ => 0) [0, 1, 2, 3] l ∧
    ¬ ∀ h k1 b1, h ∈ [0, 1, 2, 3] → MovesOutput .P4 [0, 1, 2, 3] (List.range 4) h (fun x => ((l.assign k1 b1).call x).2) [5, 5] none 1 1 := by
  have hl : BuiltConv (testTranspose 5) true none [5, 5] none 1 (fun _ => 1) (fun _ => 0) [0, 1, 2, 3] _ := ⟨⟨_, rfl, rfl⟩, rfl, rfl⟩
  refine ⟨_, hl, fun hall => ?_⟩
  have := (C69_accepted hl rfl rfl .sameEquiv rfl rfl ⟨rfl, rfl⟩ ⟨rfl, rfl⟩ (by decide) 1 (by decide) (by decide)).1 hall ⟨0, by decide⟩
    P4_mirrors
  have h5 := (C69_kernel_three 5 5 (by decide)).2.1 this
  omega

/-- and with allow_non_equivariance=True -/
example : ∃ l, BuiltConv { testTranspose 2 with padding := "valid", allowNonEquivariance := true } true none [5, 5] none 1 (fun _ => 1) (fun _ => 0)
      [0, 1, 2, 3] l ∧ ∀ h k1 b1, h ∈ [0, 1, 2, 3] →
        MovesOutput .P4 [0, 1, 2, 3] (List.range 4) h (fun x => ((l.assign k1 b1).call x).2) [5, 5] none 1 1 := by
  have hl : BuiltConv { testTranspose 2 with padding := "valid", allowNonEquivariance := true } true none [5, 5] none 1 (fun _ => 1) (fun _ => 0)
    [0, 1, 2, 3] _ := ⟨⟨_, rfl, rfl⟩, rfl, rfl⟩
  refine ⟨_, hl, (C69_exact hl rfl .valid rfl rfl ⟨rfl, rfl⟩ ⟨rfl, rfl⟩ (by decide) 1 (by decide) (by decide) [0, 0] [0, 0] rfl
    (by decide)).2 ?_⟩
  intro i _
  match i with
  | ⟨0, _⟩ => exact ⟨show 2 ≤ 3 by decide, rfl, Or.inl rfl⟩
  | ⟨1, _⟩ => exact ⟨show 2 ≤ 3 by decide, rfl, Or.inl rfl⟩

end GroCo
