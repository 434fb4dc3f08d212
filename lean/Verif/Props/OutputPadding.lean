import Verif.OutputPaddingLemmas
import Verif.Props.ExactTranspose
import Verif.Props.SubgroupLayer

/-
Property C81: the Keras argument `output_padding` of GroupConv2DTranspose/3DTranspose. The vocabulary is in LayerSpec, MovedSpec and
OutputPadding.
-/

namespace GroCo
open Tensor

variable {α : Type}

/-- C81: a transposed layer constructed with `output_padding` `op`, on images of sizes `n`, whose padding layer adds `before` and
`after` zeros, moves its output with its input, whatever its weights are, exactly if element `h` of its subgroup keeps the sizes of
the output and moves the contributions into each other. Nothing is assumed about allow_non_equivariance, strides, dilation or `op`.
The activation must be able to tell some value from zero. -/
theorem C81_contributions [Semiring α] {a : ConvArgs α} {bt : Option Nat} {n : List Nat} {g : Option Nat} {C : Nat}
    {k0 b0 : List Nat → α} {H : List Nat} {l : GroupConv α} (hl : BuiltConv a true bt n g C k0 b0 H l)
    (hf : a.dataFormat = .channelsLast) (opt : PadOption) (hopt : formatPaddingOption a.padding = .ok opt)
    (v : α) (hv : a.activation v ≠ a.activation 0) (hC : 0 < C) (h : Nat) (hh : h ∈ H) (hn : KeepsSizes (a.group.motion h) n)
    (op before after crop out : List Nat) (hbl : before.length = a.group.dim)
    (hamt : ∀ i, i < a.group.dim → l.transforms.padState.amount (i + 1) = ((nth before i : Int), (nth after i : Int)))
    (hcrop : crop = (List.range a.group.dim).map fun i => cutWith opt (dilated (nth a.kernelSize i) (nth a.dilation i)) (nth op i))
    (hout : out = (List.range a.group.dim).map fun i => sizeWith opt (nth before i + nth n i + nth after i)
      (dilated (nth a.kernelSize i) (nth a.dilation i)) (nth a.strides i) (nth op i)) :
    (∀ k1 b1, MovesOutput a.group H (List.range a.group.group.order) h
      (fun x => ((l.assign k1 b1).callPadded op x).2) n g C a.filters) ↔
      KeepsSizes (a.group.motion h) out ∧
      HitsMoved (a.group.motion h) n out a.kernelSize before a.strides a.dilation crop := by
  obtain ⟨opt', kp, hopt', hkp, f, hst⟩ := hl.facts_last hf
  rw [hopt] at hopt'
  cases hopt'
  have hagree := padding_agree hopt hkp
  obtain ⟨sH, _, hH⟩ := parse_sub hl.elements
  have hh' := a.group.sym.sub_lt hH hh
  have hel := length_epads l.transforms.padState a.group.dim
  have hps : ∀ i, i < a.group.dim → (epads l.transforms.padState a.group.dim).getD i (0, 0) = (nth before i, nth after i) := by
    intro i hi
    have := hamt i hi
    rw [amount_pads _ _ _ f.onGrid] at this
    rw [nth_epads hi, this]
    simp
  have hgrow : ∀ i, i < a.group.dim → nth (grow n (epads l.transforms.padState a.group.dim)) i =
      nth before i + nth n i + nth after i := by
    intro i hi
    rw [nth_grow (by rw [hl.dims]; exact hi) (by rw [hel, hl.dims]), hps i hi]
  have hF : 0 < a.filters := by
    obtain ⟨_, _, _, hz, _⟩ := (C44_transposed a hf bt n g C k0 b0 H hl.dims hl.elements).1 ⟨l, hl⟩
    exact hz.filters
  have hb : before = befores (epads l.transforms.padState a.group.dim) := by
    apply ext_nth
    · rw [hbl, length_befores, hel]
    · intro i hi
      rw [hbl] at hi
      rw [nth_befores, hps i hi]
  have ho : out = upSizesW kp op a.strides a.dilation a.kernelSize (grow n (epads l.transforms.padState a.group.dim)) := by
    rw [hout]
    unfold upSizesW
    rw [f.stridesLen]
    apply List.map_congr_left
    intro i hi
    rw [hgrow i (List.mem_range.1 hi), hagree]
    cases opt <;> rfl
  have hc : crop = upCropW kp op a.strides a.dilation a.kernelSize (grow n (epads l.transforms.padState a.group.dim)) := by
    rw [hcrop]
    unfold upCropW
    rw [f.stridesLen]
    apply List.map_congr_left
    intro i hi
    rw [hgrow i (List.mem_range.1 hi), hagree]
    cases opt <;> rfl
  have hA' : actingOf a.group true H = List.range a.group.group.order := rfl
  have hD' : domainOf a.group true H = H := rfl
  have facts : ∀ k1 b1, ConvFacts a true g C k1 b1 (List.range a.group.group.order) H (l.assign k1 b1) kp := by
    intro k1 b1
    obtain ⟨opt, kp', hopt, hkp', f, _⟩ := (C53_assign (k1 := k1) (b1 := b1) hl).facts_last hf
    rw [hkp] at hkp'
    cases hkp'
    rw [hA', hD'] at f
    exact f
  have := transposed_exact (F := fun k1 b1 x => ((l.assign k1 b1).callPadded op x).2) (out := out) (before := before) (crop := crop)
    (n := n) hH facts (by
      intro k1 b1 B x hx
      obtain ⟨y, e1, e2, e3⟩ := callPadded_last (facts k1 b1) op hf hx hl.dims
      have hs : (l.assign k1 b1).transforms.padState = l.transforms.padState := rfl
      rw [hs, ← ho] at e2
      rw [hs, ← ho, ← hc, ← hb] at e3
      exact ⟨y, congrArg Prod.snd e1, e2, fun b p i o hb' hp hi ho' => e3 b p i o hb' hp hi ho'⟩) hv hC hF hh ((keeps_iff _ hh' _).1 hn)
  rw [← keeps_iff _ hh'] at this
  exact this

/-- C81: a transposed layer without dilation constructed with an `output_padding` below the strides, on a grid the group acts on,
whose padding layer adds `before` and `after` zeros and whose output is not empty, moves its output with its input for all elements
of its subgroup and all weights exactly if the following holds along every axis that the subgroup mirrors: equally many zeros are
added at both ends, the `output_padding` is zero with 'valid' and 'valid_equiv', and even and at most the size of the kernel with
'same' and 'same_equiv'. The stride does not matter, unlike without `output_padding` (C69). -/
theorem C81_exact [Semiring α] {a : ConvArgs α} {bt : Option Nat} {n : List Nat} {g : Option Nat} {C : Nat}
    {k0 b0 : List Nat → α} {H : List Nat} {l : GroupConv α} (hl : BuiltConv a true bt n g C k0 b0 H l)
    (hf : a.dataFormat = .channelsLast) (opt : PadOption) (hopt : formatPaddingOption a.padding = .ok opt)
    (hdil : a.dilation = List.replicate a.group.dim 1) (hn : a.group.Grid n) (hs : a.group.Grid a.strides) (hpos : 0 ∉ n)
    (v : α) (hv : a.activation v ≠ a.activation 0) (hC : 0 < C) (before after : List Nat) (hbl : before.length = a.group.dim)
    (hamt : ∀ i, i < a.group.dim → l.transforms.padState.amount (i + 1) = ((nth before i : Int), (nth after i : Int)))
    (op : List Nat) (hog : a.group.Grid op) (hop : ∀ i, i < a.group.dim → nth op i < nth a.strides i)
    (hne : ∀ i, i < a.group.dim → 0 < sizeWith opt (nth before i + nth n i + nth after i) (nth a.kernelSize i) (nth a.strides i) (nth op i)) :
    (∀ h k1 b1, h ∈ H → MovesOutput a.group H (List.range a.group.group.order) h (fun x => ((l.assign k1 b1).callPadded op x).2) n g C
      a.filters) ↔
    ∀ i : Fin a.group.dim, (∃ h ∈ H, a.group.motion h i i = -1) →
      nth before i = nth after i ∧ ((opt = .valid ∨ opt = .validEquiv) ∧ nth op i = 0 ∨
        (opt = .same ∨ opt = .sameEquiv) ∧ nth op i ≤ nth a.kernelSize i ∧ nth op i % 2 = 0) := by
  have S := a.group.sym
  obtain ⟨opt', kp, hopt', hkp, f, hst⟩ := hl.facts_last hf
  rw [hopt] at hopt'
  cases hopt'
  obtain ⟨sH, _, hH⟩ := parse_sub hl.elements
  have hone : ∀ i, i < a.group.dim → nth a.dilation i = 1 := fun i hi => by rw [hdil]; simp [nth, hi]
  have hspos : ∀ i, i < a.group.dim → 0 < nth a.strides i := fun i hi =>
    Nat.pos_of_ne_zero fun h => f.stridesPos (h ▸ nth_mem _ _ (by rw [f.stridesLen]; exact hi))
  have hkpos : ∀ i, i < a.group.dim → 0 < nth a.kernelSize i := fun i hi =>
    Nat.pos_of_ne_zero fun h => f.kernelPos (h ▸ nth_mem _ _ (by rw [f.kernelLen]; exact hi))
  have hnpos : ∀ i, i < a.group.dim → 0 < nth n i := fun i hi =>
    Nat.pos_of_ne_zero fun h => hpos (h ▸ nth_mem _ _ (by rw [hl.dims]; exact hi))
  have hdk : ∀ i, i < a.group.dim → dilated (nth a.kernelSize i) (nth a.dilation i) = nth a.kernelSize i := fun i hi => by
    rw [hone i hi]; have := hkpos i hi; simp [dilated]; omega
  have hd : a.group.Grid a.dilation := by
    apply a.group.grid_of (by rw [hdil]; simp)
    intro i j hi hj _
    rw [hone i hi, hone j hj]
  have hba : ∀ i, i < a.group.dim → nth before i = nth after i ∨ nth before i = nth after i + 1 := by
    intro i hi
    have h1 := (epadsT hl.dims f.kernelLen f.stridesLen f.stridesPos hst hi).1
    rw [hamt i hi] at h1
    simp only [Prod.mk.injEq] at h1
    omega
  have hlink : ∀ i j, i < a.group.dim → j < a.group.dim → nth n i = nth n j → nth a.strides i = nth a.strides j →
      nth a.kernelSize i = nth a.kernelSize j → nth before i = nth before j ∧ nth after i = nth after j := by
    intro i j hi hj l1 l2 l3
    have h1 := (epadsT hl.dims f.kernelLen f.stridesLen f.stridesPos hst hi).1
    have h2 := (epadsT hl.dims f.kernelLen f.stridesLen f.stridesPos hst hj).1
    rw [hamt i hi] at h1
    rw [hamt j hj, ← l1, ← l2, ← l3] at h2
    have := h1.trans h2.symm
    simp only [Prod.mk.injEq, Nat.cast_inj] at this
    exact this
  have key := fun h (hh : h ∈ H) => C81_contributions hl hf opt hopt v hv hC h hh
    ((keeps_iff _ (S.sub_lt hH hh) _).2 (hn.kept (S.sub_lt hH hh))) op before after _ _ hbl hamt rfl rfl
  generalize hout : ((List.range a.group.dim).map fun i => sizeWith opt (nth before i + nth n i + nth after i) (dilated (nth a.kernelSize i) (nth a.dilation i)) (nth a.strides i) (nth op i)) = out at key
  generalize hcrop : ((List.range a.group.dim).map fun i => cutWith opt (dilated (nth a.kernelSize i) (nth a.dilation i)) (nth op i)) = crop at key
  have hol : out.length = a.group.dim := by rw [← hout]; simp
  have hcl : crop.length = a.group.dim := by rw [← hcrop]; simp
  have hno : ∀ i, i < a.group.dim → nth out i = sizeWith opt (nth before i + nth n i + nth after i) (nth a.kernelSize i) (nth a.strides i) (nth op i) := by
    intro i hi
    rw [← hout, nth_map_range, if_pos hi, hdk i hi]
  have hnc : ∀ i, i < a.group.dim → nth crop i = cutWith opt (nth a.kernelSize i) (nth op i) := by
    intro i hi
    rw [← hcrop, nth_map_range, if_pos hi, hdk i hi]
  have hgeo : ∀ i, i < a.group.dim → (nth out i + 2 * nth crop i + nth a.strides i =
      (nth n i + 2 * nth before i) * nth a.strides i + nth a.kernelSize i ↔
      nth before i = nth after i ∧ ((opt = .valid ∨ opt = .validEquiv) ∧ nth op i = 0 ∨
        (opt = .same ∨ opt = .sameEquiv) ∧ nth op i ≤ nth a.kernelSize i ∧ nth op i % 2 = 0)) := by
    intro i hi
    rw [hno i hi, hnc i hi]
    exact mirrorW_iff (hspos i hi) (hnpos i hi) (hba i hi) (hop i hi)
  have hlinks : ∀ i j, i < a.group.dim → j < a.group.dim → (∀ u, a.group.Grid u → nth u i = nth u j) →
      nth before i = nth before j ∧ nth out i = nth out j ∧ nth crop i = nth crop j := by
    intro i j hi hj hu
    have l1 := hu _ hn
    have l2 := hu _ hs
    have l3 := hu _ f.grid
    have l4 := hu _ hog
    obtain ⟨h1, h2⟩ := hlink i j hi hj l1 l2 l3
    rw [hno i hi, hno j hj, hnc i hi, hnc j hj, h1, h2, l1, l2, l3, l4]
    exact ⟨rfl, rfl, rfl⟩
  have hbG : a.group.Grid before := a.group.grid_of hbl fun i j hi hj hu => (hlinks i j hi hj hu).1
  have hOG : a.group.Grid out := a.group.grid_of hol fun i j hi hj hu => (hlinks i j hi hj hu).2.1
  have hcG : a.group.Grid crop := a.group.grid_of hcl fun i j hi hj hu => (hlinks i j hi hj hu).2.2
  constructor
  · rintro hall ⟨i, hi⟩ ⟨h, hh, hneg⟩
    have hh' := S.sub_lt hH hh
    obtain ⟨_, hW⟩ := (key h hh).1 fun k1 b1 => hall h k1 b1 hh
    refine (hgeo i hi).1 ?_
    -- the first position of the input, the first offset with which it contributes, and the position it contributes to
    have hcK : ∀ j, j < a.group.dim → nth crop j < nth a.kernelSize j := by
      intro j hj
      have h1 := hkpos j hj
      have h2 := hspos j hj
      rw [hnc j hj]
      cases opt <;> simp only [cutWith] <;> omega
    have hn0 : ∀ j, nth (List.replicate a.group.dim 0) j = 0 := fun j => by rw [nth_replicate]; split <;> rfl
    have hp : Valid n (List.replicate a.group.dim 0) := by
      rw [valid_iff]
      refine ⟨by simp [hl.dims], fun j hj => ?_⟩
      rw [hl.dims] at hj
      rw [hn0]
      exact hnpos j hj
    obtain ⟨k, hk⟩ : ∃ k, k = (List.range a.group.dim).map fun j => nth crop j - nth before j * nth a.strides j := ⟨_, rfl⟩
    obtain ⟨q, hq⟩ : ∃ q, q = (List.range a.group.dim).map fun j => nth before j * nth a.strides j + nth k j - nth crop j := ⟨_, rfl⟩
    have nk : ∀ j, j < a.group.dim → nth k j = nth crop j - nth before j * nth a.strides j := fun j hj => by
      rw [hk, nth_map_range, if_pos hj]
    have nq : ∀ j, j < a.group.dim → nth q j = nth before j * nth a.strides j + nth k j - nth crop j := fun j hj => by
      rw [hq, nth_map_range, if_pos hj]
    have hkv : Valid a.kernelSize k := by
      rw [valid_iff]
      refine ⟨by rw [hk, f.kernelLen]; simp, fun j hj => ?_⟩
      rw [f.kernelLen] at hj
      rw [nk j hj]
      have := hcK j hj
      omega
    have hqv : Valid out q := by
      rw [valid_iff]
      refine ⟨by rw [hq, hol]; simp, fun j hj => ?_⟩
      rw [hol] at hj
      rw [nq j hj, nk j hj, hno j hj]
      have h4 := hnc j hj
      rw [h4]
      exact first_hit (hnpos j hj) (hkpos j hj) (hne j hj)
    obtain ⟨p', hp', ep⟩ := (hn.kept hh').surj hh' hp
    obtain ⟨k', hk', ek⟩ := (f.grid.kept hh').surj hh' hkv
    obtain ⟨q', hq', eq⟩ := (hOG.kept hh').surj hh' hqv
    have mp := Kept.moves hh' (hn.kept hh') hp'
    have mk := Kept.moves hh' (f.grid.kept hh') hk'
    have mq := Kept.moves hh' (hOG.kept hh') hq'
    rw [ep] at mp
    rw [ek] at mk
    rw [eq] at mq
    have hr : Hits before a.strides a.dilation crop (List.replicate a.group.dim 0) k q := by
      intro j hj
      rw [f.stridesLen] at hj
      rw [hn0, hone j hj, nq j hj, nk j hj, Nat.zero_add]
      generalize nth before j * nth a.strides j = t at *
      omega
    have hr' := (hW _ _ _ _ _ _ hp hp' hkv hk' hqv hq' mp mk mq).1 hr i (by rw [f.stridesLen]; exact hi)
    have hr0 := hr i (by rw [f.stridesLen]; exact hi)
    have m1 := moves_mirror hh' hneg mp
    have m2 := moves_mirror hh' hneg mk
    have m3 := moves_mirror hh' hneg mq
    simp only [hn0] at m1 m2 m3 hr0
    rw [hone i hi] at hr' hr0
    rw [← m1, ← m2, ← m3]
    have : (nth p' i + 0 + 1 + 2 * nth before i) * nth a.strides i =
      (nth p' i + nth before i) * nth a.strides i + (0 + nth before i) * nth a.strides i + nth a.strides i := by ring
    omega
  · intro hall h k1 b1 hh
    have hh' := S.sub_lt hH hh
    refine (key h hh).2 ⟨(keeps_iff _ hh' _).2 (hOG.kept hh'), ?_⟩ k1 b1
    refine (hitsMoved_iff hh' (hn.kept hh') (hOG.kept hh') (f.grid.kept hh')).2 fun p k q hp hk hq => ?_
    refine hits_pull (S.wf hh') f.stridesLen hl.dims hol f.kernelLen (hn.kept hh').2 (hOG.kept hh').2 (f.grid.kept hh').2 (hs.kept hh').2
      (hd.kept hh').2 (hbG.kept hh').2 (hcG.kept hh').2 ?_ hp hk hq
    intro i hi hneg
    have := (hgeo i hi).2 (hall ⟨i, hi⟩ (mirror_of_neg _ hH hh hi hneg))
    rw [this, hone i hi]
    have := hkpos i hi
    omega

/-- C81: without `output_padding` a transposed layer does what it does with an `output_padding` of the stride minus the extent of the
kernel ('valid', 'valid_equiv'; zero if the kernel is larger) or the stride minus one if the extent of the kernel is odd and the
stride if it is even ('same', 'same_equiv'). -/
theorem C81_default [Semiring α] {a : ConvArgs α} {bt : Option Nat} {n : List Nat} {g : Option Nat} {C : Nat}
    {k0 b0 : List Nat → α} {H : List Nat} {l : GroupConv α} (hl : BuiltConv a true bt n g C k0 b0 H l)
    (hf : a.dataFormat = .channelsLast) (opt : PadOption) (hopt : formatPaddingOption a.padding = .ok opt) (hpos : 0 ∉ n)
    (op : List Nat) (hop : ∀ i, i < a.group.dim → nth op i = if opt = .valid ∨ opt = .validEquiv then
      nth a.strides i - dilated (nth a.kernelSize i) (nth a.dilation i)
      else nth a.strides i - dilated (nth a.kernelSize i) (nth a.dilation i) % 2)
    (B : Nat) (x : Tensor α) (hx : x.shape = sigShape .channelsLast B n g C) :
    ∃ y y', l.call x = (l, .ok y) ∧ l.callPadded op x = (l, .ok y') ∧ y.Same y' := by
  obtain ⟨opt', kp, hopt', hkp, f, hst⟩ := hl.facts_last hf
  rw [hopt] at hopt'
  cases hopt'
  have hagree := padding_agree hopt hkp
  have hspos : ∀ i, i < a.group.dim → 0 < nth a.strides i := fun i hi =>
    Nat.pos_of_ne_zero fun h => f.stridesPos (h ▸ nth_mem _ _ (by rw [f.stridesLen]; exact hi))
  have hnpos : ∀ i, i < a.group.dim → 0 < nth n i := fun i hi =>
    Nat.pos_of_ne_zero fun h => hpos (h ▸ nth_mem _ _ (by rw [hl.dims]; exact hi))
  have hel := length_epads l.transforms.padState a.group.dim
  have hone : ∀ i, i < a.group.dim →
      transposeOutPadded kp (nth (grow n (epads l.transforms.padState a.group.dim)) i)
        (dilated (nth a.kernelSize i) (nth a.dilation i)) (nth a.strides i) (nth op i) =
      transposeOut kp (nth (grow n (epads l.transforms.padState a.group.dim)) i)
        (dilated (nth a.kernelSize i) (nth a.dilation i)) (nth a.strides i) := by
    intro i hi
    have h1 := hspos i hi
    have h2 := hnpos i hi
    rw [hop i hi, nth_grow (by rw [hl.dims]; exact hi) (by rw [hel, hl.dims]), hagree]
    exact default_padding (by omega) h1
  have hs : upSizesW kp op a.strides a.dilation a.kernelSize (grow n (epads l.transforms.padState a.group.dim)) =
      upSizes kp a.strides a.dilation a.kernelSize (grow n (epads l.transforms.padState a.group.dim)) := by
    unfold upSizesW upSizes
    apply List.map_congr_left
    intro i hi
    rw [hone i (by rw [← f.stridesLen]; exact List.mem_range.1 hi)]
  have hc : upCropW kp op a.strides a.dilation a.kernelSize (grow n (epads l.transforms.padState a.group.dim)) =
      upCrop kp a.strides a.dilation a.kernelSize (grow n (epads l.transforms.padState a.group.dim)) := by
    unfold upCropW upCrop
    apply List.map_congr_left
    intro i hi
    rw [hone i (by rw [← f.stridesLen]; exact List.mem_range.1 hi)]
  obtain ⟨y, e1, e2, e3⟩ := convT_call_last f hf hx hl.dims
  obtain ⟨y', e1', e2', e3'⟩ := callPadded_last f op hf hx hl.dims
  rw [hs] at e2' e3'
  rw [hc] at e3'
  refine ⟨y, y', e1, e1', e2.trans e2'.symm, fun idx hv => ?_⟩
  rw [e2] at hv
  obtain ⟨b, q, i, o, rfl, hb, hq, hi, ho⟩ : ∃ b q i o, idx = b :: q ++ [i, o] ∧ b < B ∧ Valid _ q ∧
      i < (actingOf a.group true H).length ∧ o < a.filters := layer_index hv
  rw [e3 b q i o hb hq hi ho, e3' b q i o hb hq hi ho]
  rfl

/-- a transposed layer with kernels of size 3 and strides 2 -/
def paddedTranspose (padding : String) : ConvArgs Int :=
  { group := .P4, subgroup := some "", kernelSize := [3, 3], strides := [2, 2], padding := padding,
    allowNonEquivariance := false, dataFormat := .channelsLast, filters := 1, dilation := [1, 1], useBias := false,
    activation := id }

/-- The full statement is false: a layer accepted with allow_non_equivariance=False that is equivariant without `output_padding` need
not be equivariant with it. -/
theorem C81_violation : ∃ l, BuiltConv (paddedTranspose "valid_equiv") true none [5, 5] none 1 (fun _ => 1) (fun _ => 0) [0, 1, 2, 3] l ∧
    (∀ h k1 b1, h ∈ [0, 1, 2, 3] →
      MovesOutput .P4 [0, 1, 2, 3] (List.range 4) h (fun x => ((l.assign k1 b1).call x).2) [5, 5] none 1 1) ∧
    ¬ ∀ h k1 b1, h ∈ [0, 1, 2, 3] →
      MovesOutput .P4 [0, 1, 2, 3] (List.range 4) h (fun x => ((l.assign k1 b1).callPadded [1, 1] x).2) [5, 5] none 1 1 := by
  have hl : BuiltConv (paddedTranspose "valid_equiv") true none [5, 5] none 1 (fun _ => 1) (fun _ => 0) [0, 1, 2, 3] _ :=
    ⟨⟨_, rfl, rfl⟩, rfl, rfl⟩
  refine ⟨_, hl, ?_, fun hall => ?_⟩
  · refine (C69_accepted hl rfl rfl .validEquiv rfl rfl ⟨rfl, rfl⟩ ⟨rfl, rfl⟩ (by decide) 1 (by decide) (by decide)).2 ?_
    intro i _
    have h2 : TransposeOk .validEquiv 5 3 2 1 := (C69_kernel_three 5 2 (by decide)).1.2 (by decide)
    match i with
    | ⟨0, _⟩ => exact h2
    | ⟨1, _⟩ => exact h2
  · have := (C81_exact hl rfl .validEquiv rfl rfl ⟨rfl, rfl⟩ ⟨rfl, rfl⟩ (by decide) 1 (by decide) (by decide) [0, 0] [0, 0] rfl
      (by decide) [1, 1] ⟨rfl, rfl⟩ (by decide) (by decide)).1 hall ⟨0, by decide⟩ P4_mirrors
    exact absurd this (by decide)

/-- Conversely `output_padding` can make a layer equivariant that is accepted but not equivariant without it: strides 5 with kernels
of size 3, as in `C69_stride_five`, with an `output_padding` of 2. -/
theorem C81_stride_five : ∃ l, BuiltConv (testTranspose 5) true none [5, 5] none 1 (fun _ => 1) (fun _ => 0) [0, 1, 2, 3] l ∧
    (¬ ∀ h k1 b1, h ∈ [0, 1, 2, 3] →
      MovesOutput .P4 [0, 1, 2, 3] (List.range 4) h (fun x => ((l.assign k1 b1).call x).2) [5, 5] none 1 1) ∧
    ∀ h k1 b1, h ∈ [0, 1, 2, 3] →
      MovesOutput .P4 [0, 1, 2, 3] (List.range 4) h (fun x => ((l.assign k1 b1).callPadded [2, 2] x).2) [5, 5] none 1 1 := by
  have hl : BuiltConv (testTranspose 5) true none [5, 5] none 1 (fun _ => 1) (fun _ => 0) [0, 1, 2, 3] _ := ⟨⟨_, rfl, rfl⟩, rfl, rfl⟩
  refine ⟨_, hl, fun hall => ?_, ?_⟩
  · have := (C69_accepted hl rfl rfl .sameEquiv rfl rfl ⟨rfl, rfl⟩ ⟨rfl, rfl⟩ (by decide) 1 (by decide) (by decide)).1 hall ⟨0, by decide⟩
      P4_mirrors
    have h5 := (C69_kernel_three 5 5 (by decide)).2.1 this
    omega
  · refine (C81_exact hl rfl .sameEquiv rfl rfl ⟨rfl, rfl⟩ ⟨rfl, rfl⟩ (by decide) 1 (by decide) (by decide) [4, 4] [4, 4] rfl
      (by decide) [2, 2] ⟨rfl, rfl⟩ (by decide) (by decide)).2 ?_
    intro i _
    match i with
    | ⟨0, _⟩ => exact ⟨rfl, Or.inr ⟨Or.inr rfl, show 2 ≤ 3 by decide, show 2 % 2 = 0 by decide⟩⟩
    | ⟨1, _⟩ => exact ⟨rfl, Or.inr ⟨Or.inr rfl, show 2 ≤ 3 by decide, show 2 % 2 = 0 by decide⟩⟩

/-- The hypotheses of `C81_default` are met by this layer with an `output_padding` of 4. -/
example : ∃ l, BuiltConv (testTranspose 5) true none [5, 5] none 1 (fun _ => 1) (fun _ => 0) [0, 1, 2, 3] l ∧
    ∀ B (x : Tensor Int), x.shape = sigShape .channelsLast B [5, 5] none 1 →
      ∃ y y', l.call x = (l, .ok y) ∧ l.callPadded [4, 4] x = (l, .ok y') ∧ y.Same y' := by
  have hl : BuiltConv (testTranspose 5) true none [5, 5] none 1 (fun _ => 1) (fun _ => 0) [0, 1, 2, 3] _ := ⟨⟨_, rfl, rfl⟩, rfl, rfl⟩
  exact ⟨_, hl, fun B x hx => C81_default hl rfl .sameEquiv rfl (by decide) [4, 4] (by decide) B x hx⟩

end GroCo
