import Verif.Props.ExactTranspose
import Verif.Props.FirstFormat

/-
Property C69 with dilation.
-/

namespace GroCo
open Tensor

variable {α : Type}

/-- C69 with dilation: a transposed layer on a grid the group acts on, with no size smaller than the dilation rate, whose padding layer
adds `before` and `after` zeros, moves its output with its input for all elements of its subgroup and all weights exactly if the
following holds along every axis that the subgroup mirrors: the stride is at most the extent of the dilated kernel, equally many zeros
are added at both ends and, with 'same' or 'same_equiv', the extent and the stride are both even or both odd. -/
theorem C69_dilated [Semiring α] {a : ConvArgs α} {bt : Option Nat} {n : List Nat} {g : Option Nat} {C : Nat}
    {k0 b0 : List Nat → α} {H : List Nat} {l : GroupConv α} (hl : BuiltConv a true bt n g C k0 b0 H l)
    (hf : a.dataFormat = .channelsLast) (opt : PadOption) (hopt : formatPaddingOption a.padding = .ok opt)
    (hd : a.group.Grid a.dilation) (hn : a.group.Grid n) (hs : a.group.Grid a.strides) (hpos : 0 ∉ n)
    (hlarge : ∀ i, i < a.group.dim → nth a.dilation i ≤ nth n i)
    (v : α) (hv : a.activation v ≠ a.activation 0) (hC : 0 < C) (before after : List Nat) (hbl : before.length = a.group.dim)
    (hamt : ∀ i, i < a.group.dim → l.transforms.padState.amount (i + 1) = ((nth before i : Int), (nth after i : Int))) :
    (∀ h k1 b1, h ∈ H → MovesOutput a.group H (List.range a.group.group.order) h (fun x => ((l.assign k1 b1).call x).2) n g C
      a.filters) ↔
    ∀ i : Fin a.group.dim, (∃ h ∈ H, a.group.motion h i i = -1) →
      nth a.strides i ≤ dilated (nth a.kernelSize i) (nth a.dilation i) ∧ nth before i = nth after i ∧
      (opt = .valid ∨ opt = .validEquiv ∨ (dilated (nth a.kernelSize i) (nth a.dilation i) - nth a.strides i) % 2 = 0) := by
  have S := a.group.sym
  obtain ⟨opt', kp, hopt', hkp, f, hst⟩ := hl.facts_last hf
  rw [hopt] at hopt'
  cases hopt'
  obtain ⟨sH, _, hH⟩ := parse_sub hl.elements
  obtain ⟨l0, hi0, -⟩ := hl.built
  have hrpos : ∀ i, i < a.group.dim → 0 < nth a.dilation i := fun i hi =>
    Nat.pos_of_ne_zero fun h => (conv_init_checks hi0).2.1 (h ▸ nth_mem _ _ (by rw [f.dilationLen]; exact hi))
  have hspos : ∀ i, i < a.group.dim → 0 < nth a.strides i := fun i hi =>
    Nat.pos_of_ne_zero fun h => f.stridesPos (h ▸ nth_mem _ _ (by rw [f.stridesLen]; exact hi))
  have hkpos : ∀ i, i < a.group.dim → 0 < nth a.kernelSize i := fun i hi =>
    Nat.pos_of_ne_zero fun h => f.kernelPos (h ▸ nth_mem _ _ (by rw [f.kernelLen]; exact hi))
  have hnpos : ∀ i, i < a.group.dim → 0 < nth n i := fun i hi =>
    Nat.pos_of_ne_zero fun h => hpos (h ▸ nth_mem _ _ (by rw [hl.dims]; exact hi))
  have hdpos : ∀ i, i < a.group.dim → 0 < dilated (nth a.kernelSize i) (nth a.dilation i) := fun i hi => by
    have := hkpos i hi
    simp [dilated]
  have hba : ∀ i, i < a.group.dim → nth before i = nth after i ∨ nth before i = nth after i + 1 := by
    intro i hi
    have h1 := (epadsT hl.dims f.kernelLen f.stridesLen f.stridesPos hst hi).1
    rw [hamt i hi] at h1
    simp only [Prod.mk.injEq] at h1
    omega
  have hlink : ∀ i j, i < a.group.dim → j < a.group.dim → nth n i = nth n j → nth a.strides i = nth a.strides j →
      nth a.kernelSize i = nth a.kernelSize j → nth before i = nth before j ∧ nth after i = nth after j := by
    intro i j hi hj l1 l2 l3
    have h1 := (epadsT hl.dims f.kernelLen f.stridesLen f.stridesPos hst hi).1
    have h2 := (epadsT hl.dims f.kernelLen f.stridesLen f.stridesPos hst hj).1
    rw [hamt i hi] at h1
    rw [hamt j hj, ← l1, ← l2, ← l3] at h2
    have := h1.trans h2.symm
    simp only [Prod.mk.injEq, Nat.cast_inj] at this
    exact this
  have key := fun h (hh : h ∈ H) => C69_contributions hl hf opt hopt v hv hC h hh
    ((keeps_iff _ (S.sub_lt hH hh) _).2 (hn.kept (S.sub_lt hH hh))) before after _ _ hbl hamt rfl rfl
  generalize hout : ((List.range a.group.dim).map fun i => (nth before i + nth n i + nth after i) * nth a.strides i + excess opt (dilated (nth a.kernelSize i) (nth a.dilation i)) (nth a.strides i)) = out at key
  generalize hcrop : ((List.range a.group.dim).map fun i => cutOff opt (dilated (nth a.kernelSize i) (nth a.dilation i)) (nth a.strides i)) = crop at key
  have hol : out.length = a.group.dim := by rw [← hout]; simp
  have hcl : crop.length = a.group.dim := by rw [← hcrop]; simp
  have hno : ∀ i, i < a.group.dim → nth out i = (nth before i + nth n i + nth after i) * nth a.strides i + excess opt (dilated (nth a.kernelSize i) (nth a.dilation i)) (nth a.strides i) := by
    intro i hi
    rw [← hout, nth_map_range, if_pos hi]
  have hnc : ∀ i, i < a.group.dim → nth crop i = cutOff opt (dilated (nth a.kernelSize i) (nth a.dilation i)) (nth a.strides i) := by
    intro i hi
    rw [← hcrop, nth_map_range, if_pos hi]
  have hgeo : ∀ i, i < a.group.dim → (nth out i + 2 * nth crop i + nth a.strides i =
      (nth n i + 2 * nth before i) * nth a.strides i + dilated (nth a.kernelSize i) (nth a.dilation i) ↔
      nth a.strides i ≤ dilated (nth a.kernelSize i) (nth a.dilation i) ∧ nth before i = nth after i ∧
        (opt = .valid ∨ opt = .validEquiv ∨ (dilated (nth a.kernelSize i) (nth a.dilation i) - nth a.strides i) % 2 = 0)) := by
    intro i hi
    rw [hno i hi, hnc i hi]
    exact mirrorT_iff (hspos i hi) (hdpos i hi) (hba i hi)
  have hlinks : ∀ i j, i < a.group.dim → j < a.group.dim → (∀ u, a.group.Grid u → nth u i = nth u j) →
      nth before i = nth before j ∧ nth out i = nth out j ∧ nth crop i = nth crop j := by
    intro i j hi hj hu
    have l1 := hu _ hn
    have l2 := hu _ hs
    have l3 := hu _ f.grid
    have l4 := hu _ hd
    obtain ⟨h1, h2⟩ := hlink i j hi hj l1 l2 l3
    rw [hno i hi, hno j hj, hnc i hi, hnc j hj, h1, h2, l1, l2, l3, l4]
    exact ⟨rfl, rfl, rfl⟩
  have hbG : a.group.Grid before := a.group.grid_of hbl fun i j hi hj hu => (hlinks i j hi hj hu).1
  have hOG : a.group.Grid out := a.group.grid_of hol fun i j hi hj hu => (hlinks i j hi hj hu).2.1
  have hcG : a.group.Grid crop := a.group.grid_of hcl fun i j hi hj hu => (hlinks i j hi hj hu).2.2
  constructor
  · rintro hall ⟨i, hi⟩ ⟨h, hh, hneg⟩
    have hh' := S.sub_lt hH hh
    obtain ⟨_, hW⟩ := (key h hh).1 fun k1 b1 => hall h k1 b1 hh
    refine (hgeo i hi).1 ?_
    -- the first position of the input, the first offset with which it contributes, and the position it contributes to
    have hcK : ∀ j, j < a.group.dim → (nth crop j - nth before j * nth a.strides j + nth a.dilation j - 1) / nth a.dilation j <
        nth a.kernelSize j := by
      intro j hj
      have h1 := hkpos j hj
      have h2 := hspos j hj
      have h3 := hrpos j hj
      have h4 : nth crop j ≤ (nth a.kernelSize j - 1) * nth a.dilation j := by
        rw [hnc j hj]
        cases opt <;> simp only [cutOff, dilated] <;> omega
      rw [Nat.div_lt_iff_lt_mul h3]
      have h5 : nth a.kernelSize j * nth a.dilation j = (nth a.kernelSize j - 1) * nth a.dilation j + nth a.dilation j := by
        conv_lhs => rw [← Nat.sub_add_cancel h1, Nat.add_mul, Nat.one_mul]
      omega
    have hn0 : ∀ j, nth (List.replicate a.group.dim 0) j = 0 := fun j => by rw [nth_replicate]; split <;> rfl
    have hp : Valid n (List.replicate a.group.dim 0) := by
      rw [valid_iff]
      refine ⟨by simp [hl.dims], fun j hj => ?_⟩
      rw [hl.dims] at hj
      rw [hn0]
      exact hnpos j hj
    obtain ⟨k, hk⟩ : ∃ k, k = (List.range a.group.dim).map fun j => (nth crop j - nth before j * nth a.strides j + nth a.dilation j - 1) / nth a.dilation j := ⟨_, rfl⟩
    obtain ⟨q, hq⟩ : ∃ q, q = (List.range a.group.dim).map fun j => nth before j * nth a.strides j + nth k j * nth a.dilation j - nth crop j := ⟨_, rfl⟩
    have nk : ∀ j, j < a.group.dim → nth k j = (nth crop j - nth before j * nth a.strides j + nth a.dilation j - 1) / nth a.dilation j := fun j hj => by
      rw [hk, nth_map_range, if_pos hj]
    have nq : ∀ j, j < a.group.dim → nth q j = nth before j * nth a.strides j + nth k j * nth a.dilation j - nth crop j := fun j hj => by
      rw [hq, nth_map_range, if_pos hj]
    have hceil : ∀ j, j < a.group.dim → nth crop j ≤ nth before j * nth a.strides j + nth k j * nth a.dilation j ∧
        (nth k j * nth a.dilation j < nth crop j - nth before j * nth a.strides j + nth a.dilation j) := by
      intro j hj
      have h3 := hrpos j hj
      rw [nk j hj]
      have h4 := Nat.div_add_mod (nth crop j - nth before j * nth a.strides j + nth a.dilation j - 1) (nth a.dilation j)
      have h5 := Nat.mod_lt (nth crop j - nth before j * nth a.strides j + nth a.dilation j - 1) h3
      rw [Nat.mul_comm] at h4
      omega
    have hkv : Valid a.kernelSize k := by
      rw [valid_iff]
      refine ⟨by rw [hk, f.kernelLen]; simp, fun j hj => ?_⟩
      rw [f.kernelLen] at hj
      rw [nk j hj]
      have := hcK j hj
      omega
    have hqv : Valid out q := by
      rw [valid_iff]
      refine ⟨by rw [hq, hol]; simp, fun j hj => ?_⟩
      rw [hol] at hj
      rw [nq j hj, hno j hj]
      obtain ⟨h1, h2⟩ := hceil j hj
      have h3 : (nth before j + nth n j + nth after j) * nth a.strides j =
        nth before j * nth a.strides j + nth n j * nth a.strides j + nth after j * nth a.strides j := by ring
      have h4 : nth n j ≤ nth n j * nth a.strides j := Nat.le_mul_of_pos_right _ (hspos j hj)
      have h5 := hlarge j hj
      have h6 := hrpos j hj
      rw [h3]
      omega
    obtain ⟨p', hp', ep⟩ := (hn.kept hh').surj hh' hp
    obtain ⟨k', hk', ek⟩ := (f.grid.kept hh').surj hh' hkv
    obtain ⟨q', hq', eq⟩ := (hOG.kept hh').surj hh' hqv
    have mp := Kept.moves hh' (hn.kept hh') hp'
    have mk := Kept.moves hh' (f.grid.kept hh') hk'
    have mq := Kept.moves hh' (hOG.kept hh') hq'
    rw [ep] at mp
    rw [ek] at mk
    rw [eq] at mq
    have hr : Hits before a.strides a.dilation crop (List.replicate a.group.dim 0) k q := by
      intro j hj
      rw [f.stridesLen] at hj
      obtain ⟨h1, h2⟩ := hceil j hj
      rw [hn0, nq j hj, Nat.zero_add]
      omega
    have hr' := (hW _ _ _ _ _ _ hp hp' hkv hk' hqv hq' mp mk mq).1 hr i (by rw [f.stridesLen]; exact hi)
    have hr0 := hr i (by rw [f.stridesLen]; exact hi)
    have m1 := moves_mirror hh' hneg mp
    have m2 := moves_mirror hh' hneg mk
    have m3 := moves_mirror hh' hneg mq
    simp only [hn0] at m1 m2 m3 hr0
    have m4 : dilated (nth a.kernelSize i) (nth a.dilation i) = nth k' i * nth a.dilation i + nth k i * nth a.dilation i + 1 := by
      rw [← m2, dilated, Nat.add_sub_cancel, Nat.add_mul]
    rw [← m1, m4, ← m3]
    have : (nth p' i + 0 + 1 + 2 * nth before i) * nth a.strides i =
      (nth p' i + nth before i) * nth a.strides i + (0 + nth before i) * nth a.strides i + nth a.strides i := by ring
    omega
  · intro hall h k1 b1 hh
    have hh' := S.sub_lt hH hh
    refine (key h hh).2 ⟨(keeps_iff _ hh' _).2 (hOG.kept hh'), ?_⟩ k1 b1
    refine (hitsMoved_iff hh' (hn.kept hh') (hOG.kept hh') (f.grid.kept hh')).2 fun p k q hp hk hq => ?_
    refine hits_pull (S.wf hh') f.stridesLen hl.dims hol f.kernelLen (hn.kept hh').2 (hOG.kept hh').2 (f.grid.kept hh').2 (hs.kept hh').2
      (hd.kept hh').2 (hbG.kept hh').2 (hcG.kept hh').2 ?_ hp hk hq
    intro i hi hneg
    have := (hgeo i hi).2 (hall ⟨i, hi⟩ (mirror_of_neg _ hH hh hi hneg))
    rw [this, dilated]
    omega

/-- a transposed P4 layer with dilation -/
def dilatedTranspose : ConvArgs Int :=
  { group := .P4, subgroup := some "", kernelSize := [3, 3], strides := [1, 1], padding := "same_equiv",
    allowNonEquivariance := false, dataFormat := .channelsLast, filters := 1, dilation := [2, 2], useBias := false,
    activation := id }

set_option maxRecDepth 8000 in
/-- hypotheses are met, and the layer is equivariant for all weights -/
example : ∃ l, BuiltConv dilatedTranspose true none [5, 5] none 1 (fun _ => 1) (fun _ => 0) [0, 1, 2, 3] l ∧
    ∀ h k1 b1, h ∈ [0, 1, 2, 3] →
      MovesOutput .P4 [0, 1, 2, 3] (List.range 4) h (fun x => ((l.assign k1 b1).call x).2) [5, 5] none 1 1 := by
  obtain ⟨l, hl, hp⟩ : ∃ l, BuiltConv dilatedTranspose true none [5, 5] none 1 (fun _ => 1) (fun _ => 0) [0, 1, 2, 3] l ∧
    l.transforms.padState = ⟨false, []⟩ := ⟨_, ⟨⟨_, rfl, rfl⟩, rfl, rfl⟩, rfl⟩
  refine ⟨l, hl, (C69_dilated hl rfl .sameEquiv (by decide) ⟨rfl, rfl⟩ ⟨rfl, rfl⟩ ⟨rfl, rfl⟩ (by decide) (by decide) 1 (by decide)
    (by decide) [0, 0] [0, 0] rfl ?_).2 ?_⟩
  · rw [hp]
    decide
  · intro i _
    revert i
    decide

/-- a transposed P2 layer with two offsets that are three apart -/
def sparseTranspose : ConvArgs Int :=
  { group := .P2, subgroup := some "", kernelSize := [2, 2], strides := [1, 1], padding := "same",
    allowNonEquivariance := true, dataFormat := .channelsLast, filters := 1, dilation := [3, 3], useBias := false,
    activation := id }

set_option maxRecDepth 8000 in
/-- On images smaller than the dilation rate the condition is not necessary: here nothing of the input reaches the output, although the
extent 4 of the kernel is even and the stride 1 is odd. -/
theorem C69_small_image : ∃ l, BuiltConv sparseTranspose true none [1, 1] none 1 (fun _ => 1) (fun _ => 0) [0, 1] l ∧
    (∀ h k1 b1, h ∈ [0, 1] → MovesOutput .P2 [0, 1] (List.range 2) h (fun x => ((l.assign k1 b1).call x).2) [1, 1] none 1 1) ∧
    (dilated 2 3 - 1) % 2 ≠ 0 := by
  obtain ⟨l, hl, hp⟩ : ∃ l, BuiltConv sparseTranspose true none [1, 1] none 1 (fun _ => 1) (fun _ => 0) [0, 1] l ∧
    l.transforms.padState = ⟨false, []⟩ := ⟨_, ⟨⟨_, rfl, rfl⟩, rfl, rfl⟩, rfl⟩
  refine ⟨l, hl, fun h k1 b1 hh => ?_, by decide⟩
  have hg : GroupName.P2.Grid [1, 1] := ⟨rfl, trivial⟩
  have hlt : h < GroupName.P2.group.order := by
    have : h = 0 ∨ h = 1 := by simpa using hh
    rcases this with rfl | rfl <;> decide
  have hk := (keeps_iff .P2 hlt _).2 (hg.kept hlt)
  refine (C69_contributions hl rfl .same (by decide) 1 (by decide) (by decide) h hh hk [0, 0] [0, 0] [1, 1] [1, 1] rfl ?_ (by decide)
    (by decide)).2 ⟨hk, ?_⟩ k1 b1
  · rw [hp]
    decide
  · intro p p' k k' q q' hp hp' _ _ hq hq' _ _ _
    have key : ∀ p k q, Valid [1, 1] p → Valid [1, 1] q → ¬ Hits [0, 0] [1, 1] [3, 3] [1, 1] p k q := by
      intro p k q hp hq hh
      have h0 := hh 0 (by decide)
      match p, q, hp, hq with
      | p0 :: _, q0 :: _, hp, hq =>
        have h1 : p0 < 1 := hp.1
        have h2 : q0 < 1 := hq.1
        simp only [nth, List.getD_cons_zero] at h0
        omega
    exact ⟨fun h => absurd h (key _ _ _ hp hq), fun h => absurd h (key _ _ _ hp' hq')⟩

/-- C69 with dilation for channels_first: the criterion of `C69_dilated` for channels_first layers that pad nothing themselves. -/
theorem C69_dilated_channels_first [Semiring α] {a : ConvArgs α} {bt : Option Nat} {n : List Nat} {g : Option Nat} {C : Nat}
    {k0 b0 : List Nat → α} {H : List Nat} {l : GroupConv α} (hl : BuiltConv a true bt n g C k0 b0 H l)
    (hf : a.dataFormat = .channelsFirst) (hu : Unpadded l.transforms) (opt : PadOption)
    (hopt : formatPaddingOption a.padding = .ok opt)
    (hd : a.group.Grid a.dilation) (hn : a.group.Grid n) (hs : a.group.Grid a.strides) (hpos : 0 ∉ n)
    (hlarge : ∀ i, i < a.group.dim → nth a.dilation i ≤ nth n i)
    (v : α) (hv : a.activation v ≠ a.activation 0) (hC : 0 < C) :
    (∀ h k1 b1, h ∈ H → MovesOutputFirst a.group H (List.range a.group.group.order) h (fun x => ((l.assign k1 b1).call x).2) n g C
      a.filters) ↔
    ∀ i : Fin a.group.dim, (∃ h ∈ H, a.group.motion h i i = -1) →
      nth a.strides i ≤ dilated (nth a.kernelSize i) (nth a.dilation i) ∧
      (opt = .valid ∨ opt = .validEquiv ∨ (dilated (nth a.kernelSize i) (nth a.dilation i) - nth a.strides i) % 2 = 0) := by
  obtain ⟨l1, hl1, hu1, hsame⟩ := C30_plain_transposed hl hf hu opt hopt
  have hgd : ∀ g', g = some g' → g' = H.length := by
    obtain ⟨_, _, _, _, f, _⟩ := hl.facts_first hf
    intro g' hg
    exact f.size g' hg
  have hz : ∀ i, nth (List.replicate a.group.dim 0) i = 0 := fun i => by
    simp [nth, List.getD_eq_getElem?_getD, List.getElem?_replicate]; split <;> rfl
  have key := C69_dilated hl1 rfl opt.plain ((accepted_iff _ _ _).2 (plain_accepted opt)).1 hd hn hs hpos hlarge v hv hC
    (List.replicate a.group.dim 0) (List.replicate a.group.dim 0) (by simp [ConvArgs.plainLast]) (fun i hi => by
      rw [hz]; unfold Unpadded at hu1; simp [PadState.amount, hu1])
  have hfm : ∀ h k1 b1, MovesOutput a.group H (List.range a.group.group.order) h (fun x => ((l1.assign k1 b1).call x).2) n g C
      a.filters ↔ MovesOutputFirst a.group H (List.range a.group.group.order) h (fun x => ((l.assign k1 b1).call x).2) n g C
      a.filters := fun h k1 b1 => movesOutput_formats hgd (fun B x x' hx => by
        rw [List.length_range]; exact hsame k1 b1 B n x x' hl.dims hx)
  refine Iff.trans ⟨fun h e k1 b1 he => (hfm e k1 b1).2 (h e k1 b1 he), fun h e k1 b1 he => (hfm e k1 b1).1 (h e k1 b1 he)⟩
    (key.trans ?_)
  refine forall_congr' fun i => forall_congr' fun _ => ?_
  rw [hz]
  have hop : ∀ P : Prop, (opt.plain = .valid ∨ opt.plain = .validEquiv ∨ P) ↔ (opt = .valid ∨ opt = .validEquiv ∨ P) := by
    intro P; cases opt <;> simp [PadOption.plain]
  exact ⟨fun ⟨h1, _, h3⟩ => ⟨h1, (hop _).1 h3⟩, fun ⟨h1, h3⟩ => ⟨h1, rfl, (hop _).2 h3⟩⟩

set_option maxRecDepth 8000 in
/-- hypotheses are met, and the layer is equivariant for all weights -/
example : ∃ l, BuiltConv { dilatedTranspose with dataFormat := .channelsFirst, allowNonEquivariance := true } true none [5, 5] none 1
      (fun _ => 1) (fun _ => 0) [0, 1, 2, 3] l ∧
    ∀ h k1 b1, h ∈ [0, 1, 2, 3] →
      MovesOutputFirst .P4 [0, 1, 2, 3] (List.range 4) h (fun x => ((l.assign k1 b1).call x).2) [5, 5] none 1 1 := by
  obtain ⟨l, hl, hp⟩ : ∃ l, BuiltConv { dilatedTranspose with dataFormat := .channelsFirst, allowNonEquivariance := true } true none
      [5, 5] none 1 (fun _ => 1) (fun _ => 0) [0, 1, 2, 3] l ∧ Unpadded l.transforms := ⟨_, ⟨⟨_, rfl, rfl⟩, rfl, rfl⟩, rfl⟩
  refine ⟨l, hl, (C69_dilated_channels_first hl rfl hp .sameEquiv (by decide) ⟨rfl, rfl⟩ ⟨rfl, rfl⟩ ⟨rfl, rfl⟩ (by decide)
    (by decide) 1 (by decide) (by decide)).2 ?_⟩
  intro i _
  revert i
  decide

end GroCo
