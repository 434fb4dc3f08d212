import Verif.TransposeEquiv
import Verif.Props.Equivariance

/-
Properties C31, C32 and C41: GroupConv2DTranspose/3DTranspose. The vocabulary is in LayerSpec.
-/

namespace GroCo
open Tensor

variable {α : Type}

/-! ### C31: equivariance -/

/-- C31, the part that holds: a transposed channels_last layer that builds with allow_non_equivariance=False commutes with
the action of its subgroup, if its configuration is symmetric (`TransposeOk`: stride at most the kernel size, and even
cropping for 'same') along every axis. The input is on the grid or on the subgroup, the output on the whole group. The
configurations named in the README are the next theorem. Missing: stride 1 with 'same_equiv' and an even kernel, which is
accepted and not equivariant, see the counterexample below; and channels_first. -/
theorem C31_transpose_equivariant_partial [Semiring α] {a : ConvArgs α} {bt : Option Nat} {n : List Nat} {g : Option Nat}
    {C : Nat} {k0 b0 : List Nat → α} {H : List Nat} {l : GroupConv α} (hl : BuiltConv a true bt n g C k0 b0 H l)
    (hf : a.dataFormat = .channelsLast) (hallow : a.allowNonEquivariance = false)
    (hs : a.group.Grid a.strides) (hd : a.group.Grid a.dilation) (hn : a.group.Grid n)
    (hok : ∀ opt, formatPaddingOption a.padding = .ok opt → ∀ i, i < a.group.dim →
      TransposeOk opt (nth n i) (nth a.kernelSize i) (nth a.strides i) (nth a.dilation i))
    (x : Tensor α) (B : Nat) (hx : x.shape = sigShape .channelsLast B n g C) (y : Tensor α) (hy : (l.call x).2 = .ok y) :
    Commutes a.group.group a.group.dim .channelsLast a.subgroup H.length (g.map fun _ => a.subgroup.getD "") (some "")
      (fun x => (l.call x).2) x y := by
  obtain ⟨opt, kp, hopt, hkp, f, hst⟩ := hl.facts_last hf
  exact convT_commutes hl hf hallow hopt hn hs hd (hok opt hopt) hx hy

/-- C31 for the configurations named in the README: strides 1 (with 'valid', 'valid_equiv' or odd kernel sizes), and
strides equal to the kernel size with 'valid' or 'valid_equiv'. -/
theorem C31_documented_configurations_partial [Semiring α] {a : ConvArgs α} {bt : Option Nat} {n : List Nat} {g : Option Nat}
    {C : Nat} {k0 b0 : List Nat → α} {H : List Nat} {l : GroupConv α} (hl : BuiltConv a true bt n g C k0 b0 H l)
    (hf : a.dataFormat = .channelsLast) (hallow : a.allowNonEquivariance = false)
    (hdil : a.dilation = List.replicate a.group.dim 1) (hn : a.group.Grid n) (opt : PadOption)
    (hopt : formatPaddingOption a.padding = .ok opt)
    (hcfg : a.strides = List.replicate a.group.dim 1 ∧ ((opt = .valid ∨ opt = .validEquiv) ∨
        ∀ i, i < a.group.dim → nth a.kernelSize i % 2 = 1) ∨
      a.strides = a.kernelSize ∧ (opt = .valid ∨ opt = .validEquiv))
    (x : Tensor α) (B : Nat) (hx : x.shape = sigShape .channelsLast B n g C) (y : Tensor α) (hy : (l.call x).2 = .ok y) :
    Commutes a.group.group a.group.dim .channelsLast a.subgroup H.length (g.map fun _ => a.subgroup.getD "") (some "")
      (fun x => (l.call x).2) x y := by
  obtain ⟨opt', kp, hopt', hkp, f, hst⟩ := hl.facts_last hf
  have hone : a.group.Grid (List.replicate a.group.dim 1) := by
    apply a.group.grid_of (by simp)
    intro i j hi hj _
    simp [nth, hi, hj]
  have hr : ∀ i, i < a.group.dim → nth (List.replicate a.group.dim 1) i = 1 := by
    intro i hi
    simp [nth, hi]
  refine convT_commutes hl hf hallow hopt hn ?_ (hdil ▸ hone) ?_ hx hy
  · rcases hcfg with ⟨h, _⟩ | ⟨h, _⟩
    · rw [h]; exact hone
    · rw [h]; exact f.grid
  · intro i hi
    have hk : 0 < nth a.kernelSize i :=
      Nat.pos_of_ne_zero fun h => f.kernelPos (h ▸ nth_mem _ _ (by rw [f.kernelLen]; exact hi))
    rw [hdil]
    rcases hcfg with ⟨h, h'⟩ | ⟨h, h'⟩
    · rw [h]
      refine ⟨by rw [hr i hi]; omega, Or.inl (hr i hi), ?_⟩
      rcases h' with (h' | h') | h'
      · exact Or.inl h'
      · exact Or.inr (Or.inl h')
      · have := h' i hi
        refine Or.inr (Or.inr ?_)
        rw [hr i hi]
        unfold sameTotal
        rw [Nat.mod_one, if_pos rfl]
        omega
    · rw [h]
      refine ⟨Nat.le_refl _, Or.inl (hr i hi), ?_⟩
      rcases h' with h' | h'
      · exact Or.inl h'
      · exact Or.inr (Or.inl h')

/-- a transposed P4 layer from signals on P2 with strides equal to the kernel size -/
def exampleTranspose : ConvArgs Int :=
  { group := .P4, subgroup := some "P2", kernelSize := [2, 2], strides := [2, 2], padding := "valid",
    allowNonEquivariance := false, dataFormat := .channelsLast, filters := 2, dilation := [1, 1], useBias := true,
    activation := id }

set_option maxRecDepth 8000 in
/-- hypotheses of C31 are met, with and without group axis -/
example : (∃ l y, BuiltConv exampleTranspose true none [4, 4] none 3 (fun _ => 1) (fun _ => 0) [0, 2] l ∧
      (l.call ⟨[1, 4, 4, 3], fun _ => 1⟩).2 = .ok y) ∧
    (∃ l y, BuiltConv exampleTranspose true none [4, 4] (some 2) 3 (fun _ => 1) (fun _ => 0) [0, 2] l ∧
      (l.call ⟨[1, 4, 4, 2, 3], fun _ => 1⟩).2 = .ok y) ∧
    exampleTranspose.dataFormat = .channelsLast ∧ exampleTranspose.allowNonEquivariance = false ∧
    exampleTranspose.dilation = List.replicate exampleTranspose.group.dim 1 ∧
    exampleTranspose.group.Grid exampleTranspose.strides ∧ exampleTranspose.group.Grid [4, 4] ∧
    formatPaddingOption exampleTranspose.padding = .ok .valid ∧
    exampleTranspose.strides = exampleTranspose.kernelSize ∧ TransposeOk .valid 4 2 2 1 :=
  ⟨⟨_, _, ⟨⟨_, rfl, rfl⟩, rfl, rfl⟩, rfl⟩, ⟨_, _, ⟨⟨_, rfl, rfl⟩, rfl, rfl⟩, rfl⟩, rfl, rfl, rfl, ⟨rfl, rfl⟩, ⟨rfl, rfl⟩,
    by decide, rfl, ⟨by decide, by decide, by decide⟩⟩

/-- C31 as stated, for layers with strides 1: whatever the padding option, a layer that builds is equivariant. -/
def TransposeStrideOneEquivariant : Prop :=
  ∀ (a : ConvArgs Int) (bt : Option Nat) (n : List Nat) (g : Option Nat) (C : Nat) (k0 b0 : List Nat → Int) (H : List Nat)
    (l : GroupConv Int), BuiltConv a true bt n g C k0 b0 H l → a.allowNonEquivariance = false → a.group.Grid n →
    a.dataFormat = .channelsLast → a.strides = List.replicate a.group.dim 1 → a.dilation = List.replicate a.group.dim 1 →
  ∀ (x : Tensor Int) (B : Nat), x.shape = sigShape a.dataFormat B n g C → ∀ y, (l.call x).2 = .ok y →
    Commutes a.group.group a.group.dim a.dataFormat a.subgroup H.length (g.map fun _ => a.subgroup.getD "") (some "")
      (fun x => (l.call x).2) x y

/-- a transposed P2 layer with strides 1 and an even kernel -/
def evenTranspose : ConvArgs Int :=
  { group := .P2, subgroup := some "", kernelSize := [2, 2], strides := [1, 1], padding := "same_equiv",
    allowNonEquivariance := false, dataFormat := .channelsLast, filters := 1, dilation := [1, 1], useBias := false,
    activation := id }

/-- C31 fails: an even kernel with strides 1 and 'same_equiv' is accepted. The padding layer adds one zero before every
axis, as if the convolution were not transposed. -/
theorem C31_violation : ¬ TransposeStrideOneEquivariant := by
  intro h
  have := (h evenTranspose none [3, 3] none 1 (fun _ => 1) (fun _ => 0) [0, 1] _ ⟨⟨_, rfl, rfl⟩, rfl, rfl⟩ rfl ⟨rfl, trivial⟩ rfl
    rfl rfl ⟨[1, 3, 3, 1], fun i => if i = [0, 0, 0, 0] then 1 else 0⟩ 1 rfl _ rfl).not_differ rfl (i := 1) (by decide)
    [0, 2, 2, 0, 0]
  revert this
  decide +kernel

/-! ### C32: the kernel -/

/-- C32 as stated, for a layer whose stored kernel has shape `K ++ [F, channels]`: the kernel `w` used for element `i` at
offset `k` is the stored kernel at the offset `k'` that the element moves to `k`; for inputs on the subgroup `H` with `C`
channels each, at the subgroup element `i⁻¹ h`, and zero if this is not in the subgroup. -/
def ActsOnKernel [Zero α] (G : GroupName) (K : List Nat) (H : List Nat) (g : Option Nat) (C F : Nat) (k0 : List Nat → α)
    (w : Tensor α) : Prop :=
  ∀ k i o c, Valid K k → i < G.group.order → o < F → c < C → ∃ k', Valid K k' ∧
    MovesTo (G.motion i) (List.range G.dim) K k' k ∧
    (g = none → w.get (k ++ [i * F + o, c]) = k0 (k' ++ [o, c])) ∧
    (g ≠ none → ∀ j, j < H.length → w.get (k ++ [i * F + o, j * C + c]) =
      let e := G.group.comp (nth G.group.inverses i) (nth H j)
      if e ∈ H then k0 (k' ++ [o, H.idxOf e * C + c]) else 0)

/-- C32, what is computed: the layer acts on the stored kernel, but reads it in the wrong order (filter `o` and channel `c`
are looked up at position `c * filters + o` of the stored kernel, whose channels vary fastest), and uses the very first
stored weight instead of zero outside the subgroup. Missing: that it uses the kernel itself and zero, see the
counterexamples below. -/
theorem C32_transposed_kernel_partial {a : ConvArgs α} {bt : Option Nat} {n : List Nat} {g : Option Nat} {C : Nat}
    {k0 b0 : List Nat → α} {H : List Nat} {l : GroupConv α} (hl : BuiltConv a true bt n g C k0 b0 H l) :
    ∃ kernel w, l.kernel = some kernel ∧ kernel.shape = a.kernelSize ++ [a.filters, g.getD 1 * C] ∧ kernel.get = k0 ∧
      l.transforms.transformKernel kernel = .ok w ∧
      w.shape = a.kernelSize ++ [a.group.group.order * a.filters, g.getD 1 * C] ∧
      ∀ k i o c, Valid a.kernelSize k → i < a.group.group.order → o < a.filters → c < C → ∃ k', Valid a.kernelSize k' ∧
        MovesTo (a.group.motion i) (List.range a.group.dim) a.kernelSize k' k ∧
        (g = none → w.get (k ++ [i * a.filters + o, c]) = k0 (k' ++ [(c * a.filters + o) / C, (c * a.filters + o) % C])) ∧
        (∀ g', g = some g' → g' = H.length ∧ ∀ j, j < g' → w.get (k ++ [i * a.filters + o, j * C + c]) =
          let e := a.group.group.comp (nth a.group.group.inverses i) (nth H j)
          let u := (H.idxOf e * C + c) * a.filters + o
          if e ∈ H then k0 (k' ++ [u / (g' * C), u % (g' * C)]) else k0 (List.replicate (a.group.dim + 2) 0)) := by
  obtain ⟨kp, f⟩ := hl.facts
  have hA' : actingOf a.group true H = List.range a.group.group.order := rfl
  have hD' : domainOf a.group true H = H := rfl
  rw [hA', hD'] at f
  have S := a.group.sym
  have hch : g.getD 1 * C = chanO g C := by cases g <;> simp [chanO]
  obtain ⟨w, ew, hw, hwg⟩ := f.transformed
  simp only [if_true, List.length_range] at hw hwg
  rw [hch]
  refine ⟨_, w, f.kernel, by simp [kShape], rfl, ew, hw, ?_⟩
  intro k i o c hk hi ho hc
  have hv := S.valid_back f.grid hi hk
  refine ⟨back a.group.els a.kernelSize i k, hv, back_moves _ f.grid hi hk, ?_, ?_⟩
  · rintro rfl
    have := hwg k c i o hk hc hi ho
    rw [this, nth_range, if_pos hi]
    simp only [weightOf, wIdx, Option.isSome_none, Bool.false_eq_true, if_false, liftIdx, kShape, if_true, chanO]
    rw [unravel_swap hv hc ho]
  · rintro g' rfl
    have hg' := f.size g' rfl
    refine ⟨hg', ?_⟩
    subst hg'
    intro j hj
    have := hwg k (j * C + c) i o hk (mul_add_lt hj hc) hi ho
    rw [this, nth_range, if_pos hi]
    simp only [weightOf, wIdx, Option.isSome_some, if_true, groupIdx, kShape, chanO, div_of hc, mod_of hc]
    split
    · rename_i he
      rw [unravel_swap hv (mul_add_lt (List.idxOf_lt_length_iff.2 he) hc) ho]
    · rw [unravel_zero]
      simp [f.kernelLen]

/-- C32 for layers with a single filter or a single (merged) channel, on the whole group or on the grid: the kernel used is
the stored kernel acted on by the group. -/
theorem C32_single_channel_partial [Zero α] {a : ConvArgs α} {bt : Option Nat} {n : List Nat} {g : Option Nat} {C : Nat}
    {k0 b0 : List Nat → α} {H : List Nat} {l : GroupConv α} (hl : BuiltConv a true bt n g C k0 b0 H l)
    (h1 : a.filters = 1 ∨ g.getD 1 * C = 1) (h2 : g = none ∨ ∀ i, i < a.group.group.order → i ∈ H) :
    ∃ kernel w, l.kernel = some kernel ∧ kernel.shape = a.kernelSize ++ [a.filters, g.getD 1 * C] ∧ kernel.get = k0 ∧
      l.transforms.transformKernel kernel = .ok w ∧ ActsOnKernel a.group a.kernelSize H g C a.filters k0 w := by
  obtain ⟨kernel, w, e1, e2, e3, e4, _, hw⟩ := C32_transposed_kernel_partial hl
  refine ⟨kernel, w, e1, e2, e3, e4, ?_⟩
  intro k i o c hk hi ho hc
  obtain ⟨k', hv, hm, hn, hg⟩ := hw k i o c hk hi ho hc
  refine ⟨k', hv, hm, ?_, ?_⟩
  · rintro rfl
    rw [hn rfl]
    simp only [Option.getD_none, Nat.one_mul] at h1
    rcases h1 with h1 | h1
    · rw [h1] at ho ⊢
      obtain rfl : o = 0 := by omega
      rw [Nat.mul_one, Nat.add_zero, Nat.div_eq_of_lt hc, Nat.mod_eq_of_lt hc]
    · subst h1
      obtain rfl : c = 0 := by omega
      simp [Nat.mod_one]
  · intro hne j hj
    obtain ⟨g', rfl⟩ := Option.ne_none_iff_exists'.1 hne
    obtain ⟨rfl, hg⟩ := hg g' rfl
    rw [hg j hj]
    have hall := h2.resolve_left hne
    have L := a.group.sym.tab.laws
    have hHj : nth H j < a.group.group.order := by
      obtain ⟨s, _, hs⟩ := parse_sub hl.elements
      exact a.group.sym.sub_nth_lt hs hj
    have hmem : a.group.group.comp (nth a.group.group.inverses i) (nth H j) ∈ H :=
      hall _ (L.closed _ _ (a.group.sym.inv_lt hi) hHj)
    simp only [if_pos hmem]
    have hlt := List.idxOf_lt_length_iff.2 hmem
    have hu := mul_add_lt hlt hc
    simp only [Option.getD_some] at h1
    rcases h1 with h1 | h1
    · rw [h1] at ho ⊢
      obtain rfl : o = 0 := by omega
      rw [Nat.mul_one, Nat.add_zero, Nat.div_eq_of_lt hu, Nat.mod_eq_of_lt hu]
    · rw [h1] at hu ⊢
      have hz : H.idxOf (a.group.group.comp (nth a.group.group.inverses i) (nth H j)) * C + c = 0 := by omega
      rw [hz]
      simp [Nat.mod_one]

/-- C32 as stated -/
def KernelIsActed : Prop :=
  ∀ (a : ConvArgs Int) (bt : Option Nat) (n : List Nat) (g : Option Nat) (C : Nat) (k0 b0 : List Nat → Int) (H : List Nat)
    (l : GroupConv Int), BuiltConv a true bt n g C k0 b0 H l →
  ∀ kernel w, l.kernel = some kernel → l.transforms.transformKernel kernel = .ok w →
    ActsOnKernel a.group a.kernelSize H g C a.filters k0 w

/-- a transposed P1 layer, which should be an ordinary transposed convolution -/
def plainTranspose : ConvArgs Int :=
  { group := .P1, subgroup := some "", kernelSize := [1, 1], strides := [1, 1], padding := "valid",
    allowNonEquivariance := false, dataFormat := .channelsLast, filters := 2, dilation := [1, 1], useBias := false,
    activation := id }

set_option maxRecDepth 8000 in
/-- hypotheses of C32 are met: the layer above, and one with a single filter on the whole group -/
example : (∃ l, BuiltConv plainTranspose true none [1, 1] none 2 (fun _ => 1) (fun _ => 0) [0] l) ∧
    (∃ l, BuiltConv evenTranspose true none [3, 3] (some 2) 3 (fun _ => 1) (fun _ => 0) [0, 1] l) ∧
    evenTranspose.filters = 1 ∧ ∀ i, i < evenTranspose.group.group.order → i ∈ [0, 1] :=
  ⟨⟨_, ⟨_, rfl, rfl⟩, rfl, rfl⟩, ⟨_, ⟨_, rfl, rfl⟩, rfl, rfl⟩, rfl, by decide⟩

/-- C32 fails: with two channels and two filters the kernel used at the identity is not the stored kernel, filters and
channels are confused. -/
theorem C32_violation_order : ¬ KernelIsActed := by
  intro h
  have hb : ∃ l, BuiltConv plainTranspose true none [1, 1] none 2 (fun i => if i = [0, 0, 0, 1] then 1 else 0) (fun _ => 0) [0] l :=
    ⟨_, ⟨_, rfl, rfl⟩, rfl, rfl⟩
  obtain ⟨l, hl⟩ := hb
  obtain ⟨kernel, w, e1, _, _, e2, _, hw⟩ := C32_transposed_kernel_partial hl
  have hv : Valid [1, 1] [0, 0] := ⟨by decide, by decide, trivial⟩
  have hz : ∀ k', Valid [1, 1] k' → k' = [0, 0] := by
    intro k' hk
    match k', hk with
    | [i, j], hk =>
      have h3 : i < 1 := hk.1
      have h4 : j < 1 := hk.2.1
      obtain rfl : i = 0 := by omega
      obtain rfl : j = 0 := by omega
      rfl
  obtain ⟨k1, hk1, _, h1, _⟩ := h _ _ _ _ _ _ _ _ l hl kernel w e1 e2 [0, 0] 0 0 1 hv (by decide) (by decide) (by decide)
  obtain ⟨k2, hk2, _, h2, _⟩ := hw [0, 0] 0 0 1 hv (by decide) (by decide) (by decide)
  have h3 := (h1 rfl).symm.trans (h2 rfl)
  rw [hz k1 hk1, hz k2 hk2] at h3
  revert h3
  decide

/-- so a P1 layer is not the ordinary transposed convolution with the stored kernel -/
theorem C32_violation_identity : ∃ (k0 : List Nat → Int) (l : GroupConv Int) (x y z : Tensor Int),
    BuiltConv plainTranspose true none [1, 1] none 2 k0 (fun _ => 0) [0] l ∧ x.shape = [1, 1, 1, 2] ∧
    (l.call x).2 = .ok y ∧
    baseConvTransposeCall .channelsLast .valid [1, 1] [1, 1] 2 id ⟨[1, 1, 2, 2], k0⟩ none x = .ok z ∧
    ¬ (slice y 3 0).Same z := by
  refine ⟨fun i => if i = [0, 0, 0, 1] then 1 else 0, _, ⟨[1, 1, 1, 2], fun i => if i = [0, 0, 0, 0] then 1 else 0⟩, _, _,
    ⟨⟨_, rfl, rfl⟩, rfl, rfl⟩, rfl, rfl, rfl, ?_⟩
  intro h
  have := h.2 [0, 0, 0, 1] ⟨by decide, by decide, by decide, by decide, trivial⟩
  revert this
  decide +kernel

/-- a transposed P2 layer from signals on the trivial subgroup, with one channel and one filter -/
def upTranspose : ConvArgs Int :=
  { group := .P2, subgroup := some "P1", kernelSize := [1, 1], strides := [1, 1], padding := "valid",
    allowNonEquivariance := false, dataFormat := .channelsLast, filters := 1, dilation := [1, 1], useBias := false,
    activation := id }

/-- C32 fails: outside the subgroup the kernel is not zero. -/
theorem C32_violation_zero : ¬ KernelIsActed := by
  intro h
  have hb : ∃ l, BuiltConv upTranspose true none [1, 1] (some 1) 1 (fun _ => 1) (fun _ => 0) [0] l :=
    ⟨_, ⟨_, rfl, rfl⟩, rfl, rfl⟩
  obtain ⟨l, hl⟩ := hb
  obtain ⟨kernel, w, e1, _, _, e2, _, hw⟩ := C32_transposed_kernel_partial hl
  have hv : Valid [1, 1] [0, 0] := ⟨by decide, by decide, trivial⟩
  obtain ⟨k1, _, _, _, h1⟩ := h _ _ _ _ _ _ _ _ l hl kernel w e1 e2 [0, 0] 1 0 0 hv (by decide) (by decide) (by decide)
  obtain ⟨k2, _, _, _, h2⟩ := hw [0, 0] 1 0 0 hv (by decide) (by decide) (by decide)
  have h3 := (h1 (by simp) 0 (by decide)).symm.trans ((h2 1 rfl).2 0 (by decide))
  have hn : upTranspose.group.group.comp (nth upTranspose.group.group.inverses 1) (nth [0] 0) ∉ [0] := by decide
  simp only [if_neg hn] at h3
  exact absurd h3 (by decide)

/-! ### C41: the computation -/

/-- C41: a built transposed channels_last layer called on a signal with grid sizes `m` always returns, and computes the
transposed convolution with the transformed kernel `w` (see C32): every entry of the input, with `before` and `after`
zeros around it (the amounts of the padding layer, see C16 to C20), is multiplied with the kernel and added to the output
positions it reaches. With 'valid' padding the output has all the reached positions, and `stride - kernel` more if the
stride is larger than the kernel; with 'same' padding it has `stride` times the size of the padded input and an equal
number of positions is cut off both ends, the smaller half at the start. -/
theorem C41_transposed_convolution [Semiring α] {a : ConvArgs α} {bt : Option Nat} {n : List Nat} {g : Option Nat} {C : Nat}
    {k0 b0 : List Nat → α} {H : List Nat} {l : GroupConv α} (hl : BuiltConv a true bt n g C k0 b0 H l)
    (hf : a.dataFormat = .channelsLast) (x : Tensor α) (B : Nat) (m : List Nat) (hm : m.length = a.group.dim)
    (hx : x.shape = sigShape .channelsLast B m g C) :
    ∃ (opt : PadOption) (before after crop : List Nat) (kernel w y : Tensor α),
      formatPaddingOption a.padding = .ok opt ∧ l.kernel = some kernel ∧ l.transforms.transformKernel kernel = .ok w ∧
      (∀ i, i < a.group.dim → l.transforms.padState.amount (i + 1) = ((nth before i : Int), (nth after i : Int))) ∧
      (∀ i, i < a.group.dim → nth crop i = match opt with
        | .valid | .validEquiv => 0
        | .same | .sameEquiv => (dilated (nth a.kernelSize i) (nth a.dilation i) - nth a.strides i) / 2) ∧
      (l.call x).2 = .ok y ∧
      y.shape = sigShape .channelsLast B ((List.range a.group.dim).map fun i =>
        (nth before i + nth m i + nth after i) * nth a.strides i + match opt with
          | .valid | .validEquiv => dilated (nth a.kernelSize i) (nth a.dilation i) - nth a.strides i
          | .same | .sameEquiv => 0) (some a.group.group.order) a.filters ∧
      ∀ (b : Nat) (q : List Nat) (i o : Nat), Valid y.shape (b :: q ++ [i, o]) →
        let at' := fun k r => ((indices m).map fun p =>
          if Hits before a.strides a.dilation crop p k q then x.get (b :: p ++ r) else 0).sum
        (g = none → y.get (b :: q ++ [i, o]) = a.activation (
          ((indices a.kernelSize).map fun k => ((List.range C).map fun c =>
            at' k [c] * w.get (k ++ [i * a.filters + o, c])).sum).sum + if a.useBias then b0 [o] else 0)) ∧
        (∀ g', g = some g' → g' = H.length ∧ y.get (b :: q ++ [i, o]) = a.activation (
          ((indices a.kernelSize).map fun k => ((List.range g').map fun j => ((List.range C).map fun c =>
            at' k [j, c] * w.get (k ++ [i * a.filters + o, j * C + c])).sum).sum).sum + if a.useBias then b0 [o] else 0)) := by
  obtain ⟨opt, kp, hopt, hkp, f, hst⟩ := hl.facts_last hf
  have hA' : actingOf a.group true H = List.range a.group.group.order := rfl
  have hD' : domainOf a.group true H = H := rfl
  rw [hA', hD'] at f
  have hagree := padding_agree hopt hkp
  obtain ⟨y, ey, hys, hyg⟩ := convT_call_last f hf hx hm
  obtain ⟨w, ew, hw, hwg⟩ := f.transformed
  simp only [if_true] at hw hwg
  have hel := length_epads l.transforms.padState a.group.dim
  have hsl := f.stridesLen
  have hgrow : ∀ i, i < a.group.dim → nth (grow m (epads l.transforms.padState a.group.dim)) i =
      nth (befores (epads l.transforms.padState a.group.dim)) i + nth m i +
        nth ((epads l.transforms.padState a.group.dim).map Prod.snd) i := by
    intro i hi
    rw [nth_grow (by rw [hm]; exact hi) (by rw [hel, hm]), nth_befores]
    congr 1
    unfold nth
    simp only [List.getD_eq_getElem?_getD, List.getElem?_map]
    cases (epads l.transforms.padState a.group.dim)[i]? <;> rfl
  refine ⟨opt, befores (epads l.transforms.padState a.group.dim), (epads l.transforms.padState a.group.dim).map Prod.snd,
    upCrop kp a.strides a.dilation a.kernelSize (grow m (epads l.transforms.padState a.group.dim)), _, w, y, hopt, f.kernel, ew,
    ?_, ?_, by rw [ey], ?_, ?_⟩
  · intro i hi
    have h1 : ∀ (l : List (Nat × Nat)), nth (l.map Prod.snd) i = (l.getD i (0, 0)).2 := by
      intro l
      unfold nth
      simp only [List.getD_eq_getElem?_getD, List.getElem?_map]
      cases l[i]? <;> rfl
    have hnn := build_nonneg hl.dims f.kernelLen f.stridesLen f.stridesPos hst hi
    rw [amount_pads _ _ _ f.onGrid] at hnn ⊢
    rw [nth_befores, h1, nth_epads hi]
    rw [Int.toNat_of_nonneg hnn.1, Int.toNat_of_nonneg hnn.2]
  · intro i hi
    rw [upCrop, nth_map_range, if_pos (by rw [hsl]; exact hi), hagree]
    cases opt <;> rfl
  · rw [hys]
    simp only [sigShape, upSizes, hsl, List.length_range]
    refine congrArg (B :: · ++ _) ?_
    apply List.map_congr_left
    intro i hi
    rw [List.mem_range] at hi
    rw [hgrow i hi, hagree]
    cases opt <;> rfl
  · intro b q i o hv
    intro at'
    rw [hys] at hv
    have hpl : (b :: q).length = (B :: upSizes kp a.strides a.dilation a.kernelSize
        (grow m (epads l.transforms.padState a.group.dim))).length := by
      have := hv.length
      simp only [List.length_append, List.length_cons, List.length_nil] at this
      simp only [List.length_cons]
      omega
    obtain ⟨⟨hb, hq⟩, hi, ho, _⟩ := (valid_append _ _ _ _ hpl).1 hv
    have key := hyg b q i o hb hq hi ho
    constructor
    · rintro rfl
      rw [key]
      refine congrArg a.activation (congrArg (· + _) ?_)
      apply sum_congr
      intro k hk
      rw [mem_indices] at hk
      apply sum_congr
      intro c hc
      rw [List.mem_range] at hc
      rw [hwg k c i o hk hc hi ho]
      rfl
    · rintro g' rfl
      have hg' := f.size g' rfl
      refine ⟨hg', ?_⟩
      rw [key]
      refine congrArg a.activation (congrArg (· + _) ?_)
      apply sum_congr
      intro k hk
      rw [mem_indices] at hk
      rw [show chanO (some g') C = g' * C from rfl, sum_range_mul]
      apply sum_congr
      intro j hj
      apply sum_congr
      intro c hc
      rw [List.mem_range] at hj hc
      rw [hwg k (j * C + c) i o hk (mul_add_lt hj hc) hi ho]
      simp only [restIdx, div_of hc, mod_of hc]
      rfl

/-- hypotheses of C41 are met -/
example : ∃ l, BuiltConv exampleTranspose true none [4, 4] (some 2) 3 (fun _ => 1) (fun _ => 0) [0, 2] l :=
  ⟨_, ⟨_, rfl, rfl⟩, rfl, rfl⟩

end GroCo
