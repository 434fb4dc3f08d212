import Verif.CompleteLemmas
import Verif.NegativeLemmas
import Verif.Props.FormatLayers
import Verif.Props.Training

/-
Property C67: the linear layers compute exactly the equivariant convolutions, each for exactly one choice of the weights.
`PlainConv` (MovedSpec.lean) is an ordinary convolution with a separate weight for every pair of group elements.
-/

namespace GroCo
open Tensor

variable {α : Type}

/-- C67: if an ordinary unpadded convolution with one output for each element of the subgroup commutes with the elements of
the subgroup on images of some one size `m`, then there are weights with which the layer computes it, on images of every size.
The size `m` must be one on which the library can be equivariant: equal sizes on the axes that the group exchanges, sampled
symmetrically by the strides. -/
theorem C67_every_equivariant_convolution [Semiring α] {a : ConvArgs α} {bt : Option Nat} {n : List Nat} {g : Option Nat} {C : Nat}
    {k0 b0 : List Nat → α} {H : List Nat} {l : GroupConv α} (hl : BuiltConv a false bt n g C k0 b0 H l)
    (hf : a.dataFormat = .channelsLast) (hact : a.activation = id) (hb : a.useBias = false) (hpad : a.padding = "valid")
    (hs : a.group.Grid a.strides) (hd : a.group.Grid a.dilation) (hd0 : 0 ∉ a.dilation)
    (m : List Nat) (hm : a.group.Grid m) (hfit : ∀ i, i < a.group.dim → dilated (nth a.kernelSize i) (nth a.dilation i) ≤ nth m i ∧
      (nth m i - dilated (nth a.kernelSize i) (nth a.dilation i)) % nth a.strides i = 0)
    (W : List Nat → α) (hW : PlainCommutes a.group H a.kernelSize a.strides a.dilation W a.filters m g C) :
    ∃ k1, (∃ l1, BuiltConv a false bt n g C k1 b0 H l1) ∧
      ∀ (bt' : Option Nat) (n' : List Nat) (b1 : List Nat → α) (l' : GroupConv α), BuiltConv a false bt' n' g C k1 b1 H l' →
      ∀ (B : Nat) (m' : List Nat) (x y : Tensor α), m'.length = a.group.dim →
        (∀ i, i < a.group.dim → dilated (nth a.kernelSize i) (nth a.dilation i) ≤ nth m' i) →
        x.shape = sigShape .channelsLast B m' g C → PlainConv a.kernelSize a.strides a.dilation W H.length a.filters B m' g C x y →
        ∃ z, (l'.call x).2 = .ok z ∧ z.Same y := by
  have S := a.group.sym
  obtain ⟨opt, kp, h1, h2, f, hst⟩ := hl.facts_last hf
  obtain ⟨s, _, hH⟩ := parse_sub hl.elements
  have hg : ∀ g', g = some g' → g' = a.group.group.order := fun g' e => by
    have := f.size g' e
    simpa [domainOf] using this
  have hfits : ∀ m' : List Nat, (∀ i, i < a.group.dim → dilated (nth a.kernelSize i) (nth a.dilation i) ≤ nth m' i) →
      FitsIn a.strides a.dilation a.kernelSize m' := by
    intro m' h i hi
    exact ⟨Nat.pos_of_ne_zero fun h => f.stridesPos (h ▸ nth_mem _ _ hi),
      Nat.pos_of_ne_zero fun h => f.kernelPos (h ▸ nth_mem _ _ (by rw [f.kernelLen, ← f.stridesLen]; exact hi)),
      h i (by rw [← f.stridesLen]; exact hi)⟩
  have hdp : ∀ i, i < a.group.dim → 0 < nth a.dilation i := fun i hi =>
    Nat.pos_of_ne_zero fun h => hd0 (h ▸ nth_mem _ _ (by rw [f.dilationLen]; exact hi))
  refine ⟨fun idx => W (idx.take a.group.dim ++ restIdx g C (nth idx a.group.dim) ++ [H.idxOf 0, nth idx (a.group.dim + 1)]),
    ⟨_, C53_assign hl⟩, fun bt' n' b1 l' hl' B m' x y hm' hfit' hx hy => ?_⟩
  obtain ⟨z, hz, hzs, hzg⟩ := conv_valid hl' hf hact hb hpad hm' (hfits m' hfit') hx
  obtain ⟨hys, hyg⟩ := hy.value (by rw [hm', f.stridesLen])
  refine ⟨z, hz, ?_, ?_⟩
  · rw [hzs, hys]
  intro idx hv
  rw [hzs] at hv
  obtain ⟨bp, r, rfl, hbp, hr⟩ := valid_append_split hv
  match bp, hbp, r, hr with
  | b :: p, ⟨hb', hp⟩, [i, o], ⟨hi, ho, _⟩ =>
    rw [hzg b p i o hb' hp hi ho, hyg b p i o hb' hp hi ho]
    apply sum_congr
    intro k hk
    rw [mem_indices] at hk
    apply sum_congr
    intro c hc
    rw [List.mem_range] at hc
    have hh := nth_mem H i hi
    have hh' := S.sub_lt hH hh
    rw [weight_false hg f.grid hh' hk hc ho]
    have hcov := plain_covariant hH hh (hs.kept hh') (f.grid.kept hh') (hd.kept hh') (hm.kept hh') hdp
      (hfits m fun i hi => (hfit i hi).1) (fun i hi => (hfit i hi).2) (F := a.filters) hg
      (fun x x' y y' hx hmv hy hy' => hW _ x x' y y' _ hh hx hmv hy hy' (by
        rw [(hy.value (by rw [S.okLen m hm, f.stridesLen])).1]; simp [sigShape])) hk hc hi ho
    have ht : turn a.group.group.toGroupData H (nth H i) i = H.idxOf 0 := by
      unfold turn
      rw [S.tab.laws.inv_mul _ hh']
    have hkl : (back a.group.els a.kernelSize (nth H i) k).length = a.group.dim := by
      rw [((f.grid.kept hh').valid hh' hk).length, f.kernelLen]
    rw [hcov, ht]
    simp [nth, ← hkl]

/-- C67, the converse: what a linear layer that pads nothing computes is an ordinary convolution, and this convolution commutes
with the elements of the subgroup on all sizes on which the library can be equivariant. -/
theorem C67_layers_are_equivariant_convolutions [Semiring α] {a : ConvArgs α} {bt : Option Nat} {n : List Nat} {g : Option Nat}
    {C : Nat} {k0 b0 : List Nat → α} {H : List Nat} {l : GroupConv α} (hl : BuiltConv a false bt n g C k0 b0 H l)
    (hf : a.dataFormat = .channelsLast) (hact : a.activation = id) (hb : a.useBias = false) (hpad : a.padding = "valid")
    (hs : a.group.Grid a.strides) (hd : a.group.Grid a.dilation) :
    ∃ W, (∀ (B : Nat) (m : List Nat) (x y : Tensor α), m.length = a.group.dim → x.shape = sigShape .channelsLast B m g C →
        (l.call x).2 = .ok y → PlainConv a.kernelSize a.strides a.dilation W H.length a.filters B m g C x y) ∧
      ∀ m, a.group.Grid m → (∀ i, i < a.group.dim → dilated (nth a.kernelSize i) (nth a.dilation i) ≤ nth m i ∧
        (nth m i - dilated (nth a.kernelSize i) (nth a.dilation i)) % nth a.strides i = 0) →
        PlainCommutes a.group H a.kernelSize a.strides a.dilation W a.filters m g C := by
  have S := a.group.sym
  obtain ⟨opt, kp, h1, h2, f, hst⟩ := hl.facts_last hf
  obtain ⟨s, _, hH⟩ := parse_sub hl.elements
  have hg : ∀ g', g = some g' → g' = a.group.group.order := fun g' e => by
    have := f.size g' e
    simpa [domainOf] using this
  refine ⟨layerWeights a g C k0 H, fun B m x y hm hx hy => ?_, fun m hm hfit => ?_⟩
  · have hfit := conv_valid_fits hl hf hpad hm hx hy
    obtain ⟨z, hz, hzs, hzg⟩ := conv_valid hl hf hact hb hpad hm hfit hx
    rw [hz] at hy
    cases hy
    refine ⟨by rw [hzs, hm, ← f.stridesLen]; rfl, fun b p i o hv => ?_⟩
    rw [hzs] at hv
    obtain ⟨⟨hb', hp⟩, hi, ho⟩ := valid_two.1 hv
    rw [hzg b p i o hb' hp hi ho, hm, ← f.stridesLen]
    apply sum_congr
    intro k hk
    rw [mem_indices] at hk
    rw [sum_rest]
    apply sum_congr
    intro c hc
    rw [layerWeights_eq (by rw [hk.length, f.kernelLen])]
    rfl
  · intro h x x' y y' out hh hx hmv hy hy' hout
    have hh' := S.sub_lt hH hh
    have hml : m.length = a.strides.length := by rw [S.okLen m hm, f.stridesLen]
    have hfits : FitsIn a.strides a.dilation a.kernelSize m := by
      intro i hi
      exact ⟨Nat.pos_of_ne_zero fun h => f.stridesPos (h ▸ nth_mem _ _ hi),
        Nat.pos_of_ne_zero fun h => f.kernelPos (h ▸ nth_mem _ _ (by rw [f.kernelLen, ← f.stridesLen]; exact hi)),
        (hfit i (by rw [← f.stridesLen]; exact hi)).1⟩
    have he : out = outSizes a.strides a.dilation a.kernelSize m := by
      rw [(hy.value hml).1] at hout
      simp only [sigShape, List.cons_append, List.cons.injEq, true_and] at hout
      exact (List.append_inj_left' hout rfl).symm
    subst he
    refine covariant_plain hH hh hs f.grid hd hm hfits (fun i hi => (hfit i hi).2) hg ?_ hmv hy hy'
    intro k c i o hk hc hi ho
    have hkl : (back a.group.els a.kernelSize h k).length = a.group.dim := by
      rw [((f.grid.kept hh').valid hh' hk).length, f.kernelLen]
    rw [layerWeights_eq (by rw [hk.length, f.kernelLen]), layerWeights_eq hkl, S.nth_turn hH hh hi]
    have hi' := S.sub_nth_lt hH hi
    have hcl := S.tab.laws.closed _ _ (S.inv_lt hh') hi'
    have hcov := weight_covariant (a := a) (tr := false) (k0 := k0) (o := o) S.tab.own (by simpa using hg) f.grid
      (List.mem_range.2 hh') hcl hk hc
    rw [← hcov]
    rw [← S.tab.laws.assoc _ _ _ hh' (S.inv_lt hh') hi', S.tab.laws.mul_inv _ hh', S.tab.laws.one_mul _ hi']

/-- C67: the weights are determined by what the layer computes. Two layers that differ in their weights only, and give equal
results on all images of some one size, have equal weights. -/
theorem C67_weights_determined [Semiring α] {a : ConvArgs α} {bt bt' : Option Nat} {n n' : List Nat} {g : Option Nat} {C : Nat}
    {k0 k1 b0 b1 : List Nat → α} {H : List Nat} {l l' : GroupConv α} (hl : BuiltConv a false bt n g C k0 b0 H l)
    (hl' : BuiltConv a false bt' n' g C k1 b1 H l')
    (hf : a.dataFormat = .channelsLast) (hact : a.activation = id) (hb : a.useBias = false) (hpad : a.padding = "valid")
    (hd0 : 0 ∉ a.dilation)
    (m : List Nat) (hm : m.length = a.group.dim)
    (hfit : ∀ i, i < a.group.dim → dilated (nth a.kernelSize i) (nth a.dilation i) ≤ nth m i)
    (heq : ∀ x y y' : Tensor α, x.shape = sigShape .channelsLast 1 m g C → (l.call x).2 = .ok y → (l'.call x).2 = .ok y' → y.Same y') :
    ∃ kernel kernel', l.kernel = some kernel ∧ l'.kernel = some kernel' ∧ kernel.Same kernel' := by
  have S := a.group.sym
  obtain ⟨opt, kp, h1, h2, f, hst⟩ := hl.facts_last hf
  obtain ⟨opt', kp', h1', h2', f', hst'⟩ := hl'.facts_last hf
  obtain ⟨s, _, hH⟩ := parse_sub hl.elements
  have hg : ∀ g', g = some g' → g' = a.group.group.order := fun g' e => by
    have := f.size g' e
    simpa [domainOf] using this
  have hfits : FitsIn a.strides a.dilation a.kernelSize m := by
    intro i hi
    exact ⟨Nat.pos_of_ne_zero fun h => f.stridesPos (h ▸ nth_mem _ _ hi),
      Nat.pos_of_ne_zero fun h => f.kernelPos (h ▸ nth_mem _ _ (by rw [f.kernelLen, ← f.stridesLen]; exact hi)),
      hfit i (by rw [← f.stridesLen]; exact hi)⟩
  have hdp : ∀ i, i < a.strides.length → 0 < nth a.dilation i := fun i hi =>
    Nat.pos_of_ne_zero fun h => hd0 (h ▸ nth_mem _ _ (by rw [f.dilationLen, ← f.stridesLen]; exact hi))
  refine ⟨_, _, f.kernel, f'.kernel, rfl, ?_⟩
  intro idx hv
  have hv : Valid (a.kernelSize ++ [chanO g C, a.filters]) idx := hv
  obtain ⟨k, r, rfl, hk, hr⟩ := valid_append_split hv
  match r, hr with
  | [c, o], ⟨hc, ho, _⟩ =>
  have h0 : 0 ∈ H := sub_zero_mem a.group hl.elements
  have hi : H.idxOf 0 < H.length := List.idxOf_lt_length_iff.2 h0
  have hp : Valid (outSizes a.strides a.dilation a.kernelSize m) (List.replicate a.strides.length 0) := by
    rw [valid_iff]
    refine ⟨by rw [length_outSizes]; simp, fun j hj => ?_⟩
    rw [length_outSizes] at hj
    rw [nth_replicate, if_pos hj, outSizes, nth_map_range, if_pos hj]
    exact Nat.succ_pos _
  generalize List.replicate a.strides.length 0 = p at hp
  have hx : (single (α := α) (sigShape .channelsLast 1 m g C) (0 :: winN a.strides a.dilation p k ++ restIdx g C c)).shape =
    sigShape .channelsLast 1 m g C := rfl
  obtain ⟨y, hy, hys, hyg⟩ := conv_valid hl hf hact hb hpad hm hfits hx
  obtain ⟨y', hy', hys', hyg'⟩ := conv_valid hl' hf hact hb hpad hm hfits hx
  have h := (heq _ y y' hx hy hy').2 (0 :: p ++ [H.idxOf 0, o]) (by
    rw [hys]
    exact valid_two.2 ⟨⟨by omega, hp⟩, hi, ho⟩)
  have hKl : a.kernelSize.length = a.strides.length := by rw [f.kernelLen, f.stridesLen]
  rw [hyg 0 p _ o (by omega) hp hi ho, hyg' 0 p _ o (by omega) hp hi ho, nth_idxOf h0,
    sum_single (m := m) (fun k c => weightOf a false g C k0 (List.range a.group.group.order) 0 k c o) hKl hdp hk hc,
    sum_single (m := m) (fun k c => weightOf a false g C k1 (List.range a.group.group.order) 0 k c o) hKl hdp hk hc,
    weight_false hg f.grid S.tab.pos hk hc ho, weight_false hg f.grid S.tab.pos hk hc ho, S.back_one (by rw [hk.length, f.kernelLen])] at h
  have ht : turnChan a.group.group.toGroupData (List.range a.group.group.order) g C 0 c = c := by
    cases g with
    | none => rfl
    | some g' =>
      have := hg g' rfl
      subst this
      obtain ⟨j1, j2, j3⟩ := split_lt (m := a.group.group.order) (n := C) hc
      have hinv : nth a.group.group.inverses 0 = 0 := by
        have L := S.tab.laws
        have := L.mul_inv 0 S.tab.pos
        rwa [L.one_mul _ (S.inv_lt S.tab.pos)] at this
      simp only [turnChan, turn, hinv, nth_range, if_pos j1, S.tab.laws.one_mul _ j1, idxOf_range j1]
      exact j3.symm
  rw [ht] at h
  exact h

/-- a linear convolution from P4 to P2 -/
def plainConvArgs : ConvArgs Int :=
  { group := .P4, subgroup := some "P2", kernelSize := [3, 3], strides := [2, 2], padding := "valid",
    allowNonEquivariance := false, dataFormat := .channelsLast, filters := 2, dilation := [1, 1], useBias := false,
    activation := id }

set_option maxRecDepth 8000 in
theorem built_plainConvArgs : ∃ l, BuiltConv plainConvArgs false none [5, 5] (some 4) 1
    (fun idx => (nth idx 0 : Int) + 3 * nth idx 1 + 9 * nth idx 2 + 36 * nth idx 3) (fun _ => 0) [0, 2] l :=
  ⟨_, ⟨_, rfl, rfl⟩, rfl, rfl⟩

theorem plainConvArgs_grid : plainConvArgs.group.Grid plainConvArgs.strides ∧ plainConvArgs.group.Grid plainConvArgs.dilation ∧
    plainConvArgs.group.Grid [5, 5] := ⟨⟨rfl, rfl⟩, ⟨rfl, rfl⟩, ⟨rfl, rfl⟩⟩

/-- hypotheses are met: the ordinary convolution computed by this layer commutes with the elements of the subgroup on images of
size 5 by 5 -/
example : plainConvArgs.dataFormat = .channelsLast ∧ plainConvArgs.activation = id ∧ plainConvArgs.useBias = false ∧
    plainConvArgs.padding = "valid" ∧ 0 ∉ plainConvArgs.dilation ∧
    (∀ i, i < plainConvArgs.group.dim → dilated (nth plainConvArgs.kernelSize i) (nth plainConvArgs.dilation i) ≤ nth [5, 5] i ∧
      (nth [5, 5] i - dilated (nth plainConvArgs.kernelSize i) (nth plainConvArgs.dilation i)) % nth plainConvArgs.strides i = 0) ∧
    ∃ W : List Nat → Int, PlainCommutes plainConvArgs.group [0, 2] plainConvArgs.kernelSize plainConvArgs.strides plainConvArgs.dilation W plainConvArgs.filters
      [5, 5] (some 4) 1 := by
  have hfit : ∀ i, i < plainConvArgs.group.dim → dilated (nth plainConvArgs.kernelSize i) (nth plainConvArgs.dilation i) ≤ nth [5, 5] i ∧
      (nth [5, 5] i - dilated (nth plainConvArgs.kernelSize i) (nth plainConvArgs.dilation i)) % nth plainConvArgs.strides i = 0 := by decide
  obtain ⟨l, hl⟩ := built_plainConvArgs
  obtain ⟨W, _, hW⟩ := C67_layers_are_equivariant_convolutions hl rfl rfl rfl rfl plainConvArgs_grid.1 plainConvArgs_grid.2.1
  exact ⟨rfl, rfl, rfl, rfl, by decide, hfit, W, hW [5, 5] plainConvArgs_grid.2.2 hfit⟩

end GroCo
