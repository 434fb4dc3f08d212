import Verif.GroupedLemmas
import Verif.Props.Equivariance

/-
Property C48: the Keras argument `groups` of GroupConv2D/3D. The vocabulary is in LayerSpec and Grouped.
-/

namespace GroCo
open Tensor

variable {α : Type}

/-- C48: `groups=1` is the same as leaving it out. -/
theorem C48_groups_one (a : ConvArgs α) (d : Nat) :
    GroupConv.initGroups a 1 d = GroupConv.init a d false ∧
      ∀ l0, GroupConv.init a d false = .ok l0 → ∀ shape k0 b0, l0.buildGroups 1 shape k0 b0 = l0.build shape k0 b0 := by
  constructor
  · unfold GroupConv.initGroups
    cases GroupConv.init a d false with
    | error e => rfl
    | ok l => simp [Nat.mod_one]
  · intro l0 h0 shape k0 b0
    obtain ⟨s, m, opt, kp, e1, e2, e3, e4, e5, e6, e7, e8, e9, rfl⟩ := conv_init_inv h0
    unfold GroupConv.buildGroups GroupConv.build
    cases ht : (initTransforms a.toGroupArgs m opt d false).build shape with
    | error e => rfl
    | ok t =>
      have htr : t.transpose = false := build_transpose ht
      simp only [res_bind_ok, Nat.mod_one, ne_eq, not_true_eq_false, if_false, Nat.div_one, htr, Bool.false_eq_true]

/-- C48, proved part: a layer constructed with `groups := q` is refused unless `q` divides the filters and the channels (of
each group element, although Keras only asks for the merged channels). Otherwise it computes the following: filter `o` of
the `i`-th subgroup element only sees the part of the input channels with number `(i * filters + o) / (|H| * filters / q)`,
where the channels of all group elements, in this order, are cut into `q` parts. Missing: the part should depend on
the filter only, and consist of the same channels for every group element, so that the layer is equivariant, see
`C48_violation`. -/
theorem C48_grouped_partial [Semiring α] {a : ConvArgs α} {q : Nat} {bt : Option Nat} {n : List Nat} {g : Option Nat} {C : Nat}
    {k0 b0 : List Nat → α} {H : List Nat} {l : GroupConv α} (hl : BuiltGrouped a q bt n g C k0 b0 H l)
    (hf : a.dataFormat = .channelsLast) (opt : PadOption) (hopt : formatPaddingOption a.padding = .ok opt)
    (x : Tensor α) (B : Nat) (m : List Nat) (hm : m.length = a.group.dim)
    (hx : x.shape = sigShape .channelsLast B m g C) :
    a.filters % q = 0 ∧ C % q = 0 ∧
    ∃ (before after : List Nat) (src : Nat → List Nat → List Nat),
      (∀ i, i < a.group.dim → PadsTo opt (nth n i) (nth m i) (nth a.kernelSize i) (nth a.strides i) (nth a.dilation i)
        (nth before i) (nth after i)) ∧
      (∀ i k, i < H.length → Valid a.kernelSize k → Valid a.kernelSize (src i k) ∧
        MovesTo (a.group.motion (nth H i)) (List.range a.group.dim) a.kernelSize (src i k) k) ∧
      ((∃ y, (l.call x).2 = .ok y) ↔ ∀ i, i < a.group.dim →
        dilated (nth a.kernelSize i) (nth a.dilation i) ≤ nth before i + nth m i + nth after i) ∧
      ∀ y, (l.call x).2 = .ok y →
        y.shape = sigShape .channelsLast B ((List.range a.group.dim).map fun i =>
          (nth before i + nth m i + nth after i - dilated (nth a.kernelSize i) (nth a.dilation i)) / nth a.strides i + 1)
          (some H.length) a.filters ∧
        ∀ (b : Nat) (p : List Nat) (i o : Nat), Valid y.shape (b :: p ++ [i, o]) →
          let part := (i * a.filters + o) / (H.length * a.filters / q)
          (g = none → y.get (b :: p ++ [i, o]) = a.activation (
            ((indices a.kernelSize).map fun k => ((List.range (C / q)).map fun (c : Nat) =>
              read0 x ((b : Int) :: window before a.strides a.dilation p k ++ [((part * (C / q) + c : Nat) : Int)]) *
                k0 (src i k ++ [c, o])).sum).sum
            + if a.useBias then b0 [o] else 0)) ∧
          (∀ g', g = some g' → g' = a.group.group.order ∧ y.get (b :: p ++ [i, o]) = a.activation (
            ((indices a.kernelSize).map fun k => ((List.range g').map fun (j : Nat) => ((List.range (C / q)).map fun (c : Nat) =>
              read0 x ((b : Int) :: window before a.strides a.dilation p k ++
                  [((((part * g' + j) * (C / q) + c) / C : Nat) : Int), ((((part * g' + j) * (C / q) + c) % C : Nat) : Int)]) *
                k0 (src i k ++ [a.group.group.comp (nth a.group.group.inverses (nth H i)) j * (C / q) + c, o])).sum).sum).sum
            + if a.useBias then b0 [o] else 0)) := by
  obtain ⟨hq, hF, hF0, hC, opt', kp, hopt', hkp, f, hspec, hst⟩ := hl.facts_last hf
  rw [hopt] at hopt'
  cases hopt'
  have hgp : ∀ g', g = some g' → 0 < g' := fun g' hg' => by
    rw [f.size g' hg']
    obtain ⟨s, hs⟩ := f.subD
    exact sub_pos a.group.sym.tab hs
  have hagree := padding_agree hopt hkp
  have hpos : ∀ i, i < a.group.dim → 0 < nth a.strides i ∧ 0 < nth a.kernelSize i := fun i hi =>
    ⟨Nat.pos_of_ne_zero fun h => f.stridesPos (h ▸ nth_mem _ _ (by rw [f.stridesLen]; exact hi)),
      Nat.pos_of_ne_zero fun h => f.kernelPos (h ▸ nth_mem _ _ (by rw [f.kernelLen]; exact hi))⟩
  have hHlt : ∀ i, i < H.length → nth H i < a.group.group.order := fun i hi => by
    obtain ⟨s, hs⟩ := f.subA
    exact (a.group.sym.tab.subs _ (lookup_mem hs)).2.2.2.1 _ (nth_mem _ _ hi)
  have hc : l.checkInput x = .ok () := check_sig hspec (f.fmt.trans hf) hx hm
  obtain ⟨hc1, hc2⟩ := conv_call_groups f hf rfl hx hm hc
  replace hc1 := fun y hy => (hc1 y hy).2
  replace hc2 := hc2 (grouped_div hgp hq hC hF)
  have hml : m.length = a.strides.length := by rw [hm, f.stridesLen]
  have hfits : FitsIn a.strides a.dilation a.kernelSize
      (padded l.transforms.padState kp a.strides a.dilation a.kernelSize m) ↔ ∀ i, i < a.group.dim →
        dilated (nth a.kernelSize i) (nth a.dilation i) ≤
          nth (totalBefore l.transforms.padState kp a.strides a.dilation a.kernelSize m) i + nth m i +
            nth (totalAfter l.transforms.padState kp a.strides a.dilation a.kernelSize m) i := by
    unfold FitsIn
    rw [f.stridesLen]
    constructor
    · intro h i hi
      rw [← nth_padded hml (by rw [f.stridesLen]; exact hi)]
      exact (h i hi).2.2
    · intro h i hi
      rw [nth_padded hml (by rw [f.stridesLen]; exact hi)]
      exact ⟨(hpos i hi).1, (hpos i hi).2, h i hi⟩
  refine ⟨hF, hC, totalBefore l.transforms.padState kp a.strides a.dilation a.kernelSize m,
    totalAfter l.transforms.padState kp a.strides a.dilation a.kernelSize m,
    fun i k => back a.group.els a.kernelSize (nth H i) k, ?_, ?_, ?_, ?_⟩
  · intro i hi
    exact padsTo_ok hl.dims hm f.kernelLen f.stridesLen f.stridesPos hagree hst hi
  · intro i k hi hk
    exact ⟨a.group.sym.valid_back f.grid (hHlt i hi) hk, back_moves _ f.grid (hHlt i hi) hk⟩
  · rw [← hfits]
    constructor
    · rintro ⟨y, hy⟩
      exact hc1 y hy
    · intro h
      obtain ⟨y, hy, _⟩ := hc2 h
      exact ⟨y, by rw [hy]⟩
  · intro y hy
    obtain ⟨y', hy', hs, hg⟩ := hc2 (hc1 y hy)
    rw [hy'] at hy
    cases hy
    have hout : outSizes a.strides a.dilation a.kernelSize
        (padded l.transforms.padState kp a.strides a.dilation a.kernelSize m) =
        (List.range a.group.dim).map fun i =>
          (nth (totalBefore l.transforms.padState kp a.strides a.dilation a.kernelSize m) i + nth m i +
            nth (totalAfter l.transforms.padState kp a.strides a.dilation a.kernelSize m) i -
            dilated (nth a.kernelSize i) (nth a.dilation i)) / nth a.strides i + 1 := by
      unfold outSizes
      rw [f.stridesLen]
      apply List.map_congr_left
      intro i hi
      rw [List.mem_range] at hi
      rw [nth_padded hml (by rw [f.stridesLen]; exact hi)]
    refine ⟨by rw [hs, hout]; rfl, ?_⟩
    intro b p i o hv
    have hv' := hv
    rw [hs] at hv'
    have hpl : (b :: p).length = (B :: outSizes a.strides a.dilation a.kernelSize
        (padded l.transforms.padState kp a.strides a.dilation a.kernelSize m)).length := by
      have := hv'.length
      simp only [List.length_append, List.length_cons, List.length_nil] at this
      simp only [List.length_cons]
      omega
    obtain ⟨⟨hb, hp⟩, hi, ho, _⟩ := (valid_append _ _ _ _ hpl).1 hv'
    have key := hg b p i o hb hp hi ho
    have hwl : ∀ k, (window (totalBefore l.transforms.padState kp a.strides a.dilation a.kernelSize m)
        a.strides a.dilation p k).length = m.length := fun k => by simp [window, hml]
    constructor
    · rintro rfl
      rw [key]
      refine congrArg a.activation (congrArg (· + _) ?_)
      apply sum_congr
      intro k hk
      rw [mem_indices] at hk
      apply sum_congr
      intro c hc
      rw [List.mem_range] at hc
      have hc' : c < C / q := hc
      have hC0 : 0 < C := Nat.pos_of_ne_zero fun h => by rw [h, Nat.zero_div] at hc'; omega
      have hst' := grouped_start (N := H.length * a.filters) (f := i * a.filters + o) hgp hq hC hC0
      have hlt := groupStart_lt (grouped_div (m := H.length) (g := none) hgp hq hC hF) hc (mul_add_lt hi ho)
      rw [hst'] at hlt ⊢
      simp only [chanO] at hlt ⊢
      have hr := read0_sig (x := x) (R := [C]) (r := [(i * a.filters + o) / (H.length * a.filters / q) * (C / q) + c]) hx hb
        (hwl k) (by simp [hlt])
      rw [weight_lift f.grid (hHlt i hi) hk hc' ho]
      exact congrArg₂ (· * ·) hr.symm rfl
    · rintro g' rfl
      have hg' := f.size g' rfl
      rw [List.length_range] at hg'
      refine ⟨hg', ?_⟩
      subst hg'
      rw [key]
      refine congrArg a.activation (congrArg (· + _) ?_)
      apply sum_congr
      intro k hk
      rw [mem_indices] at hk
      rw [show chanO (some a.group.group.order) (C / q) = a.group.group.order * (C / q) from rfl, sum_range_mul]
      apply sum_congr
      intro j hj
      apply sum_congr
      intro c hc
      rw [List.mem_range] at hj hc
      have hC0 : 0 < C := Nat.pos_of_ne_zero fun h => by rw [h, Nat.zero_div] at hc; omega
      have hst' := grouped_start (N := H.length * a.filters) (f := i * a.filters + o) hgp hq hC hC0
      have hlt := groupStart_lt (grouped_div (m := H.length) hgp hq hC hF) (mul_add_lt hj hc) (mul_add_lt hi ho)
      simp only [chanO] at hst' hlt ⊢
      rw [hst'] at hlt ⊢
      rw [show (i * a.filters + o) / (H.length * a.filters / q) * (a.group.group.order * (C / q)) + (j * (C / q) + c) =
        ((i * a.filters + o) / (H.length * a.filters / q) * a.group.group.order + j) * (C / q) + c by ring] at hlt ⊢
      have hr := read0_sig (x := x) (R := [a.group.group.order, C])
        (r := restIdx (some a.group.group.order) C
          (((i * a.filters + o) / (H.length * a.filters / q) * a.group.group.order + j) * (C / q) + c)) hx hb (hwl k)
        (by simp only [restIdx]
            exact ⟨Nat.div_lt_of_lt_mul (by rw [Nat.mul_comm C]; exact hlt), Nat.mod_lt _ hC0, trivial⟩)
      rw [weight_group f.grid (hHlt i hi) hk hj hc ho]
      exact congrArg₂ (· * ·) hr.symm rfl

/-- a P2 layer with two filters -/
def groupedConv : ConvArgs Int :=
  { group := .P2, subgroup := some "", kernelSize := [1, 1], strides := [1, 1], padding := "valid_equiv",
    allowNonEquivariance := false, dataFormat := .channelsLast, filters := 2, dilation := [1, 1], useBias := false,
    activation := id }

/-- hypotheses are met, with and without group axis -/
example : (∃ l, BuiltGrouped groupedConv 2 none [3, 3] none 4 (fun _ => 1) (fun _ => 0) [0, 1] l) ∧
    (∃ l, BuiltGrouped groupedConv 2 none [3, 3] (some 2) 4 (fun _ => 1) (fun _ => 0) [0, 1] l) ∧
    formatPaddingOption groupedConv.padding = .ok .validEquiv ∧
    (∃ l0, GroupConv.init groupedConv 2 false = .ok l0) :=
  ⟨⟨_, ⟨_, rfl, rfl⟩, rfl, rfl⟩, ⟨_, ⟨_, rfl, rfl⟩, rfl, rfl⟩, rfl, ⟨_, rfl⟩⟩

/-- C48 as stated: with any number of groups a layer commutes with the action of its subgroup, in the configurations in
which it does without (see C23 and C24). -/
def GroupedEquivariant : Prop :=
  ∀ (a : ConvArgs Int) (q : Nat) (bt : Option Nat) (n : List Nat) (g : Option Nat) (C : Nat) (k0 b0 : List Nat → Int)
    (H : List Nat) (l : GroupConv Int), BuiltGrouped a q bt n g C k0 b0 H l → a.dataFormat = .channelsLast →
    a.allowNonEquivariance = false → a.dilation = List.replicate a.group.dim 1 → a.group.Grid a.strides → a.group.Grid n →
  ∀ (x : Tensor Int) (B : Nat), x.shape = sigShape .channelsLast B n g C → ∀ y, (l.call x).2 = .ok y →
    Commutes a.group.group a.group.dim .channelsLast a.subgroup H.length (g.map fun _ => "") a.subgroup
      (fun x => (l.call x).2) x y

/-- C48 fails: with two groups and two channels the slice of the identity sees the first channel only, that of the half
turn the second one only. -/
theorem C48_violation : ¬ GroupedEquivariant := by
  intro h
  have := (h groupedConv 2 none [1, 1] none 2 (fun _ => 1) (fun _ => 0) [0, 1] _ ⟨⟨_, rfl, rfl⟩, rfl, rfl⟩ rfl rfl rfl ⟨rfl, trivial⟩
    ⟨rfl, trivial⟩ ⟨[1, 1, 1, 2], fun i => if i = [0, 0, 0, 0] then 1 else 0⟩ 1 rfl _ rfl).not_differ rfl (i := 1)
    (by decide) [0, 0, 0, 0, 0]
  revert this
  decide +kernel

end GroCo
