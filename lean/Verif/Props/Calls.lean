import Verif.CallsLemmas
import Verif.Props.Pooling

/-
Property C49: built layers called on signals with another number of group elements. The vocabulary is in LayerSpec and
PoolSpec.
-/

namespace GroCo
open Tensor

variable {α : Type}

/-- C49 for convolutions, proved part: a layer built on signals with `g` group elements refuses any other number `g'`
unless it is a multiple of `g`, by a factor that divides the number of filters times the order of the subgroup. Missing:
these multiples, see `C49_violation_convolution`. -/
theorem C49_convolution_partial [Semiring α] {a : ConvArgs α} {bt : Option Nat} {n : List Nat} {g C : Nat} {k0 b0 : List Nat → α}
    {H : List Nat} {l : GroupConv α} (hl : BuiltConv a false bt n (some g) C k0 b0 H l) (hf : a.dataFormat = .channelsLast)
    (hC : 0 < C) (x : Tensor α) (B : Nat) (m : List Nat) (hm : m.length = a.group.dim) (g' : Nat) (hg : g' ≠ g)
    (hx : x.shape = sigShape .channelsLast B m (some g') C) (hr : ¬ ∃ r, 2 ≤ r ∧ g' = r * g ∧ H.length * a.filters % r = 0) :
    ∃ e, (l.call x).2 = .error e := by
  obtain ⟨opt, kp, hopt, hkp, f, hst⟩ := hl.facts_last hf
  have hA : actingOf a.group false H = H := rfl
  rw [hA] at f
  have hgp : 0 < g := by
    rw [f.size g rfl]
    obtain ⟨s, hs⟩ := f.subD
    exact sub_pos a.group.sym.tab hs
  cases hy : (l.call x).2 with
  | error e => exact ⟨e, rfl⟩
  | ok y =>
    exfalso
    have hdiv := ((conv_call_groups (gx := some g') f.toConvCore hf rfl hx hm (check_sig f.spec (f.fmt.trans hf) hx hm)).1 y hy).1
    simp only [chanO] at hdiv
    rcases hdiv with h | ⟨_, h1, h2, h3⟩
    · exact hg (Nat.eq_of_mul_eq_mul_right hC h)
    · obtain ⟨r, hr'⟩ := Nat.dvd_of_mod_eq_zero h1
      have e1 : g' = r * g := Nat.eq_of_mul_eq_mul_right hC (by rw [hr']; ring)
      rw [hr', Nat.mul_div_cancel_left _ (Nat.mul_pos hgp hC)] at h2
      refine hr ⟨r, ?_, e1, h2⟩
      rcases r with _ | _ | r
      · rw [hr'] at h3; omega
      · exact absurd (by rw [e1]; omega) hg
      · omega

/-- C49 for transposed convolutions: any other number of group elements is refused. -/
theorem C49_transposed [Semiring α] {a : ConvArgs α} {bt : Option Nat} {n : List Nat} {g C : Nat} {k0 b0 : List Nat → α}
    {H : List Nat} {l : GroupConv α} (hl : BuiltConv a true bt n (some g) C k0 b0 H l) (hf : a.dataFormat = .channelsLast)
    (hC : 0 < C) (x : Tensor α) (B : Nat) (m : List Nat) (hm : m.length = a.group.dim) (g' : Nat) (hg : g' ≠ g)
    (hx : x.shape = sigShape .channelsLast B m (some g') C) : ∃ e, (l.call x).2 = .error e := by
  obtain ⟨opt, kp, hopt, hkp, f, hst⟩ := hl.facts_last hf
  exact ⟨_, convT_call_error (gx := some g') f.toConvCore hf rfl hx hm
    (check_sig f.spec (f.fmt.trans hf) hx hm) fun h => hg (Nat.eq_of_mul_eq_mul_right hC h)⟩

/-- C49 for pooling, proved part: a layer refuses signals with fewer elements than the group has (in both data formats).
Missing: signals with more elements, of which it takes the first ones, see `C49_pooling_surplus` and
`C49_violation_pooling`. -/
theorem C49_pooling_partial [Field α] [LinearOrder α] {a : PoolArgs} {bt : Option Nat} {n : List Nat} {g C : Nat} {H : List Nat}
    {l : GroupPooling} (hl : BuiltPool a bt n g C H l) (x : Tensor α) (B : Nat) (m : List Nat) (hm : m.length = a.group.dim)
    (g' : Nat) (hg : g' < g) (hx : x.shape = sigShape a.dataFormat B m (some g') C) : l.call x = .error .index := by
  obtain ⟨s, cos, I, hH, hcos, hI, hIs, hIg, rfl, hax⟩ := hl.coset_facts
  obtain ⟨cos', hcos', ht⟩ := C10_cosets a.group s H hH
  rw [hcos] at hcos'
  cases hcos'
  obtain ⟨h, hh, c, hc, e⟩ := ht.2.2.1 g' hg
  obtain ⟨i, hi, rfl⟩ := List.mem_iff_getElem.1 hh
  obtain ⟨j, hj, rfl⟩ := List.mem_iff_getElem.1 hc
  have hij : [i, j] ∈ indices I.shape := by rw [mem_indices, hIs]; exact ⟨hi, hj, trivial⟩
  have hle : g' ≤ I.get [i, j] := by rw [hIg, ← e]; simp [nth, hi, hj]
  have key : takeT x I (l.transforms.groupAxis : Int) = .error .index := by
    rw [hax]
    cases hf : a.dataFormat with
    | channelsLast =>
      rw [hf] at hx
      have := takeT_error (P := B :: m) (R := [C]) (m := g') hx hij hle
      rwa [show (B :: m).length = groupAxis .channelsLast a.group.dim by simp [groupAxis, hm]] at this
    | channelsFirst =>
      rw [hf] at hx
      have := takeT_error (P := B :: C :: m) (R := []) (m := g') hx hij hle
      rwa [show (B :: C :: m).length = groupAxis .channelsFirst a.group.dim by simp [groupAxis, hm]] at this
  unfold GroupPooling.call GroupTransforms.subgroupPooling
  rw [hI]
  simp only [key]
  rfl

/-- What pooling layers do with more elements than the group has: they ignore the last ones. `first` is the signal with
the first elements only. -/
theorem C49_pooling_surplus [Field α] [LinearOrder α] {a : PoolArgs} {bt : Option Nat} {n : List Nat} {g C : Nat} {H : List Nat}
    {l : GroupPooling} (hl : BuiltPool a bt n g C H l) (x first : Tensor α) (B : Nat) (m : List Nat)
    (hm : m.length = a.group.dim) (g' : Nat) (hg : g ≤ g') (hx : x.shape = sigShape a.dataFormat B m (some g') C)
    (h1 : first.shape = sigShape a.dataFormat B m (some g) C) (h2 : first.get = x.get) : l.call x = l.call first := by
  obtain ⟨s, cos, I, hH, hcos, hI, hIs, hIg, rfl, hax⟩ := hl.coset_facts
  have hlt : ∀ i ∈ indices I.shape, I.get i < a.group.group.order := by
    have T := a.group.sym.tab
    obtain ⟨_, _, h3, _⟩ := T.cosets _ (lookup_mem hcos) H hH
    have hHl := (T.subs _ (lookup_mem hH)).2.2.2.1
    intro i hi
    rw [mem_indices, hIs] at hi
    match i, hi with
    | [i, j], ⟨h1, h2, _⟩ =>
      rw [hIg]
      exact T.laws.closed _ _ (hHl _ (nth_mem _ _ h1)) (h3 _ (nth_mem _ _ h2))
  obtain ⟨fs, fg⟩ := first
  simp only at h1 h2
  subst h1 h2
  have key : takeT x I (l.transforms.groupAxis : Int) =
      takeT ⟨sigShape a.dataFormat B m (some a.group.group.order) C, x.get⟩ I (l.transforms.groupAxis : Int) := by
    rw [hax]
    cases hf : a.dataFormat with
    | channelsLast =>
      rw [hf] at hx
      have := takeT_size (P := B :: m) (R := [C]) (m := g') hx hg hlt
      rwa [show (B :: m).length = groupAxis .channelsLast a.group.dim by simp [groupAxis, hm]] at this
    | channelsFirst =>
      rw [hf] at hx
      have := takeT_size (P := B :: C :: m) (R := []) (m := g') hx hg hlt
      rwa [show (B :: C :: m).length = groupAxis .channelsFirst a.group.dim by simp [groupAxis, hm]] at this
  unfold GroupPooling.call GroupTransforms.subgroupPooling
  rw [hI]
  simp only [key]

/-- a P2 layer for signals on P2 -/
def sizesConv : ConvArgs Int :=
  { group := .P2, subgroup := some "", kernelSize := [1, 1], strides := [1, 1], padding := "valid_equiv",
    allowNonEquivariance := false, dataFormat := .channelsLast, filters := 1, dilation := [1, 1], useBias := false,
    activation := id }

/-- hypotheses of the theorems on convolutions and pooling are met -/
example : (∃ l, BuiltConv sizesConv false none [1, 1] (some 2) 1 (fun _ => 1) (fun _ => 0) [0, 1] l) ∧
    (∃ l, BuiltConv sizesConv true none [1, 1] (some 2) 1 (fun _ => 1) (fun _ => 0) [0, 1] l) ∧
    (¬ ∃ r, 2 ≤ r ∧ 3 = r * 2 ∧ [0, 1].length * sizesConv.filters % r = 0) ∧
    (∃ l, BuiltPool examplePool none [5, 5] 4 3 [0, 2] l) :=
  ⟨⟨_, ⟨_, rfl, rfl⟩, rfl, rfl⟩, ⟨_, ⟨_, rfl, rfl⟩, rfl, rfl⟩, by rintro ⟨r, _, h, _⟩; omega, ⟨_, ⟨⟨_, rfl, rfl⟩, rfl, rfl⟩⟩⟩

/-- C49 as stated, for convolutions: a signal with a number of group elements other than that of the signals the layer was
built on is refused. -/
def ConvolutionRefusesOtherSizes : Prop :=
  ∀ (a : ConvArgs Int) (bt : Option Nat) (n : List Nat) (g C : Nat) (k0 b0 : List Nat → Int) (H : List Nat)
    (l : GroupConv Int), BuiltConv a false bt n (some g) C k0 b0 H l → a.dataFormat = .channelsLast → 0 < C →
  ∀ (x : Tensor Int) (B g' : Nat), g' ≠ g → x.shape = sigShape .channelsLast B n (some g') C →
    ∃ e, (l.call x).2 = .error e

/-- C49 fails: a P2 layer accepts signals on four elements, such as those on P4. It sees the first two elements in one
slice of its output and the last two in the other. -/
theorem C49_violation_convolution : ¬ ConvolutionRefusesOtherSizes := by
  intro h
  obtain ⟨l, y, hl, hy⟩ : ∃ l y, BuiltConv sizesConv false none [1, 1] (some 2) 1 (fun _ => 1) (fun _ => 0) [0, 1] l ∧
      (l.call ⟨[1, 1, 1, 4, 1], fun i => (nth i 3 : Int)⟩).2 = .ok y := ⟨_, _, ⟨⟨_, rfl, rfl⟩, rfl, rfl⟩, rfl⟩
  obtain ⟨e, he⟩ := h _ _ _ _ _ _ _ _ _ hl rfl (by decide) ⟨[1, 1, 1, 4, 1], fun i => (nth i 3 : Int)⟩ 1 4 (by decide) rfl
  rw [hy] at he
  exact absurd he (by simp)

/-- C49 as stated, for pooling. -/
def PoolingRefusesOtherSizes : Prop :=
  ∀ (a : PoolArgs) (bt : Option Nat) (n : List Nat) (g C : Nat) (H : List Nat) (l : GroupPooling),
    BuiltPool a bt n g C H l →
  ∀ (x : Tensor ℚ) (B g' : Nat), g' ≠ g → x.shape = sigShape a.dataFormat B n (some g') C → ∃ e, l.call x = .error e

set_option maxRecDepth 8000 in
/-- C49 fails: a P4 pooling layer accepts signals on five elements and ignores the last one. -/
theorem C49_violation_pooling : ¬ PoolingRefusesOtherSizes := by
  intro h
  obtain ⟨l, y, hl, hy⟩ : ∃ l y, BuiltPool examplePool none [5, 5] 4 3 [0, 2] l ∧
      l.call (⟨[1, 5, 5, 5, 3], fun _ => 1⟩ : Tensor ℚ) = .ok y := ⟨_, _, ⟨⟨_, rfl, rfl⟩, rfl, rfl⟩, rfl⟩
  obtain ⟨e, he⟩ := h _ _ _ _ _ _ _ hl ⟨[1, 5, 5, 5, 3], fun _ => 1⟩ 1 5 (by decide) rfl
  rw [hy] at he
  exact absurd he (by simp)

end GroCo
