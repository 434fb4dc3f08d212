import Verif.ConvLemmas
import Verif.Props.Conv
import Verif.Props.Build

/-!
C45: the `subgroup` argument only selects slices.
C46: group convolutions commute with translations by multiples of the strides.
-/

namespace GroCo

variable {α : Type}

/-- C45: take two layers that differ only in `subgroup` and carry the same kernel and bias, one computing the elements `H₁`,
the other `H₂`.  One accepts an input exactly if the other does, and then the outputs agree at every element both compute.
With `H₂` the whole group: `subgroup` selects slices of the output of the full layer, a stride in the group direction. -/
theorem C45_subgroup_slices [Semiring α] {a : ConvArgs α} {s₁ s₂ : Option String} {bt : Option Nat} {n : List Nat}
    {g : Option Nat} {C : Nat} {k0 b0 : List Nat → α} {H₁ H₂ : List Nat} {l₁ l₂ : GroupConv α}
    (h₁ : BuiltConv { a with subgroup := s₁ } false bt n g C k0 b0 H₁ l₁)
    (h₂ : BuiltConv { a with subgroup := s₂ } false bt n g C k0 b0 H₂ l₂) (hf : a.dataFormat = .channelsLast)
    (x : Tensor α) (B : Nat) (m : List Nat) (hm : m.length = a.group.dim) (hx : x.shape = sigShape .channelsLast B m g C) :
    ((∃ y, (l₁.call x).2 = .ok y) ↔ ∃ y, (l₂.call x).2 = .ok y) ∧
    ∀ y₁ y₂, (l₁.call x).2 = .ok y₁ → (l₂.call x).2 = .ok y₂ →
      (∃ q, y₁.shape = sigShape .channelsLast B q (some H₁.length) a.filters ∧
        y₂.shape = sigShape .channelsLast B q (some H₂.length) a.filters) ∧
      ∀ b p i j o, Valid y₁.shape (b :: p ++ [i, o]) → j < H₂.length → nth H₂ j = nth H₁ i →
        y₁.get (b :: p ++ [i, o]) = y₂.get (b :: p ++ [j, o]) := by
  obtain ⟨opt₁, kp₁, e1, e2, f₁, hp₁⟩ := h₁.facts_last hf
  obtain ⟨opt₂, kp₂, e3, e4, f₂, hp₂⟩ := h₂.facts_last hf
  have : opt₂ = opt₁ := by
    have := e3.symm.trans e1
    cases this; rfl
  subst this
  have : kp₂ = kp₁ := by
    have := e4.symm.trans e2
    cases this; rfl
  subst this
  have hst : l₁.transforms.padState = l₂.transforms.padState := by
    exact Except.ok.inj (hp₁.symm.trans hp₂)
  obtain ⟨c1, d1⟩ := conv_call_last f₁ hf hx hm
  obtain ⟨c2, d2⟩ := conv_call_last f₂ hf hx hm
  rw [hst] at c1 d1
  refine ⟨⟨?_, ?_⟩, ?_⟩
  · rintro ⟨y, hy⟩
    obtain ⟨z, hz, -⟩ := d2 (c1 y hy)
    exact ⟨z, by rw [hz]⟩
  · rintro ⟨y, hy⟩
    obtain ⟨z, hz, -⟩ := d1 (c2 y hy)
    exact ⟨z, by rw [hz]⟩
  · intro y₁ y₂ hy₁ hy₂
    obtain ⟨z₁, hz₁, hs₁, hg₁⟩ := d1 (c1 y₁ hy₁)
    obtain ⟨z₂, hz₂, hs₂, hg₂⟩ := d2 (c2 y₂ hy₂)
    rw [hz₁] at hy₁
    rw [hz₂] at hy₂
    cases hy₁
    cases hy₂
    refine ⟨⟨_, hs₁, hs₂⟩, ?_⟩
    intro b p i j o hv hj hij
    rw [hs₁] at hv
    have hpl := hv.length
    simp only [List.length_append, List.length_cons, List.length_nil] at hpl
    obtain ⟨⟨hb, hp⟩, hi, ho, _⟩ := (valid_append _ _ (b :: p) [i, o] (by simp only [List.length_cons]; omega)).1 hv
    rw [hg₁ b p i o hb hp hi ho, hg₂ b p j o hb hp hj ho]
    have hij' : nth (actingOf a.group false H₂) j = nth (actingOf a.group false H₁) i := hij
    rw [hij']
    rfl

/-- C45: whether a layer can be built does not depend on `subgroup`. -/
theorem C45_built_alike {a : ConvArgs α} {s₁ s₂ : Option String} {bt : Option Nat} {n : List Nat} {g : Option Nat} {C : Nat}
    {k0 b0 : List Nat → α} {H₁ H₂ : List Nat} (hf : a.dataFormat = .channelsLast) (hn : n.length = a.group.dim)
    (hH₁ : a.group.group.sub (a.group.group.parseSubgroup s₁) = .ok H₁)
    (hH₂ : a.group.group.sub (a.group.group.parseSubgroup s₂) = .ok H₂) :
    (∃ l, BuiltConv { a with subgroup := s₁ } false bt n g C k0 b0 H₁ l) ↔
      ∃ l, BuiltConv { a with subgroup := s₂ } false bt n g C k0 b0 H₂ l := by
  rw [C44_convolution { a with subgroup := s₁ } hf bt n g C k0 b0 H₁ hn hH₁,
    C44_convolution { a with subgroup := s₂ } hf bt n g C k0 b0 H₂ hn hH₂]
  have hz : ∀ s s', SizesOk { a with subgroup := s } → SizesOk { a with subgroup := s' } :=
    fun s s' h => ⟨h.1, h.2, h.3, h.4, h.5⟩
  exact ⟨fun ⟨o, k, h, z, r⟩ => ⟨o, k, h, hz _ _ z, r⟩, fun ⟨o, k, h, z, r⟩ => ⟨o, k, h, hz _ _ z, r⟩⟩

/-- hypotheses are met: slice 1 of the P2 layer is slice 2 of the P4 layer, without and with a group axis in the input;
`subgroup` empty stands for the whole group -/
example : (∃ l, BuiltConv { exampleConv with subgroup := some "P2" } false none [5, 5] none 3 (fun _ => 1) (fun _ => 0) [0, 2] l) ∧
    (∃ l, BuiltConv { exampleConv with subgroup := some "" } false none [5, 5] none 3 (fun _ => 1) (fun _ => 0) [0, 1, 2, 3] l) ∧
    (∃ l, BuiltConv { exampleConv with subgroup := some "P2" } false none [5, 5] (some 4) 3 (fun _ => 1) (fun _ => 0) [0, 2] l) ∧
    (∃ l, BuiltConv { exampleConv with subgroup := some "" } false none [5, 5] (some 4) 3 (fun _ => 1) (fun _ => 0) [0, 1, 2, 3] l) ∧
    nth [0, 2] 1 = nth [0, 1, 2, 3] 2 := by
  have h1 : ∃ l, BuiltConv exampleConv false none [5, 5] none 3 (fun _ => 1) (fun _ => 0) [0, 2] l :=
    ⟨_, ⟨_, rfl, rfl⟩, rfl, rfl⟩
  have h2 : ∃ l, BuiltConv exampleConv false none [5, 5] (some 4) 3 (fun _ => 1) (fun _ => 0) [0, 2] l :=
    ⟨_, ⟨_, rfl, rfl⟩, rfl, rfl⟩
  exact ⟨h1, (C45_built_alike (a := exampleConv) (s₁ := some "P2") (H₁ := [0, 2]) rfl rfl rfl rfl).1 h1, h2,
    (C45_built_alike (a := exampleConv) (s₁ := some "P2") (H₁ := [0, 2]) rfl rfl rfl rfl).1 h2, rfl⟩

/-- `x'` is `x` moved by `v` along the grid axes, both read as zero outside their grids -/
def Translated [Zero α] (d : Nat) (v : List Int) (x x' : Tensor α) : Prop :=
  ∀ (b : Nat) (q r : List Int), q.length = d →
    read0 x' ((b : Int) :: (List.zipWith (· + ·) q v) ++ r) = read0 x ((b : Int) :: q ++ r)

/-- moving an output position by `t` moves its window by `t` strides -/
theorem winZ_moved (before strides dil p p' k : List Nat) (t : List Int) (ht : strides.length = t.length)
    (hp : p.length = strides.length) (hpp : p'.map Int.ofNat = List.zipWith (· + ·) (p.map Int.ofNat) t) :
    winZ before strides dil p' k =
      List.zipWith (· + ·) (winZ before strides dil p k) (List.zipWith (fun (s : Nat) (u : Int) => s * u) strides t) := by
  have hlen : p'.length = p.length := by
    have := congrArg List.length hpp
    simp at this
    omega
  apply List.ext_getElem
  · simp [length_winZ, ht]
  · intro i h1 h2
    rw [length_winZ] at h1
    have hk : (p'.map Int.ofNat)[i]'(by simp; omega) = (List.zipWith (· + ·) (p.map Int.ofNat) t)[i]'(by simp; omega) := by
      simp only [hpp]
    simp only [List.getElem_map, List.getElem_zipWith, Int.ofNat_eq_natCast] at hk
    simp only [winZ, List.getElem_map, List.getElem_range, List.getElem_zipWith]
    rw [nth_eq_getElem p' i (by omega), nth_eq_getElem p i (by omega), nth_eq_getElem strides i h1, hk]
    ring

/-- C46: if a signal is moved by `t` strides along each axis and nothing is pushed off the grid, the output is moved by `t`. -/
theorem C46_translation_equivariant [Semiring α] {a : ConvArgs α} {bt : Option Nat} {n : List Nat}
    {g : Option Nat} {C : Nat} {k0 b0 : List Nat → α} {H : List Nat} {l : GroupConv α}
    (hl : BuiltConv a false bt n g C k0 b0 H l) (hf : a.dataFormat = .channelsLast)
    (x x' : Tensor α) (B : Nat) (m : List Nat) (hm : m.length = a.group.dim) (hx : x.shape = sigShape .channelsLast B m g C)
    (hx' : x'.shape = x.shape) (t : List Int) (ht : t.length = a.group.dim)
    (hmove : Translated a.group.dim (List.zipWith (fun (s : Nat) (u : Int) => s * u) a.strides t) x x') :
    ((∃ y, (l.call x).2 = .ok y) ↔ ∃ y, (l.call x').2 = .ok y) ∧
    ∀ y y', (l.call x).2 = .ok y → (l.call x').2 = .ok y' → y'.shape = y.shape ∧
      ∀ b p p' i o, Valid y.shape (b :: p ++ [i, o]) → Valid y.shape (b :: p' ++ [i, o]) →
        p'.map Int.ofNat = List.zipWith (· + ·) (p.map Int.ofNat) t → y'.get (b :: p' ++ [i, o]) = y.get (b :: p ++ [i, o]) := by
  obtain ⟨opt, kp, e1, e2, f, hp⟩ := hl.facts_last hf
  have hX' := hx'.trans hx
  obtain ⟨c1, d1⟩ := conv_call_last f hf hx hm
  obtain ⟨c2, d2⟩ := conv_call_last f hf hX' hm
  refine ⟨⟨?_, ?_⟩, ?_⟩
  · rintro ⟨y, hy⟩
    obtain ⟨z, hz, -⟩ := d2 (c1 y hy)
    exact ⟨z, by rw [hz]⟩
  · rintro ⟨y, hy⟩
    obtain ⟨z, hz, -⟩ := d1 (c2 y hy)
    exact ⟨z, by rw [hz]⟩
  · intro y y' hy hy'
    obtain ⟨z₁, hz₁, hs₁, hg₁⟩ := d1 (c1 y hy)
    obtain ⟨z₂, hz₂, hs₂, hg₂⟩ := d2 (c2 y' hy')
    rw [hz₁] at hy
    rw [hz₂] at hy'
    cases hy
    cases hy'
    refine ⟨hs₂.trans hs₁.symm, ?_⟩
    intro b p p' i o hv hv' hpp
    rw [hs₁] at hv hv'
    have hpl := hv.length
    have hpl' := hv'.length
    simp only [List.length_append, List.length_cons, List.length_nil] at hpl hpl'
    obtain ⟨⟨hb, hp⟩, hi, ho, _⟩ := (valid_append _ _ (b :: p) [i, o] (by simp only [List.length_cons]; omega)).1 hv
    obtain ⟨⟨-, hp'⟩, -⟩ := (valid_append _ _ (b :: p') [i, o] (by simp only [List.length_cons]; omega)).1 hv'
    rw [hg₁ b p i o hb hp hi ho, hg₂ b p' i o hb hp' hi ho]
    refine congrArg a.activation (congrArg (· + _) ?_)
    apply sum_congr
    intro k hk
    apply sum_congr
    intro c hc
    rw [List.mem_range] at hc
    refine congrArg (· * _) ?_
    have hR : ∃ R, Valid R (restIdx g C c) ∧ sigShape .channelsLast B m g C = B :: m ++ R := by
      cases g with
      | none => exact ⟨[C], by simpa [restIdx, chanO] using hc, rfl⟩
      | some g' =>
        refine ⟨[g', C], ?_, rfl⟩
        have hc' : c < g' * C := hc
        have hC : 0 < C := Nat.pos_of_ne_zero (by rintro rfl; simp at hc')
        refine ⟨?_, Nat.mod_lt _ hC, trivial⟩
        rw [Nat.div_lt_iff_lt_mul hC]
        exact hc'
    obtain ⟨R, hRv, hRs⟩ := hR
    have hwl : ∀ p, (winZ (totalBefore l.transforms.padState kp a.strides a.dilation a.kernelSize m)
        a.strides a.dilation p k).length = m.length := fun p => by rw [length_winZ, f.stridesLen, hm]
    rw [← read0_sig (hx.trans hRs) hb (hwl p) hRv, ← read0_sig (hX'.trans hRs) hb (hwl p') hRv,
      ← hmove b _ _ ((hwl p).trans hm)]
    refine congrArg (read0 x') (congrArg (fun q => (b : Int) :: q ++ _) ?_)
    exact winZ_moved _ _ _ _ _ _ _ (f.stridesLen.trans ht.symm)
      (by rw [hp.length]; simp [outSizes]) hpp

/-- a P4M layer -/
def p4mSlices : ConvArgs Int :=
  { group := .P4M, subgroup := some "", kernelSize := [3, 3], strides := [2, 2], padding := "same_equiv",
    allowNonEquivariance := false, dataFormat := .channelsLast, filters := 2, dilation := [1, 1], useBias := true,
    activation := id }

/-- one bright pixel of a 9x9 image -/
def pixel (u v : Nat) : Tensor Int := ⟨[1, 9, 9, 1], fun i => if i = [0, u, v, 0] then 1 else 0⟩

theorem read0_pixel {u v : Nat} (hu : u < 9) (hv : v < 9) (b : Nat) (q0 q1 : Int) (r : List Int) :
    read0 (pixel u v) ((b : Int) :: q0 :: q1 :: r) = if b = 0 ∧ q0 = u ∧ q1 = v ∧ r = [0] then 1 else 0 := by
  unfold read0 pixel
  by_cases h : b = 0 ∧ q0 = u ∧ q1 = v ∧ r = [0]
  · rw [if_pos h]
    obtain ⟨rfl, rfl, rfl, rfl⟩ := h
    rw [if_pos (by simp [InBox]; omega)]
    simp
  · rw [if_neg h]
    split
    · rename_i hb
      refine if_neg ?_
      intro he
      apply h
      match r, hb with
      | [r0], hb =>
        simp [InBox] at hb he ⊢
        omega
    · rfl

/-- hypotheses are met: the layer is built, and the pixel is moved by one stride down and left -/
example : (∃ l, BuiltConv p4mSlices false none [7, 7] none 1 (fun _ => 1) (fun _ => 0) [0, 1, 2, 3, 4, 5, 6, 7] l) ∧
    Translated 2 (List.zipWith (fun (s : Nat) (u : Int) => s * u) [2, 2] [1, -1]) (pixel 2 4) (pixel 4 2) := by
  refine ⟨⟨_, ⟨_, rfl, rfl⟩, rfl, rfl⟩, ?_⟩
  intro b q r hq
  match q, hq with
  | [q0, q1], _ =>
    show read0 _ ((b : Int) :: (q0 + 2 * 1) :: (q1 + 2 * -1) :: r) = read0 _ ((b : Int) :: q0 :: q1 :: r)
    rw [read0_pixel (by decide) (by decide), read0_pixel (by decide) (by decide)]
    congr 1
    apply propext
    constructor <;> rintro ⟨h1, h2, h3, h4⟩ <;> refine ⟨h1, ?_, ?_, h4⟩ <;> push_cast at * <;> omega

end GroCo
