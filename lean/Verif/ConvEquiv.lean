import Verif.EquivLemmas

/-
Helper lemmas: group convolution layers commute with the action of the group.
-/

namespace GroCo
open Tensor

variable {α : Type}

theorem half_even {e t : Nat} (h : (e + t) % 2 = 0) : 2 * ((e + 1) / 2 + t / 2) = e + t := by omega

theorem geo_num {opt : PadOption} {n k s r e before after : Nat} (hk : 0 < k)
    (h1 : Symmetric n k s (e + builtIn opt n k s)) (h2 : builtIn opt (n + e) k s = builtIn opt n k s)
    (hd : DilationOk opt k s r)
    (hb : before = (e + 1) / 2 + builtIn opt (n + e) (dilated k r) s / 2)
    (hba : before + after = e + builtIn opt (n + e) (dilated k r) s)
    (hfit : dilated k r ≤ before + n + after) :
    ((before + n + after - dilated k r) / s + 1 - 1) * s + (k - 1) * r + 1 = n + 2 * before := by
  rw [Nat.add_sub_cancel]
  by_cases hr : r = 1
  · subst hr
    have hdk : dilated k 1 = k := by simp [dilated]; omega
    rw [hdk] at hb hba hfit ⊢
    rw [h2] at hb hba
    obtain ⟨p1, p2⟩ := h1
    have h3 := half_even p1
    have hdvd : s ∣ before + n + after - k := by
      rw [Nat.dvd_iff_mod_eq_zero]
      have : ((before + n + after - k : Nat) : Int) = (n : Int) + ((e + builtIn opt n k s : Nat) : Int) - k := by omega
      have h4 : ((before + n + after - k : Nat) : Int) % s = 0 := by rw [this]; exact p2
      exact_mod_cast h4
    rw [Nat.div_mul_cancel hdvd]
    omega
  · obtain ⟨rfl, ho⟩ := hd.resolve_left hr
    rw [Nat.div_one, Nat.mul_one]
    have hdk : dilated k r = (k - 1) * r + 1 := rfl
    have hval : opt = .valid ∨ opt = .validEquiv → (e + builtIn opt (n + e) (dilated k r) 1) % 2 = 0 := by
      rintro (rfl | rfl) <;> simpa [builtIn, Symmetric] using h1.1
    have hsame : opt = .same ∨ opt = .sameEquiv → k % 2 = 1 ∨ r % 2 = 1 →
        (e + builtIn opt (n + e) (dilated k r) 1) % 2 = 0 := by
      intro hopt hp
      have e1 : ∀ m j, builtIn opt m j 1 = j - 1 := by
        intro m j
        rcases hopt with rfl | rfl <;> simp [builtIn, sameTotal, Nat.mod_one]
      have h5 := h1.1
      rw [e1] at h5 ⊢
      rw [hdk, Nat.add_sub_cancel]
      obtain ⟨j, rfl⟩ : ∃ j, k = j + 1 := ⟨k - 1, by omega⟩
      rw [Nat.add_sub_cancel] at h5 ⊢
      have hj : (j * r) % 2 = j % 2 * (r % 2) % 2 := Nat.mul_mod _ _ _
      have : j % 2 * (r % 2) % 2 = j % 2 := by
        rcases hp with hp | hp
        · have : j % 2 = 0 := by omega
          rw [this]; simp
        · rw [hp]; omega
      omega
    have hev : (e + builtIn opt (n + e) (dilated k r) 1) % 2 = 0 := by
      cases opt with
      | same => exact hsame (Or.inl rfl) (by simpa using ho)
      | valid => exact hval (Or.inl rfl)
      | sameEquiv => exact hsame (Or.inr rfl) (by simpa using ho)
      | validEquiv => exact hval (Or.inr rfl)
    have := half_even hev
    omega

/-- the value a layer computes at batch index `b`, position `p`, element `i`, filter `o` -/
def convFormula [Semiring α] (a : ConvArgs α) (g : Option Nat) (C : Nat) (k0 b0 : List Nat → α) (A D before : List Nat)
    (x : Tensor α) (m : List Nat) (b : Nat) (p : List Nat) (i o : Nat) : α :=
  a.activation ((((indices a.kernelSize).map fun k =>
    ((List.range (chanO g C)).map fun c =>
      readAt x m b (winZ before a.strides a.dilation p k) (restIdx g C c) * weightOf a false g C k0 D (nth A i) k c o).sum).sum) +
      if a.useBias then b0 [o] else 0)

/-- the value computed on an input whose values at the windows are moved -/
theorem formula_of_reads [Semiring α] {a : ConvArgs α} {g : Option Nat} {C : Nat} {k0 b0 : List Nat → α}
    {A D : List Nat} {l : GroupConv α} {kp : KerasPadding} (f : ConvFacts a false g C k0 b0 A D l kp)
    (hAD : ∀ e ∈ A, e ∈ D) {x x' : Tensor α} {m : List Nat} {h : Nat} {out before : List Nat} (hh : h ∈ A)
    {b : Nat} {p : List Nat} {i : Nat} (o : Nat) (hi : i < A.length)
    (hread : ∀ k c, Valid a.kernelSize k → c < chanO g C →
      readAt x' m b (winZ before a.strides a.dilation p k) (restIdx g C c) =
      readAt x m b (winZ before a.strides a.dilation (back a.group.els out h p) (back a.group.els a.kernelSize h k))
        (restIdx g C (turnChan a.group.group.toGroupData D g C h c))) :
    convFormula a g C k0 b0 A D before x' m b p i o =
      convFormula a g C k0 b0 A D before x m b (back a.group.els out h p) (turn a.group.group.toGroupData A h i) o := by
  have S := a.group.sym
  obtain ⟨sA, hA⟩ := f.subA
  obtain ⟨sD, hD⟩ := f.subD
  have hhD := hAD h hh
  have hh' := S.sub_lt hA hh
  refine congrArg a.activation (congrArg (· + _) ?_)
  rw [S.nth_turn hA hh hi]
  have hAi := S.sub_nth_lt hA hi
  have hj : a.group.group.comp (nth a.group.group.inverses h) (nth A i) < a.group.group.order :=
    S.tab.laws.closed _ _ (S.inv_lt hh') hAi
  have hcomp : a.group.group.comp h (a.group.group.comp (nth a.group.group.inverses h) (nth A i)) = nth A i := by
    rw [← S.tab.laws.assoc _ _ _ hh' (S.inv_lt hh') hAi, S.tab.laws.mul_inv _ hh', S.tab.laws.one_mul _ hAi]
  rw [← S.sum_back f.grid hh' (fun k => ((List.range (chanO g C)).map fun c =>
    readAt x m b (winZ before a.strides a.dilation (back a.group.els out h p) k) (restIdx g C c) *
      weightOf a false g C k0 D (a.group.group.comp (nth a.group.group.inverses h) (nth A i)) k c o).sum)]
  apply sum_congr
  intro k hk
  rw [mem_indices] at hk
  rw [← S.sum_turnChan hD f.size hhD (fun c =>
    readAt x m b (winZ before a.strides a.dilation (back a.group.els out h p) (back a.group.els a.kernelSize h k)) (restIdx g C c) *
      weightOf a false g C k0 D (a.group.group.comp (nth a.group.group.inverses h) (nth A i)) (back a.group.els a.kernelSize h k) c o)]
  apply sum_congr
  intro c hc
  rw [List.mem_range] at hc
  have e1 := weight_covariant (k0 := k0) (o := o) (tr := false) hD f.size f.grid hhD hj hk hc
  rw [hcomp] at e1
  rw [e1]
  exact congrArg₂ (· * ·) (hread k c hk hc) rfl

/-- the value computed on a moved input -/
theorem formula_equiv [Semiring α] {a : ConvArgs α} {g : Option Nat} {C : Nat} {k0 b0 : List Nat → α}
    {A D : List Nat} {l : GroupConv α} {kp : KerasPadding} (f : ConvFacts a false g C k0 b0 A D l kp)
    (hAD : ∀ e ∈ A, e ∈ D) {x x' : Tensor α} {B : Nat} {m : List Nat}
    {h : Nat} (hm : a.group.Kept h m) (hs : a.group.Kept h a.strides) (hd : a.group.Kept h a.dilation)
    {out before : List Nat} (hO : a.group.Kept h out)
    (hgeo : ∀ i, i < a.group.dim → (nth out i - 1) * nth a.strides i + (nth a.kernelSize i - 1) * nth a.dilation i + 1 =
      nth m i + 2 * nth before i)
    (hh : h ∈ A)
    (hxx : ∀ b p c, b < B → Valid m p → c < chanO g C → x'.get (b :: p ++ restIdx g C c) =
      x.get (b :: back a.group.els m h p ++ restIdx g C (turnChan a.group.group.toGroupData D g C h c)))
    {b : Nat} {p : List Nat} {i : Nat} (o : Nat) (hb : b < B) (hp : Valid out p) (hi : i < A.length) :
    convFormula a g C k0 b0 A D before x' m b p i o =
      convFormula a g C k0 b0 A D before x m b (back a.group.els out h p) (turn a.group.group.toGroupData A h i) o := by
  have S := a.group.sym
  obtain ⟨sA, hA⟩ := f.subA
  have hh' := S.sub_lt hA hh
  refine formula_of_reads f hAD hh o hi fun k c hk hc => ?_
  have e2 := readAt_pull (S.wf hh') hm.1 hm.2 (x := x) (x' := x') (b := b) (fun p hp => hxx b p c hb hp hc)
    (q := winZ before a.strides a.dilation p k) (by rw [length_winZ, f.stridesLen])
  have e3 := pullZ_winZ (S.wf hh') (m := m) (before := before) f.stridesLen hO.1 f.kernelLen hm.2
    hO.2 (S.compat' f.grid hh') hs.2 hd.2 hgeo hp hk
  rw [e3] at e2
  exact e2

/-- entries of the output on a moved input -/
theorem conv_equiv_core [Semiring α] {a : ConvArgs α} {g : Option Nat} {C : Nat} {k0 b0 : List Nat → α}
    {A D : List Nat} {l : GroupConv α} {kp : KerasPadding} (f : ConvFacts a false g C k0 b0 A D l kp)
    (hf : a.dataFormat = .channelsLast) (hAD : ∀ e ∈ A, e ∈ D) {x x' : Tensor α} {B : Nat} {m : List Nat}
    (hx : x.shape = sigShape .channelsLast B m g C) (hx' : x'.shape = sigShape .channelsLast B m g C)
    {h : Nat} (hm : a.group.Kept h m) (hs : a.group.Kept h a.strides) (hd : a.group.Kept h a.dilation)
    {out before : List Nat}
    (hbef : before = totalBefore l.transforms.padState kp a.strides a.dilation a.kernelSize m)
    (hout : out = outSizes a.strides a.dilation a.kernelSize (padded l.transforms.padState kp a.strides a.dilation a.kernelSize m))
    (hO : a.group.Kept h out)
    (hgeo : ∀ i, i < a.group.dim → (nth out i - 1) * nth a.strides i + (nth a.kernelSize i - 1) * nth a.dilation i + 1 =
      nth m i + 2 * nth before i)
    (hh : h ∈ A)
    (hxx : ∀ b p c, b < B → Valid m p → c < chanO g C → x'.get (b :: p ++ restIdx g C c) =
      x.get (b :: back a.group.els m h p ++ restIdx g C (turnChan a.group.group.toGroupData D g C h c)))
    {y : Tensor α} (hy : (l.call x).2 = .ok y) :
    ∃ y', l.call x = (l, .ok y) ∧ l.call x' = (l, .ok y') ∧ y.shape = B :: out ++ [A.length, a.filters] ∧
      y'.shape = B :: out ++ [A.length, a.filters] ∧
      ∀ b p i o, b < B → Valid out p → i < A.length → o < a.filters →
        y'.get (b :: p ++ [i, o]) =
          y.get (b :: back a.group.els out h p ++ [turn a.group.group.toGroupData A h i, o]) := by
  have S := a.group.sym
  obtain ⟨sA, hA⟩ := f.subA
  obtain ⟨sD, hD⟩ := f.subD
  have hml := hm.1
  obtain ⟨c1, c2⟩ := conv_call_last f hf hx hml
  obtain ⟨d1, d2⟩ := conv_call_last f hf hx' hml
  have hfit := c1 y hy
  obtain ⟨y2, hy2, hys, hyg⟩ := c2 hfit
  rw [hy2] at hy
  cases hy
  obtain ⟨y', hy', hys', hyg'⟩ := d2 hfit
  rw [← hout] at hys hys' hyg hyg'
  rw [← hbef] at hyg hyg'
  refine ⟨y', hy2, hy', hys, hys', ?_⟩
  intro b p i o hb hp hi ho
  have hh' := S.sub_lt hA hh
  have hi' := S.turn_lt hA hh hi
  rw [hyg' b p i o hb hp hi ho, hyg b _ _ o hb (hO.valid hh' hp) hi' ho]
  exact formula_equiv (b0 := b0) f hAD hm hs hd hO hgeo hh hxx o hb hp hi

/-- acting on a channels_last signal -/
theorem act_last [Zero α] (n : GroupName) (x : Tensor α) {B : Nat} {m : List Nat} {g : Option Nat} {C : Nat}
    (hx : x.shape = sigShape .channelsLast B m g C) (hm : n.Grid m) {s : String} {A D : List Nat} {ta td : Option String}
    (hta : n.group.parseSubgroup ta = some s) (hA : lookup n.group.subgroup s = .ok A)
    (hdom : match (generalizing := false) g with
      | none => td = none
      | some g' => g' = D.length ∧ ∃ sD, n.group.parseSubgroup td = some sD ∧ lookup n.group.subgroup sD = .ok D)
    (hAD : ∀ e ∈ A, e ∈ D) :
    ∃ y, n.group.action x (spatialAxes .channelsLast n.dim) 0 (some (groupAxis .channelsLast n.dim : Int)) ta td = .ok y ∧
      y.shape = A.length :: x.shape ∧
      ∀ i, i < A.length → (slice y 0 i).shape = x.shape ∧
        ∀ b p c, b < B → Valid m p → c < chanO g C → (slice y 0 i).get (b :: p ++ restIdx g C c) =
          x.get (b :: back n.els m (nth A i) p ++ restIdx g C (turnChan n.group.toGroupData D g C (nth A i) c)) := by
  have S := n.sym
  have hsl : ∀ y : Tensor α, y.shape = A.length :: x.shape → ∀ i, (slice y 0 i).shape = x.shape := by
    intro y hy i
    simp [slice, hy]
  rw [parse_acting S hta hA]
  cases g with
  | none =>
    simp only at hdom
    subst hdom
    rw [action_none]
    obtain ⟨y, ey, hy, hg⟩ := S.act_grid_sig x (P := [B]) (m := m) (R := [C]) (by simpa [sigShape] using hx) hm hA
    refine ⟨y, ey, hy, fun i hi => ⟨hsl y hy i, ?_⟩⟩
    intro b p c hb hp hc
    exact hg i [b] p [c] hi (by simp [hb]) hp (by simpa [chanO] using hc)
  | some g' =>
    obtain ⟨rfl, sD, htd, hD⟩ := hdom
    rw [parse_domain S htd hD]
    obtain ⟨y, ey, hy, hg⟩ := S.act_group_sig x (P := [B]) (m := m) (R := [C]) hA hD hAD (by simpa [sigShape] using hx) hm
    refine ⟨y, ?_, hy, fun i hi => ⟨hsl y hy i, ?_⟩⟩
    · rw [← ey]
      have : ((groupAxis .channelsLast n.dim : Nat) : Int) = (([B].length + n.dim : Nat) : Int) := by
        simp [groupAxis]; omega
      rw [this]
      rfl
    · intro b p c hb hp hc
      obtain ⟨h1, h2, h3⟩ := split_lt (m := D.length) (n := C) hc
      have := hg i [b] p (c / C) [c % C] hi (by simp [hb]) hp h1 (by simp [h2])
      simp only [restIdx, turnChan, div_of h2, mod_of h2]
      exact this

theorem PadsTo.unique {opt : PadOption} {n m k s r b a b' a' : Nat} (h : PadsTo opt n m k s r b a) (h' : PadsTo opt n m k s r b' a') :
    b = b' ∧ a = a' := by
  obtain ⟨e, h1, h2, h3⟩ := h
  obtain ⟨e', h1', h2', h3'⟩ := h'
  have : e = e' := by
    cases opt
    · exact h1.trans h1'.symm
    · exact h1.trans h1'.symm
    · exact Nat.le_antisymm (h1.2 _ h1'.1) (h1'.2 _ h1.1)
    · exact Nat.le_antisymm (h1.2 _ h1'.1) (h1'.2 _ h1.1)
  subst this
  omega

/-- sizes of the output of a convolution layer, and where the windows are -/
theorem conv_geo [Semiring α] {a : ConvArgs α} {bt : Option Nat} {n : List Nat} {g : Option Nat} {C : Nat}
    {k0 b0 : List Nat → α} {H A D : List Nat} {l : GroupConv α} (hl : BuiltConv a false bt n g C k0 b0 H l)
    (hallow : a.allowNonEquivariance = false) {opt : PadOption} {kp : KerasPadding} (hagree : kp = kerasOf opt)
    (f : ConvFacts a false g C k0 b0 A D l kp) {C' : Option Nat}
    (hst : (EquivariantPadding.mk opt a.allowNonEquivariance a.group.dim a.strides a.kernelSize true false).build
      (signalShape true bt C' n) = .ok l.transforms.padState)
    (hdil : ∀ i, i < a.group.dim → DilationOk opt (nth a.kernelSize i) (nth a.strides i) (nth a.dilation i))
    (hfit : FitsIn a.strides a.dilation a.kernelSize (padded l.transforms.padState kp a.strides a.dilation a.kernelSize n)) :
    (∀ i j, i < a.group.dim → j < a.group.dim → nth n i = nth n j → nth a.strides i = nth a.strides j →
      nth a.dilation i = nth a.dilation j → nth a.kernelSize i = nth a.kernelSize j →
      nth (outSizes a.strides a.dilation a.kernelSize (padded l.transforms.padState kp a.strides a.dilation a.kernelSize n)) i =
      nth (outSizes a.strides a.dilation a.kernelSize (padded l.transforms.padState kp a.strides a.dilation a.kernelSize n)) j) ∧
    ∀ i, i < a.group.dim → (nth (outSizes a.strides a.dilation a.kernelSize
      (padded l.transforms.padState kp a.strides a.dilation a.kernelSize n)) i - 1) * nth a.strides i +
        (nth a.kernelSize i - 1) * nth a.dilation i + 1 =
      nth n i + 2 * nth (totalBefore l.transforms.padState kp a.strides a.dilation a.kernelSize n) i := by
  have hnl : n.length = a.strides.length := by rw [hl.dims, f.stridesLen]
  have hpt := fun i (hi : i < a.group.dim) => padsTo_ok (dil := a.dilation) (m := n) hl.dims hl.dims f.kernelLen f.stridesLen
    f.stridesPos hagree hst hi
  have houtn : ∀ i, i < a.group.dim → nth (outSizes a.strides a.dilation a.kernelSize
      (padded l.transforms.padState kp a.strides a.dilation a.kernelSize n)) i =
      (nth (totalBefore l.transforms.padState kp a.strides a.dilation a.kernelSize n) i + nth n i +
            nth (totalAfter l.transforms.padState kp a.strides a.dilation a.kernelSize n) i -
            dilated (nth a.kernelSize i) (nth a.dilation i)) / nth a.strides i + 1 := by
    intro i hi
    rw [outSizes, nth_map_range, if_pos (by rw [f.stridesLen]; exact hi), nth_padded hnl (by rw [f.stridesLen]; exact hi)]
  refine ⟨?_, ?_⟩
  · intro i j hi hj h1 h2 h3 h4
    have e1 := hpt i hi
    have e2 := hpt j hj
    rw [houtn i hi, houtn j hj]
    rw [h1, h2, h3, h4] at e1 ⊢
    obtain ⟨h3, h4⟩ := e1.unique e2
    rw [h3, h4]
  · intro i hi
    rw [houtn i hi]
    have hi' : i < a.strides.length := by rw [f.stridesLen]; exact hi
    obtain ⟨e, h1, h2, h3⟩ := epads_spec hl.dims f.kernelLen f.stridesLen f.stridesPos hst hi
    have hg : nth (grow n (epads l.transforms.padState a.group.dim)) i = nth n i + e := by
      rw [nth_grow (by rw [hl.dims]; exact hi) (by rw [length_epads, hl.dims]), h3]
      simp only
      omega
    have hsym : Symmetric (nth n i) (nth a.kernelSize i) (nth a.strides i)
        (e + builtIn opt (nth n i) (nth a.kernelSize i) (nth a.strides i)) := by
      cases opt
      · rw [h1.1, Nat.zero_add]; exact h1.2 hallow
      · rw [h1.1, Nat.zero_add]; exact h1.2 hallow
      · exact h1.1
      · exact h1.1
    apply geo_num (hfit i hi').2.1 hsym h2 (hdil i hi)
    · unfold totalBefore
      rw [nth_map_range, if_pos hi', nth_befores, nth_befores, kpads_builtIn hagree hi', f.stridesLen, h3, hg]
      simp only
      omega
    · unfold totalBefore totalAfter
      rw [nth_map_range, nth_map_range, if_pos hi', if_pos hi', nth_befores, nth_befores, kpads_builtIn hagree hi', f.stridesLen, h3, hg]
      simp only
      omega
    · rw [← nth_padded hnl hi']
      exact (hfit i hi').2.2

theorem conv_commutes [Semiring α] {a : ConvArgs α} {bt : Option Nat} {n : List Nat} {g : Option Nat} {C : Nat}
    {k0 b0 : List Nat → α} {H : List Nat} {l : GroupConv α} (hl : BuiltConv a false bt n g C k0 b0 H l)
    (hf : a.dataFormat = .channelsLast) (hallow : a.allowNonEquivariance = false)
    {opt : PadOption} (hopt : formatPaddingOption a.padding = .ok opt) (hn : a.group.Grid n)
    (hs : a.group.Grid a.strides) (hd : a.group.Grid a.dilation)
    (hdil : ∀ i, i < a.group.dim → DilationOk opt (nth a.kernelSize i) (nth a.strides i) (nth a.dilation i))
    {x : Tensor α} {B : Nat} (hx : x.shape = sigShape .channelsLast B n g C) {y : Tensor α} (hy : (l.call x).2 = .ok y) :
    Commutes a.group.group a.group.dim .channelsLast a.subgroup H.length (g.map fun _ => "") a.subgroup
      (fun x => (l.call x).2) x y := by
  have S := a.group.sym
  obtain ⟨opt', kp, hopt', hkp, f, hst⟩ := hl.facts_last hf
  rw [hopt] at hopt'
  cases hopt'
  have hA' : actingOf a.group false H = H := rfl
  have hD' : domainOf a.group false H = List.range a.group.group.order := rfl
  rw [hA', hD'] at f
  have hagree := padding_agree hopt hkp
  obtain ⟨sH, hsH, hH⟩ := parse_sub hl.elements
  have hAD : ∀ e ∈ H, e ∈ List.range a.group.group.order := fun e he => List.mem_range.2 (S.sub_lt hH he)
  have hfit := (conv_call_last f hf hx hl.dims).1 y hy
  obtain ⟨hlink', hgeo⟩ := conv_geo hl hallow hagree f hst hdil hfit
  have hO : a.group.Grid (outSizes a.strides a.dilation a.kernelSize
      (padded l.transforms.padState kp a.strides a.dilation a.kernelSize n)) := by
    apply a.group.grid_of (by rw [length_outSizes, f.stridesLen])
    intro i j hi hj hlink
    exact hlink' i j hi hj (hlink _ hn) (hlink _ hs) (hlink _ hd) (hlink _ f.grid)
  obtain ⟨gx, egx, hgx, hgxg⟩ := act_last a.group x hx hn (D := List.range a.group.group.order) (td := g.map fun _ => "")
    hsH hH (by
      cases g with
      | none => rfl
      | some g' => exact ⟨f.size g' rfl, _, rfl, S.tab.own⟩) hAD
  have hys : y.shape = sigShape .channelsLast B (outSizes a.strides a.dilation a.kernelSize
      (padded l.transforms.padState kp a.strides a.dilation a.kernelSize n)) (some H.length) a.filters := by
    obtain ⟨y2, hy2, hs2, _⟩ := (conv_call_last f hf hx hl.dims).2 hfit
    rw [hy2] at hy
    cases hy
    rw [hs2]; rfl
  obtain ⟨gy, egy, hgy, hgyg⟩ := act_last a.group y hys hO (D := H) (td := a.subgroup) hsH hH ⟨rfl, sH, hsH, hH⟩ (fun e he => he)
  refine ⟨gx, gy, egx, hgx, egy, hgy, ?_⟩
  intro i hi
  obtain ⟨h1, h2⟩ := hgxg i hi
  obtain ⟨y', _, hy', _, hys', hyg'⟩ := conv_equiv_core f hf hAD hx (h1.trans hx) (hn.kept (S.sub_nth_lt hH hi))
    (hs.kept (S.sub_nth_lt hH hi)) (hd.kept (S.sub_nth_lt hH hi)) rfl rfl (hO.kept (S.sub_nth_lt hH hi)) hgeo (nth_mem _ _ hi) h2 hy
  refine ⟨y', congrArg Prod.snd hy', ?_⟩
  obtain ⟨k1, k2⟩ := hgyg i hi
  have hsh : y'.shape = y.shape := by rw [hys, hys']; rfl
  refine ⟨by rw [hsh, k1], ?_⟩
  intro idx hv
  rw [hys'] at hv
  obtain ⟨bp, r, rfl, hbp, hr⟩ := valid_append_split hv
  match bp, hbp, r, hr with
  | b :: p, ⟨hb, hp⟩, [j, o], ⟨hj, ho, _⟩ =>
    rw [hyg' b p j o hb hp hj ho]
    have := k2 b p (j * a.filters + o) hb hp (mul_add_lt hj ho)
    simp only [restIdx, turnChan, div_of ho, mod_of ho] at this
    exact this.symm

end GroCo
