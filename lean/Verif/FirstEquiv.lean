import Verif.ConvEquiv
import Verif.ConvFirst

/-
Helper lemmas: equivariance of channels_first convolution layers that need no padding.
-/

namespace GroCo
open Tensor

variable {α : Type}

theorem pad_zero {opt : PadOption} {tr : Bool} {n k : Int} (h : opt = .valid ∨ opt = .validEquiv ∨ k % 2 = 1) (hk : 0 < k) :
    (computeEquivariantPadding opt tr n k 1).1 = 0 := by
  unfold computeEquivariantPadding computeExtraPadding computeBuiltInPadding
  have hm : ∀ z : Int, z % 1 = 0 := Int.emod_one
  have hr : relu (1 - k) = 0 := by unfold relu; omega
  cases opt
  case valid => cases tr <;> simp [hm, hr]
  case validEquiv => cases tr <;> simp [hm, hr]
  all_goals
    have hk1 : k % 2 = 1 := by simpa using h
    simp only [hm, relu, zero_add, add_zero, mul_one]
    omega

/-- layers that never pad, in both data formats -/
theorem never_pads {opt : PadOption} {allow : Bool} {d : Nat} {strides K : List Nat} {shape : List (Option Nat)} {st : PadState}
    {tr : Bool} (hK : K.length = d) (h0 : 0 ∉ K) (hp : ∀ i, i < d → NeverPads opt (nth K i) (nth strides i))
    (h : (EquivariantPadding.mk opt allow d strides K true tr).build shape = .ok st) : st = ⟨false, []⟩ := by
  unfold EquivariantPadding.build at h
  split at h
  · cases h; rfl
  · obtain ⟨sp, hsp, h⟩ := bind_eq_ok h
    split at h
    · exact absurd h (by simp)
    · rename_i hlen
      simp only [not_or, not_not] at hlen
      simp only at h
      split at h
      · cases h; rfl
      · rename_i hne
        split at h
        · exact absurd h (by simp)
        · rename_i hopt
          exfalso
          apply hne
          intro e he
          simp only [List.mem_map, List.mem_range] at he
          obtain ⟨i, hi, rfl⟩ := he
          have hi' : i < K.length := by rw [← hlen.1]; exact hi
          have hpi := hp i (by omega)
          have hk : 0 < nth K i := Nat.pos_of_ne_zero fun h => h0 (h ▸ nth_mem _ _ hi')
          rcases hpi with h1 | h1 | ⟨h1, h2⟩
          · exact absurd (Or.inl h1) hopt
          · exact absurd (Or.inr h1) hopt
          · rw [h1]
            exact pad_zero (Or.inr (h2.imp id (fun h => by omega))) (by omega)

/-- the channels_last version of a channels_first signal -/
def toLast (x : Tensor α) (s : List Nat) : Tensor α :=
  ⟨s, fun idx => x.get (nth idx 0 :: nth idx (s.length - 1) :: (idx.drop 1).take (s.length - 2))⟩

theorem toLast_moved (x : Tensor α) {B : Nat} {n : List Nat} {g : Option Nat} {C : Nat}
    (hx : x.shape = sigShape .channelsFirst B n g C) :
    ChannelsMoved B n g C (toLast x (sigShape .channelsLast B n g C)) x := by
  refine ⟨rfl, hx, ?_⟩
  intro b p c hb hp hc
  have hl : (sigShape .channelsLast B n g C).length = p.length + 2 := by
    rw [hp.length]
    simp [sigShape]
    omega
  simp only [toLast, hl]
  congr 2
  show c :: p = _
  rw [show p.length + 2 - 1 = p.length + 1 by omega, nth_app0 (a := b :: p) (by simp)]
  simp

/-- acting on a channels_first signal, read through its channels_last version -/
theorem act_first [Zero α] (n : GroupName) (x : Tensor α) {B : Nat} {m : List Nat} {g : Option Nat} {C : Nat}
    (hx : x.shape = sigShape .channelsFirst B m g C) (hm : n.Grid m) {s : String} {A D : List Nat} {ta td : Option String}
    (hta : n.group.parseSubgroup ta = some s) (hA : lookup n.group.subgroup s = .ok A)
    (hdom : match (generalizing := false) g with
      | none => td = none
      | some g' => g' = D.length ∧ ∃ sD, n.group.parseSubgroup td = some sD ∧ lookup n.group.subgroup sD = .ok D)
    (hAD : ∀ e ∈ A, e ∈ D) :
    ∃ y, n.group.action x (spatialAxes .channelsFirst n.dim) 0 (some (groupAxis .channelsFirst n.dim : Int)) ta td = .ok y ∧
      y.shape = A.length :: x.shape ∧
      ∀ i, i < A.length → (slice y 0 i).shape = x.shape ∧
        ∀ b p c, b < B → Valid m p → c < chanO g C →
          (slice y 0 i).get (b :: (restIdx g C c).getLast?.getD 0 :: p ++ (restIdx g C c).dropLast) =
          x.get (b :: (restIdx g C c).getLast?.getD 0 :: back n.els m (nth A i) p ++
            (restIdx g C (turnChan n.group.toGroupData D g C (nth A i) c)).dropLast) := by
  have S := n.sym
  have hsl : ∀ y : Tensor α, y.shape = A.length :: x.shape → ∀ i, (slice y 0 i).shape = x.shape := by
    intro y hy i
    simp [slice, hy]
  rw [parse_acting S hta hA]
  cases g with
  | none =>
    simp only at hdom
    subst hdom
    rw [action_none]
    obtain ⟨y, ey, hy, hg⟩ := S.act_grid_sig x (P := [B, C]) (m := m) (R := []) (by simpa [sigShape] using hx) hm hA
    refine ⟨y, ey, hy, fun i hi => ⟨hsl y hy i, ?_⟩⟩
    intro b p c hb hp hc
    have hc' : c < C := hc
    exact hg i [b, c] p [] hi (by simp [hb, hc']) hp (by simp)
  | some g' =>
    obtain ⟨rfl, sD, htd, hD⟩ := hdom
    rw [parse_domain S htd hD]
    obtain ⟨y, ey, hy, hg⟩ := S.act_group_sig x (P := [B, C]) (m := m) (R := []) hA hD hAD (by simpa [sigShape] using hx) hm
    refine ⟨y, ?_, hy, fun i hi => ⟨hsl y hy i, ?_⟩⟩
    · rw [← ey]
      have : ((groupAxis .channelsFirst n.dim : Nat) : Int) = (([B, C].length + n.dim : Nat) : Int) := by
        simp [groupAxis]; omega
      rw [this]
      rfl
    · intro b p c hb hp hc
      obtain ⟨h1, h2, h3⟩ := split_lt (m := D.length) (n := C) hc
      have := hg i [b, c % C] p (c / C) [] hi (by simp [hb, h2]) hp h1 (by simp)
      simp only [restIdx, turnChan, div_of h2]
      exact this

theorem conv_commutes_first [Semiring α] {a : ConvArgs α} {bt : Option Nat} {n : List Nat} {g : Option Nat} {C : Nat}
    {k0 b0 : List Nat → α} {H : List Nat} {l : GroupConv α} (hl : BuiltConv a false bt n g C k0 b0 H l)
    (hf : a.dataFormat = .channelsFirst)
    {opt : PadOption} (hopt : formatPaddingOption a.padding = .ok opt) (hs1 : a.strides = List.replicate a.group.dim 1)
    (hpar : ∀ i, i < a.group.dim → opt = .valid ∨ opt = .validEquiv ∨ nth a.kernelSize i % 2 = 1)
    (hd : a.group.Grid a.dilation)
    {x : Tensor α} {B : Nat} {m : List Nat} (hm : a.group.Grid m) (hx : x.shape = sigShape .channelsFirst B m g C)
    {y : Tensor α} (hy : (l.call x).2 = .ok y) :
    Commutes a.group.group a.group.dim .channelsFirst a.subgroup H.length (g.map fun _ => "") a.subgroup
      (fun x => (l.call x).2) x y := by
  have S := a.group.sym
  obtain ⟨opt', kp, hopt', hkp, f, hst⟩ := hl.facts_first hf
  rw [hopt] at hopt'
  cases hopt'
  have hA' : actingOf a.group false H = H := rfl
  have hD' : domainOf a.group false H = List.range a.group.group.order := rfl
  rw [hA', hD'] at f
  have hagree := padding_agree hopt hkp
  obtain ⟨sH, hsH, hH⟩ := parse_sub hl.elements
  have hAD : ∀ e ∈ H, e ∈ List.range a.group.group.order := fun e he => List.mem_range.2 (S.sub_lt hH he)
  have hsn : ∀ i, i < a.group.dim → nth a.strides i = 1 := by
    intro i hi
    rw [hs1, nth_eq_getElem _ _ (by simpa using hi)]
    simp
  have hno : l.transforms.padState = ⟨false, []⟩ := by
    refine never_pads f.kernelLen f.kernelPos (fun i hi => ?_) hst
    rcases hpar i hi with h | h | h
    · exact Or.inr (Or.inl h)
    · exact Or.inr (Or.inr ⟨hsn i hi, Or.inl h⟩)
    · exact Or.inr (Or.inr ⟨hsn i hi, Or.inr h⟩)
  have hml := S.okLen m hm
  have hstr : a.group.Grid a.strides := by
    apply a.group.grid_of f.stridesLen
    intro i j hi hj _
    rw [hsn i hi, hsn j hj]
  have hx1 := toLast_moved x hx
  obtain ⟨c1, c2⟩ := conv_call_first f hf hno hx1 hml
  have hfit := c1 y hy
  obtain ⟨y2, hy2, hys, hyg⟩ := c2 hfit
  rw [hy2] at hy
  cases hy
  have hnl : m.length = a.strides.length := by rw [hml, f.stridesLen]
  have hzero : ∀ i, ((epads ⟨false, []⟩ a.strides.length).getD i (0, 0)) = (0, 0) := by
    intro i
    by_cases hi : i < a.strides.length
    · rw [nth_epads hi]; simp
    · simp [epads, hi]
  have hg0 : ∀ i, i < a.strides.length → nth (grow m (epads ⟨false, []⟩ a.strides.length)) i = nth m i := by
    intro i hi
    rw [nth_grow (by omega) (by rw [length_epads, hnl]), hzero i]
    simp
  set before := totalBefore ⟨false, []⟩ kp a.strides a.dilation a.kernelSize m with hbef
  have hb : ∀ i, i < a.group.dim → nth before i =
      (0 + 1) / 2 + builtIn opt (nth m i + 0) (dilated (nth a.kernelSize i) (nth a.dilation i)) (nth a.strides i) / 2 := by
    intro i hi
    have hi' : i < a.strides.length := by rw [f.stridesLen]; exact hi
    rw [hbef]
    unfold totalBefore
    rw [nth_map_range, if_pos hi', nth_befores, nth_befores, kpads_builtIn hagree hi', hzero, hg0 i hi', Nat.add_zero (nth m i)]
    simp only
    omega
  have hba : ∀ i, i < a.group.dim → nth before i + nth (totalAfter ⟨false, []⟩ kp a.strides a.dilation a.kernelSize m) i =
      0 + builtIn opt (nth m i + 0) (dilated (nth a.kernelSize i) (nth a.dilation i)) (nth a.strides i) := by
    intro i hi
    have hi' : i < a.strides.length := by rw [f.stridesLen]; exact hi
    rw [hbef]
    unfold totalBefore totalAfter
    rw [nth_map_range, nth_map_range, if_pos hi', if_pos hi', nth_befores, nth_befores, kpads_builtIn hagree hi', hzero, hg0 i hi', Nat.add_zero (nth m i)]
    simp only
    omega
  set out := outSizes a.strides a.dilation a.kernelSize (padded ⟨false, []⟩ kp a.strides a.dilation a.kernelSize m) with hout
  have houtn : ∀ i, i < a.group.dim → nth out i = (nth before i + nth m i +
      nth (totalAfter ⟨false, []⟩ kp a.strides a.dilation a.kernelSize m) i -
            dilated (nth a.kernelSize i) (nth a.dilation i)) / nth a.strides i + 1 := by
    intro i hi
    rw [hout, outSizes, nth_map_range, if_pos (by rw [f.stridesLen]; exact hi), nth_padded hnl (by rw [f.stridesLen]; exact hi)]
  have hO : a.group.Grid out := by
    apply a.group.grid_of (by rw [hout, length_outSizes, f.stridesLen])
    intro i j hi hj hlink
    rw [houtn i hi, houtn j hj]
    have h1 := hb i hi
    have h2 := hb j hj
    have h3 := hba i hi
    have h4 := hba j hj
    rw [hlink _ hm, hlink _ hstr, hlink _ hd, hlink _ f.grid] at h1 h3 ⊢
    have h5 := h1.trans h2.symm
    rw [h5] at h3 ⊢
    have h6 := Nat.add_left_cancel (h3.trans h4.symm)
    rw [h6]
  have hgeo : ∀ i, i < a.group.dim → (nth out i - 1) * nth a.strides i + (nth a.kernelSize i - 1) * nth a.dilation i + 1 =
      nth m i + 2 * nth before i := by
    intro i hi
    have hi' : i < a.strides.length := by rw [f.stridesLen]; exact hi
    have hfi := (hfit i hi').2
    rw [nth_padded hnl hi'] at hfi
    rw [houtn i hi]
    have hs := hsn i hi
    refine geo_num (opt := opt) (e := 0) hfi.1 ?_ rfl ?_ (hb i hi) (hba i hi) hfi.2
    · rw [hs]
      refine ⟨?_, Int.emod_one _⟩
      rcases hpar i hi with rfl | rfl | h
      · rfl
      · rfl
      · cases opt <;> simp [builtIn, sameTotal, Nat.mod_one] <;> omega
    · right
      refine ⟨hs, ?_⟩
      rcases hpar i hi with h | h | h
      · exact Or.inl h
      · exact Or.inr (Or.inl h)
      · exact Or.inr (Or.inr (Or.inl h))
  obtain ⟨gx, egx, hgx, hgxg⟩ := act_first a.group x hx hm (D := List.range a.group.group.order) (td := g.map fun _ => "")
    hsH hH (by
      cases g with
      | none => rfl
      | some g' => exact ⟨f.size g' rfl, _, rfl, S.tab.own⟩) hAD
  have hys' : y.shape = sigShape .channelsFirst B out (some H.length) a.filters := by rw [hys]; rfl
  obtain ⟨gy, egy, hgy, hgyg⟩ := act_first a.group y hys' hO (D := H) (td := a.subgroup) hsH hH ⟨rfl, sH, hsH, hH⟩ (fun e he => he)
  refine ⟨gx, gy, egx, hgx, egy, hgy, ?_⟩
  intro i hi
  have hh := nth_mem _ _ hi
  have hh' := S.sub_lt hH hh
  obtain ⟨h1, h2⟩ := hgxg i hi
  have hx1' := toLast_moved (slice gx 0 i) (h1.trans hx)
  obtain ⟨d1, d2⟩ := conv_call_first f hf hno hx1' hml
  obtain ⟨y', hy', hys2, hyg'⟩ := d2 hfit
  refine ⟨y', congrArg Prod.snd hy', ?_⟩
  obtain ⟨k1, k2⟩ := hgyg i hi
  have hxx : ∀ b p c, b < B → Valid m p → c < chanO g C →
      (toLast (slice gx 0 i) (sigShape .channelsLast B m g C)).get (b :: p ++ restIdx g C c) =
      (toLast x (sigShape .channelsLast B m g C)).get (b :: back a.group.els m (nth H i) p ++
        restIdx g C (turnChan a.group.group.toGroupData (List.range a.group.group.order) g C (nth H i) c)) := by
    intro b p c hb hp hc
    have h3 := h2 b p c hb hp hc
    have hpb := S.valid_back hm hh' hp
    cases g with
    | none =>
      have hc' : c < C := hc
      have e1 := hx1'.get b p c hb (by simpa using hp) hc'
      have e2 := hx1.get b _ c hb (by simpa using hpb) hc'
      simp only [restIdx, turnChan]
      rw [← e1, ← e2]
      simpa [restIdx, turnChan] using h3
    | some g' =>
      obtain ⟨q1, q2, q3⟩ := split_lt (m := g') (n := C) hc
      have hgs := f.size g' rfl
      have ht : turn a.group.group.toGroupData (List.range a.group.group.order) (nth H i) (c / C) < g' := by
        rw [hgs]
        exact S.turn_lt S.tab.own (hAD _ hh) (by rw [← hgs]; exact q1)
      have e1 := hx1'.get b (p ++ [c / C]) (c % C) hb ((valid_append m [g'] p _ hp.length).2 ⟨hp, by simp [q1]⟩) q2
      have e2 := hx1.get b (back a.group.els m (nth H i) p ++
        [turn a.group.group.toGroupData (List.range a.group.group.order) (nth H i) (c / C)]) (c % C) hb
        ((valid_append m [g'] _ _ hpb.length).2 ⟨hpb, by simp [ht]⟩) q2
      simp only [restIdx, turnChan, div_of q2, mod_of q2] at h3 ⊢
      simp only [List.cons_append, List.append_assoc, List.nil_append] at e1 e2 h3 ⊢
      rw [← e1, ← e2]
      simpa using h3
  have hsh : y'.shape = y.shape := by rw [hys, hys2]
  refine ⟨by rw [hsh, k1], ?_⟩
  intro idx hv
  rw [hys2] at hv
  obtain ⟨bp, r, rfl, hbp, hr⟩ := valid_append_split hv
  match bp, hbp, r, hr with
  | b :: o :: p, ⟨hb, ho, hp⟩, [j], ⟨hj, _⟩ =>
    have k3 := k2 b p (j * a.filters + o) hb hp (mul_add_lt hj ho)
    simp only [restIdx, turnChan, div_of ho, mod_of ho] at k3
    have k4 := formula_equiv (b0 := b0) f hAD (hm.kept hh') (hstr.kept hh') (hd.kept hh') (hO.kept hh') hgeo hh hxx o hb hp hj
    rw [hyg' b p j o hb hp hj ho]
    refine Eq.trans k4 (Eq.trans (hyg b _ _ o hb (S.valid_back hO hh' hp) (S.turn_lt hH hh hj) ho).symm ?_)
    simpa using k3.symm

end GroCo
