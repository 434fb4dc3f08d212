import Verif.WindowLemmas
import Verif.Props.Exact

/-
Property C25, exactly: which strides, dilation rates and paddings make a convolution equivariant, and which accepted configurations
are silently broken. The vocabulary (`MovesOutput`, `KeepsSizes`, `PadsTo`, `DilationOk`) is in LayerSpec and MovedSpec.
-/

namespace GroCo
open Tensor

variable {α : Type}

/-- C25, for every configuration, accepted or not: a channels_last convolution layer that puts `before` and `after` zeros around images
of sizes `n` that its subgroup keeps and that are larger than its windows by two strides, moves its output with its input for all
elements of its subgroup and all weights exactly if axes that the subgroup exchanges have the same stride and, unless the kernel has
size 1, the same dilation rate, and along every axis that it reverses the last window ends as many positions behind the image as the
first one starts before it. -/
theorem C25_configurations [Semiring α] {a : ConvArgs α} {bt : Option Nat} {n : List Nat} {g : Option Nat} {C : Nat}
    {k0 b0 : List Nat → α} {H : List Nat} {l : GroupConv α} (hl : BuiltConv a false bt n g C k0 b0 H l)
    (hf : a.dataFormat = .channelsLast) (opt : PadOption) (hopt : formatPaddingOption a.padding = .ok opt)
    (v : α) (hv : a.activation v ≠ a.activation 0) (hC : 0 < C) (hn : ∀ h ∈ H, KeepsSizes (a.group.motion h) n)
    (hbig : ∀ i, i < a.group.dim → 2 * nth a.strides i + dilated (nth a.kernelSize i) (nth a.dilation i) ≤ nth n i)
    (before after : List Nat) (hbl : before.length = a.group.dim)
    (hpad : ∀ i, i < a.group.dim → PadsTo opt (nth n i) (nth n i) (nth a.kernelSize i) (nth a.strides i) (nth a.dilation i)
      (nth before i) (nth after i)) :
    (∀ h k1 b1, h ∈ H → MovesOutput a.group (List.range a.group.group.order) H h (fun x => ((l.assign k1 b1).call x).2) n g C
      a.filters) ↔
    ∀ h ∈ H, ∀ i j : Fin a.group.dim, a.group.motion h i j ≠ 0 → nth a.strides i = nth a.strides j ∧
      (nth a.kernelSize i = 1 ∨ nth a.dilation i = nth a.dilation j) ∧
      (a.group.motion h i j = -1 →
        (nth before i + nth n i + nth after i - dilated (nth a.kernelSize i) (nth a.dilation i)) / nth a.strides i * nth a.strides i +
          dilated (nth a.kernelSize i) (nth a.dilation i) = nth n i + 2 * nth before i) := by
  have S := a.group.sym
  obtain ⟨sH, _, hH⟩ := parse_sub hl.elements
  obtain ⟨_, kp, _, _, f, _⟩ := hl.facts_last hf
  have hspos : ∀ i, i < a.group.dim → 0 < nth a.strides i := fun i hi =>
    Nat.pos_of_ne_zero fun h => f.stridesPos (h ▸ nth_mem _ _ (by rw [f.stridesLen]; exact hi))
  have hkpos : ∀ i, i < a.group.dim → 0 < nth a.kernelSize i := fun i hi =>
    Nat.pos_of_ne_zero fun h => f.kernelPos (h ▸ nth_mem _ _ (by rw [f.kernelLen]; exact hi))
  have key := fun h (hh : h ∈ H) => C68_windows hl hf opt hopt v hv hC h hh (hn h hh) before after _ hbl hpad (fun i hi => by
    have := hbig i hi
    omega) rfl
  generalize hout : ((List.range a.group.dim).map fun i =>
    (nth before i + nth n i + nth after i - dilated (nth a.kernelSize i) (nth a.dilation i)) / nth a.strides i + 1) = out at key
  have hol : out.length = a.group.dim := by rw [← hout]; simp
  have hno : ∀ i, i < a.group.dim → nth out i =
      (nth before i + nth n i + nth after i - dilated (nth a.kernelSize i) (nth a.dilation i)) / nth a.strides i + 1 := by
    intro i hi
    rw [← hout, nth_map_range, if_pos hi]
  -- axes with the same sampling get the same zeros
  have hlink : ∀ i j, i < a.group.dim → j < a.group.dim → nth n i = nth n j → nth a.kernelSize i = nth a.kernelSize j →
      nth a.strides i = nth a.strides j → (nth a.kernelSize i = 1 ∨ nth a.dilation i = nth a.dilation j) →
      nth before i = nth before j ∧ nth out i = nth out j := by
    intro i j hi hj h1 h2 h3 h4
    have hd : dilated (nth a.kernelSize i) (nth a.dilation i) = dilated (nth a.kernelSize j) (nth a.dilation j) := by
      rcases h4 with h4 | h4
      · rw [← h2, h4]; simp [dilated]
      · rw [h2, h4]
    have p1 := hpad i hi
    have p2 : PadsTo opt (nth n i) (nth n i) (nth a.kernelSize i) (nth a.strides i) (nth a.dilation i) (nth before j) (nth after j) := by
      obtain ⟨e, q1, q2, q3⟩ := hpad j hj
      rw [← h1, ← h2, ← h3] at q1
      rw [← hd, ← h1, ← h3] at q2 q3
      exact ⟨e, q1, q2, q3⟩
    obtain ⟨e1, e2⟩ := p1.unique p2
    refine ⟨e1, ?_⟩
    rw [hno i hi, hno j hj, e1, e2, h1, h3, hd]
  constructor
  · intro hall h hh i j hij
    have hh' := S.sub_lt hH hh
    obtain ⟨hO, hW⟩ := (key h hh).1 fun k1 b1 => hall h k1 b1 hh
    obtain ⟨h1, h2, _, h4⟩ := axes_of_windowsMoved hh' ((keeps_iff _ hh' _).1 (hn h hh)) ((keeps_iff _ hh' _).1 hO) (f.grid.kept hh')
      f.stridesLen hno hspos hkpos hbig hW i j hij
    refine ⟨h1, h2, fun e => ?_⟩
    have h5 := h4 e
    have h6 := (hlink i j i.2 j.2 ((hn h hh).2 i j hij) (((keeps_iff _ hh' _).2 (f.grid.kept hh')).2 i j hij) h1 h2).1
    rw [hno i i.2, Nat.add_sub_cancel] at h5
    unfold dilated at h5 ⊢
    omega
  · intro hall h k1 b1 hh
    have hh' := S.sub_lt hH hh
    have hO : KeepsSizes (a.group.motion h) out := by
      refine ⟨hol, fun i j hij => ?_⟩
      obtain ⟨h1, h2, _⟩ := hall h hh i j hij
      exact (hlink i j i.2 j.2 ((hn h hh).2 i j hij) (((keeps_iff _ hh' _).2 (f.grid.kept hh')).2 i j hij) h1 h2).2
    refine (key h hh).2 ⟨hO, ?_⟩ k1 b1
    refine windowsMoved_of_axes hh' ((keeps_iff _ hh' _).1 (hn h hh)) ((keeps_iff _ hh' _).1 hO) (f.grid.kept hh') f.stridesLen ?_
    intro i j hij
    obtain ⟨h1, h2, h3⟩ := hall h hh i j hij
    have h6 := (hlink i j i.2 j.2 ((hn h hh).2 i j hij) (((keeps_iff _ hh' _).2 (f.grid.kept hh')).2 i j hij) h1 h2).1
    refine ⟨h1, h2, fun _ => h6, fun e => ?_⟩
    have := h3 e
    rw [hno i i.2, Nat.add_sub_cancel]
    unfold dilated at this ⊢
    omega

/-- C25, exactly: a channels_last convolution layer accepted with allow_non_equivariance=False, on images that its subgroup keeps and
that are larger than its windows by two strides, is silently broken for no weights exactly if axes that the subgroup exchanges have
the same stride and, unless the kernel has size 1, the same dilation rate, and along every axis that it reverses the dilation rate is
1 or harmless (`DilationOk`: odd, or an odd kernel, or no padding). -/
theorem C25_exact [Semiring α] {a : ConvArgs α} {bt : Option Nat} {n : List Nat} {g : Option Nat} {C : Nat}
    {k0 b0 : List Nat → α} {H : List Nat} {l : GroupConv α} (hl : BuiltConv a false bt n g C k0 b0 H l)
    (hf : a.dataFormat = .channelsLast) (hallow : a.allowNonEquivariance = false)
    (opt : PadOption) (hopt : formatPaddingOption a.padding = .ok opt)
    (v : α) (hv : a.activation v ≠ a.activation 0) (hC : 0 < C) (hn : ∀ h ∈ H, KeepsSizes (a.group.motion h) n)
    (hbig : ∀ i, i < a.group.dim → 2 * nth a.strides i + dilated (nth a.kernelSize i) (nth a.dilation i) ≤ nth n i) :
    (∀ h k1 b1, h ∈ H → MovesOutput a.group (List.range a.group.group.order) H h (fun x => ((l.assign k1 b1).call x).2) n g C
      a.filters) ↔
    ∀ h ∈ H, ∀ i j : Fin a.group.dim, a.group.motion h i j ≠ 0 → nth a.strides i = nth a.strides j ∧
      (nth a.kernelSize i = 1 ∨ nth a.dilation i = nth a.dilation j) ∧
      (a.group.motion h i j = -1 → DilationOk opt (nth a.kernelSize i) (nth a.strides i) (nth a.dilation i)) := by
  obtain ⟨opt', kp, hopt', hkp, f, hst⟩ := hl.facts_last hf
  rw [hopt] at hopt'
  cases hopt'
  have hagree := padding_agree hopt hkp
  have hpt := fun i (hi : i < a.group.dim) => padsTo_ok (dil := a.dilation) (m := n) hl.dims hl.dims f.kernelLen f.stridesLen
    f.stridesPos hagree hst hi
  have hkpos : ∀ i, i < a.group.dim → 0 < nth a.kernelSize i := fun i hi =>
    Nat.pos_of_ne_zero fun h => f.kernelPos (h ▸ nth_mem _ _ (by rw [f.kernelLen]; exact hi))
  obtain ⟨_, _, _, hz, _⟩ := (C44_convolution a hf bt n g C k0 b0 H hl.dims hl.elements).1 ⟨l, hl⟩
  have hone : ∀ i, i < a.group.dim → nth a.strides i = 1 ∨ nth a.dilation i = 1 := by
    intro i hi
    rcases hz.notBoth with h | h
    · exact Or.inl (h _ (nth_mem _ _ (by rw [f.stridesLen]; exact hi)))
    · exact Or.inr (h _ (nth_mem _ _ (by rw [hz.dilation.1]; exact hi)))
  rw [C25_configurations hl hf opt hopt v hv hC hn hbig _ _ (by simp [totalBefore, f.stridesLen]) hpt]
  have hgeo : ∀ i, i < a.group.dim →
      ((nth (totalBefore l.transforms.padState kp a.strides a.dilation a.kernelSize n) i + nth n i +
        nth (totalAfter l.transforms.padState kp a.strides a.dilation a.kernelSize n) i -
          dilated (nth a.kernelSize i) (nth a.dilation i)) / nth a.strides i * nth a.strides i +
          dilated (nth a.kernelSize i) (nth a.dilation i) =
        nth n i + 2 * nth (totalBefore l.transforms.padState kp a.strides a.dilation a.kernelSize n) i ↔
      DilationOk opt (nth a.kernelSize i) (nth a.strides i) (nth a.dilation i)) := by
    intro i hi
    obtain ⟨e, h1, h2, h3⟩ := epads_spec hl.dims f.kernelLen f.stridesLen f.stridesPos hst hi
    have hsym : Symmetric (nth n i) (nth a.kernelSize i) (nth a.strides i)
        (e + builtIn opt (nth n i) (nth a.kernelSize i) (nth a.strides i)) := by
      cases opt
      · rw [h1.1, Nat.zero_add]; exact h1.2 hallow
      · rw [h1.1, Nat.zero_add]; exact h1.2 hallow
      · exact h1.1
      · exact h1.1
    obtain ⟨e', q1, q2, q3⟩ := hpt i hi
    have he : e' = e := by
      cases opt
      · exact q1.trans h1.1.symm
      · exact q1.trans h1.1.symm
      · exact Nat.le_antisymm (q1.2 _ h1.1) (h1.2 _ q1.1)
      · exact Nat.le_antisymm (q1.2 _ h1.1) (h1.2 _ q1.1)
    subst he
    have hb := hbig i hi
    constructor
    · exact dilationOk_of_geo (hkpos i hi) (hone i hi) hsym q3 (by omega)
    · intro hd
      have := geo_num (hkpos i hi) hsym h2 hd q2 q3 (by omega)
      rw [Nat.add_sub_cancel] at this
      unfold dilated at this ⊢
      omega
  constructor
  · intro hall h hh i j hij
    obtain ⟨h1, h2, h3⟩ := hall h hh i j hij
    exact ⟨h1, h2, fun e => (hgeo i i.2).1 (h3 e)⟩
  · intro hall h hh i j hij
    obtain ⟨h1, h2, h3⟩ := hall h hh i j hij
    exact ⟨h1, h2, fun e => (hgeo i i.2).2 (h3 e)⟩

/-- The premises are met by a P4 layer with strides 1 and 2, which is broken, since a quarter turn exchanges the axes ... -/
example : ∃ l, BuiltConv stridedConv false none [9, 9] none 1 (fun _ => 1) (fun _ => 0) [0, 1, 2, 3] l ∧
    ¬ ∀ h k1 b1, h ∈ [0, 1, 2, 3] →
      MovesOutput .P4 (List.range 4) [0, 1, 2, 3] h (fun x => ((l.assign k1 b1).call x).2) [9, 9] none 1 1 := by
  have hl : BuiltConv stridedConv false none [9, 9] none 1 (fun _ => 1) (fun _ => 0) [0, 1, 2, 3] _ := ⟨⟨_, rfl, rfl⟩, rfl, rfl⟩
  refine ⟨_, hl, fun hall => ?_⟩
  have hg : GroupName.P4.Grid [9, 9] := ⟨rfl, rfl⟩
  have := (C25_exact hl rfl rfl .valid rfl 1 (by decide) (by decide) (fun h hh => by
    have hh' : h < GroupName.P4.group.order := by revert hh; revert h; decide
    exact (keeps_iff _ hh' _).2 (hg.kept hh')) (by decide)).1 hall 1 (by decide)
      ⟨0, by decide⟩ ⟨1, by decide⟩ (by decide)
  exact absurd this.1 (by decide)

/-- ... and by the same layer on the subgroup P2, which is equivariant, since half turns exchange no axes. -/
example : ∃ l, BuiltConv { stridedConv with subgroup := some "P2" } false none [9, 9] none 1 (fun _ => 1) (fun _ => 0) [0, 2] l ∧
    ∀ h k1 b1, h ∈ [0, 2] →
      MovesOutput .P4 (List.range 4) [0, 2] h (fun x => ((l.assign k1 b1).call x).2) [9, 9] none 1 1 := by
  have hl : BuiltConv { stridedConv with subgroup := some "P2" } false none [9, 9] none 1 (fun _ => 1) (fun _ => 0) [0, 2] _ :=
    ⟨⟨_, rfl, rfl⟩, rfl, rfl⟩
  refine ⟨_, hl, ?_⟩
  have hg : GroupName.P4.Grid [9, 9] := ⟨rfl, rfl⟩
  refine (C25_exact hl rfl rfl .valid rfl 1 (by decide) (by decide) (fun h hh => by
    have hh' : h < GroupName.P4.group.order := by revert hh; revert h; decide
    exact (keeps_iff _ hh' _).2 (hg.kept hh')) (by decide)).2 ?_
  intro h hh i j hij
  have hd : i = j := by
    have h2 : h = 0 ∨ h = 2 := by simpa using hh
    match i, j with
    | ⟨0, _⟩, ⟨0, _⟩ => rfl
    | ⟨1, _⟩, ⟨1, _⟩ => rfl
    | ⟨0, _⟩, ⟨1, _⟩ => rcases h2 with rfl | rfl <;> exact absurd rfl hij
    | ⟨1, _⟩, ⟨0, _⟩ => rcases h2 with rfl | rfl <;> exact absurd rfl hij
  subst hd
  refine ⟨rfl, Or.inr rfl, fun _ => Or.inl ?_⟩
  match i with
  | ⟨0, _⟩ => rfl
  | ⟨1, _⟩ => rfl

end GroCo
