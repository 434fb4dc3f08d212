import Verif.ConvLemmas
import Verif.TransposeLemmas
import Verif.Props.Conv
import Verif.Props.Transpose
import Verif.Props.Build

/-!
C57: a lifting layer with a subgroup is the lifting layer of the subgroup; a transposed lifting layer ignores `subgroup`.
-/

namespace GroCo

variable {α : Type}

theorem layer_index {B A F : Nat} {m idx : List Nat} (h : Valid (B :: m ++ [A, F]) idx) :
    ∃ b p i o, idx = b :: p ++ [i, o] ∧ b < B ∧ Valid m p ∧ i < A ∧ o < F := by
  match idx, h with
  | b :: idx, h =>
    obtain ⟨p, f, rfl, hp, hf⟩ := valid_append_split h.2
    match f, hf with
    | [i, o], hf => exact ⟨b, p, i, o, rfl, h.1, hp, hf.1, hf.2.1⟩

/-- C57: let `m` be the group object named as the subgroup of a lifting layer.  The lifting layer of `m` itself, with otherwise
the same arguments and weights, accepts the same inputs and returns the same outputs. -/
theorem C57_lifting [Semiring α] {a : ConvArgs α} {m : GroupName} {bt : Option Nat} {n : List Nat} {C : Nat}
    {k0 b0 : List Nat → α} {H H' : List Nat} {l₁ l₂ : GroupConv α}
    (h₁ : BuiltConv { a with subgroup := some m.group.name } false bt n none C k0 b0 H l₁)
    (h₂ : BuiltConv { a with group := m, subgroup := some "" } false bt n none C k0 b0 H' l₂)
    (hf : a.dataFormat = .channelsLast) (x : Tensor α) (B : Nat) (q : List Nat) (hq : q.length = a.group.dim)
    (hx : x.shape = sigShape .channelsLast B q none C) :
    ((∃ y, (l₁.call x).2 = .ok y) ↔ ∃ y, (l₂.call x).2 = .ok y) ∧
    ∀ y₁ y₂, (l₁.call x).2 = .ok y₁ → (l₂.call x).2 = .ok y₂ → y₁.Same y₂ := by
  obtain ⟨opt₁, kp₁, e1, e2, f₁, hp₁⟩ := h₁.facts_last hf
  obtain ⟨opt₂, kp₂, e3, e4, f₂, hp₂⟩ := h₂.facts_last hf
  have hH : lookup a.group.group.subgroup m.group.name = .ok H := by
    have := h₁.elements
    have hne : m.group.name ≠ "" := by cases m <;> decide +kernel
    simpa [GroupData.parseSubgroup, GroupData.sub, hne] using this
  have hH' : H' = List.range m.group.order := by
    have h1 : lookup m.group.subgroup m.group.name = .ok H' := h₂.elements
    rw [m.sym.tab.own] at h1
    exact (Except.ok.inj h1).symm
  subst hH'
  obtain ⟨hd, -⟩ := sub_embed a.group m hH
  obtain ⟨ho, hels⟩ := sub_embed_els hH
  have hkp : kp₂ = kp₁ := by
    have := e4.symm.trans e2
    cases this; rfl
  subst hkp
  have hst : l₁.transforms.padState = l₂.transforms.padState := by
    have : opt₂ = opt₁ := by
      have := e3.symm.trans e1
      cases this; rfl
    subst this
    simp only [hd] at hp₂
    exact Except.ok.inj (hp₁.symm.trans hp₂)
  obtain ⟨c1, d1⟩ := conv_call_last f₁ hf hx hq
  obtain ⟨c2, d2⟩ := conv_call_last f₂ hf hx (hq.trans hd.symm)
  rw [hst] at c1 d1
  refine ⟨⟨?_, ?_⟩, ?_⟩
  · rintro ⟨y, hy⟩
    obtain ⟨z, hz, -⟩ := d2 (c1 y hy)
    exact ⟨z, by rw [hz]⟩
  · rintro ⟨y, hy⟩
    obtain ⟨z, hz, -⟩ := d1 (c2 y hy)
    exact ⟨z, by rw [hz]⟩
  · intro y₁ y₂ hy₁ hy₂
    obtain ⟨z₁, hz₁, hs₁, hg₁⟩ := d1 (c1 y₁ hy₁)
    obtain ⟨z₂, hz₂, hs₂, hg₂⟩ := d2 (c2 y₂ hy₂)
    rw [hz₁] at hy₁
    rw [hz₂] at hy₂
    cases hy₁
    cases hy₂
    have hA₁ : actingOf a.group false H = H := rfl
    have hA₂ : actingOf m false (List.range m.group.order) = List.range m.group.order := rfl
    simp only [hA₁] at hs₁ hg₁
    have hl : (actingOf m false (List.range m.group.order)).length = H.length := by rw [hA₂, List.length_range, ho]
    simp only [hl] at hs₂ hg₂
    simp only [hA₂] at hg₂
    refine ⟨hs₁.trans hs₂.symm, ?_⟩
    intro idx hv
    rw [hs₁] at hv
    obtain ⟨b, p, i, o, rfl, hb, hp, hi, ho'⟩ : ∃ b p i o, idx = b :: p ++ [i, o] ∧ b < B ∧ Valid _ p ∧ i < H.length ∧
        o < a.filters := layer_index hv
    rw [hg₁ b p i o hb hp hi ho', hg₂ b p i o hb hp hi ho']
    have he : nth (List.range m.group.order) i = i := by rw [nth_range, if_pos (by rw [ho]; exact hi)]
    rw [he]
    have hw : ∀ k c, weightOf { a with subgroup := some m.group.name } false none C k0 (domainOf a.group false H) (nth H i) k c o =
        weightOf { a with group := m, subgroup := some "" } false none C k0
          (domainOf m false (List.range m.group.order)) i k c o := by
      intro k c
      unfold weightOf wIdx
      simp only [Option.isSome_none, Bool.false_eq_true, if_false]
      unfold liftIdx
      simp only [hels i hi, back]
      rfl
    simp only [hw]

/-- C57: if the lifting layer with a subgroup can be built, so can the lifting layer of the subgroup. -/
theorem C57_built {a : ConvArgs α} {m : GroupName} {bt : Option Nat} {n : List Nat} {C : Nat} {k0 b0 : List Nat → α} {H : List Nat}
    {l₁ : GroupConv α} (h₁ : BuiltConv { a with subgroup := some m.group.name } false bt n none C k0 b0 H l₁)
    (hf : a.dataFormat = .channelsLast) :
    ∃ l₂, BuiltConv { a with group := m, subgroup := some "" } false bt n none C k0 b0 (List.range m.group.order) l₂ := by
  have hH : lookup a.group.group.subgroup m.group.name = .ok H := by
    have := h₁.elements
    have hne : m.group.name ≠ "" := by cases m <;> decide +kernel
    simpa [GroupData.parseSubgroup, GroupData.sub, hne] using this
  have hd := (sub_embed a.group m hH).1
  obtain ⟨opt, kp, hacc, hz, -, hgrid, hcan, hval⟩ :=
    (C44_convolution { a with subgroup := some m.group.name } hf bt n none C k0 b0 H h₁.dims h₁.elements).1 ⟨l₁, h₁⟩
  refine (C44_convolution { a with group := m, subgroup := some "" } hf bt n none C k0 b0 _ (h₁.dims.trans hd.symm) ?_).2
    ⟨opt, kp, hacc, ⟨?_, ?_, ?_, hz.4, hz.5⟩, .inl rfl, sub_grid hH hgrid, ?_, ?_⟩
  · exact m.sym.tab.own
  · exact ⟨hz.1.1.trans hd.symm, hz.1.2⟩
  · exact ⟨hz.2.1.trans hd.symm, hz.2.2⟩
  · exact ⟨hz.3.1.trans hd.symm, hz.3.2⟩
  · simp only [hd]; exact hcan
  · simp only [hd]; exact hval

/-- C57: transposed lifting layers that differ only in `subgroup` are the same: they compute all elements of the group. -/
theorem C57_transposed [Semiring α] {a : ConvArgs α} {s₁ s₂ : Option String} {bt : Option Nat} {n : List Nat} {C : Nat}
    {k0 b0 : List Nat → α} {H₁ H₂ : List Nat} {l₁ l₂ : GroupConv α}
    (h₁ : BuiltConv { a with subgroup := s₁ } true bt n none C k0 b0 H₁ l₁)
    (h₂ : BuiltConv { a with subgroup := s₂ } true bt n none C k0 b0 H₂ l₂)
    (hf : a.dataFormat = .channelsLast) (x : Tensor α) (B : Nat) (q : List Nat) (hq : q.length = a.group.dim)
    (hx : x.shape = sigShape .channelsLast B q none C) :
    ∃ y₁ y₂, (l₁.call x).2 = .ok y₁ ∧ (l₂.call x).2 = .ok y₂ ∧ y₁.Same y₂ := by
  obtain ⟨opt₁, kp₁, e1, e2, f₁, hp₁⟩ := h₁.facts_last hf
  obtain ⟨opt₂, kp₂, e3, e4, f₂, hp₂⟩ := h₂.facts_last hf
  have hkp : kp₂ = kp₁ := by
    have := e4.symm.trans e2
    cases this; rfl
  subst hkp
  have hst : l₁.transforms.padState = l₂.transforms.padState := by
    have : opt₂ = opt₁ := by
      have := e3.symm.trans e1
      cases this; rfl
    subst this
    exact Except.ok.inj (hp₁.symm.trans hp₂)
  obtain ⟨y₁, hy₁, hs₁, hg₁⟩ := convT_call_last f₁ hf hx hq
  obtain ⟨y₂, hy₂, hs₂, hg₂⟩ := convT_call_last f₂ hf hx hq
  rw [hst] at hs₁ hg₁
  refine ⟨y₁, y₂, by rw [hy₁], by rw [hy₂], hs₁.trans hs₂.symm, ?_⟩
  intro idx hv
  rw [hs₁] at hv
  obtain ⟨b, p, i, o, rfl, hb, hp, hi, ho⟩ : ∃ b p i o, idx = b :: p ++ [i, o] ∧ b < B ∧ Valid _ p ∧
      i < (actingOf a.group true H₁).length ∧ o < a.filters := layer_index hv
  rw [hg₁ b p i o hb hp hi ho, hg₂ b p i o hb hp hi ho]
  rfl

/-- hypotheses are met -/
example : (∃ l, BuiltConv { exampleConv with subgroup := some GroupName.P2.group.name } false none [5, 5] none 3 (fun _ => 1)
      (fun _ => 0) [0, 2] l) ∧
    (∃ l, BuiltConv { exampleConv with group := .P2, subgroup := some "" } false none [5, 5] none 3 (fun _ => 1) (fun _ => 0)
      (List.range GroupName.P2.group.order) l) := by
  have h1 : ∃ l, BuiltConv { exampleConv with subgroup := some GroupName.P2.group.name } false none [5, 5] none 3 (fun _ => 1)
      (fun _ => 0) [0, 2] l :=
    ⟨_, ⟨_, rfl, rfl⟩, rfl, rfl⟩
  obtain ⟨l, hl⟩ := h1
  exact ⟨⟨l, hl⟩, C57_built (a := exampleConv) hl rfl⟩

set_option maxRecDepth 8000 in
example : (∃ l, BuiltConv { exampleTranspose with subgroup := some "P2" } true none [4, 4] none 3 (fun _ => 1) (fun _ => 0)
      [0, 2] l) ∧
    (∃ l, BuiltConv { exampleTranspose with subgroup := some "P1" } true none [4, 4] none 3 (fun _ => 1) (fun _ => 0) [0] l) :=
  ⟨⟨_, ⟨_, rfl, rfl⟩, rfl, rfl⟩, ⟨_, ⟨_, rfl, rfl⟩, rfl, rfl⟩⟩

end GroCo
