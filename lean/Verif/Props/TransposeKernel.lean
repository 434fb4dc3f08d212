import Verif.NegativeLemmas
import Verif.Props.Training
import Verif.Props.Transpose

/-
Property C32: exactly which transposed layers act on their stored kernel as they should.
-/

namespace GroCo
open Tensor

variable {α : Type}

/-- C32, exact: a transposed layer uses the stored kernel acted on by the group, whatever the stored kernel is, exactly if it has a
single filter or a single (merged) channel, and its input is on the grid or on the whole group. -/
theorem C32_exact [Zero α] {a : ConvArgs α} {bt : Option Nat} {n : List Nat} {g : Option Nat} {C : Nat}
    {k0 b0 : List Nat → α} {H : List Nat} {l : GroupConv α} (hl : BuiltConv a true bt n g C k0 b0 H l) (v : α) (hv : v ≠ 0)
    (hC : 0 < C) :
    (∀ k1 b1 kernel w, (l.assign k1 b1).kernel = some kernel → (l.assign k1 b1).transforms.transformKernel kernel = .ok w →
      ActsOnKernel a.group a.kernelSize H g C a.filters k1 w) ↔
    (a.filters = 1 ∨ g.getD 1 * C = 1) ∧ (g = none ∨ ∀ i, i < a.group.group.order → i ∈ H) := by
  constructor
  · intro h
    have S := a.group.sym
    have L := S.tab.laws
    obtain ⟨kp, f⟩ := hl.facts
    obtain ⟨l0, hi0, -⟩ := hl.built
    have hF : 0 < a.filters := Nat.pos_of_ne_zero (conv_init_checks hi0).1
    obtain ⟨s, -, hs⟩ := parse_sub hl.elements
    have hsub := S.tab.subs _ (lookup_mem hs)
    have hk : Valid a.kernelSize (List.replicate a.group.dim 0) := by
      rw [valid_iff]
      refine ⟨by simp [f.kernelLen], fun i hi => ?_⟩
      rw [nth_replicate]
      have := Nat.pos_of_ne_zero fun h => f.kernelPos (h ▸ nth_mem _ _ hi)
      split <;> exact this
    constructor
    · by_contra hc
      obtain ⟨h1, h2⟩ := not_or.1 hc
      let k1 : List Nat → α := fun idx => if idx.drop a.group.dim = [0, 1] then v else 0
      have hdrop : ∀ k' (r : List Nat), Valid a.kernelSize k' → (k' ++ r).drop a.group.dim = r := fun k' r hk' => by
        rw [List.drop_append_of_le_length (by rw [hk'.length, f.kernelLen]),
          List.drop_of_length_le (by rw [hk'.length, f.kernelLen]), List.nil_append]
      obtain ⟨kernel, w, e1, -, -, e2, -, hw⟩ := C32_transposed_kernel_partial (C53_assign (k1 := k1) (b1 := b0) hl)
      have hacts := h k1 b0 kernel w e1 e2
      cases g with
      | none =>
        have h2 : C ≠ 1 := by simpa using h2
        obtain ⟨k', hk', -, q1, -⟩ := hacts _ 0 0 1 hk S.tab.pos hF (by omega)
        obtain ⟨k2, hk2, -, q2, -⟩ := hw _ 0 0 1 hk S.tab.pos hF (by omega)
        have e := (q1 rfl).symm.trans (q2 rfl)
        simp only [k1, hdrop _ _ hk', hdrop _ _ hk2, if_true] at e
        rw [if_neg] at e
        · exact hv e
        · intro e
          simp only [List.cons.injEq, and_true] at e
          have := Nat.div_add_mod (1 * a.filters + 0) C
          rw [e.1, e.2] at this
          omega
      | some g' =>
        have hg : g' = H.length := f.size g' rfl
        have h2 : g' * C ≠ 1 := by simpa using h2
        have hpos : 0 < g' * C := by
          refine Nat.mul_pos ?_ hC
          rw [hg]
          exact List.length_pos_of_mem (sub_zero_mem a.group hl.elements)
        have hj : 1 / C < g' := Nat.div_lt_of_lt_mul (by rw [Nat.mul_comm]; omega)
        have hc : 1 % C < C := Nat.mod_lt _ hC
        have hjc : 1 / C * C + 1 % C = 1 := Nat.div_add_mod' 1 C
        obtain ⟨k', hk', -, -, q1⟩ := hacts _ 0 0 (1 % C) hk S.tab.pos hF hc
        obtain ⟨k2, hk2, -, -, q2⟩ := hw _ 0 0 (1 % C) hk S.tab.pos hF hc
        have e := (q1 (by simp) (1 / C) (hg ▸ hj)).symm.trans ((q2 g' rfl).2 (1 / C) hj)
        have hlt : nth H (1 / C) < a.group.group.order := S.sub_nth_lt hs (hg ▸ hj)
        have hinv : nth a.group.group.inverses 0 = 0 := by
          have := L.mul_inv 0 S.tab.pos
          rwa [L.one_mul _ (S.inv_lt S.tab.pos)] at this
        have hmem : nth H (1 / C) ∈ H := nth_mem _ _ (hg ▸ hj)
        have hidx : H.idxOf (nth H (1 / C)) = 1 / C := idxOf_nth hsub.2.1 (hg ▸ hj)
        simp only [hinv, L.one_mul _ hlt, if_pos hmem, hidx, hjc] at e
        simp only [k1, hdrop _ _ hk', hdrop _ _ hk2, if_true] at e
        rw [if_neg] at e
        · exact hv e
        · intro e
          simp only [List.cons.injEq, and_true] at e
          have := Nat.div_add_mod (1 * a.filters + 0) (g' * C)
          rw [e.1, e.2] at this
          omega
    · by_contra hc
      obtain ⟨h1, h2⟩ := not_or.1 hc
      push_neg at h2
      obtain ⟨i, hi, hiH⟩ := h2
      obtain ⟨g', rfl⟩ := Option.ne_none_iff_exists'.1 h1
      have hg : g' = H.length := f.size g' rfl
      have h0 := sub_zero_mem a.group hl.elements
      have hlen : H.idxOf 0 < H.length := List.idxOf_lt_length_iff.2 h0
      obtain ⟨kernel, w, e1, -, -, e2, -, hw⟩ := C32_transposed_kernel_partial (C53_assign (k1 := fun _ => v) (b1 := b0) hl)
      have hacts := h _ b0 kernel w e1 e2
      have hi' := S.inv_lt hi
      obtain ⟨k', hk', -, -, q1⟩ := hacts _ (nth a.group.group.inverses i) 0 0 hk hi' hF hC
      obtain ⟨k2, hk2, -, -, q2⟩ := hw _ (nth a.group.group.inverses i) 0 0 hk hi' hF hC
      have e := (q1 h1 (H.idxOf 0) hlen).symm.trans ((q2 g' rfl).2 (H.idxOf 0) (hg ▸ hlen))
      have hii : nth a.group.group.inverses (nth a.group.group.inverses i) = i := by
        have h3 := S.inv_lt hi'
        have := L.assoc _ _ _ h3 hi' hi
        rw [L.inv_mul _ hi', L.inv_mul _ hi, L.one_mul _ hi, L.mul_one _ h3] at this
        exact this.symm
      simp only [hii, nth_idxOf h0, L.mul_one _ hi, if_neg hiH] at e
      exact hv e.symm
  · rintro ⟨h1, h2⟩ k1 b1 kernel w hk hw
    obtain ⟨kernel', w', e1, -, -, e2, h⟩ := C32_single_channel_partial (C53_assign (k1 := k1) (b1 := b1) hl) h1 h2
    rw [hk] at e1
    cases e1
    rw [hw] at e2
    cases e2
    exact h

/-- both sides occur: the layers of the examples for C32 -/
example : (∃ l, BuiltConv plainTranspose true none [1, 1] none 2 (fun _ => 1) (fun _ => 0) [0] l) ∧ ¬ (plainTranspose.filters = 1 ∨
      (none : Option Nat).getD 1 * 2 = 1) ∧
    (∃ l, BuiltConv upTranspose true none [1, 1] (some 1) 1 (fun _ => 1) (fun _ => 0) [0] l) ∧
      ¬ ((some 1 : Option Nat) = none ∨ ∀ i, i < upTranspose.group.group.order → i ∈ [0]) :=
  ⟨⟨_, ⟨_, rfl, rfl⟩, rfl, rfl⟩, by decide, ⟨_, ⟨_, rfl, rfl⟩, rfl, rfl⟩, by decide⟩

end GroCo
