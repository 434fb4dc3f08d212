import Verif.MatrixLemmas
import Verif.ChainLemmas

/-!
C59: which subgroups are listed.
-/

namespace GroCo

/-- every symmetry of `m` is a symmetry of `n` -/
def GroupName.Within (m n : GroupName) : Prop :=
  ∃ hd : m.dim = n.dim, ∀ A, m.Symmetry A → n.Symmetry (A.submatrix (Fin.cast hd.symm) (Fin.cast hd.symm))

theorem mat_cast (σ : SPerm) {d e : Nat} (h : d = e) :
    (σ.mat d).submatrix (Fin.cast h.symm) (Fin.cast h.symm) = σ.mat e := by
  subst h
  rfl

theorem within_iff (m n : GroupName) : m.Within n ↔ m.dim = n.dim ∧
    ∀ i, i < m.group.order → ∃ j, j < n.group.order ∧ n.els.getD j [] = m.els.getD i [] := by
  constructor
  · rintro ⟨hd, h⟩
    refine ⟨hd, fun i hi => ?_⟩
    obtain ⟨j, hj, e⟩ := (n.symmetry_mat _).1 (h _ ((m.symmetry_mat _).2 ⟨i, hi, rfl⟩))
    rw [mat_cast _ hd] at e
    refine ⟨j, hj, SPerm.mat_inj (n.sym.tab.wfi hj) ?_ e⟩
    rw [← hd]
    exact m.sym.tab.wfi hi
  · rintro ⟨hd, h⟩
    refine ⟨hd, fun A hA => ?_⟩
    obtain ⟨i, hi, rfl⟩ := (m.symmetry_mat A).1 hA
    obtain ⟨j, hj, e⟩ := h i hi
    exact (n.symmetry_mat _).2 ⟨j, hj, by rw [mat_cast _ hd, e]⟩

/-- the full statement of C59 for the groups `n` and `m`: `m` is listed among the subgroups of `n` if every symmetry of `m` is
a symmetry of `n` -/
def ListedIfWithin (n m : GroupName) : Prop := m.Within n → ∃ H, lookup n.group.subgroup m.group.name = .ok H

/-- the table behind C59 -/
theorem listed_table : ∀ n ∈ groupNames, ∀ m ∈ groupNames, (n, m) ≠ (.P2MM, .P2) → m.dim = n.dim →
    (∀ i ∈ List.range m.group.order, ∃ j ∈ List.range n.group.order, n.els.getD j [] = m.els.getD i []) →
    (lookup n.group.subgroup m.group.name).isOk = true := by
  decide +kernel

/-- C59, the part that holds: except for P2 in P2MM, every library group all of whose symmetries are symmetries of a group is
listed among the subgroups of that group. -/
theorem C59_complete_partial (n m : GroupName) (h : (n, m) ≠ (.P2MM, .P2)) : ListedIfWithin n m := by
  intro hw
  obtain ⟨hd, he⟩ := (within_iff m n).1 hw
  have := listed_table n (mem_groupNames n) m (mem_groupNames m) h hd (by simpa using he)
  cases hl : lookup n.group.subgroup m.group.name with
  | ok H => exact ⟨H, rfl⟩
  | error e => rw [hl] at this; exact absurd this (by simp [Except.isOk, Except.toBool])

/-- C59 fails: P2 is not listed among the subgroups of P2MM, though half turns are symmetries of a rectangle: the subgroup
cannot be used with `group=P2MM`. -/
theorem C59_violation : ¬ ListedIfWithin .P2MM .P2 := by
  intro h
  obtain ⟨H, hH⟩ := h ((within_iff _ _).2 ⟨rfl, by decide +kernel⟩)
  have : lookup GroupName.P2MM.group.subgroup GroupName.P2.group.name = .error .key := by decide +kernel
  rw [this] at hH
  exact absurd hH (by simp)

/-- C59: conversely all listed names are names of library groups with no other symmetries. -/
theorem C59_sound (n : GroupName) (s : String) (H : List Nat) (h : lookup n.group.subgroup s = .ok H) :
    ∃ m : GroupName, m.group.name = s ∧ m.Within n := by
  obtain ⟨m, rfl⟩ := n.sub_name h
  obtain ⟨ho, he⟩ := sub_embed_els h
  refine ⟨m, rfl, (within_iff _ _).2 ⟨(sub_embed n m h).1, fun i hi => ?_⟩⟩
  rw [ho] at hi
  exact ⟨nth H i, n.sym.sub_lt h (nth_mem _ _ hi), (he i hi).symm⟩

theorem nested_table : ∀ n ∈ groupNames, ∀ s ∈ groupNames, ∀ t ∈ groupNames,
    (match lookup n.group.subgroup s.group.name, lookup s.group.subgroup t.group.name with
    | .ok HS, .ok HT => lookup n.group.subgroup t.group.name == .ok (HT.map (nth HS))
    | _, _ => true) = true := by
  decide +kernel

/-- C59: subgroups of subgroups are listed, with the same elements. -/
theorem C59_nested (n s t : GroupName) (HS HT : List Nat) (hs : lookup n.group.subgroup s.group.name = .ok HS)
    (ht : lookup s.group.subgroup t.group.name = .ok HT) :
    lookup n.group.subgroup t.group.name = .ok (HT.map (nth HS)) := by
  have := nested_table n (mem_groupNames n) s (mem_groupNames s) t (mem_groupNames t)
  rw [hs, ht] at this
  simpa using this

/-- hypotheses are met -/
example : GroupName.P2.Within .P4 ∧ lookup GroupName.P4M.group.subgroup GroupName.P4.group.name = .ok [0, 1, 2, 3] ∧
    lookup GroupName.P4.group.subgroup GroupName.P2.group.name = .ok [0, 2] :=
  ⟨(within_iff _ _).2 ⟨rfl, by decide +kernel⟩, by decide +kernel, by decide +kernel⟩

end GroCo
