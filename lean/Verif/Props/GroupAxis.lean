import Verif.GroupAxisLemmas

/- Property C52: negative `group_axis`. -/

namespace GroCo
open Tensor

/-- C52 as stated -/
def GroupAxisFromEnd : Prop :=
  ∀ (n : GroupName) (x y z : Tensor Nat) (axs : List Int) (na : Int) (acting domain : String) (k : Nat), 0 < k → k ≤ x.rank →
    n.group.action x axs na (some ((x.rank : Int) - k)) (some acting) (some domain) = .ok y →
    n.group.action x axs na (some (-(k : Int))) (some acting) (some domain) = .ok z → z.Same y

/-- C52 is violated: acting with the trivial subgroup on a signal on PMh, the new axis (of size one) is put in front when the
group axis is given as 2. When the same axis is given as -2, it is the group axis that is moved to the front. No error is
raised. -/
theorem C52_violation : ¬ GroupAxisFromEnd := by
  intro h
  obtain ⟨y, hy, hys⟩ : ∃ y, PMh.action (⟨[3, 2, 2, 1], fun idx => ravel [3, 2, 2, 1] idx⟩ : Tensor Nat) [0, 1] 0 (some 2)
    (some "P1") (some "") = .ok y ∧ y.shape = [1, 3, 2, 2, 1] := ⟨_, rfl, by decide⟩
  obtain ⟨z, hz, hzs⟩ : ∃ z, PMh.action (⟨[3, 2, 2, 1], fun idx => ravel [3, 2, 2, 1] idx⟩ : Tensor Nat) [0, 1] 0 (some (-2))
    (some "P1") (some "") = .ok z ∧ z.shape = [2, 3, 2, 1, 1] := ⟨_, rfl, by decide⟩
  have := (h .PMh _ y z [0, 1] 0 "P1" "" 2 (by decide) (by decide) hy hz).1
  rw [hys, hzs] at this
  exact absurd this (by decide)

/-- C52, where it holds: as soon as the acting subgroup has two elements, a group axis counted from the end is refused with
an error, for every group, signal, domain, choice of spatial axes and new axis. Missing: the trivial acting group, see
`C52_violation`. -/
theorem C52_refused_partial {α : Type} [Zero α] (n : GroupName) (x : Tensor α) (axs : List Int) (na : Int)
    (acting domain : String) (A D : List Nat) (k : Nat) (h0 : 0 < k) (hk : k ≤ x.rank) (hr : 2 ≤ x.rank)
    (hA : n.group.sub (n.group.parseSubgroup (some acting)) = .ok A) (h2 : 2 ≤ A.length)
    (hD : n.group.sub (n.group.parseSubgroup (some domain)) = .ok D) (hx : nth x.shape (x.rank - k) = D.length) :
    ∃ e, n.group.action x axs na (some (-(k : Int))) (some acting) (some domain) = .error e := by
  cases hres : n.group.action x axs na (some (-(k : Int))) (some acting) (some domain) with
  | error e => exact ⟨e, rfl⟩
  | ok y =>
    exfalso
    unfold Group.action at hres
    have hd : ∃ d', n.group.parseSubgroup (some domain) = some d' ∧ d' ≠ "" := by
      unfold GroupData.parseSubgroup
      split
      · exact absurd ‹_› (by simp)
      · exact ⟨_, rfl, by cases n <;> decide⟩
      · rename_i s hs hd
        cases hd
        exact ⟨_, rfl, fun e => hs (by rw [e])⟩
    obtain ⟨d', hd, hne⟩ := hd
    rw [hd] at hD
    simp only [hd] at hres
    unfold Group.actionOnGroup at hres
    rw [hA, res_bind_ok, hD, res_bind_ok] at hres
    have key : ∀ x1 : Tensor α, x1.rank = x.rank → nth x1.shape (x.rank - k) = n.group.order →
        (n.group.actionOnGrid x1 (-(k : Int)) axs (n.group.parseSubgroup (some acting)) >>= fun x => do
          let x ← mergeAxes x (-(k : Int)) (-(k : Int) + 1)
          let ci ← n.group.compositionFlatIndices (n.group.parseSubgroup (some acting)) (some d')
          let x ← take x ci (-(k : Int))
          let x ← splitAxes x A.length (-(k : Int))
          moveaxis x (-(k : Int)) na) ≠ .ok y := by
      intro x1 r1 hs hres
      obtain ⟨x2, e2, hres⟩ := bind_eq_ok hres
      obtain ⟨x3, e3, hres⟩ := bind_eq_ok hres
      obtain ⟨ci, e4, hres⟩ := bind_eq_ok hres
      obtain ⟨x5, e5, hres⟩ := bind_eq_ok hres
      have ha := normAxis_neg (r := x1.rank + 1) (a := k) (by omega) h0
      obtain ⟨s2, r2⟩ := actionOnGrid_adds n ha e2
      have r3 := mergeAxes_rank e3
      have hm : pyIndex x2.rank (-(k : Int)) = .ok (x.rank - k + 1) := by
        unfold pyIndex
        rw [if_neg (by omega), if_pos (by omega)]
        congr 1
        omega
      have ht : ∃ t, pyIndex x2.rank (-(k : Int) + 1) = .ok t ∧ x.rank - k ≠ t := by
        unfold pyIndex
        by_cases h1 : k = 1
        · subst h1
          exact ⟨0, by rw [if_pos (by omega)]; rfl, by omega⟩
        · refine ⟨x.rank - k + 2, ?_, by omega⟩
          rw [if_neg (by omega), if_pos (by omega)]
          congr 1
          omega
      obtain ⟨t, ht, hne'⟩ := ht
      have s3 := mergeAxes_size hm ht e3 (Nat.lt_succ_self _) hne'
      have s2' : nth x2.shape (x.rank - k) = nth x1.shape (x.rank - k) := by
        rw [← s2, r1, show x.rank + 1 - k = x.rank - k + 1 by omega]
        simp only [nth, List.getD_eq_getElem?_getD]
        rw [List.getElem?_eraseIdx, if_pos (Nat.lt_succ_self _)]
      have s5 := (take_size (a := x.rank - k) (by rw [show x3.rank = x.rank by omega]; exact normAxis_neg hk h0) e5).2
      obtain ⟨i, hi, hi'⟩ := compositionFlatIndices_large n hA h2 e4
      have := s5 i hi
      rw [s3, s2', hs] at this
      omega
    split at hres
    · obtain ⟨x1, e1, hres⟩ := bind_eq_ok hres
      exact key x1 (upsample_rank n e1) (upsample_size n h0 hk e1) hres
    · rename_i hlt
      refine key x rfl ?_ hres
      have : ∀ n : GroupName, ∀ e ∈ n.group.subgroup, e.2.length ≤ n.group.order := by intro n; cases n <;> decide +kernel
      have := this n _ (lookup_mem hD)
      simp only at this
      omega

/-- hypotheses of the theorem are met by a signal on P4M, acted on by P4 -/
example : ([1, 3, 3, 8, 1] : List Nat).length ≥ 2 ∧ P4M.sub (P4M.parseSubgroup (some "P4")) = .ok [0, 1, 2, 3] ∧
    P4M.sub (P4M.parseSubgroup (some "")) = .ok [0, 1, 2, 3, 4, 5, 6, 7] ∧ nth [1, 3, 3, 8, 1] (5 - 2) = 8 := by
  refine ⟨by decide, rfl, rfl, rfl⟩

/-- the same signal with the group axis counted from the front is accepted -/
example : ∃ y, P4M.action (⟨[1, 3, 3, 8, 1], fun idx => ravel [1, 3, 3, 8, 1] idx⟩ : Tensor Nat) [1, 2] 0 (some 3)
    (some "P4") (some "") = .ok y ∧ y.shape = [4, 1, 3, 3, 8, 1] := ⟨_, rfl, by decide⟩

end GroCo
