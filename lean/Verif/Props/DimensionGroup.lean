import Verif.Props.Dimension
import Verif.GroupAxisLemmas

/-!
C62 for inputs with a group axis.
-/

namespace GroCo
open Tensor

variable {α : Type}

/-- shape of a successful split -/
theorem splitAxes_shape {x y : Tensor α} {ax : Int} {k left : Nat} (hk : normAxis x.rank ax = .ok k) (h0 : 0 < left)
    (h : splitAxes x left ax = .ok y) : y.shape = (x.shape.set k (nth x.shape k / left)).insertIdx k left := by
  have e := splitShapes_ok (b := none) hk (by simp) h0
  simp only [splitAxes, splitAxesS] at h
  rw [unknownAt] at e
  rw [e] at h
  simp only [res_bind_ok, reshape, Option.map_none, resolve_known, reshapeN] at h
  split at h
  · cases h; rfl
  · cases h

/-- what is left of a successful build on an input with a group axis: the group has acted on a kernel with a group axis -/
theorem build_kernel_group {a : ConvArgs α} {d : Nat} {tr : Bool} {l l' : GroupConv α} {shape : List (Option Nat)}
    {k0 b0 : List Nat → α} (hi : GroupConv.init a d tr = .ok l) (hb : l.build shape k0 b0 = .ok l') (hl : shape.length = d + 3) :
    ∃ (s D : String) (m : List Nat) (q : Nat) (K is : Tensor Nat), a.kernelSize.length = d ∧ a.group.group.sub (some D) = .ok m ∧
      K.shape = a.kernelSize ++ [m.length, q, a.filters] ∧
      a.group.group.action K ((List.range d).map Int.ofNat) d (some (d : Int)) (some s) (some D) = .ok is := by
  obtain ⟨s, m, opt, kp, hs, hm, ho, hkp, hk, -, -, -, -, rfl⟩ := conv_init_inv hi
  unfold GroupConv.build at hb
  obtain ⟨t, ht, hb⟩ := bind_eq_ok hb
  obtain ⟨C, hC, hb⟩ := bind_eq_ok hb
  obtain ⟨_, -, hb⟩ := bind_eq_ok hb
  obtain ⟨t2, ht2, -⟩ := bind_eq_ok hb
  obtain ⟨J, I, -, hI, -⟩ := buildConv_inv ht2
  rw [transforms_build_eq] at ht
  obtain ⟨r, hr, ht⟩ := bind_eq_ok ht
  obtain ⟨st, -, ht⟩ := bind_eq_ok ht
  simp only at hI ht hC
  have hcore : ∃ K : Tensor Nat, K.shape = a.kernelSize ++ [C, a.filters] ∧ ∃ I, t.coreIndices K = .ok I := by
    cases htr : t.transpose with
    | false =>
      rw [core_direct t htr] at hI
      exact ⟨_, by simp [getIndexTensor, htr], I, hI⟩
    | true =>
      rw [core_transpose t htr] at hI
      obtain ⟨k2, e2, hI⟩ := bind_eq_ok hI
      obtain ⟨I2, e3, hI⟩ := bind_eq_ok hI
      obtain ⟨y, ey, hy, -⟩ := swapaxes_last (⟨a.kernelSize ++ [a.filters, C], k0⟩ : Tensor α) (K := a.kernelSize) rfl
      simp only [htr, if_true] at e2
      rw [ey] at e2
      cases e2
      exact ⟨_, hy, I2, e3⟩
  obtain ⟨K, hK, I, hI⟩ := hcore
  cases ht
  unfold GroupTransforms.coreIndices at hI
  simp only [initTransforms] at hI hr hC
  simp only [hl, decide_true, not_true_eq_false, if_false, if_true] at hI
  obtain ⟨f, hf, hI⟩ := bind_eq_ok hI
  obtain ⟨K', hK', hI⟩ := bind_eq_ok hI
  obtain ⟨is, his, hI⟩ := bind_eq_ok hI
  unfold GroupTransforms.orderOf at hf
  obtain ⟨D, hD, hf⟩ := bind_eq_ok hf
  cases hf
  have h0 : 0 < D.length := List.length_pos_of_mem (sub_zero_mem a.group hD)
  have hr2 : K.rank = d + 2 := by simp [Tensor.rank, hK, hk]
  have hsh := splitAxes_shape (k := d) (by
    rw [hr2]; unfold normAxis; rw [if_neg (by omega), if_pos (by omega)]; congr 1; omega) h0 hK'
  refine ⟨_, _, D, C / D.length, K', is, hk, hD, ?_, his⟩
  rw [hsh, hK, nth_split hk, set_split hk, insert_split hk]

/-- C62, the part that holds for two-dimensional convolution layers on inputs with a group axis: a layer that can be built
has a two-dimensional group, or its kernel is as high and as wide as its group has elements (8 for the smallest group in question).
Missing: the latter case, which is not excluded. -/
theorem C62_two_group_partial (a : ConvArgs Int) (tr : Bool) (l l' : GroupConv Int) (shape : List (Option Nat)) (k0 b0 : List Nat → Int)
    (hi : GroupConv.init a 2 tr = .ok l) (hb : l.build shape k0 b0 = .ok l') (hs : shape.length = 5) :
    a.group.dim = 2 ∨ a.kernelSize = [a.group.group.order, a.group.group.order] := by
  by_contra hc
  rw [not_or] at hc
  obtain ⟨hd, hC⟩ := hc
  have hd : a.group.dim = 3 := by
    revert hd
    cases a.group <;> decide
  obtain ⟨s, D, m, q, K, is, hk, hm, hK, h⟩ := build_kernel_group hi hb hs
  obtain ⟨u, v, hks⟩ : ∃ u v, a.kernelSize = [u, v] := by
    match hk' : a.kernelSize, hk with
    | [u, v], _ => exact ⟨u, v, rfl⟩
  rw [hks] at hK
  have e : a.group.group.action K ((List.range 2).map Int.ofNat) ((2 : Nat) : Int) (some ((2 : Nat) : Int)) (some s) (some D) =
      a.group.group.action K ([0, 1, 2].map Int.ofNat) ((2 : Nat) : Int) (some ((2 : Nat) : Int)) (some s) (some D) :=
    C60_following a.group hd K 0 [1] [1, 2] _ _ _ _
  rw [e] at h
  -- on a tensor with the sizes of the kernel and the order of the group the action fails
  have bad : ∀ (y : Tensor Nat), y.shape = [u, v, a.group.group.order, q, a.filters] → ∀ s',
      a.group.group.actionOnGrid y ((2 : Nat) : Int) ([0, 1, 2].map Int.ofNat) s' = .error .value := by
    intro y hy s'
    have hg : ¬ a.group.Grid ([0, 1, 2].map (nth y.shape)) := by
      intro hg
      apply hC
      have : u = v ∧ u = a.group.group.order := by
        rw [hy] at hg
        generalize a.group.group.order = o at *
        revert hg hd
        cases a.group <;> intro hd hg <;> first | exact hg.2 | exact absurd hd (by decide)
      rw [hks, ← this.1, this.2]
    have hr : y.rank = 5 := by simp [Tensor.rank, hy]
    have := a.group.act_error y (axs := [0, 1, 2]) (a := 2) ⟨hd.symm, by decide, by rw [hr]; decide, fun _ => ⟨0, rfl⟩⟩
      (by rw [hr]; decide) hg
    simp only [Group.actionOnGrid, this, res_bind_error]
  have hne : D ≠ "" := by
    rintro rfl
    revert hm
    have : lookup a.group.group.subgroup "" = .error .key := by cases a.group <;> rfl
    show lookup a.group.group.subgroup "" = .ok m → False
    rw [this]
    intro h; cases h
  have hp : a.group.group.parseSubgroup (some D) = some D := by
    unfold GroupData.parseSubgroup
    split
    · rename_i heq; cases heq
    · rename_i heq; cases heq; exact absurd rfl hne
    · rename_i heq; cases heq; rfl
  have hact : a.group.group.action K ([0, 1, 2].map Int.ofNat) ((2 : Nat) : Int) (some ((2 : Nat) : Int)) (some s) (some D) =
      a.group.group.actionOnGroup K ((2 : Nat) : Int) ([0, 1, 2].map Int.ofNat) (a.group.group.parseSubgroup (some s)) ((2 : Nat) : Int) (some D) := by
    unfold Group.action
    rw [hp]
    simp only
  rw [hact] at h
  unfold Group.actionOnGroup at h
  obtain ⟨A, -, h⟩ := bind_eq_ok h
  obtain ⟨D', hD', h⟩ := bind_eq_ok h
  rw [hm] at hD'
  cases hD'
  have hml : lookup a.group.group.subgroup D = .ok m := hm
  have hsub := a.group.sym.tab.subs _ (lookup_mem hml)
  dsimp only at h
  split at h
  · obtain ⟨y, ey, hy, -⟩ := upsample_ok hml hsub.2.1 a.group.sym.tab.pos K (ga := 2) (by simp [Tensor.rank, hK]) (by rw [hK]; rfl)
    rw [ey, res_bind_ok, bad y (by rw [hy, hK]; rfl)] at h
    cases h
  · rename_i hlt
    have hle : m.length ≤ a.group.group.order := by
      have := (List.subperm_of_subset hsub.2.1 (l₂ := List.range a.group.group.order)
        (fun e he => List.mem_range.2 (hsub.2.2.2.1 e he))).length_le
      simpa using this
    have hmo : m.length = a.group.group.order := by omega
    rw [res_bind_ok, bad K (by rw [hK, hmo]; rfl)] at h
    cases h

/-- C62 for two-dimensional convolution layers on inputs with a group axis and kernels of less than 8 rows: those built have a
two-dimensional group, since every group of three dimensions has at least 8 elements. -/
theorem C62_two_group_small_partial (a : ConvArgs Int) (tr : Bool) (l l' : GroupConv Int) (shape : List (Option Nat))
    (k0 b0 : List Nat → Int) (hi : GroupConv.init a 2 tr = .ok l) (hb : l.build shape k0 b0 = .ok l') (hs : shape.length = 5)
    (hk : nth a.kernelSize 0 < 8) : a.group.dim = 2 := by
  rcases C62_two_group_partial a tr l l' shape k0 b0 hi hb hs with h | h
  · exact h
  · rw [h] at hk
    revert hk
    cases a.group <;> decide

set_option maxRecDepth 8000 in
/-- hypotheses are met -/
example : ∃ l l', GroupConv.init { wrongDimension with group := .P4 } 2 false = .ok l ∧
    l.build [none, some 3, some 3, some 4, some 1] (fun _ => 1) (fun _ => 0) = .ok l' := ⟨_, _, rfl, rfl⟩

end GroCo
