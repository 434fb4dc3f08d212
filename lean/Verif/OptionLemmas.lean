import Verif.RebuildLemmas
import Verif.ActionLemmas

/-
Helper lemmas: strings, and what a successful build says about the subgroup.
-/

namespace GroCo
open Tensor

variable {α : Type}

theorem toLower_cases (c : Char) : c.toLower = c ∨ ∃ x : Fin 26, c = Char.ofNat (65 + x) := by
  unfold Char.toLower
  split
  · rename_i h
    right
    have h1 : 65 ≤ c.toNat := h.1
    have h2 : c.toNat ≤ 90 := h.2
    refine ⟨⟨c.toNat - 65, by omega⟩, ?_⟩
    simp only
    rw [show 65 + (c.toNat - 65) = c.toNat by omega, Char.ofNat_toNat]
  · left; rfl

theorem upper_of_lower {c x : Char} (h : c.toLower = x) (h1 : x ≠ 'ſ') (h2 : x ≠ 'ı') :
    upperChar c = x.toUpper := by
  rcases toLower_cases c with h' | ⟨i, h'⟩
  · rw [h'] at h
    subst h
    simp [upperChar, h1, h2]
  · subst h'
    subst h
    clear h1 h2
    revert i
    decide

theorem toUpper_cases (c : Char) : c.toUpper = c ∨ ∃ x : Fin 26, c = Char.ofNat (97 + x) := by
  unfold Char.toUpper
  split
  · rename_i h
    right
    have h1 : 97 ≤ c.toNat := h.1
    have h2 : c.toNat ≤ 122 := h.2
    refine ⟨⟨c.toNat - 97, by omega⟩, ?_⟩
    simp only
    rw [show 97 + (c.toNat - 97) = c.toNat by omega, Char.ofNat_toNat]
  · left; rfl

theorem lower_of_upper {c : Char} {x : Char} (hx : x ∈ "samevlidqu_".toList) (h : upperChar c = x.toUpper) :
    c.toLower = x ∨ (c = 'ſ' ∧ x = 's') ∨ (c = 'ı' ∧ x = 'i') := by
  unfold upperChar at h
  split at h
  · rename_i hc
    subst hc
    right; left
    refine ⟨rfl, ?_⟩
    revert h
    revert x
    decide
  · split at h
    · rename_i hc
      subst hc
      right; right
      refine ⟨rfl, ?_⟩
      revert h
      revert x
      decide
    · left
      rcases toUpper_cases c with h' | ⟨i, h'⟩
      · rw [h'] at h
        subst h
        revert x
        decide
      · subst h'
        clear * - hx h
        revert h
        revert x
        revert i
        decide

theorem map_upper : ∀ {l x : List Char}, l.map Char.toLower = x → 'ſ' ∉ x → 'ı' ∉ x → l.map upperChar = x.map Char.toUpper
  | [], x, h, _, _ => by cases h; rfl
  | c :: l, [], h, _, _ => by cases h
  | c :: l, y :: x, h, h1, h2 => by
    simp only [List.map_cons, List.cons.injEq, List.mem_cons, not_or] at *
    exact ⟨upper_of_lower h.1 (Ne.symm h1.1) (Ne.symm h2.1), map_upper h.2 h1.2 h2.2⟩

theorem lower_iff {t x : String} : pyLower t = x ↔ t.toList.map Char.toLower = x.toList := by
  unfold pyLower
  constructor
  · intro h; rw [← h]; simp
  · intro h; rw [h]; simp

theorem upper_of_pyLower {t x : String} (h : pyLower t = x) (h1 : 'ſ' ∉ x.toList) (h2 : 'ı' ∉ x.toList) (u : String) :
    pyUpper (t ++ u) = String.ofList (x.toList.map Char.toUpper ++ u.toList.map upperChar) := by
  unfold pyUpper
  rw [String.toList_append, List.map_append, map_upper (lower_iff.1 h) h1 h2]

theorem builtIn_cases (s : String) : s = builtInPaddingOption s ∨ s = builtInPaddingOption s ++ "_equiv" := by
  unfold builtInPaddingOption
  simp only
  split
  · rename_i h
    right
    obtain ⟨l, hl⟩ := h
    apply String.toList_injective
    have : s.toList.length - 6 = l.length := by rw [← hl]; simp
    rw [this, String.toList_append, String.toList_ofList, ← hl]
    simp
  · left; rfl

theorem builtIn_suffix (t : String) : builtInPaddingOption (t ++ "_equiv") = t := by
  unfold builtInPaddingOption
  simp only [String.toList_append]
  rw [if_pos (List.suffix_append _ _)]
  have : (t.toList ++ "_equiv".toList).length - 6 = t.toList.length := by simp
  rw [this, List.take_left, String.ofList_toList]

theorem builtIn_short (t : String) (h : t.toList.length < 6) : builtInPaddingOption t = t := by
  unfold builtInPaddingOption
  simp only
  rw [if_neg]
  intro hs
  have := hs.length_le
  simp at this
  omega

theorem lower_length {t x : String} (h : pyLower t = x) : t.toList.length = x.toList.length := by
  rw [← lower_iff.1 h, List.length_map]

/-- a successful action looked up the acting subgroup -/
theorem action_sub [Zero α] {G : Group} {x y : Tensor α} {axs : List Int} {a : Int} {ga : Option Int} {s t : Option String}
    (h : G.action x axs a ga s t = .ok y) : ∃ H, G.sub (G.parseSubgroup s) = .ok H := by
  have hgrid : ∀ {z : Tensor α} {b : Int} {y : Tensor α}, G.actionOnGrid z b axs (G.parseSubgroup s) = .ok y →
      ∃ H, G.sub (G.parseSubgroup s) = .ok H := by
    intro z b y h
    unfold Group.actionOnGrid at h
    obtain ⟨_, -, h⟩ := bind_eq_ok h
    obtain ⟨H, hH, -⟩ := bind_eq_ok h
    exact ⟨H, hH⟩
  unfold Group.action at h
  dsimp only at h
  split at h
  · exact hgrid h
  · exact hgrid h
  · split at h
    · obtain ⟨A, hA, -⟩ := bind_eq_ok h
      exact ⟨A, hA⟩
    · unfold Group.actionOnGroup at h
      obtain ⟨A, hA, -⟩ := bind_eq_ok h
      exact ⟨A, hA⟩

theorem kernelIndices_sub {t : GroupTransforms} {k : Tensor α} {I : Tensor Nat}
    (h : t.computeTransformedKernelIndices k = .ok I) :
    ∃ H, t.group.group.sub (t.group.group.parseSubgroup (some t.actingGroup)) = .ok H := by
  unfold GroupTransforms.computeTransformedKernelIndices at h
  cases ht : t.transpose <;> cases hg : t.groupValuedInput
  all_goals
    simp only [ht, hg, Bool.false_eq_true, if_false, if_true, not_true_eq_false, not_false_eq_true, res_bind_ok] at h
  · obtain ⟨_, h, -⟩ := bind_eq_ok h
    exact action_sub h
  · obtain ⟨_, -, h⟩ := bind_eq_ok h
    obtain ⟨_, -, h⟩ := bind_eq_ok h
    obtain ⟨_, h, -⟩ := bind_eq_ok h
    exact action_sub h
  · obtain ⟨_, -, h⟩ := bind_eq_ok h
    obtain ⟨_, h, -⟩ := bind_eq_ok h
    exact action_sub h
  · obtain ⟨_, -, h⟩ := bind_eq_ok h
    obtain ⟨_, -, h⟩ := bind_eq_ok h
    obtain ⟨_, -, h⟩ := bind_eq_ok h
    obtain ⟨_, h, -⟩ := bind_eq_ok h
    exact action_sub h

end GroCo
