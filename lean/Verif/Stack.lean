import Mathlib.Data.List.Forall2
import Verif.TensorLemmas
import Verif.Wallpaper

/-
Helper lemmas: how a tensor is built as a stack, along a new axis, of re-indexed copies of another tensor.
-/

namespace GroCo
open Tensor

/-- `omega` after unfolding `rank`. -/
macro "romega" : tactic => `(tactic| ((try simp only [Tensor.rank] at *); omega))

variable {α : Type}

/-- Position of old axis `h` after inserting a new axis at `a`. -/
def shift (a h : Nat) : Nat := if a ≤ h then h + 1 else h

theorem shift_ne (a h : Nat) : shift a h ≠ a := by unfold shift; split <;> omega
theorem shift_inj {a h w : Nat} (hw : h ≠ w) : shift a h ≠ shift a w := by unfold shift; split <;> split <;> omega
theorem shift_lt {a h r : Nat} (h1 : h < r) : shift a h < r + 1 := by unfold shift; split <;> omega

theorem nth_insert_shift (l : List Nat) (a v h : Nat) (ha : a ≤ l.length) :
    nth (l.insertIdx a v) (shift a h) = nth l h := by
  rw [nth_insertIdx _ _ _ _ ha]
  unfold shift
  split <;> rename_i hc
  · rw [if_neg (by romega), if_neg (by romega)]; simp
  · rw [if_pos (by romega)]

theorem nth_erase_shift (l : List Nat) (a h : Nat) : nth (l.eraseIdx a) h = nth l (shift a h) := by
  rw [nth_eraseIdx]
  unfold shift
  split <;> split <;> first | rfl | omega

theorem erase_set_shift (l : List Nat) (a h v : Nat) (ha : a < l.length) :
    (l.set (shift a h) v).eraseIdx a = (l.eraseIdx a).set h v := by
  apply ext_nth
  · simp [List.length_eraseIdx]
  · intro i hi
    rw [nth_eraseIdx, nth_set, nth_set, nth_set, nth_eraseIdx, List.length_eraseIdx, if_pos ha]
    unfold shift
    split <;> split <;> split <;> first | rfl | omega | (split <;> first | rfl | omega)

/-- `y` is the stack, along the new axis `a`, of the copies of `x` re-indexed by the functions in `fs`. -/
def Stack (y : Tensor α) (a : Nat) (fs : List (List Nat → List Nat)) (x : Tensor α) : Prop :=
  y.shape = x.shape.insertIdx a fs.length ∧
  ∀ idx, Valid y.shape idx → y.get idx = x.get ((fs.getD (nth idx a) id) (idx.eraseIdx a))

theorem Stack.rank {y x : Tensor α} {a : Nat} {fs} (h : Stack y a fs x) (ha : a ≤ x.rank) : y.rank = x.rank + 1 := by
  simp only [Tensor.rank] at *
  rw [h.1, List.length_insertIdx, if_pos ha]

/-- mirror along axis `h` of length `n` -/
def flipAt (h n : Nat) (idx : List Nat) : List Nat := idx.set h (n - 1 - nth idx h)

theorem stack_expand (x : Tensor α) {a : Nat} (ha : a ≤ x.rank) :
    ∃ y, expandDims x a = .ok y ∧ Stack y a [id] x := by
  refine ⟨_, expandDims_ok x ha, rfl, ?_⟩
  intro idx hi
  have := (valid_insert_erase (n := 1) ha hi).2
  have h0 : nth idx a = 0 := by romega
  simp [h0]

theorem stack_flip {x y : Tensor α} {a h : Nat} {fs} (hy : Stack y a fs x) (ha : a ≤ x.rank) (hh : h < x.rank) :
    ∃ z, flip y (shift a h) = .ok z ∧ Stack z a (fs.map (· ∘ flipAt h (nth x.shape h))) x := by
  have hr := hy.rank ha
  have hr' : y.shape.length = x.shape.length + 1 := hr
  refine ⟨_, flip_ok y (by have := shift_lt (a := a) hh; romega), ?_, ?_⟩
  · simp [hy.1]
  · intro idx hi
    simp only at hi ⊢
    have hlen := hi.length
    have hn : nth y.shape (shift a h) = nth x.shape h := by rw [hy.1, nth_insert_shift _ _ _ _ ha]
    have hlt : nth idx (shift a h) < nth x.shape h := by
      rw [← hn]; exact hi.lt (by have := shift_lt (a := a) hh; romega)
    rw [hn, hy.2 _ (valid_set hi (by rw [hn]; romega))]
    rw [nth_set, if_neg (by have := shift_ne a h; romega)]
    have hya : nth idx a < fs.length := by
      have := (valid_insert_erase (n := fs.length) ha (hy.1 ▸ hi)).2; exact this
    rw [erase_set_shift _ _ _ _ (by romega)]
    simp only [List.getD_eq_getElem?_getD, List.getElem?_map, List.getElem?_eq_getElem hya, Option.map_some,
      Option.getD_some, Function.comp, flipAt, nth_erase_shift]

theorem idxOf_eq_of_nth {l : List Nat} {i a : Nat} (hi : i < l.length) (h : nth l i = a)
    (hinj : ∀ j, j < l.length → nth l j = a → j = i) : l.idxOf a = i := by
  have hm : a ∈ l := h ▸ nth_mem l i hi
  have hlt := List.idxOf_lt_length_of_mem hm
  apply hinj _ hlt
  rw [nth_eq_getElem _ _ hlt]
  exact List.getElem_idxOf hlt

theorem nth_swapList (l : List Nat) {h w : Nat} (hh : h < l.length) (hw : w < l.length) (i : Nat) :
    nth (swapList l h w) i = nth l (if i = h then w else if i = w then h else i) := by
  unfold swapList
  rw [nth_set, nth_set, List.length_set]
  split
  · rename_i hc
    rw [hc.1]
    split
    · rename_i e; rw [e]
    · simp
  · rename_i hc
    split
    · rename_i hc2; simp [hc2.1]
    · rw [if_neg (by romega), if_neg (by romega)]

theorem length_swapList (l : List Nat) (h w : Nat) : (swapList l h w).length = l.length := by simp [swapList]

theorem idxOf_swap_range {r h w a : Nat} (hh : h < r) (hw : w < r) (ha : a < r) :
    (swapList (List.range r) h w).idxOf a = if a = h then w else if a = w then h else a := by
  apply idxOf_eq_of_nth
  · rw [length_swapList, List.length_range]; (repeat' split) <;> omega
  · rw [nth_swapList _ (by simpa) (by simpa), nth_range]
    grind
  · intro j hj hja
    rw [length_swapList, List.length_range] at hj
    rw [nth_swapList _ (by simpa) (by simpa), nth_range] at hja
    grind

theorem transpose_swap {y : Tensor α} {h w : Nat} (hh : h < y.rank) (hw : w < y.rank) :
    ∃ z, transpose y (swapList (List.range y.rank) h w) = .ok z ∧ z.shape = swapList y.shape h w ∧
      ∀ idx : List Nat, idx.length = y.rank → z.get idx = y.get (swapList idx h w) := by
  refine ⟨_, transpose_ok y (by simp [length_swapList]) ?_, ?_, ?_⟩
  · intro a ha
    have h1 := idxOf_swap_range (a := a) hh hw ha
    rw [← List.idxOf_lt_length_iff, h1, length_swapList, List.length_range]
    (repeat' split) <;> omega
  · apply ext_nth
    · simp [length_swapList]
    · intro i hi
      simp only [List.length_map, length_swapList, List.length_range] at hi
      have : nth ((swapList (List.range y.rank) h w).map (nth y.shape)) i
          = nth y.shape (nth (swapList (List.range y.rank) h w) i) := by
        rw [nth_eq_getElem _ _ (by simpa [length_swapList]), List.getElem_map,
          nth_eq_getElem (swapList (List.range y.rank) h w) i (by simpa [length_swapList])]
      rw [this, nth_swapList _ (by simpa) (by simpa), nth_range, nth_swapList _ (by simpa) (by simpa)]
      grind
  · intro idx hl
    simp only
    congr 1
    apply ext_nth
    · simp [length_swapList, hl]
    · intro i hi
      simp only [List.length_map, List.length_range] at hi
      rw [nth_map_range, if_pos hi, idxOf_swap_range hh hw hi, nth_swapList _ (by romega) (by romega)]

theorem erase_swap_shift (l : List Nat) (a h w : Nat) (ha : a < l.length) (hh : h + 1 < l.length)
    (hw : w + 1 < l.length) :
    (swapList l (shift a h) (shift a w)).eraseIdx a = swapList (l.eraseIdx a) h w := by
  unfold swapList
  rw [erase_set_shift _ _ _ _ (by simpa), erase_set_shift _ _ _ _ ha, nth_erase_shift, nth_erase_shift]

theorem stack_transpose {x y : Tensor α} {a h w : Nat} {fs} (hy : Stack y a fs x) (ha : a ≤ x.rank) (hh : h < x.rank)
    (hw : w < x.rank) (hsq : nth x.shape h = nth x.shape w) :
    ∃ z, transpose y (swapList (List.range y.rank) (shift a h) (shift a w)) = .ok z ∧
      Stack z a (fs.map (· ∘ fun idx => swapList idx h w)) x := by
  have hr := hy.rank ha
  have hr' : y.shape.length = x.shape.length + 1 := hr
  obtain ⟨z, hz, hzs, hzg⟩ := transpose_swap (y := y) (h := shift a h) (w := shift a w)
    (by have := shift_lt (a := a) hh; romega) (by have := shift_lt (a := a) hw; romega)
  have hss : swapList y.shape (shift a h) (shift a w) = y.shape := by
    apply ext_nth
    · simp [length_swapList]
    · intro i hi
      rw [nth_swapList _ (by have := shift_lt (a := a) hh; romega) (by have := shift_lt (a := a) hw; romega)]
      have e1 : nth y.shape (shift a h) = nth y.shape (shift a w) := by
        rw [hy.1, nth_insert_shift _ _ _ _ ha, nth_insert_shift _ _ _ _ ha, hsq]
      split
      · rename_i e; rw [e, e1]
      · split
        · rename_i e; rw [e, e1]
        · rfl
  refine ⟨z, hz, ?_, ?_⟩
  · rw [hzs, hss]; simp [hy.1]
  · intro idx hi
    rw [hzs, hss] at hi
    have hlen := hi.length
    rw [hzg idx (by romega)]
    have hv : Valid y.shape (swapList idx (shift a h) (shift a w)) := by
      rw [valid_iff]
      refine ⟨by rw [length_swapList, hlen], fun i hi' => ?_⟩
      have hs' : nth (swapList y.shape (shift a h) (shift a w)) i = nth y.shape i := by rw [hss]
      rw [nth_swapList _ (by have := shift_lt (a := a) hh; romega) (by have := shift_lt (a := a) hw; romega)] at hs'
      rw [nth_swapList _ (by have := shift_lt (a := a) hh; romega) (by have := shift_lt (a := a) hw; romega), ← hs']
      apply hi.lt
      have h1 := shift_lt (a := a) hh
      have h2 := shift_lt (a := a) hw
      (repeat' split) <;> romega
    have hya : nth idx a < fs.length := (valid_insert_erase (n := fs.length) ha (hy.1 ▸ hi)).2
    have hna : nth (swapList idx (shift a h) (shift a w)) a = nth idx a := by
      rw [nth_swapList _ (by have := shift_lt (a := a) hh; romega) (by have := shift_lt (a := a) hw; romega)]
      have h1 := shift_ne a h
      have h2 := shift_ne a w
      rw [if_neg (by romega), if_neg (by romega)]
    rw [hy.2 _ hv, hna, erase_swap_shift _ _ _ _ (by romega) (by romega) (by romega)]
    simp only [List.getD_eq_getElem?_getD, List.getElem?_map, List.getElem?_eq_getElem hya, Option.map_some,
      Option.getD_some, Function.comp]

theorem stack_take {x y : Tensor α} {a : Nat} {fs} (hy : Stack y a fs x) (ha : a ≤ x.rank) {is : List Nat}
    (his : ∀ i ∈ is, i < fs.length) :
    ∃ z, take y is a = .ok z ∧ Stack z a (is.map fun i => fs.getD i id) x := by
  have hr := hy.rank ha
  have hr' : y.shape.length = x.shape.length + 1 := hr
  have hn : nth y.shape a = fs.length := by
    rw [hy.1, nth_insertIdx _ _ _ _ ha]; simp
  refine ⟨_, take_ok y (by romega) (by rw [hn]; exact his), ?_, ?_⟩
  · simp only [List.length_map]
    rw [hy.1, insertIdx_set_self]
  · intro idx hi
    simp only at hi ⊢
    have hlen := hi.length
    have hi' := hi
    rw [hy.1, insertIdx_set_self] at hi'
    have hlt := (valid_insert_erase ha hi').2
    have hlt2 : nth is (nth idx a) < fs.length := his _ (nth_mem _ _ hlt)
    rw [hy.2 _ (valid_set_set hi (fun _ => by rw [hn]; exact hlt2))]
    rw [nth_set, if_pos ⟨rfl, by simp at hlen; romega⟩, eraseIdx_set_self]
    congr 1
    have e : nth is (nth idx a) = is[nth idx a] := nth_eq_getElem _ _ hlt
    rw [e]
    simp only [List.getD_eq_getElem?_getD, List.getElem?_map, List.getElem?_eq_getElem hlt, Option.map_some,
      Option.getD_some]

/-- Concatenation of stacks along their new axis. -/
theorem stack_concat_get {x : Tensor α} {a : Nat} (ha : a ≤ x.rank) (t : Tensor α) (fs) (ht : Stack t a fs x)
    (us : List (Tensor α)) (gss : List (List (List Nat → List Nat)))
    (hus : List.Forall₂ (fun u gs => Stack u a gs x) us gss) (idx : List Nat)
    (hi : Valid (x.shape.insertIdx a (fs ++ gss.flatten).length) idx) :
    concatGet a t us idx = x.get (((fs ++ gss.flatten).getD (nth idx a) id) (idx.eraseIdx a)) := by
  induction hus generalizing t fs idx with
  | nil =>
    simp only [List.flatten_nil, List.append_nil] at hi ⊢
    rw [concatGet]
    exact ht.2 _ (by rw [ht.1]; exact hi)
  | @cons u gs us gss hu _ ih =>
    rw [concatGet]
    have hn : nth t.shape a = fs.length := by
      rw [ht.1, nth_insertIdx _ _ _ _ ha]; simp
    have hlen := hi.length
    have hr := ht.rank ha
    rw [hn]
    obtain ⟨hv, hlt⟩ := valid_insert_erase ha hi
    split
    · rename_i hc
      rw [ht.2]
      · congr 2
        simp [List.getElem?_append, hc]
      · rw [ht.1]
        have := valid_insertIdx (a := a) ha hv hc
        rwa [insertIdx_eraseIdx_nth (by rw [hlen, List.length_insertIdx, if_pos ha]; romega)] at this
    · rename_i hc
      have hal : a < idx.length := by rw [hlen, List.length_insertIdx, if_pos ha]; romega
      rw [ih u gs hu]
      · rw [nth_set, if_pos ⟨rfl, hal⟩, eraseIdx_set_self]
        congr 2
        simp only [List.flatten_cons, List.getD_eq_getElem?_getD, List.getElem?_append]
        rw [if_neg hc]
      · have := valid_insertIdx (a := a) (n := (gs ++ gss.flatten).length) (i := nth idx a - fs.length) ha hv (by
          simp at hlt ⊢; romega)
        rw [← eraseIdx_set_self _ _ (nth idx a - fs.length)] at this
        have e : nth (idx.set a (nth idx a - fs.length)) a = nth idx a - fs.length := by
          rw [nth_set, if_pos ⟨rfl, hal⟩]
        have h2 := insertIdx_eraseIdx_nth (l := idx.set a (nth idx a - fs.length)) (a := a) (by simpa)
        rw [e] at h2
        rwa [h2] at this

theorem stack_concatenate {x : Tensor α} {a : Nat} (ha : a ≤ x.rank) (ts : List (Tensor α))
    (gss : List (List (List Nat → List Nat)))
    (hus : List.Forall₂ (fun u gs => Stack u a gs x) ts gss) (hne : ts ≠ []) :
    ∃ z, concatenate ts a = .ok z ∧ Stack z a gss.flatten x := by
  cases hus with
  | nil => exact absurd rfl hne
  | @cons t fs us gss ht hus =>
    have hr := ht.rank ha
    have hsum : ((t :: us).map (fun u => nth u.shape a)).sum = (fs ++ gss.flatten).length := by
      have key : ∀ (us : List (Tensor α)) (gss : List (List (List Nat → List Nat))),
          List.Forall₂ (fun u gs => Stack u a gs x) us gss →
          (us.map (fun u => nth u.shape a)).sum = gss.flatten.length := by
        intro us gss h
        induction h with
        | nil => simp
        | cons hu _ ih =>
          simp only [List.map_cons, List.sum_cons, List.flatten_cons, List.length_append, ih]
          rw [hu.1, nth_insertIdx _ _ _ _ ha]; simp
      have := key _ _ (List.Forall₂.cons ht hus)
      simpa using this
    have hok := concatenate_ok t us (a := a) (by romega) (by
      intro u hu
      have hex : ∃ gs, Stack u a gs x := by
        clear hsum
        induction hus with
        | nil => simp at hu
        | cons h1 _ ih =>
          rcases List.mem_cons.1 hu with rfl | h
          · exact ⟨_, h1⟩
          · exact ih (by simp) h
      obtain ⟨gs, hgs⟩ := hex
      refine ⟨?_, by rw [hgs.rank ha, hr]⟩
      rw [hgs.1, ht.1, eraseIdx_insertIdx' _ _ _ ha, eraseIdx_insertIdx' _ _ _ ha])
    refine ⟨_, hok, ?_, ?_⟩
    · simp only [hsum, List.flatten_cons]
      rw [ht.1, insertIdx_set_self]
    · intro idx hi
      simp only [hsum] at hi
      rw [ht.1, insertIdx_set_self] at hi
      exact stack_concat_get ha t fs ht us gss hus idx hi

end GroCo
