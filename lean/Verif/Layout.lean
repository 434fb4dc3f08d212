import Mathlib.Algebra.BigOperators.Group.List.Basic
import Verif.ActionLemmas
import Verif.Read

/-
Helper lemmas: multi-indices written as batch, position, rest; positions moved by a symmetry; re-indexing of sums.
-/

namespace GroCo
open Tensor

variable {α : Type}

/-! ### lists with a known prefix -/

theorem nth_app {a r : List Nat} {m : Nat} (h : a.length = m) (j : Nat) : nth (a ++ r) (m + j) = nth r j := by
  rw [nth_append, if_neg (by omega)]; congr 1; omega
theorem nth_app0 {a r : List Nat} {m : Nat} (h : a.length = m) : nth (a ++ r) m = nth r 0 := nth_app h 0
theorem set_app {a r : List Nat} {m : Nat} (h : a.length = m) (j v : Nat) : (a ++ r).set (m + j) v = a ++ r.set j v := by
  rw [List.set_append_right _ _ (by omega)]; congr 2; omega
theorem set_app0 {a r : List Nat} {m : Nat} (h : a.length = m) (v : Nat) : (a ++ r).set m v = a ++ r.set 0 v :=
  set_app h 0 v
theorem insert_app {a r : List Nat} {m : Nat} (h : a.length = m) (j v : Nat) :
    (a ++ r).insertIdx (m + j) v = a ++ r.insertIdx j v := by
  subst h
  induction a with
  | nil => simp
  | cons x a ih =>
    simp only [List.cons_append, List.length_cons]
    rw [show a.length + 1 + j = (a.length + j) + 1 by omega, List.insertIdx_succ_cons, ih]
theorem insert_app0 {a r : List Nat} {m : Nat} (h : a.length = m) (v : Nat) :
    (a ++ r).insertIdx m v = a ++ v :: r := by
  have := insert_app (r := r) h 0 v
  simpa using this
theorem erase_app {a r : List Nat} {m : Nat} (h : a.length = m) (j : Nat) :
    (a ++ r).eraseIdx (m + j) = a ++ r.eraseIdx j := by
  rw [List.eraseIdx_append_of_length_le (by omega)]; congr 2; omega
theorem erase_app0 {a r : List Nat} {m : Nat} (h : a.length = m) : (a ++ r).eraseIdx m = a ++ r.eraseIdx 0 :=
  erase_app h 0
theorem nth_pre {a r : List Nat} {i : Nat} (h : i < a.length) : nth (a ++ r) i = nth a i := by
  rw [nth_append, if_pos h]

/-- simplification of operations on a list `a ++ r` at positions `m + j`, `a.length = m` -/
macro "lay" h:term : tactic =>
  `(tactic| simp only [nth_app $h, nth_app0 $h, set_app $h, set_app0 $h, insert_app $h, insert_app0 $h, erase_app $h,
    erase_app0 $h, nth_cons_zero, nth_cons_succ, List.set_cons_zero, List.set_cons_succ, List.insertIdx_zero,
    List.insertIdx_succ_cons, List.eraseIdx_cons_zero, List.eraseIdx_cons_succ])

/-! ### positions -/

/-- the spatial axes after `m` leading axes -/
abbrev spAxes (m d : Nat) : List Nat := List.range' m d

theorem coords_spAxes {a p r : List Nat} {m d : Nat} (ha : a.length = m) (hp : p.length = d) :
    coords (spAxes m d) (a ++ p ++ r) = p := by
  apply ext_nth
  · simp [coords, hp]
  · intro i hi
    simp only [coords, List.length_map, List.length_range'] at hi
    rw [nth_coords _ _ (by simpa using hi)]
    have : nth (spAxes m d) i = m + i := by simp [nth, hi]
    rw [this, List.append_assoc, nth_app ha, nth_pre (by omega)]

theorem place_spAxes {a p r v : List Nat} {m d : Nat} (ha : a.length = m) (hp : p.length = d) (hv : v.length = d) :
    place (a ++ p ++ r) (spAxes m d) v = a ++ v ++ r := by
  apply place_eq_of
  · exact List.nodup_range'
  · simp [hv]
  · intro b hb
    simp only [List.mem_range'_1] at hb
    simp; omega
  · simp [hp, hv]
  · intro i _ hi
    simp only [List.mem_range'_1] at hi
    rw [nth_append, nth_append (a ++ p), nth_append, nth_append a p]
    simp only [List.length_append, ha, hp, hv]
    by_cases h1 : i < m
    · rw [if_pos (by omega), if_pos h1, if_pos (by omega), if_pos h1]
    · rw [if_neg (by omega), if_neg (by omega)]
  · intro j hj
    simp only [List.length_range'] at hj
    have : nth (spAxes m d) j = m + j := by simp [nth, hj]
    rw [this, List.append_assoc, nth_app ha, nth_pre (by omega)]

theorem axesOk_spAxes {d r m : Nat} (h : m + d ≤ r) : AxesOk d r (spAxes m d) := by
  refine ⟨by simp, List.nodup_range', fun a ha => ?_, ?_⟩
  · simp only [List.mem_range'_1] at ha; omega
  · rintro rfl; exact ⟨m, rfl⟩

/-- what element `g` reads when position `p` of a grid with sizes `n` is written -/
def back (els : List SPerm) (n : List Nat) (g : Nat) (p : List Nat) : List Nat := (els.getD g []).pull n p

theorem elPull_spAxes {els : List SPerm} {a p r n : List Nat} {g m d : Nat} (ha : a.length = m) (hp : p.length = d)
    (hg : (els.getD g []).length = d) :
    elPull els (spAxes m d) n g (a ++ p ++ r) = a ++ back els n g p ++ r := by
  unfold elPull SPerm.pullIdx
  rw [coords_spAxes ha hp, place_spAxes ha hp (by rw [SPerm.length_pull, hg])]
  rfl

section
variable {G : Group} {d : Nat} {els : List SPerm} {ok : List Nat → Prop}

theorem Sym.wf (S : Sym G d els ok) {g : Nat} (hg : g < G.order) : (els.getD g []).WF d :=
  S.tab.wf _ (by
    have : g < els.length := by rw [S.tab.len]; exact hg
    simp only [List.getD_eq_getElem?_getD, this, List.getElem?_eq_getElem, Option.getD_some]
    exact List.getElem_mem this)

theorem Sym.compat' (S : Sym G d els ok) {n : List Nat} (hn : ok n) {g : Nat} (hg : g < G.order) :
    (els.getD g []).Compat n :=
  S.compat n hn _ (by
    have : g < els.length := by rw [S.tab.len]; exact hg
    simp only [List.getD_eq_getElem?_getD, this, List.getElem?_eq_getElem, Option.getD_some]
    exact List.getElem_mem this)

theorem Sym.length_back (S : Sym G d els ok) {n p : List Nat} {g : Nat} (hg : g < G.order) :
    (back els n g p).length = d := by
  rw [back, SPerm.length_pull]; exact (S.wf hg).1

theorem Sym.valid_back (S : Sym G d els ok) {n p : List Nat} (hn : ok n) {g : Nat} (hg : g < G.order) (hp : Valid n p) :
    Valid n (back els n g p) :=
  SPerm.valid_pull (S.wf hg) (S.okLen n hn) (S.compat' hn hg) hp

theorem Sym.back_comp (S : Sym G d els ok) {n p : List Nat} (hn : ok n) {g h : Nat} (hg : g < G.order) (hh : h < G.order)
    (hp : Valid n p) : back els n (G.comp h g) p = back els n g (back els n h p) := by
  unfold back
  rw [(S.tab.comp h hh g hg).2]
  exact (SPerm.pull_comp (S.wf hg) (S.wf hh) (S.okLen n hn) (S.compat' hn hg) (S.compat' hn hh) hp).symm

theorem Sym.back_one (S : Sym G d els ok) {n p : List Nat} (hp : p.length = d) : back els n 0 p = p := by
  unfold back; rw [S.tab.one]; exact SPerm.pull_one hp

theorem Sym.inv_lt (S : Sym G d els ok) {g : Nat} (hg : g < G.order) : nth G.inverses g < G.order := (S.tab.inv g hg).1

/-- element `g` undoes its inverse -/
theorem Sym.back_inv (S : Sym G d els ok) {n p : List Nat} (hn : ok n) {g : Nat} (hg : g < G.order) (hp : Valid n p) :
    back els n (nth G.inverses g) (back els n g p) = p := by
  rw [← S.back_comp hn (S.inv_lt hg) hg hp, (S.tab.inv g hg).2.1, S.back_one (by rw [hp.length, S.okLen n hn])]

theorem Sym.inv_back (S : Sym G d els ok) {n p : List Nat} (hn : ok n) {g : Nat} (hg : g < G.order) (hp : Valid n p) :
    back els n g (back els n (nth G.inverses g) p) = p := by
  rw [← S.back_comp hn hg (S.inv_lt hg) hp, (S.tab.inv g hg).2.2, S.back_one (by rw [hp.length, S.okLen n hn])]

theorem Sym.back_inj (S : Sym G d els ok) {n p q : List Nat} (hn : ok n) {g : Nat} (hg : g < G.order)
    (hp : Valid n p) (hq : Valid n q) (h : back els n g p = back els n g q) : p = q := by
  rw [← S.back_inv hn hg hp, h, S.back_inv hn hg hq]

end

/-! ### sums -/

/-- A list mapped injectively into itself is a rearrangement of itself. -/
theorem perm_map_self {β : Type} {l : List β} (hl : l.Nodup) {f : β → β} (hf : ∀ b ∈ l, f b ∈ l)
    (hi : ∀ b ∈ l, ∀ c ∈ l, f b = f c → b = c) : (l.map f).Perm l := by
  have hnd : (l.map f).Nodup := List.Nodup.map_on hi hl
  have hsub : l.map f ⊆ l := fun b hb => by
    obtain ⟨c, hc, rfl⟩ := List.mem_map.1 hb
    exact hf c hc
  exact (List.subperm_of_subset hnd hsub).perm_of_length_le (by simp)

theorem sum_reindex {β : Type} [AddCommMonoid α] {l : List β} (hl : l.Nodup) {f : β → β} (hf : ∀ b ∈ l, f b ∈ l)
    (hi : ∀ b ∈ l, ∀ c ∈ l, f b = f c → b = c) (F : β → α) : (l.map fun b => F (f b)).sum = (l.map F).sum := by
  have := ((perm_map_self hl hf hi).map F).sum_eq
  rwa [List.map_map] at this

theorem sum_congr {β : Type} [AddCommMonoid α] {l : List β} {F H : β → α} (h : ∀ b ∈ l, F b = H b) :
    (l.map F).sum = (l.map H).sum := by
  rw [List.map_congr_left h]

/-- re-indexing kernel offsets by a symmetry -/
theorem Sym.sum_back [AddCommMonoid α] {G : Group} {d : Nat} {els : List SPerm} {ok : List Nat → Prop}
    (S : Sym G d els ok) {K : List Nat} (hK : ok K) {g : Nat} (hg : g < G.order) (F : List Nat → α) :
    ((indices K).map fun k => F (back els K g k)).sum = ((indices K).map F).sum := by
  apply sum_reindex (nodup_indices K)
  · intro k hk
    rw [mem_indices] at hk ⊢
    exact S.valid_back hK hg hk
  · intro k hk k' hk' h
    rw [mem_indices] at hk hk'
    exact S.back_inj hK hg hk hk' h

/-- a sum over a merged axis -/
theorem sum_range_mul [AddCommMonoid α] (m n : Nat) (F : Nat → α) :
    ((List.range (m * n)).map F).sum =
      ((List.range m).map fun j => ((List.range n).map fun c => F (j * n + c)).sum).sum := by
  induction m with
  | zero => simp
  | succ m ih =>
    rw [Nat.succ_mul, List.range_add, List.map_append, List.sum_append, ih, List.range_succ, List.map_append,
      List.sum_append]
    simp [List.map_map, Function.comp_def]

end GroCo
