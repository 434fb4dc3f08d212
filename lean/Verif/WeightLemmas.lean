import Verif.PadAmounts
import Verif.MatrixLemmas

/-
Helper lemmas: which stored weight is used for which group element.
-/

namespace GroCo
open Tensor

variable {α : Type}

theorem idxOf_range {i n : Nat} (h : i < n) : (List.range n).idxOf i = i := by
  have := List.Nodup.idxOf_getElem (List.nodup_range (n := n)) i (by simpa using h)
  simpa using this

theorem back_moves (n : GroupName) {K k : List Nat} (hK : n.Grid K) {e : Nat} (he : e < n.group.order) (hk : Valid K k) :
    MovesTo (n.motion e) (List.range n.dim) K (back n.els K e k) k := by
  have hl : K.length = n.dim := n.sym.okLen K hK
  have hax : AxesOk n.dim K.length (spAxes 0 n.dim) := axesOk_spAxes (by omega)
  have hco : coords (spAxes 0 n.dim) K = K := by
    have := coords_spAxes (a := []) (p := K) (r := []) (m := 0) rfl hl
    simpa using this
  have := SPerm.moves_pull (n.sym.tab.wfi he) hax.1 hax.2.1 hax.2.2.1 (by rw [hco]; exact n.sym.compat' hK he) hk
  have hp : (n.els.getD e []).pullIdx (spAxes 0 n.dim) (coords (spAxes 0 n.dim) K) k = back n.els K e k := by
    rw [hco]
    have h2 := elPull_spAxes (els := n.els) (a := []) (p := k) (r := []) (n := K) (g := e) (m := 0) (d := n.dim) rfl
      (by rw [hk.length, hl]) (n.sym.tab.wfi he).1
    simpa [elPull] using h2
  rw [hp] at this
  rw [List.range_eq_range']
  exact this

theorem weight_lift {a : ConvArgs α} {C : Nat} {k0 : List Nat → α} {D : List Nat} (hK : a.group.Grid a.kernelSize) {e : Nat}
    (he : e < a.group.group.order) {k : List Nat} (hk : Valid a.kernelSize k) {c o : Nat} (hc : c < C) (ho : o < a.filters) :
    weightOf a false none C k0 D e k c o = k0 (back a.group.els a.kernelSize e k ++ [c, o]) := by
  unfold weightOf wIdx liftIdx kShape
  simp only [Option.isSome_none, Bool.false_eq_true, if_false, chanO]
  rw [unravel_ravel (valid_two.2 ⟨a.group.sym.valid_back hK he hk, hc, ho⟩)]

theorem weight_group {a : ConvArgs α} {C : Nat} {k0 : List Nat → α} (hK : a.group.Grid a.kernelSize) {e : Nat}
    (he : e < a.group.group.order) {k : List Nat} (hk : Valid a.kernelSize k) {j c o : Nat} (hj : j < a.group.group.order)
    (hc : c < C) (ho : o < a.filters) :
    weightOf a false (some a.group.group.order) C k0 (List.range a.group.group.order) e k (j * C + c) o =
      k0 (back a.group.els a.kernelSize e k ++ [a.group.group.comp (nth a.group.group.inverses e) j * C + c, o]) := by
  have hlt := a.group.sym.tab.laws.closed _ _ (a.group.sym.inv_lt he) hj
  unfold weightOf wIdx groupIdx kShape
  simp only [Option.isSome_some, Bool.false_eq_true, if_true, if_false, chanO, div_of hc, mod_of hc, List.length_range, nth_range, if_pos hj]
  rw [if_pos (List.mem_range.2 hlt), idxOf_range hlt,
    unravel_ravel (valid_two.2 ⟨a.group.sym.valid_back hK he hk, mul_add_lt hlt hc, ho⟩)]

/-- what element `e` does to the positions of a list `D` of elements -/
def turn (G : GroupData) (D : List Nat) (e j : Nat) : Nat := D.idxOf (G.comp (nth G.inverses e) (nth D j))

/-- what element `e` of the group does to a merged channel -/
def turnChan (G : GroupData) (D : List Nat) (g : Option Nat) (C e c : Nat) : Nat :=
  match g with
  | none => c
  | some _ => turn G D e (c / C) * C + c % C

theorem GroupLaws.inv_comp {order : Nat} {mul : Nat → Nat → Nat} {inv : Nat → Nat} (L : GroupLaws order mul inv) {h e : Nat}
    (hh : h < order) (he : e < order) : inv (mul h e) = mul (inv e) (inv h) := by
  have i1 := L.inv_closed _ hh
  have i2 := L.inv_closed _ he
  have hm := L.closed _ _ hh he
  have hr := L.closed _ _ i2 i1
  have key : mul (mul (inv e) (inv h)) (mul h e) = 0 := by
    rw [L.assoc _ _ _ i2 i1 hm, ← L.assoc _ _ _ i1 hh he, L.inv_mul _ hh, L.one_mul _ he, L.inv_mul _ he]
  have := congrArg (mul · (inv (mul h e))) key
  simp only [L.assoc _ _ _ hr hm (L.inv_closed _ hm), L.mul_inv _ hm, L.mul_one _ hr, L.one_mul _ (L.inv_closed _ hm)] at this
  exact this.symm

theorem nth_idxOf {l : List Nat} {i : Nat} (h : i ∈ l) : nth l (l.idxOf i) = i := by
  unfold nth
  rw [List.getD_eq_getElem?_getD, List.getElem?_eq_getElem (List.idxOf_lt_length_iff.2 h)]
  simp

theorem nth_inj {l : List Nat} (hn : l.Nodup) {i j : Nat} (hi : i < l.length) (hj : j < l.length) (h : nth l i = nth l j) :
    i = j := by
  unfold nth at h
  rw [List.getD_eq_getElem?_getD, List.getD_eq_getElem?_getD, List.getElem?_eq_getElem hi, List.getElem?_eq_getElem hj] at h
  exact (hn.getElem_inj_iff (hi := hi) (hj := hj)).1 (by simpa using h)

section
variable {G : Group} {d : Nat} {els : List SPerm} {ok : List Nat → Prop}

theorem Sym.inv_comp (S : Sym G d els ok) {h e : Nat} (hh : h < G.order) (he : e < G.order) :
    nth G.inverses (G.comp h e) = G.comp (nth G.inverses e) (nth G.inverses h) :=
  S.tab.laws.inv_comp (inv := fun e => nth G.inverses e) hh he

variable {s : String} {D : List Nat} (hD : lookup G.subgroup s = .ok D)
include hD

theorem Sym.sub_lt (S : Sym G d els ok) {e : Nat} (he : e ∈ D) : e < G.order :=
  (S.tab.subs _ (lookup_mem hD)).2.2.2.1 e he

theorem Sym.sub_nth_lt (S : Sym G d els ok) {j : Nat} (hj : j < D.length) : nth D j < G.order :=
  S.sub_lt hD (nth_mem _ _ hj)

theorem Sym.sub_nodup (S : Sym G d els ok) : D.Nodup := (S.tab.subs _ (lookup_mem hD)).2.1

theorem Sym.sub_turn_mem (S : Sym G d els ok) {e j : Nat} (he : e ∈ D) (hj : j < D.length) :
    G.comp (nth G.inverses e) (nth D j) ∈ D :=
  (S.tab.subs _ (lookup_mem hD)).2.2.2.2.1 _ ((S.tab.subs _ (lookup_mem hD)).2.2.2.2.2 _ he) _ (nth_mem _ _ hj)

theorem Sym.turn_lt (S : Sym G d els ok) {e j : Nat} (he : e ∈ D) (hj : j < D.length) :
    turn G.toGroupData D e j < D.length :=
  List.idxOf_lt_length_iff.2 (S.sub_turn_mem hD he hj)

theorem Sym.nth_turn (S : Sym G d els ok) {e j : Nat} (he : e ∈ D) (hj : j < D.length) :
    nth D (turn G.toGroupData D e j) = G.comp (nth G.inverses e) (nth D j) :=
  nth_idxOf (S.sub_turn_mem hD he hj)

theorem Sym.turn_inj (S : Sym G d els ok) {e j j' : Nat} (he : e ∈ D) (hj : j < D.length) (hj' : j' < D.length)
    (h : turn G.toGroupData D e j = turn G.toGroupData D e j') : j = j' := by
  have h1 := congrArg (nth D) h
  rw [S.nth_turn hD he hj, S.nth_turn hD he hj'] at h1
  have L := S.tab.laws
  have he' := S.sub_lt hD he
  have k1 := S.sub_nth_lt hD hj
  have k2 := S.sub_nth_lt hD hj'
  have h2 := congrArg (G.comp e) h1
  rw [← L.assoc _ _ _ he' (S.inv_lt he') k1, ← L.assoc _ _ _ he' (S.inv_lt he') k2, L.mul_inv _ he', L.one_mul _ k1,
    L.one_mul _ k2] at h2
  exact nth_inj (S.sub_nodup hD) hj hj' h2

/-- reading through `h` and then through `e` -/
theorem Sym.inv_comp_nth (S : Sym G d els ok) {h e j : Nat} (hh : h ∈ D) (he : e < G.order) (hj : j < D.length) :
    G.comp (nth G.inverses (G.comp h e)) (nth D j) = G.comp (nth G.inverses e) (nth D (turn G.toGroupData D h j)) := by
  rw [S.inv_comp (S.sub_lt hD hh) he, S.tab.laws.assoc _ _ _ (S.inv_lt he) (S.inv_lt (S.sub_lt hD hh)) (S.sub_nth_lt hD hj),
    S.nth_turn hD hh hj]

theorem Sym.turnChan_lt (S : Sym G d els ok) {g : Option Nat} (hg : ∀ g', g = some g' → g' = D.length) {C e c : Nat}
    (he : e ∈ D) (hc : c < chanO g C) : turnChan G.toGroupData D g C e c < chanO g C := by
  cases g with
  | none => exact hc
  | some g' =>
    have := hg g' rfl
    subst this
    obtain ⟨h1, h2, _⟩ := split_lt (m := D.length) (n := C) hc
    exact mul_add_lt (S.turn_lt hD he h1) h2

theorem Sym.turnChan_inj (S : Sym G d els ok) {g : Option Nat} (hg : ∀ g', g = some g' → g' = D.length) {C e c c' : Nat}
    (he : e ∈ D) (hc : c < chanO g C) (hc' : c' < chanO g C)
    (h : turnChan G.toGroupData D g C e c = turnChan G.toGroupData D g C e c') : c = c' := by
  cases g with
  | none => exact h
  | some g' =>
    have := hg g' rfl
    subst this
    obtain ⟨h1, h2, h3⟩ := split_lt (m := D.length) (n := C) hc
    obtain ⟨k1, k2, k3⟩ := split_lt (m := D.length) (n := C) hc'
    simp only [turnChan] at h
    have e1 := congrArg (· / C) h
    have e2 := congrArg (· % C) h
    simp only [div_of h2, div_of k2, mod_of h2, mod_of k2] at e1 e2
    rw [h3, k3, S.turn_inj hD he h1 k1 e1, e2]

/-- re-indexing merged channels -/
theorem Sym.sum_turnChan [AddCommMonoid α] (S : Sym G d els ok) {g : Option Nat} (hg : ∀ g', g = some g' → g' = D.length)
    {C e : Nat} (he : e ∈ D) (F : Nat → α) :
    ((List.range (chanO g C)).map fun c => F (turnChan G.toGroupData D g C e c)).sum =
      ((List.range (chanO g C)).map F).sum := by
  apply sum_reindex List.nodup_range
  · intro c hc
    rw [List.mem_range] at hc ⊢
    exact S.turnChan_lt hD hg he hc
  · intro c hc c' hc' h
    rw [List.mem_range] at hc hc'
    exact S.turnChan_inj hD hg he hc hc' h

end

theorem turn_range {n : GroupName} {e j : Nat} (he : e < n.group.order) (hj : j < n.group.order) :
    turn n.group.toGroupData (List.range n.group.order) e j = n.group.comp (nth n.group.inverses e) j := by
  unfold turn
  rw [nth_range, if_pos hj, idxOf_range (n.sym.tab.laws.closed _ _ (n.sym.inv_lt he) hj)]

/-- the weights transform like a signal -/
theorem weight_covariant {a : ConvArgs α} {tr : Bool} {g : Option Nat} {C : Nat} {k0 : List Nat → α} {s : String} {D : List Nat}
    (hD : lookup a.group.group.subgroup s = .ok D) (hg : ∀ g', g = some g' → g' = D.length)
    (hK : a.group.Grid a.kernelSize) {h e : Nat} (hh : h ∈ D) (he : e < a.group.group.order) {k : List Nat}
    (hk : Valid a.kernelSize k) {c o : Nat} (hc : c < chanO g C) :
    weightOf a tr g C k0 D (a.group.group.comp h e) k c o =
      weightOf a tr g C k0 D e (back a.group.els a.kernelSize h k) (turnChan a.group.group.toGroupData D g C h c) o := by
  have S := a.group.sym
  have hh' := S.sub_lt hD hh
  unfold weightOf wIdx
  cases g with
  | none =>
    simp only [Option.isSome_none, Bool.false_eq_true, if_false, liftIdx, turnChan]
    rw [S.back_comp hK he hh' hk]
  | some g' =>
    have := hg g' rfl
    subst this
    obtain ⟨h1, h2, h3⟩ := split_lt (m := D.length) (n := C) hc
    simp only [Option.isSome_some, if_true, groupIdx, turnChan, div_of h2, mod_of h2]
    rw [S.inv_comp_nth hD hh he h1, S.back_comp hK he hh' hk]

theorem weight_false {a : ConvArgs α} {g : Option Nat} (hg : ∀ g', g = some g' → g' = a.group.group.order) {C : Nat}
    {k0 : List Nat → α} (hK : a.group.Grid a.kernelSize) {e : Nat}
    (he : e < a.group.group.order) {k : List Nat} (hk : Valid a.kernelSize k) {c o : Nat} (hc : c < chanO g C)
    (ho : o < a.filters) :
    weightOf a false g C k0 (List.range a.group.group.order) e k c o =
      k0 (back a.group.els a.kernelSize e k ++
        [turnChan a.group.group.toGroupData (List.range a.group.group.order) g C e c, o]) := by
  cases g with
  | none => exact weight_lift hK he hk hc ho
  | some g' =>
    have := hg g' rfl
    subst this
    obtain ⟨h1, h2, h3⟩ := split_lt (m := a.group.group.order) (n := C) hc
    have := weight_group (C := C) (k0 := k0) hK he hk h1 h2 ho
    rw [← h3] at this
    rw [this, turnChan, turn_range he h1]

end GroCo
