import Mathlib.Data.List.Nodup
import Verif.Stack
import Verif.Space

/-
Helper: symmetries of a grid as signed permutations of its axes, and the list of symmetries each group of the library
is supposed to act by. (The property theorems phrase the same thing with integer orthogonal matrices, see Spec.lean.)
-/

namespace GroCo
open Tensor

variable {α : Type}

/-- `σ[a] = (j, f)`: coordinate `a` of the point read is coordinate `j` of the point written, mirrored if `f`. -/
abbrev SPerm := List (Nat × Bool)

namespace SPerm

/-- which coordinate of the written point gives coordinate `a` -/
def src (σ : SPerm) (a : Nat) : Nat := (σ.getD a (0, false)).1
/-- mirrored? -/
def neg (σ : SPerm) (a : Nat) : Bool := (σ.getD a (0, false)).2

/-- The point read, when point `p` of a grid with sizes `n` is written. -/
def pull (σ : SPerm) (n p : List Nat) : List Nat :=
  (List.range σ.length).map fun a => if σ.neg a then nth n a - 1 - nth p (σ.src a) else nth p (σ.src a)

/-- reading through `τ` and then through `σ` -/
def comp (σ τ : SPerm) : SPerm := σ.map fun e => (τ.src e.1, xor e.2 (τ.neg e.1))

/-- signed permutation of `d` axes -/
def WF (d : Nat) (σ : SPerm) : Prop :=
  σ.length = d ∧ (σ.map Prod.fst).Nodup ∧ ∀ e ∈ σ, e.1 < d

instance (d : Nat) (σ : SPerm) : Decidable (WF d σ) := by unfold WF; infer_instance

def one (d : Nat) : SPerm := (List.range d).map fun a => (a, false)

/-- the grid is mapped to itself -/
def Compat (σ : SPerm) (n : List Nat) : Prop := ∀ a, a < σ.length → nth n a = nth n (σ.src a)

theorem length_pull (σ : SPerm) (n p : List Nat) : (σ.pull n p).length = σ.length := by simp [pull]

theorem nth_pull (σ : SPerm) (n p : List Nat) {a : Nat} (h : a < σ.length) :
    nth (σ.pull n p) a = if σ.neg a then nth n a - 1 - nth p (σ.src a) else nth p (σ.src a) := by
  rw [pull, nth_map_range, if_pos h]

theorem length_comp (σ τ : SPerm) : (σ.comp τ).length = σ.length := by simp [comp]

theorem src_comp (σ τ : SPerm) {a : Nat} (h : a < σ.length) : (σ.comp τ).src a = τ.src (σ.src a) := by
  simp [comp, src, List.getElem?_eq_getElem h]

theorem neg_comp (σ τ : SPerm) {a : Nat} (h : a < σ.length) :
    (σ.comp τ).neg a = xor (σ.neg a) (τ.neg (σ.src a)) := by
  simp [comp, neg, src, List.getElem?_eq_getElem h]

theorem WF.src_lt {d : Nat} {σ : SPerm} (h : σ.WF d) {a : Nat} (ha : a < d) : σ.src a < d := by
  have ha' : a < σ.length := by rw [h.1]; exact ha
  simp only [src, List.getD_eq_getElem?_getD, List.getElem?_eq_getElem ha', Option.getD_some]
  exact h.2.2 _ (List.getElem_mem ha')

theorem WF.src_inj {d : Nat} {σ : SPerm} (h : σ.WF d) {a b : Nat} (ha : a < d) (hb : b < d)
    (e : σ.src a = σ.src b) : a = b := by
  have ha' : a < σ.length := by rw [h.1]; exact ha
  have hb' : b < σ.length := by rw [h.1]; exact hb
  simp only [src, List.getD_eq_getElem?_getD, List.getElem?_eq_getElem ha', List.getElem?_eq_getElem hb',
    Option.getD_some] at e
  exact (h.2.1.getElem_inj_iff (i := a) (j := b) (hi := by simpa using ha') (hj := by simpa using hb')).1
    (by simpa using e)

theorem valid_pull {d : Nat} {σ : SPerm} (h : σ.WF d) {n p : List Nat} (hn : n.length = d) (hc : σ.Compat n)
    (hp : Valid n p) : Valid n (σ.pull n p) := by
  rw [valid_iff]
  refine ⟨by rw [length_pull, h.1, hn], fun a ha => ?_⟩
  rw [hn] at ha
  rw [nth_pull _ _ _ (by rw [h.1]; exact ha)]
  have h1 := h.src_lt ha
  have h2 := hp.lt (i := σ.src a) (by omega)
  rw [← hc a (by rw [h.1]; exact ha)] at h2
  split <;> omega

theorem pull_comp {d : Nat} {σ τ : SPerm} (hσ : σ.WF d) (hτ : τ.WF d) {n p : List Nat} (hn : n.length = d)
    (hcσ : σ.Compat n) (hcτ : τ.Compat n) (hp : Valid n p) :
    σ.pull n (τ.pull n p) = (σ.comp τ).pull n p := by
  apply ext_nth
  · simp [length_pull, length_comp]
  · intro a ha
    rw [length_pull] at ha
    have had : a < d := by rw [← hσ.1]; exact ha
    have h1 := hσ.src_lt had
    have h1' : σ.src a < τ.length := by rw [hτ.1]; exact h1
    rw [nth_pull _ _ _ ha, nth_pull _ _ _ h1', nth_pull _ _ _ (by rw [length_comp]; exact ha), src_comp _ _ ha,
      neg_comp _ _ ha]
    have e1 := hcσ a ha
    have e2 := hcτ _ h1'
    have h3 := hp.lt (i := τ.src (σ.src a)) (by rw [hn]; exact hτ.src_lt h1)
    cases σ.neg a <;> cases τ.neg (σ.src a) <;> simp <;> omega

theorem pull_one {n p : List Nat} {d : Nat} (hp : p.length = d) : (one d).pull n p = p := by
  apply ext_nth
  · simp [length_pull, one, hp]
  · intro a ha
    simp only [length_pull, one, List.length_map, List.length_range] at ha
    rw [nth_pull _ _ _ (by simpa [one] using ha)]
    simp [neg, src, one, ha]

theorem pull_inj {d : Nat} {σ : SPerm} (hσ : σ.WF d) {n p q : List Nat} (hn : n.length = d)
    (hc : σ.Compat n) (hp : Valid n p) (hq : Valid n q) (e : σ.pull n p = σ.pull n q)
    (hsurj : ∀ j, j < d → ∃ a, a < d ∧ σ.src a = j) : p = q := by
  apply ext_nth
  · rw [hp.length, hq.length]
  · intro j hj
    have hjd : j < d := by rw [← hn, ← hp.length]; exact hj
    obtain ⟨a, ha, rfl⟩ := hsurj j hjd
    have e' : nth (σ.pull n p) a = nth (σ.pull n q) a := by rw [e]
    have ha' : a < σ.length := by rw [hσ.1]; exact ha
    rw [nth_pull _ _ _ ha', nth_pull _ _ _ ha'] at e'
    have h1 := hp.lt (i := σ.src a) (by omega)
    have h2 := hq.lt (i := σ.src a) (by omega)
    have h3 := hc a ha'
    split at e' <;> omega

end SPerm

/-- `idx` with the coordinates at the positions `axs` replaced by `vs` -/
def place : List Nat → List Nat → List Nat → List Nat
  | idx, a :: as, v :: vs => place (idx.set a v) as vs
  | idx, _, _ => idx

/-- the coordinates at the positions `axs` -/
def coords (axs idx : List Nat) : List Nat := axs.map (nth idx)

/-- re-indexing of a whole tensor by a symmetry of the grid spanned by the axes `axs` with sizes `n` -/
def SPerm.pullIdx (σ : SPerm) (axs n : List Nat) (idx : List Nat) : List Nat :=
  place idx axs (σ.pull n (coords axs idx))

theorem length_place (idx axs vs : List Nat) : (place idx axs vs).length = idx.length := by
  induction axs generalizing idx vs with
  | nil => simp [place]
  | cons a as ih => cases vs <;> simp [place, ih]

theorem nth_place_of_not_mem (idx axs vs : List Nat) {i : Nat} (h : i ∉ axs) : nth (place idx axs vs) i = nth idx i := by
  induction axs generalizing idx vs with
  | nil => simp [place]
  | cons a as ih =>
    cases vs with
    | nil => simp [place]
    | cons v vs =>
      simp only [List.mem_cons, not_or] at h
      rw [place, ih _ _ h.2, nth_set, if_neg (by omega)]

theorem nth_coords (axs idx : List Nat) {j : Nat} (h : j < axs.length) : nth (coords axs idx) j = nth idx (nth axs j) := by
  rw [nth_eq_getElem _ _ (by simpa [coords])]
  simp [coords, nth_eq_getElem _ _ h]

theorem nth_place {idx axs vs : List Nat} (hnd : axs.Nodup) (hl : vs.length = axs.length)
    (hlt : ∀ a ∈ axs, a < idx.length) {j : Nat} (hj : j < axs.length) :
    nth (place idx axs vs) (nth axs j) = nth vs j := by
  induction axs generalizing idx vs j with
  | nil => simp at hj
  | cons a as ih =>
    cases vs with
    | nil => simp at hl
    | cons v vs =>
      rw [place]
      cases j with
      | zero =>
        simp only [nth_cons_zero]
        rw [nth_place_of_not_mem _ _ _ (List.nodup_cons.1 hnd).1, nth_set, if_pos ⟨rfl, hlt a (by simp)⟩]
      | succ j =>
        simp only [nth_cons_succ]
        apply ih (List.nodup_cons.1 hnd).2 (by simpa using hl)
        · intro b hb; simpa using hlt b (by simp [hb])
        · simpa using hj

theorem coords_place {idx axs vs : List Nat} (hnd : axs.Nodup) (hl : vs.length = axs.length)
    (hlt : ∀ a ∈ axs, a < idx.length) : coords axs (place idx axs vs) = vs := by
  apply ext_nth
  · simp [coords, hl]
  · intro j hj
    simp only [coords, List.length_map] at hj
    rw [nth_coords _ _ hj, nth_place hnd hl hlt hj]

theorem exists_nth_of_mem {l : List Nat} {a : Nat} (h : a ∈ l) : ∃ j, j < l.length ∧ nth l j = a := by
  obtain ⟨j, hj, e⟩ := List.getElem_of_mem h
  exact ⟨j, hj, by rw [nth_eq_getElem _ _ hj, e]⟩

theorem place_eq_of {idx axs vs r : List Nat} (hnd : axs.Nodup) (hl : vs.length = axs.length)
    (hlt : ∀ a ∈ axs, a < idx.length) (hr : r.length = idx.length)
    (h1 : ∀ i, i < idx.length → i ∉ axs → nth r i = nth idx i) (h2 : ∀ j, j < axs.length → nth r (nth axs j) = nth vs j) :
    place idx axs vs = r := by
  apply ext_nth
  · rw [length_place, hr]
  · intro i hi
    rw [length_place] at hi
    by_cases hm : i ∈ axs
    · obtain ⟨j, hj, rfl⟩ := exists_nth_of_mem hm
      rw [nth_place hnd hl hlt hj, h2 j hj]
    · rw [nth_place_of_not_mem _ _ _ hm, h1 i hi hm]

theorem place_place {idx axs vs ws : List Nat} (hnd : axs.Nodup) (hl : vs.length = axs.length)
    (hl' : ws.length = axs.length) (hlt : ∀ a ∈ axs, a < idx.length) :
    place (place idx axs vs) axs ws = place idx axs ws := by
  apply place_eq_of hnd hl' (by simpa [length_place] using hlt) (by simp [length_place])
  · intro i _ hm; rw [nth_place_of_not_mem _ _ _ hm, nth_place_of_not_mem _ _ _ hm]
  · intro j hj; rw [nth_place hnd hl' hlt hj]

theorem place_coords {idx axs : List Nat} (hnd : axs.Nodup) (hlt : ∀ a ∈ axs, a < idx.length) :
    place idx axs (coords axs idx) = idx := by
  apply place_eq_of hnd (by simp [coords]) hlt rfl
  · intros; rfl
  · intro j hj; rw [nth_coords _ _ hj]

theorem valid_coords {s idx axs : List Nat} (h : Valid s idx) (hlt : ∀ a ∈ axs, a < s.length) :
    Valid (coords axs s) (coords axs idx) := by
  rw [valid_iff]
  refine ⟨by simp [coords], fun j hj => ?_⟩
  simp only [coords, List.length_map] at hj
  rw [nth_coords _ _ hj, nth_coords _ _ hj]
  exact h.lt (hlt _ (nth_mem _ _ hj))

theorem valid_place {s idx axs vs : List Nat} (h : Valid s idx) (hnd : axs.Nodup) (hlt : ∀ a ∈ axs, a < s.length)
    (hv : Valid (coords axs s) vs) : Valid s (place idx axs vs) := by
  have hl : vs.length = axs.length := by rw [hv.length]; simp [coords]
  rw [valid_iff]
  refine ⟨by rw [length_place, h.length], fun i hi => ?_⟩
  by_cases hm : i ∈ axs
  · obtain ⟨j, hj, rfl⟩ := exists_nth_of_mem hm
    rw [nth_place hnd hl (by rw [h.length]; exact hlt) hj, ← nth_coords _ _ hj]
    exact hv.lt (by simpa [coords])
  · rw [nth_place_of_not_mem _ _ _ hm]; exact h.lt hi

theorem SPerm.valid_pullIdx {d : Nat} {σ : SPerm} (hσ : σ.WF d) {s idx axs : List Nat} (h : Valid s idx)
    (hnd : axs.Nodup) (hd : axs.length = d) (hlt : ∀ a ∈ axs, a < s.length) (hc : σ.Compat (coords axs s)) :
    Valid s (σ.pullIdx axs (coords axs s) idx) :=
  valid_place h hnd hlt (SPerm.valid_pull hσ (by simp [coords, hd]) hc (valid_coords h hlt))

theorem SPerm.pullIdx_comp {d : Nat} {σ τ : SPerm} (hσ : σ.WF d) (hτ : τ.WF d) {s idx axs : List Nat} (h : Valid s idx)
    (hnd : axs.Nodup) (hd : axs.length = d) (hlt : ∀ a ∈ axs, a < s.length) (hcσ : σ.Compat (coords axs s))
    (hcτ : τ.Compat (coords axs s)) :
    σ.pullIdx axs (coords axs s) (τ.pullIdx axs (coords axs s) idx) = (σ.comp τ).pullIdx axs (coords axs s) idx := by
  have hlt' : ∀ a ∈ axs, a < idx.length := by rw [h.length]; exact hlt
  unfold SPerm.pullIdx
  rw [coords_place hnd (by rw [SPerm.length_pull, hτ.1, hd]) hlt',
    place_place hnd (by rw [SPerm.length_pull, hτ.1, hd]) (by rw [SPerm.length_pull, hσ.1, hd]) hlt',
    SPerm.pull_comp hσ hτ (by simp [coords, hd]) hcσ hcτ (valid_coords h hlt)]

/-! ### The symmetries of the groups of the library, in the order in which the library numbers its elements -/

def p4mEls : List SPerm :=
  [[(0, false), (1, false)], [(1, false), (0, true)], [(0, true), (1, true)], [(1, true), (0, false)],
   [(0, false), (1, true)], [(1, false), (0, false)], [(0, true), (1, false)], [(1, true), (0, true)]]

def p4Els : List SPerm := p4mEls.take 4
def p2mmEls : List SPerm :=
  [[(0, false), (1, false)], [(0, false), (1, true)], [(0, true), (1, false)], [(0, true), (1, true)]]
def pmhEls : List SPerm := [[(0, false), (1, false)], [(0, true), (1, false)]]
def pmwEls : List SPerm := [[(0, false), (1, false)], [(0, false), (1, true)]]
def p2Els : List SPerm := [[(0, false), (1, false)], [(0, true), (1, true)]]
def p1Els : List SPerm := [[(0, false), (1, false)]]

def ohEls : List SPerm :=
  [[0, 1, 2], [1, 2, 0], [2, 0, 1], [0, 2, 1], [2, 1, 0], [1, 0, 2]].flatMap fun p =>
    [[], [1, 2], [0, 2], [0, 1], [2], [1], [0], [0, 1, 2]].map fun f =>
      (List.range 3).map fun a => ((p : List Nat).idxOf a, (f : List Nat).contains a)

def selEls (els : List SPerm) (is : List Nat) : List SPerm := is.map fun i => els.getD i []

def oEls : List SPerm := selEls ohEls (List.range 4 ++ (List.range 4).map (· + 8) ++ (List.range 4).map (· + 16) ++
  (List.range 4).map (· + 28) ++ (List.range 4).map (· + 36) ++ (List.range 4).map (· + 44))
def d4hEls : List SPerm := selEls ohEls (List.range 8 ++ (List.range 8).map (· + 40))
def d4Els : List SPerm := selEls ohEls (List.range 4 ++ (List.range 4).map (· + 44))

end GroCo
