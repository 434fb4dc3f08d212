import Verif.GridAction

/- Helper: the same for the three-dimensional groups. -/

namespace GroCo
open Tensor

variable {α : Type}

theorem mapM_ok {β γ δ : Type} {f : β → Res γ} {R : γ → δ → Prop} {g : β → δ} {l : List β}
    (h : ∀ b ∈ l, ∃ y, f b = .ok y ∧ R y (g b)) : ∃ ys, l.mapM f = .ok ys ∧ List.Forall₂ R ys (l.map g) := by
  induction l with
  | nil => exact ⟨[], rfl, .nil⟩
  | cons b l ih =>
    obtain ⟨y, e, r⟩ := h b (by simp)
    obtain ⟨ys, es, rs⟩ := ih (fun b hb => h b (by simp [hb]))
    exact ⟨y :: ys, by rw [List.mapM_cons, e, res_bind_ok, es, res_bind_ok, res_pure], .cons r rs⟩

theorem mapM_eq_ok {β γ : Type} {f : β → Res γ} {g : β → γ} {l : List β}
    (h : ∀ b ∈ l, f b = .ok (g b)) : l.mapM f = .ok (l.map g) := by
  induction l with
  | nil => rfl
  | cons b l ih =>
    rw [List.mapM_cons, h b (by simp), res_bind_ok, ih (fun b hb => h b (by simp [hb])), res_bind_ok, res_pure]
    rfl

/-- mirror the axes `f + o`, `f ∈ fl` -/
def flips (o : Nat) (fl n idx : List Nat) : List Nat :=
  (List.range idx.length).map fun i => if o ≤ i ∧ i - o ∈ fl then nth n i - 1 - nth idx i else nth idx i

theorem length_flips (o : Nat) (fl n idx : List Nat) : (flips o fl n idx).length = idx.length := by simp [flips]

theorem nth_flips (o : Nat) (fl n idx : List Nat) {i : Nat} (hi : i < idx.length) :
    nth (flips o fl n idx) i = if o ≤ i ∧ i - o ∈ fl then nth n i - 1 - nth idx i else nth idx i := by
  rw [flips, nth_map_range, if_pos hi]

theorem foldlM_flips (o : Nat) (fl : List Nat) (x : Tensor α) (hnd : fl.Nodup) (hlt : ∀ f ∈ fl, f + o < x.rank) :
    ∃ y, fl.foldlM (fun y f => flip y ((f + o : Nat) : Int)) x = .ok y ∧ y.shape = x.shape ∧
      ∀ idx, Valid x.shape idx → y.get idx = x.get (flips o fl x.shape idx) := by
  induction fl generalizing x with
  | nil =>
    refine ⟨x, rfl, rfl, fun idx hi => ?_⟩
    congr 1
    apply ext_nth
    · rw [length_flips]
    · intro i hi; rw [nth_flips _ _ _ _ hi]; simp
  | cons f fl ih =>
    rw [List.foldlM_cons, flip_ok x (hlt f (by simp))]
    simp only [res_bind_ok]
    obtain ⟨y, e, hs, hg⟩ := ih ⟨x.shape, fun idx => x.get (idx.set (f + o) (nth x.shape (f + o) - 1 - nth idx (f + o)))⟩
      (List.nodup_cons.1 hnd).2 (fun g hg => hlt g (by simp [hg]))
    refine ⟨y, e, hs, fun idx hi => ?_⟩
    rw [hg idx hi]
    simp only
    congr 1
    have hl := hi.length
    have hf := hlt f (by simp)
    apply ext_nth
    · simp [length_flips]
    · intro i hi'
      simp only [List.length_set, length_flips] at hi'
      rw [nth_set, length_flips, nth_flips _ _ _ _ hi', nth_flips _ _ _ _ hi', nth_flips _ _ _ _ (by romega)]
      have hnf := (List.nodup_cons.1 hnd).1
      by_cases hif : i = f + o
      · subst hif
        rw [if_pos ⟨rfl, by romega⟩]
        simp [hnf]
      · rw [if_neg (by omega)]
        have : (o ≤ i ∧ i - o ∈ f :: fl) ↔ (o ≤ i ∧ i - o ∈ fl) := by
          simp only [List.mem_cons]
          constructor
          · rintro ⟨h1, h2 | h2⟩
            · omega
            · exact ⟨h1, h2⟩
          · rintro ⟨h1, h2⟩; exact ⟨h1, .inr h2⟩
        simp only [this]

/-- axis order of space_groups.py:15-18 -/
def ohPerm (o r : Nat) (p : List Nat) : List Nat := List.range o ++ p.map (· + o) ++ (List.range r).drop (o + 3)

theorem length_ohPerm {o r : Nat} {p : List Nat} (hp : p.length = 3) (ho : o + 3 ≤ r) : (ohPerm o r p).length = r := by
  simp [ohPerm, hp]; omega

theorem nth_ohPerm {o r : Nat} {p : List Nat} (hp : p.length = 3) (ho : o + 3 ≤ r) {i : Nat} (hi : i < r) :
    nth (ohPerm o r p) i = if i < o then i else if i < o + 3 then nth p (i - o) + o else i := by
  rw [ohPerm, nth_append, nth_append, nth_drop, nth_range, nth_range]
  simp only [List.length_append, List.length_range, List.length_map, hp]
  by_cases h1 : i < o
  · rw [if_pos (by omega), if_pos h1, if_pos h1, if_pos h1]
  · rw [if_neg h1, if_neg h1]
    by_cases h2 : i < o + 3
    · rw [if_pos h2, if_pos h2, nth_eq_getElem _ _ (by simp [hp]; omega), List.getElem_map,
        nth_eq_getElem p _ (by omega)]
    · rw [if_neg h2, if_neg h2, if_pos (by omega)]; omega

/-- permutation of {0,1,2} -/
def Perm3 (p : List Nat) : Prop := p.length = 3 ∧ p.Nodup ∧ ∀ j ∈ p, j < 3

instance (p : List Nat) : Decidable (Perm3 p) := by unfold Perm3; infer_instance

theorem Perm3.mem {p : List Nat} (h : Perm3 p) {j : Nat} (hj : j < 3) : j ∈ p := by
  obtain ⟨h1, h2, h3⟩ := h
  match p, h1 with
  | [a, b, c], _ =>
    simp at h2 h3 ⊢
    omega

theorem Perm3.idxOf_lt {p : List Nat} (h : Perm3 p) {j : Nat} (hj : j < 3) : p.idxOf j < 3 := by
  have := List.idxOf_lt_length_of_mem (h.mem hj)
  rw [h.1] at this; exact this

theorem Perm3.nth_idxOf {p : List Nat} (h : Perm3 p) {j : Nat} (hj : j < 3) : nth p (p.idxOf j) = j := by
  have hlt := List.idxOf_lt_length_of_mem (h.mem hj)
  rw [nth_eq_getElem _ _ hlt]
  exact List.getElem_idxOf hlt

theorem Perm3.inj {p : List Nat} (h : Perm3 p) {i j : Nat} (hi : i < 3) (hj : j < 3) (e : nth p i = nth p j) : i = j := by
  rw [nth_eq_getElem _ _ (by rw [h.1]; exact hi), nth_eq_getElem _ _ (by rw [h.1]; exact hj)] at e
  exact (h.2.1.getElem_inj_iff).1 e

theorem Perm3.lt {p : List Nat} (h : Perm3 p) {i : Nat} (hi : i < 3) : nth p i < 3 :=
  h.2.2 _ (nth_mem _ _ (by rw [h.1]; exact hi))

theorem idxOf_ohPerm {o r : Nat} {p : List Nat} (hp : Perm3 p) (ho : o + 3 ≤ r) {a : Nat} (ha : a < r) :
    (ohPerm o r p).idxOf a = if a < o then a else if a < o + 3 then p.idxOf (a - o) + o else a := by
  have hl := length_ohPerm (p := p) hp.1 ho
  have hb : (if a < o then a else if a < o + 3 then p.idxOf (a - o) + o else a) < r := by
    split
    · omega
    · split
      · have := hp.idxOf_lt (j := a - o) (by omega); omega
      · omega
  apply idxOf_eq_of_nth (by rw [hl]; exact hb)
  · rw [nth_ohPerm hp.1 ho hb]
    by_cases h1 : a < o
    · simp [h1]
    · by_cases h2 : a < o + 3
      · have h4 := hp.idxOf_lt (j := a - o) (by omega)
        rw [if_neg h1, if_pos h2, if_neg (by omega), if_pos (by omega)]
        have := hp.nth_idxOf (j := a - o) (by omega)
        simp only [Nat.add_sub_cancel]
        omega
      · simp [h1, h2]
  · intro j hj hja
    rw [hl] at hj
    rw [nth_ohPerm hp.1 ho hj] at hja
    by_cases h3 : j < o
    · rw [if_pos h3] at hja; subst hja; simp [h3]
    · rw [if_neg h3] at hja
      by_cases h4 : j < o + 3
      · rw [if_pos h4] at hja
        have h5 := hp.lt (i := j - o) (by omega)
        rw [if_neg (by omega), if_pos (by omega)]
        have h6 := hp.nth_idxOf (j := a - o) (by omega)
        have h7 := hp.idxOf_lt (j := a - o) (by omega)
        have := hp.inj (i := j - o) (j := p.idxOf (a - o)) (by omega) h7 (by omega)
        omega
      · rw [if_neg h4] at hja; subst hja; simp [h3, h4]

/-- the symmetry belonging to axis permutation `p` and mirrored axes `fl` -/
def ohEl (p fl : List Nat) : SPerm := (List.range 3).map fun a => (p.idxOf a, fl.contains a)

theorem stack_single {x z : Tensor α} {a : Nat} (ha : a ≤ x.rank) {g : List Nat → List Nat} (hs : z.shape = x.shape)
    (hg : ∀ idx, Valid x.shape idx → z.get idx = x.get (g idx)) :
    ∃ y, expandDims z a = .ok y ∧ Stack y a [g] x := by
  obtain ⟨y, e, s⟩ := stack_expand z (a := a) (by simp only [Tensor.rank, hs]; exact ha)
  refine ⟨y, e, by rw [s.1, hs]; rfl, fun idx hi => ?_⟩
  obtain ⟨h1, h2⟩ := valid_insert_erase (n := 1) (s := z.shape) (by rw [hs]; exact ha) (s.1 ▸ hi)
  rw [s.2 idx hi]
  have h0 : nth idx a = 0 := by omega
  simp only [h0, List.getD_cons_zero, id]
  exact hg _ (hs ▸ h1)

theorem Oh_act (x : Tensor α) {o a : Nat} (ho : o + 3 ≤ x.rank) (ha : a ≤ x.rank) (spatial : List Int)
    (hsp : spatial.head? = some (o : Int))
    (h1 : nth x.shape o = nth x.shape (o + 1)) (h2 : nth x.shape o = nth x.shape (o + 2)) :
    ∃ y, Oh_action x spatial a = .ok y ∧
      Stack y a (ohEls.map fun σ => σ.pullIdx [o, o + 1, o + 2] (coords [o, o + 1, o + 2] x.shape)) x := by
  have hpar : ∀ pf ∈ ohParameters, Perm3 pf.1 ∧ pf.2.Nodup ∧ ∀ f ∈ pf.2, f < 3 := by decide +kernel
  have key : ∀ pf ∈ ohParameters, ∃ y, (do
      let y ← pf.2.foldlM (fun y f => flip y ((f + o : Nat) : Int)) x
      let y ← transpose y (List.range o ++ pf.1.map (· + o) ++ (List.range x.rank).drop (o + 3))
      expandDims y a : Res (Tensor α)) = .ok y ∧
      Stack y a [(ohEl pf.1 pf.2).pullIdx [o, o + 1, o + 2] (coords [o, o + 1, o + 2] x.shape)] x := by
    rintro ⟨p, fl⟩ hm
    obtain ⟨hp, hnd, hlt⟩ := hpar _ hm
    simp only at hp hnd hlt ⊢
    obtain ⟨y, ey, hys, hyg⟩ := foldlM_flips o fl x hnd (fun f hf => by have := hlt f hf; romega)
    have hyr : y.rank = x.rank := by simp only [Tensor.rank, hys]
    have et := transpose_ok y (perm := ohPerm o x.rank p) (by rw [length_ohPerm hp.1 ho, hyr]) (by
      intro b hb
      rw [hyr] at hb
      have := idxOf_ohPerm hp ho hb
      rw [← List.idxOf_lt_length_iff, this, length_ohPerm hp.1 ho]
      split
      · omega
      · split
        · have := hp.idxOf_lt (j := b - o) (by omega); omega
        · omega)
    rw [ey, res_bind_ok, ← ohPerm, et, res_bind_ok]
    apply stack_single ha
    · simp only [hys]
      apply ext_nth
      · simp [length_ohPerm hp.1 ho]
      · intro i hi
        rw [List.length_map, length_ohPerm hp.1 ho] at hi
        rw [nth_eq_getElem _ _ (by simpa [length_ohPerm hp.1 ho] using hi), List.getElem_map,
          ← nth_eq_getElem _ _ (by simpa [length_ohPerm hp.1 ho] using hi), nth_ohPerm hp.1 ho hi]
        split
        · rfl
        · split
          · have h3 := hp.lt (i := i - o) (by omega)
            have e1 : i = o ∨ i = o + 1 ∨ i = o + 2 := by omega
            have e2 : nth p (i - o) = 0 ∨ nth p (i - o) = 1 ∨ nth p (i - o) = 2 := by omega
            have e3 : nth x.shape i = nth x.shape o := by rcases e1 with e | e | e <;> rw [e] <;> simp [h1, h2]; rw [← h1, h2]
            rw [e3]
            rcases e2 with e | e | e <;> rw [e]
            · simp
            · rw [h1]; congr 1; omega
            · rw [h2]; congr 1; omega
          · rfl
    · intro idx hi
      simp only
      have hl : idx.length = x.rank := hi.length
      set jdx := (List.range y.rank).map fun b => nth idx ((ohPerm o x.rank p).idxOf b) with hj
      have hjl : jdx.length = x.rank := by simp [hj, hyr]
      have hjn : ∀ b, b < x.rank → nth jdx b =
          nth idx (if b < o then b else if b < o + 3 then p.idxOf (b - o) + o else b) := by
        intro b hb
        rw [hj, nth_map_range, if_pos (by omega), idxOf_ohPerm hp ho hb]
      have hcube : ∀ i j, i < 3 → j < 3 → nth x.shape (o + i) = nth x.shape (o + j) := by
        intro i j hi' hj'
        have e1 : i = 0 ∨ i = 1 ∨ i = 2 := by omega
        have e2 : j = 0 ∨ j = 1 ∨ j = 2 := by omega
        rcases e1 with rfl | rfl | rfl <;> rcases e2 with rfl | rfl | rfl <;> (try simp only [Nat.add_zero]) <;> omega
      have hjv : Valid x.shape jdx := by
        rw [valid_iff]
        refine ⟨hjl, fun b hb => ?_⟩
        rw [hjn b hb]
        by_cases hb1 : b < o
        · rw [if_pos hb1]; exact hi.lt hb
        · rw [if_neg hb1]
          by_cases hb2 : b < o + 3
          · rw [if_pos hb2]
            have h5 := hp.idxOf_lt (j := b - o) (by omega)
            have h6 := hi.lt (i := p.idxOf (b - o) + o) (by romega)
            have h7 := hcube (p.idxOf (b - o)) (b - o) h5 (by omega)
            rw [Nat.add_comm o, show o + (b - o) = b by omega] at h7
            omega
          · rw [if_neg hb2]; exact hi.lt hb
      rw [hyg _ hjv]
      congr 1
      symm
      apply place_eq_of
      · simp
      · simp [SPerm.length_pull, ohEl]
      · intro b hb; simp at hb; romega
      · rw [length_flips, hjl, hl]
      · intro i hi' hm'
        simp at hm'
        rw [nth_flips _ _ _ _ (by omega), if_neg, hjn i (by omega)]
        · by_cases h3 : i < o
          · rw [if_pos h3]
          · rw [if_neg h3, if_neg (by omega)]
        · rintro ⟨h3, h4⟩
          have := hlt _ h4
          omega
      · intro j hj'
        have hj3 : j < 3 := by simpa using hj'
        have hax : ∀ k, k < 3 → nth [o, o + 1, o + 2] k = o + k := by
          intro k hk
          have e1 : k = 0 ∨ k = 1 ∨ k = 2 := by omega
          rcases e1 with rfl | rfl | rfl <;> simp
        rw [hax j hj3, nth_flips _ _ _ _ (by omega), hjn _ (by omega), if_neg (show ¬ o + j < o by omega),
          if_pos (show o + j < o + 3 by omega), SPerm.nth_pull _ _ _ (by simp [ohEl, hj3])]
        have es : (ohEl p fl).src j = p.idxOf j := by simp [ohEl, SPerm.src, hj3]
        have en : (ohEl p fl).neg j = fl.contains j := by simp [ohEl, SPerm.neg, hj3]
        have h5 := hp.idxOf_lt hj3
        rw [es, en, nth_coords _ _ (by simpa), nth_coords _ _ (by simpa using h5), hax j hj3, hax _ h5,
          show o + j - o = j by omega, Nat.add_comm (p.idxOf j)]
        simp
  obtain ⟨ys, e, hys⟩ := mapM_ok (R := fun u gs => Stack u a gs x)
    (g := fun pf : List Nat × List Nat =>
      [(ohEl pf.1 pf.2).pullIdx [o, o + 1, o + 2] (coords [o, o + 1, o + 2] x.shape)]) key
  have hne : ys ≠ [] := by
    have := hys.length_eq
    intro h
    rw [h] at this
    simp [ohParameters, ohPermutationTuples, ohFlipAxes] at this
  obtain ⟨z, ez, hz⟩ := stack_concatenate ha ys _ hys hne
  refine ⟨z, ?_, ?_⟩
  · match spatial, hsp with
    | s :: _, hs =>
      simp only [List.head?_cons, Option.some.injEq] at hs
      subst hs
      simp only [Oh_action, Int.natCast_nonneg, if_true, Int.toNat_natCast, res_bind_ok]
      erw [e]
      simpa using ez
  · have : (ohParameters.map fun pf => [(ohEl pf.1 pf.2).pullIdx [o, o + 1, o + 2] (coords [o, o + 1, o + 2] x.shape)]).flatten
        = ohEls.map fun σ => σ.pullIdx [o, o + 1, o + 2] (coords [o, o + 1, o + 2] x.shape) := by
      rfl
    rw [this] at hz
    exact hz

end GroCo
