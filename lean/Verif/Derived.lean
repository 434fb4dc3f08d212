import Verif.ActionLemmas

/-
Helper: groups derived from a parent group (group.py:165-248), for an arbitrary parent.
-/

namespace GroCo
open Tensor

variable {α : Type}

theorem e2i_find {H : List Nat} (hnd : H.Nodup) {e : Nat} (he : e ∈ H) :
    ((H.zip (List.range H.length)).reverse).find? (fun p => p.1 == e) = some (e, H.idxOf e) := by
  have hmem : (e, H.idxOf e) ∈ (H.zip (List.range H.length)).reverse := by
    rw [List.mem_reverse, List.mem_iff_getElem]
    have hlt := List.idxOf_lt_length_of_mem he
    refine ⟨H.idxOf e, by simpa using hlt, ?_⟩
    rw [List.getElem_zip, List.getElem_range, List.getElem_idxOf]
  cases h : ((H.zip (List.range H.length)).reverse).find? (fun p => p.1 == e) with
  | none =>
    have := List.find?_eq_none.1 h _ hmem
    simp at this
  | some p =>
    have h1 := List.find?_some h
    have h2 := List.mem_of_find?_eq_some h
    simp only [beq_iff_eq] at h1
    rw [List.mem_reverse, List.mem_iff_getElem] at h2
    obtain ⟨i, hi, hp⟩ := h2
    rw [List.getElem_zip, List.getElem_range] at hp
    have hi' : i < H.length := by simp at hi; exact hi
    subst hp
    simp only at h1
    congr 2
    rw [← h1]
    exact (hnd.idxOf_getElem i hi').symm

theorem externalToInternal_ok {H : List Nat} (hnd : H.Nodup) {es : List Nat} (h : ∀ e ∈ es, e ∈ H) :
    externalToInternal H H.length es = .ok (es.map H.idxOf) := by
  unfold externalToInternal
  apply mapM_eq_ok
  intro e he
  rw [e2i_find hnd (h e he)]

theorem nth_idxOf {H : List Nat} {e : Nat} (h : e ∈ H) : nth H (H.idxOf e) = e := by
  have := List.idxOf_lt_length_of_mem h
  rw [nth_eq_getElem _ _ this]; exact List.getElem_idxOf this

theorem idxOf_nth {H : List Nat} (hnd : H.Nodup) {i : Nat} (h : i < H.length) : H.idxOf (nth H i) = i := by
  rw [nth_eq_getElem _ _ h]; exact hnd.idxOf_getElem i h

theorem nth_inj_of_nodup {H : List Nat} (hnd : H.Nodup) {i j : Nat} (hi : i < H.length) (hj : j < H.length)
    (h : nth H i = nth H j) : i = j := by
  rw [← idxOf_nth hnd hi, h, idxOf_nth hnd hj]

/-- The table of the derived group: entry (i, j) is the position of H[i] * H[j] in H. -/
def derivedComp (P : GroupData) (H : List Nat) : List (List Nat) :=
  H.map fun r => H.map fun c => H.idxOf (P.comp r c)

theorem getD_lt {β : Type} {l : List β} {i : Nat} {d : β} (h : i < l.length) : l[i] = l.getD i d := by simp [h]

theorem computeComposition_ok {P : GroupData} {name : String} {H : List Nat} (hP : GoodGroup P)
    (hl : lookup P.subgroup name = .ok H) (hH : SubgroupList P.order P.comp H) :
    computeComposition name H.length none (some P) = .ok (derivedComp P H) := by
  obtain ⟨hnd, h0, hlt, hcl⟩ := hH
  simp only [computeComposition, hl, res_bind_ok]
  have e1 : H.mapM (getIdx P.composition) = .ok (H.map fun r => P.composition.getD r []) := by
    apply mapM_eq_ok
    intro r hr
    have : r < P.composition.length := by rw [hP.square.1]; exact hlt r hr
    rw [getIdx_ok _ this, getD_lt this]
  have e2 : (H.map fun r => P.composition.getD r []).mapM (fun row => H.mapM (getIdx row)) =
      .ok ((H.map fun r => P.composition.getD r []).map fun row => H.map fun c => nth row c) := by
    apply mapM_eq_ok
    intro row hrow
    apply mapM_eq_ok
    intro c hc
    obtain ⟨r, hr, rfl⟩ := List.mem_map.1 hrow
    have hrl : r < P.composition.length := by rw [hP.square.1]; exact hlt r hr
    apply getIdx_nat
    rw [hP.square.2 _ (getD_mem hrl)]
    exact hlt c hc
  rw [e1, res_bind_ok, e2, res_bind_ok]
  have e3 : (List.range H.length).mapM (fun r => do
      let row ← getIdx (((H.map fun r => P.composition.getD r []).map fun row => H.map fun c => nth row c)) r
      externalToInternal H H.length row) =
      .ok ((List.range H.length).map fun i => (H.map fun c => P.comp (nth H i) c).map H.idxOf) := by
    apply mapM_eq_ok
    intro i hi
    have hi' : i < H.length := List.mem_range.1 hi
    rw [getIdx_ok _ (by simpa using hi'), res_bind_ok]
    simp only [List.getElem_map]
    rw [← nth_eq_getElem _ _ hi']
    rw [externalToInternal_ok hnd]
    · rfl
    · intro e he
      obtain ⟨c, hc, rfl⟩ := List.mem_map.1 he
      exact hcl _ (nth_mem _ _ hi') _ hc
  rw [e3, derivedComp]
  congr 1
  apply List.ext_getElem
  · simp
  · intro i h1 h2
    have hi : i < H.length := by simpa using h1
    simp only [List.getElem_map, List.getElem_range, List.map_map]
    rw [nth_eq_getElem _ _ hi]
    rfl

theorem derivedComp_eq {P : GroupData} {H : List Nat} {i j : Nat} (hi : i < H.length) (hj : j < H.length) :
    nth ((derivedComp P H).getD i []) j = H.idxOf (P.comp (nth H i) (nth H j)) := by
  unfold derivedComp
  rw [← getD_lt (by simpa using hi), List.getElem_map, nth_eq_getElem _ _ (by simpa using hj), List.getElem_map,
    ← nth_eq_getElem _ _ hi, ← nth_eq_getElem _ _ hj]

/-- A closed subset of a finite group contains inverses. -/
theorem sub_inv {order : Nat} {mul : Nat → Nat → Nat} {inv : Nat → Nat} (L : GroupLaws order mul inv) {H : List Nat}
    (hH : SubgroupList order mul H) {h : Nat} (hh : h ∈ H) : inv h ∈ H := by
  obtain ⟨hnd, h0, hlt, hcl⟩ := hH
  have hz : 0 ∈ H := by
    cases H with
    | nil => simp at h0
    | cons a l => simp at h0; simp [h0]
  have hho := hlt h hh
  have hih := L.inv_closed h hho
  have hinj : (H.map (mul h)).Nodup := by
    apply List.Nodup.map_on _ hnd
    intro x hx y hy e
    have e2 := congrArg (mul (inv h)) e
    rwa [← L.assoc _ _ _ hih hho (hlt x hx), ← L.assoc _ _ _ hih hho (hlt y hy), L.inv_mul h hho,
      L.one_mul _ (hlt x hx), L.one_mul _ (hlt y hy)] at e2
  have hp : (H.map (mul h)).Perm H := by
    apply List.Subperm.perm_of_length_le
    · apply List.subperm_of_subset hinj
      intro x hx
      obtain ⟨y, hy, rfl⟩ := List.mem_map.1 hx
      exact hcl h hh y hy
    · simp
  obtain ⟨c, hc, e⟩ := List.mem_map.1 (hp.mem_iff.2 hz)
  have : inv h = c := by
    have e2 := congrArg (mul (inv h)) e
    rw [← L.assoc _ _ _ hih hho (hlt c hc), L.inv_mul h hho, L.one_mul _ (hlt c hc), L.mul_one _ hih] at e2
    exact e2.symm
  rw [this]; exact hc

theorem inv_unique {order : Nat} {mul : Nat → Nat → Nat} {inv : Nat → Nat} (L : GroupLaws order mul inv) {a b : Nat}
    (ha : a < order) (hb : b < order) (h : mul a b = 0) : b = inv a := by
  have hi := L.inv_closed a ha
  have e2 := congrArg (mul (inv a)) h
  rwa [← L.assoc _ _ _ hi ha hb, L.inv_mul a ha, L.one_mul _ hb, L.mul_one _ hi] at e2

theorem head_nth {H : List Nat} (h0 : H.head? = some 0) : nth H 0 = 0 ∧ 0 ∈ H ∧ 0 < H.length := by
  cases H with
  | nil => simp at h0
  | cons a l => simp at h0; simp [h0]

def derivedInv (P : GroupData) (H : List Nat) : List Nat := H.map fun h => H.idxOf (nth P.inverses h)

theorem computeInverses_ok {P : GroupData} {H : List Nat} (hP : GoodGroup P) (hH : SubgroupList P.order P.comp H) :
    computeInverses H.length (derivedComp P H) none = .ok (derivedInv P H) := by
  have hH' := hH
  obtain ⟨hnd, h0, hlt, hcl⟩ := hH
  obtain ⟨hz0, hz, hpos⟩ := head_nth h0
  simp only [computeInverses]
  have e : (List.range H.length).map (fun i => H.idxOf (nth P.inverses (nth H i))) = derivedInv P H := by
    apply List.ext_getElem
    · simp [derivedInv]
    · intro i h1 h2
      have hi : i < H.length := by simpa using h1
      simp only [derivedInv, List.getElem_map, List.getElem_range]
      rw [nth_eq_getElem _ _ hi]
  rw [← e]
  apply mapM_eq_ok
  intro i hi
  have hi' : i < H.length := List.mem_range.1 hi
  have hm := nth_mem _ _ hi'
  have hmo := hlt _ hm
  rw [getIdx_ok _ (by simpa [derivedComp] using hi'), res_bind_ok]
  have hrow : (derivedComp P H)[i]'(by simpa [derivedComp] using hi') = H.map fun c => H.idxOf (P.comp (nth H i) c) := by
    simp only [derivedComp, List.getElem_map]
    rw [nth_eq_getElem _ _ hi']
  rw [hrow]
  have e2 : (List.range H.length).mapM (fun c => do
      let v ← getIdx (H.map fun c => H.idxOf (P.comp (nth H i) c)) c
      return (c, v)) = .ok ((List.range H.length).map fun c => (c, H.idxOf (P.comp (nth H i) (nth H c)))) := by
    apply mapM_eq_ok
    intro c hc
    have hc' : c < H.length := List.mem_range.1 hc
    rw [getIdx_ok _ (by simpa using hc'), res_bind_ok, res_pure]
    simp only [List.getElem_map]
    rw [nth_eq_getElem _ _ hc']
  rw [e2, res_bind_ok]
  have hii := sub_inv hP.laws hH' hm
  have hidx := List.idxOf_lt_length_of_mem hii
  cases hf : ((List.range H.length).map fun c => (c, H.idxOf (P.comp (nth H i) (nth H c)))).find?
      (fun e => e.2 == 0) with
  | none =>
    have := List.find?_eq_none.1 hf (H.idxOf (nth P.inverses (nth H i)), H.idxOf (P.comp (nth H i) (nth H (H.idxOf (nth P.inverses (nth H i))))))
      (List.mem_map.2 ⟨_, List.mem_range.2 hidx, rfl⟩)
    rw [nth_idxOf hii, hP.laws.mul_inv _ hmo] at this
    have h00 : H.idxOf 0 = 0 := by
      have := idxOf_nth hnd hpos
      rwa [hz0] at this
    rw [h00] at this
    simp at this
  | some e =>
    have h1 := List.find?_some hf
    have h2 := List.mem_of_find?_eq_some hf
    obtain ⟨c, hc, rfl⟩ := List.mem_map.1 h2
    have hc' : c < H.length := List.mem_range.1 hc
    simp only [beq_iff_eq] at h1
    simp only
    congr 1
    have hmc := nth_mem _ _ hc'
    have hcm := hcl _ hm _ hmc
    have h3 := nth_idxOf hcm
    rw [h1, hz0] at h3
    have := inv_unique hP.laws hmo (hlt _ hmc) h3.symm
    rw [← this, idxOf_nth hnd hc']

def derivedSub (P : GroupData) (H : List Nat) : List (String × List Nat) :=
  (P.subgroup.filter (fun e => e.2.all (fun i => H.contains i))).map fun e => (e.1, e.2.map H.idxOf)

def derivedCos (P : GroupData) (H : List Nat) : List (String × List Nat) :=
  (P.cosets.filter (fun e => ((derivedSub P H).map Prod.fst).contains e.1)).map fun e =>
    (e.1, (e.2.filter (fun i => H.contains i)).map H.idxOf)

theorem computeSubgroup_ok {P : GroupData} {name : String} {H : List Nat} (hl : lookup P.subgroup name = .ok H)
    (hnd : H.Nodup) :
    computeSubgroup name H.length none (some P) =
      .ok (derivedSub P H) := by
  simp only [computeSubgroup, hl, res_bind_ok]
  apply mapM_eq_ok
  intro e he
  have := (List.mem_filter.1 he).2
  rw [externalToInternal_ok hnd (by simpa using this)]
  rfl

theorem computeCosets_ok {P : GroupData} {name : String} {H : List Nat} (hl : lookup P.subgroup name = .ok H)
    (hnd : H.Nodup) :
    computeCosets name H.length none (derivedSub P H) (some P) = .ok (derivedCos P H) := by
  simp only [computeCosets, hl, res_bind_ok]
  apply mapM_eq_ok
  intro e he
  rw [externalToInternal_ok hnd]
  · rfl
  · intro i hi
    simpa using (List.mem_filter.1 hi).2

theorem lookup_iff {β : Type} {d : List (String × β)} (h : (d.map Prod.fst).Nodup) {k : String} {v : β} :
    lookup d k = .ok v ↔ (k, v) ∈ d := by
  refine ⟨lookup_mem, fun hm => ?_⟩
  unfold lookup
  cases hf : d.find? (fun e => e.1 == k) with
  | none => simpa using List.find?_eq_none.1 hf _ hm
  | some e =>
    have h1 := List.find?_some hf
    have h2 := List.mem_of_find?_eq_some hf
    simp only [beq_iff_eq] at h1
    have := List.inj_on_of_nodup_map h h2 hm h1
    rw [this]

theorem keys_sub {β : Type} {d : List (String × β)} (h : (d.map Prod.fst).Nodup) (p : String × β → Bool)
    (f : String × β → String × β) (hf : ∀ e, (f e).1 = e.1) : (((d.filter p).map f).map Prod.fst).Nodup := by
  rw [List.map_map]
  have : (Prod.fst ∘ f : String × β → String) = Prod.fst := by funext e; exact hf e
  rw [this]
  exact h.sublist (List.Sublist.map _ List.filter_sublist)

theorem map_idxOf_nth {H S : List Nat} (h : ∀ i ∈ S, i ∈ H) : (S.map H.idxOf).map (nth H) = S := by
  rw [List.map_map]
  conv_rhs => rw [← List.map_id S]
  apply List.map_congr_left
  intro i hi
  exact nth_idxOf (h i hi)

end GroCo
