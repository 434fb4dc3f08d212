import Verif.Derived

/-
Properties C09 and C10: groups derived from a parent, coset representatives.
`Group.init name order none none none none none (some P)` is the call `Group(name=name, order=order, parent=P)`.
`GoodGroup`, `SubgroupList`, `Tiles` and `slice` are in Verif/Spec.lean.
-/

namespace GroCo
open Tensor

/-- C09: a group derived from any parent `P` through the list `P.subgroup[name] = H` satisfies the group laws, is embedded
in the parent by `i ↦ H[i]`, lists exactly the subgroups of the parent inside of `H`, and acts by the slices at `H` of
the action of the parent. -/
theorem C09_derived_group (P : Group) (name : String) (H : List Nat) (hP : GoodGroup P.toGroupData)
    (hl : lookup P.subgroup name = .ok H) (hH : SubgroupList P.order P.comp H) :
    ∃ G, Group.init name H.length none none none none none (some P) = .ok G ∧
      G.name = name ∧ G.order = H.length ∧ GoodGroup G.toGroupData ∧
      (∀ i j, i < H.length → j < H.length → nth H (G.comp i j) = P.comp (nth H i) (nth H j)) ∧
      (∀ i, i < H.length → nth H (nth G.inverses i) = nth P.inverses (nth H i)) ∧
      (∀ s S, lookup G.subgroup s = .ok S ↔
        (∀ i ∈ S, i < H.length) ∧ lookup P.subgroup s = .ok (S.map (nth H))) ∧
      ∀ (α : Type) (x : Tensor α) (axs : List Int) (a : Nat) (y : Tensor α), P.act α x axs a = .ok y → a < y.rank →
        nth y.shape a = P.order →
        ∃ z, G.act α x axs a = .ok z ∧ z.shape = y.shape.set a H.length ∧
          ∀ i, i < H.length → (slice z a i).Same (slice y a (nth H i)) := by
  have hH' := hH
  obtain ⟨hnd, h0, hlt, hcl⟩ := hH
  obtain ⟨hz0, hz, hpos⟩ := head_nth h0
  have L := hP.laws
  refine ⟨⟨⟨name, H.length, derivedComp P.toGroupData H, derivedInv P.toGroupData H, derivedSub P.toGroupData H,
    derivedCos P.toGroupData H⟩, subgroupAction P name⟩, ?_, rfl, rfl, ?_, ?_, ?_, ?_, ?_⟩
  · simp only [Group.init, initData, Option.map_some, computeComposition_ok hP hl hH', computeInverses_ok hP hH',
      computeSubgroup_ok hl hnd, computeCosets_ok hl hnd, res_bind_ok, res_pure]
  · have hc : ∀ i j, i < H.length → j < H.length →
        nth ((derivedComp P.toGroupData H).getD i []) j = H.idxOf (P.comp (nth H i) (nth H j)) :=
      fun i j hi hj => derivedComp_eq hi hj
    have hcm : ∀ i j, i < H.length → j < H.length → P.comp (nth H i) (nth H j) ∈ H :=
      fun i j hi hj => hcl _ (nth_mem _ _ hi) _ (nth_mem _ _ hj)
    have hi : ∀ i, i < H.length → nth (derivedInv P.toGroupData H) i = H.idxOf (nth P.inverses (nth H i)) := by
      intro i hi
      rw [nth_eq_getElem _ _ (by simpa [derivedInv] using hi)]
      simp only [derivedInv, List.getElem_map]
      rw [nth_eq_getElem _ _ hi]
    have him : ∀ i, i < H.length → nth P.inverses (nth H i) ∈ H := fun i hi => sub_inv L hH' (nth_mem _ _ hi)
    have hid : H.idxOf 0 = 0 := by have := idxOf_nth hnd hpos; rwa [hz0] at this
    have hcl' : ∀ i j, i < H.length → j < H.length → H.idxOf (P.comp (nth H i) (nth H j)) < H.length :=
      fun i j hi hj => List.idxOf_lt_length_of_mem (hcm i j hi hj)
    have hil' : ∀ i, i < H.length → H.idxOf (nth P.inverses (nth H i)) < H.length :=
      fun i hi => List.idxOf_lt_length_of_mem (him i hi)
    have ho : ∀ i, i < H.length → nth H i < P.order := fun i hi => hlt _ (nth_mem _ _ hi)
    refine ⟨⟨hpos, ?_, ?_, ?_, ?_, ?_, ?_, ?_⟩, ⟨?_, ?_⟩, ?_, ?_, ?_⟩
    · intro a b ha hb
      simp only [GroupData.comp]; rw [hc a b ha hb]; exact hcl' a b ha hb
    · intro a ha
      simp only; rw [hi a ha]; exact hil' a ha
    · intro a b c ha hb hcc
      simp only [GroupData.comp]
      rw [hc a b ha hb, hc b c hb hcc, hc _ c (hcl' a b ha hb) hcc, hc a _ ha (hcl' b c hb hcc),
        nth_idxOf (hcm a b ha hb), nth_idxOf (hcm b c hb hcc), L.assoc _ _ _ (ho a ha) (ho b hb) (ho c hcc)]
    · intro a ha
      simp only [GroupData.comp]
      rw [hc 0 a hpos ha, hz0, L.one_mul _ (ho a ha), idxOf_nth hnd ha]
    · intro a ha
      simp only [GroupData.comp]
      rw [hc a 0 ha hpos, hz0, L.mul_one _ (ho a ha), idxOf_nth hnd ha]
    · intro a ha
      simp only [GroupData.comp]
      rw [hi a ha, hc _ a (hil' a ha) ha, nth_idxOf (him a ha), L.inv_mul _ (ho a ha), hid]
    · intro a ha
      simp only [GroupData.comp]
      rw [hi a ha, hc a _ ha (hil' a ha), nth_idxOf (him a ha), L.mul_inv _ (ho a ha), hid]
    · simp [derivedComp]
    · intro row hrow
      obtain ⟨r, _, rfl⟩ := List.mem_map.1 hrow
      simp
    · simp [derivedInv]
    · exact keys_sub hP.keys.1 _ _ (fun _ => rfl)
    · exact keys_sub hP.keys.2 _ _ (fun _ => rfl)
  · intro i j hi hj
    simp only [GroupData.comp]
    rw [derivedComp_eq hi hj, nth_idxOf (hcl _ (nth_mem _ _ hi) _ (nth_mem _ _ hj))]
    rfl
  · intro i hi
    have hi2 : nth (derivedInv P.toGroupData H) i = H.idxOf (nth P.inverses (nth H i)) := by
      rw [nth_eq_getElem _ _ (by simpa [derivedInv] using hi)]
      simp only [derivedInv, List.getElem_map]
      rw [nth_eq_getElem _ _ hi]
    simp only [hi2]
    rw [nth_idxOf (sub_inv L hH' (nth_mem _ _ hi))]
  · intro s S
    have hk : ((derivedSub P.toGroupData H).map Prod.fst).Nodup := keys_sub hP.keys.1 _ _ (fun _ => rfl)
    simp only
    rw [lookup_iff hk, lookup_iff hP.keys.1]
    unfold derivedSub
    constructor
    · intro hm
      obtain ⟨e, he, hee⟩ := List.mem_map.1 hm
      obtain ⟨he1, he2⟩ := List.mem_filter.1 he
      have he2' : ∀ i ∈ e.2, i ∈ H := by simpa using he2
      cases hee
      rw [map_idxOf_nth he2']
      refine ⟨?_, he1⟩
      intro i hi
      obtain ⟨j, hj, rfl⟩ := List.mem_map.1 hi
      exact List.idxOf_lt_length_of_mem (he2' j hj)
    · rintro ⟨hS, hm⟩
      refine List.mem_map.2 ⟨(s, S.map (nth H)), List.mem_filter.2 ⟨hm, ?_⟩, ?_⟩
      · simp only [List.all_eq_true, List.mem_map, List.contains_eq_mem, decide_eq_true_eq]
        rintro _ ⟨i, hi, rfl⟩
        exact nth_mem _ _ (hS i hi)
      · simp only [List.map_map, Prod.mk.injEq, true_and]
        conv_rhs => rw [← List.map_id S]
        apply List.map_congr_left
        intro i hi
        exact idxOf_nth hnd (hS i hi)
  · intro α x axs a y ey ha hy
    refine ⟨_, by simp only [subgroupAction, ey, hl, res_bind_ok]; exact take_ok y ha (by rw [hy]; exact hlt), rfl, ?_⟩
    intro i hi
    refine ⟨eraseIdx_set_self _ _ _, fun idx hv => ?_⟩
    simp only [slice, eraseIdx_set_self] at hv ⊢
    have hl2 : idx.length = y.rank - 1 := by rw [hv.length, length_eraseIdx_of_lt ha]
    congr 1
    rw [insertIdx_set_self, nth_insertIdx _ _ _ _ (by omega), if_neg (by omega), if_pos rfl]

/-- C10: coset representatives of a derived group tile it whenever those of the parent tile the parent. -/
theorem C10_derived_cosets (P : Group) (name : String) (H : List Nat) (hP : GoodGroup P.toGroupData)
    (hl : lookup P.subgroup name = .ok H) (hH : SubgroupList P.order P.comp H)
    (hsub : ∀ s S, lookup P.subgroup s = .ok S → SubgroupList P.order P.comp S)
    (htile : ∀ s S C, lookup P.subgroup s = .ok S → lookup P.cosets s = .ok C → Tiles P.order P.comp S C)
    (G : Group) (hG : Group.init name H.length none none none none none (some P) = .ok G) :
    ∀ s S C, lookup G.subgroup s = .ok S → lookup G.cosets s = .ok C →
      Tiles G.order G.comp S C ∧ ∃ S' C', lookup P.subgroup s = .ok S' ∧ lookup P.cosets s = .ok C' ∧
        S' = S.map (nth H) ∧ C.map (nth H) = C'.filter (· ∈ H) := by
  obtain ⟨G', e, -, ho, hgood, hcomp, -, hlook, -⟩ := C09_derived_group P name H hP hl hH
  rw [hG] at e
  cases e
  have hH' := hH
  obtain ⟨hnd, h0, hlt, hcl⟩ := hH
  have hcos : G.cosets = derivedCos P.toGroupData H := by
    simp only [Group.init, initData, Option.map_some, computeComposition_ok hP hl hH', computeInverses_ok hP hH',
      computeSubgroup_ok hl hnd, computeCosets_ok hl hnd, res_bind_ok, res_pure] at hG
    cases hG
    rfl
  intro s S C hS hC
  obtain ⟨hSlt, hS'⟩ := (hlook s S).1 hS
  have hm := lookup_mem hC
  rw [hcos] at hm
  obtain ⟨e, he, hee⟩ := List.mem_map.1 hm
  obtain ⟨he1, -⟩ := List.mem_filter.1 he
  cases hee
  have hC' := (lookup_iff hP.keys.2 (k := e.1) (v := e.2)).2 he1
  have hcm : ∀ i ∈ e.2.filter (fun i => H.contains i), i ∈ H := by
    intro i hi; simpa using (List.mem_filter.1 hi).2
  obtain ⟨hCn, hClt, hcov, huniq⟩ := htile _ _ _ hS' hC'
  have hSs := hsub _ _ hS'
  have L := hP.laws
  have hfm : ∀ c ∈ (e.2.filter (fun i => H.contains i)).map H.idxOf, c < H.length ∧ nth H c ∈ e.2 := by
    intro c hc
    obtain ⟨i, hi, rfl⟩ := List.mem_map.1 hc
    exact ⟨List.idxOf_lt_length_of_mem (hcm i hi), by rw [nth_idxOf (hcm i hi)]; exact (List.mem_filter.1 hi).1⟩
  refine ⟨⟨?_, ?_, ?_, ?_⟩, _, _, hS', hC', rfl, ?_⟩
  · apply List.Nodup.map_on _ (hCn.filter _)
    intro x hx y hy h
    rw [← nth_idxOf (hcm x hx), h, nth_idxOf (hcm y hy)]
  · intro c hc
    rw [ho]; exact (hfm c hc).1
  · intro g hg
    rw [ho] at hg
    obtain ⟨h, hh, c, hc, hhc⟩ := hcov (nth H g) (hlt _ (nth_mem _ _ hg))
    obtain ⟨i, hi, rfl⟩ := List.mem_map.1 hh
    have hil := hSlt i hi
    have hio := hlt _ (nth_mem _ _ hil)
    have hco := hClt c hc
    have hgo := hlt _ (nth_mem _ _ hg)
    have hcH : c ∈ H := by
      have := hcl _ (sub_inv L hH' (nth_mem _ _ hil)) _ (nth_mem _ _ hg)
      rw [← hhc, ← L.assoc _ _ _ (L.inv_closed _ hio) hio hco, L.inv_mul _ hio, L.one_mul _ hco] at this
      exact this
    have hcl2 := List.idxOf_lt_length_of_mem hcH
    refine ⟨i, hi, H.idxOf c, List.mem_map.2 ⟨c, List.mem_filter.2 ⟨hc, by simpa using hcH⟩, rfl⟩, ?_⟩
    have hgc := hgood.laws.closed i (H.idxOf c) (by rw [ho]; exact hil) (by rw [ho]; exact hcl2)
    rw [ho] at hgc
    apply nth_inj_of_nodup hnd hgc hg
    rw [hcomp i _ hil hcl2, nth_idxOf hcH, hhc]
  · intro h hh h' hh' c hc c' hc' heq
    have hhl := hSlt h hh
    have hhl' := hSlt h' hh'
    obtain ⟨hcl1, hce⟩ := hfm c hc
    obtain ⟨hcl1', hce'⟩ := hfm c' hc'
    have e2 := congrArg (nth H) heq
    rw [hcomp _ _ hhl hcl1, hcomp _ _ hhl' hcl1'] at e2
    obtain ⟨e3, e4⟩ := huniq _ (List.mem_map.2 ⟨h, hh, rfl⟩) _ (List.mem_map.2 ⟨h', hh', rfl⟩) _ hce _ hce' e2
    exact ⟨nth_inj_of_nodup hnd hhl hhl' e3, nth_inj_of_nodup hnd hcl1 hcl1' e4⟩
  · rw [map_idxOf_nth hcm]
    congr 1
    funext i
    simp

/-- Every group of the library is a good parent: C09 and C10 apply to all of them. -/
theorem C09_all_groups (n : GroupName) : GoodGroup n.group.toGroupData ∧
    ∀ s H, lookup n.group.subgroup s = .ok H → SubgroupList n.group.order n.group.comp H := by
  have T := n.sym.tab
  refine ⟨⟨T.laws, ⟨T.compLen, T.rowLen⟩, T.invLen, T.subNames, by rw [T.cosNames]; exact T.subNames⟩, ?_⟩
  intro s H h
  have := T.subs _ (lookup_mem h)
  exact ⟨this.2.1, this.2.2.1, this.2.2.2.1, this.2.2.2.2.1⟩

/-- C10: the cosets of every listed subgroup of every group of the library are listed and tile the group. -/
theorem C10_cosets (n : GroupName) (s : String) (H : List Nat) (h : lookup n.group.subgroup s = .ok H) :
    ∃ C, lookup n.group.cosets s = .ok C ∧ Tiles n.group.order n.group.comp H C := by
  have T := n.sym.tab
  have hk : s ∈ n.group.cosets.map Prod.fst := by
    rw [T.cosNames]; exact List.mem_map.2 ⟨_, lookup_mem h, rfl⟩
  obtain ⟨e, he, rfl⟩ := List.mem_map.1 hk
  refine ⟨e.2, (lookup_iff (by rw [T.cosNames]; exact T.subNames)).2 he, ?_⟩
  obtain ⟨h1, h2, h3, h4⟩ := T.cosets e he H h
  have hnd := h4.nodup_iff.2 List.nodup_range
  refine ⟨h1, h3, ?_, ?_⟩
  · intro g hg
    have := h4.mem_iff.2 (List.mem_range.2 hg)
    simpa using this
  · intro a ha b hb c hc d hd heq
    rw [List.nodup_flatMap] at hnd
    have hab : a = b := by
      by_contra hne
      haveI : Std.Symm (Function.onFun List.Disjoint fun h => List.map (fun c => n.group.comp h c) e.2) :=
        ⟨fun x y h => List.Disjoint.symm h⟩
      have hdis := hnd.2.forall ha hb hne
      exact hdis (List.mem_map.2 ⟨c, hc, rfl⟩) (List.mem_map.2 ⟨d, hd, heq.symm⟩)
    subst hab
    refine ⟨rfl, ?_⟩
    exact List.inj_on_of_nodup_map (hnd.1 a ha) hc hd heq

/-- the hypotheses are met by a non-trivial case: P4M derived from itself through the list of P4 -/
example : GoodGroup P4M.toGroupData ∧ SubgroupList P4M.order P4M.comp [0, 1, 2, 3] ∧
    lookup P4M.subgroup "P4" = .ok [0, 1, 2, 3] ∧ Tiles P4M.order P4M.comp [0, 1, 2, 3] [0, 4] :=
  ⟨(C09_all_groups .P4M).1, (C09_all_groups .P4M).2 "P4" _ (by decide), by decide, by decide, by decide, by decide,
    by decide⟩

/-- a derived group whose numbering differs from its parent's: O in Oh -/
example : ∃ H, lookup Oh.subgroup "O" = .ok H ∧ H.length = 24 ∧ H ≠ List.range 24 := ⟨_, rfl, by decide +kernel, by decide +kernel⟩

end GroCo
