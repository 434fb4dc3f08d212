import Verif.Sym

/- Helper lemmas for the properties of groups and their action on the grid. -/

namespace GroCo
open Tensor

variable {α : Type}

namespace SPerm

theorem comp_assoc {d : Nat} {σ τ ρ : SPerm} (hσ : σ.WF d) (hτ : τ.WF d) :
    (σ.comp τ).comp ρ = σ.comp (τ.comp ρ) := by
  apply List.ext_getElem
  · simp [comp]
  · intro i h1 h2
    simp only [comp, List.length_map] at h1
    have h3 : σ[i].1 < τ.length := by rw [hτ.1]; exact hσ.2.2 _ (List.getElem_mem h1)
    simp [comp, src, neg, List.getElem?_eq_getElem h3, Bool.xor_assoc]

theorem one_comp {d : Nat} {σ : SPerm} (h : σ.WF d) : (one d).comp σ = σ := by
  apply List.ext_getElem
  · simp [comp, one, h.1]
  · intro i h1 h2
    simp [comp, one, src, neg, h2]

theorem comp_one {d : Nat} {σ : SPerm} (h : σ.WF d) : σ.comp (one d) = σ := by
  apply List.ext_getElem
  · simp [comp]
  · intro i h1 h2
    have h3 : σ[i].1 < d := h.2.2 _ (List.getElem_mem h2)
    simp [comp, one, src, neg, h3]

end SPerm

theorem getD_mem {β : Type} {l : List β} {i : Nat} {b : β} (h : i < l.length) : l.getD i b ∈ l := by
  simp [List.getElem?_eq_getElem h]

namespace Tables

variable {G : GroupData} {d : Nat} {els : List SPerm}

theorem wfi (T : Tables G d els) {i : Nat} (h : i < G.order) : (els.getD i []).WF d :=
  T.wf _ (getD_mem (by rw [T.len]; exact h))

theorem inj (T : Tables G d els) {i j : Nat} (hi : i < G.order) (hj : j < G.order)
    (h : els.getD i [] = els.getD j []) : i = j := by
  have hi' : i < els.length := by rw [T.len]; exact hi
  have hj' : j < els.length := by rw [T.len]; exact hj
  simp only [List.getD_eq_getElem?_getD, List.getElem?_eq_getElem hi', List.getElem?_eq_getElem hj',
    Option.getD_some] at h
  exact (T.nodup.getElem_inj_iff).1 h

theorem laws (T : Tables G d els) : GroupLaws G.order G.comp (nth G.inverses) where
  pos := T.pos
  closed := fun a b ha hb => (T.comp a ha b hb).1
  inv_closed := fun a ha => (T.inv a ha).1
  assoc := by
    intro a b c ha hb hc
    have hab := T.comp a ha b hb
    have hbc := T.comp b hb c hc
    apply T.inj (T.comp _ hab.1 c hc).1 (T.comp a ha _ hbc.1).1
    rw [(T.comp _ hab.1 c hc).2, (T.comp a ha _ hbc.1).2, hab.2, hbc.2]
    rw [SPerm.comp_assoc (T.wfi hc) (T.wfi hb)]
  one_mul := by
    intro a ha
    apply T.inj (T.comp 0 T.pos a ha).1 ha
    rw [(T.comp 0 T.pos a ha).2, T.one, SPerm.comp_one (T.wfi ha)]
  mul_one := by
    intro a ha
    apply T.inj (T.comp a ha 0 T.pos).1 ha
    rw [(T.comp a ha 0 T.pos).2, T.one, SPerm.one_comp (T.wfi ha)]
  inv_mul := fun a ha => (T.inv a ha).2.2
  mul_inv := fun a ha => (T.inv a ha).2.1

end Tables

/-! ### acting on the grid -/

theorem parse_nonempty (G : GroupData) {s : String} (h : s ≠ "") : G.parseSubgroup (some s) = some s := by
  unfold GroupData.parseSubgroup
  split <;> simp_all

theorem Tables.parse {G : GroupData} {d : Nat} {els : List SPerm} (T : Tables G d els) {s : String} {H : List Nat}
    (h : lookup G.subgroup s = .ok H) : G.parseSubgroup (some s) = some s ∧ s ≠ "" := by
  have h1 := (T.subs _ (lookup_mem h)).1
  exact ⟨parse_nonempty G h1, h1⟩

/-- the re-indexing done by element `i` -/
def elPull (els : List SPerm) (axs n : List Nat) (i : Nat) (idx : List Nat) : List Nat :=
  (els.getD i []).pullIdx axs n idx

variable {G : Group} {d : Nat} {els : List SPerm} {ok : List Nat → Prop}

theorem Sym.actionOnGrid (S : Sym G d els ok) (x : Tensor α) {axs : List Nat} {a : Nat} (hax : AxesOk d x.rank axs)
    (hok : ok (coords axs x.shape)) (ha : a ≤ x.rank) {s : String} {H : List Nat}
    (hs : lookup G.subgroup s = .ok H) :
    ∃ y, G.actionOnGrid x a (axs.map Int.ofNat) (some s) = .ok y ∧
      Stack y a (H.map fun i => elPull els axs (coords axs x.shape) i) x := by
  obtain ⟨y, ey, sy⟩ := S.act α x axs a hax hok ha
  have hlt := (S.tab.subs _ (lookup_mem hs)).2.2.2.1
  obtain ⟨z, ez, sz⟩ := stack_take sy ha (is := H) (by
    intro i hi; simp only [List.length_map, S.tab.len]; exact hlt i hi)
  refine ⟨z, ?_, ?_⟩
  · simp only [Group.actionOnGrid, ey, res_bind_ok, GroupData.sub, hs, ez]
  · have : (H.map fun i => (els.map fun σ : SPerm => σ.pullIdx axs (coords axs x.shape)).getD i id) =
        H.map fun i => elPull els axs (coords axs x.shape) i := by
      apply List.map_congr_left
      intro i hi
      have : i < els.length := by rw [S.tab.len]; exact hlt i hi
      funext idx
      simp [elPull, List.getElem?_eq_getElem this]
    rw [this] at sz
    exact sz

theorem Sym.action_grid [Zero α] (S : Sym G d els ok) (x : Tensor α) {axs : List Nat} {a : Nat} (hax : AxesOk d x.rank axs)
    (hok : ok (coords axs x.shape)) (ha : a ≤ x.rank) {s : String} {H : List Nat}
    (hs : lookup G.subgroup s = .ok H) :
    ∃ y, G.action x (axs.map Int.ofNat) a none (some s) none = .ok y ∧
      Stack y a (H.map fun i => elPull els axs (coords axs x.shape) i) x := by
  obtain ⟨y, ey, sy⟩ := S.actionOnGrid x hax hok ha hs
  refine ⟨y, ?_, sy⟩
  simp only [Group.action, (S.tab.parse hs).1]
  exact ey

theorem Sym.own_ne (S : Sym G d els ok) : G.name ≠ "" := (S.tab.parse S.tab.own).2

theorem Sym.action_grid_all [Zero α] (S : Sym G d els ok) (x : Tensor α) {axs : List Nat} {a : Nat}
    (hax : AxesOk d x.rank axs) (hok : ok (coords axs x.shape)) (ha : a ≤ x.rank) :
    ∃ y, G.action x (axs.map Int.ofNat) a none (some "") none = .ok y ∧
      Stack y a ((List.range G.order).map fun i => elPull els axs (coords axs x.shape) i) x := by
  obtain ⟨y, ey, sy⟩ := S.actionOnGrid x hax hok ha S.tab.own
  refine ⟨y, ?_, sy⟩
  simp only [Group.action, GroupData.parseSubgroup]
  exact ey

theorem getD_map_range {β : Type} (f : Nat → β) (b : β) {n i : Nat} (h : i < n) : ((List.range n).map f).getD i b = f i := by
  simp [h]

/-- slices of a stack -/
theorem Stack.slice_shape {y x : Tensor α} {a g : Nat} {fs} (h : Stack y a fs x) (ha : a ≤ x.rank) :
    (slice y a g).shape = x.shape := by
  simp only [slice]
  rw [h.1, eraseIdx_insertIdx' _ _ _ ha]

theorem Stack.slice_get {y x : Tensor α} {a g : Nat} {fs} (h : Stack y a fs x) (ha : a ≤ x.rank) (hg : g < fs.length)
    {idx : List Nat} (hi : Valid x.shape idx) : (slice y a g).get idx = x.get (fs.getD g id idx) := by
  simp only [slice]
  have hl : idx.length = x.rank := hi.length
  rw [h.2 _ (by rw [h.1]; exact valid_insertIdx ha hi hg), nth_insertIdx _ _ _ _ (by omega), if_neg (by omega),
    if_pos rfl, eraseIdx_insertIdx' _ _ _ (by omega)]

theorem Sym.valid_elPull (S : Sym G d els ok) {s axs : List Nat} (hax : AxesOk d s.length axs) (hok : ok (coords axs s))
    {i : Nat} (hi : i < G.order) {idx : List Nat} (hv : Valid s idx) : Valid s (elPull els axs (coords axs s) i idx) :=
  SPerm.valid_pullIdx (S.tab.wfi hi) hv hax.2.1 hax.1 hax.2.2.1
    (S.compat _ hok _ (getD_mem (by rw [S.tab.len]; exact hi)))

theorem Sym.elPull_comp (S : Sym G d els ok) {s axs : List Nat} (hax : AxesOk d s.length axs) (hok : ok (coords axs s))
    {h g : Nat} (hh : h < G.order) (hg : g < G.order) {idx : List Nat} (hv : Valid s idx) :
    elPull els axs (coords axs s) g (elPull els axs (coords axs s) h idx) =
      elPull els axs (coords axs s) (G.comp h g) idx := by
  unfold elPull
  rw [SPerm.pullIdx_comp (S.tab.wfi hg) (S.tab.wfi hh) hv hax.2.1 hax.1 hax.2.2.1
    (S.compat _ hok _ (getD_mem (by rw [S.tab.len]; exact hg)))
    (S.compat _ hok _ (getD_mem (by rw [S.tab.len]; exact hh))), (S.tab.comp h hh g hg).2]

theorem Sym.elPull_one (S : Sym G d els ok) {s axs : List Nat} (hax : AxesOk d s.length axs)
    {idx : List Nat} (hv : Valid s idx) (n : List Nat) : elPull els axs n 0 idx = idx := by
  unfold elPull
  rw [S.tab.one, SPerm.pullIdx, SPerm.pull_one (by simp [coords, hax.1]),
    place_coords hax.2.1 (by rw [hv.length]; exact hax.2.2.1)]

end GroCo
