import Verif.OhAction
import Verif.Spec

/-
Helper: everything later proofs use about a group of the library, collected in one structure `Sym`, and the proof that
every group of the library has it.
-/

namespace GroCo
open Tensor

def GroupName.els : GroupName → List SPerm
  | .P1 => p1Els | .P2 => p2Els | .PMw => pmwEls | .PMh => pmhEls | .P2MM => p2mmEls
  | .P4 => p4Els | .P4M => p4mEls | .Oh => ohEls | .O => oEls | .D4h => d4hEls | .D4 => d4Els

/-- The table part of `Sym`, decidable. -/
structure Tables (G : GroupData) (d : Nat) (els : List SPerm) : Prop where
  len : els.length = G.order
  pos : 0 < G.order
  wf : ∀ σ ∈ els, σ.WF d
  one : els.getD 0 [] = SPerm.one d
  nodup : els.Nodup
  compLen : G.composition.length = G.order
  rowLen : ∀ row ∈ G.composition, row.length = G.order
  comp : ∀ r, r < G.order → ∀ c, c < G.order →
    G.comp r c < G.order ∧ els.getD (G.comp r c) [] = (els.getD c []).comp (els.getD r [])
  invLen : G.inverses.length = G.order
  inv : ∀ r, r < G.order → nth G.inverses r < G.order ∧ G.comp r (nth G.inverses r) = 0 ∧
    G.comp (nth G.inverses r) r = 0
  own : lookup G.subgroup G.name = .ok (List.range G.order)
  subs : ∀ e ∈ G.subgroup, e.1 ≠ "" ∧ e.2.Nodup ∧ e.2.head? = some 0 ∧ (∀ i ∈ e.2, i < G.order) ∧
    (∀ i ∈ e.2, ∀ j ∈ e.2, G.comp i j ∈ e.2) ∧ (∀ i ∈ e.2, nth G.inverses i ∈ e.2)
  full : ∀ e ∈ G.subgroup, e.2.length = G.order → e.2 = List.range G.order
  subNames : (G.subgroup.map Prod.fst).Nodup
  cosNames : G.cosets.map Prod.fst = G.subgroup.map Prod.fst
  cosets : ∀ e ∈ G.cosets, ∀ H, lookup G.subgroup e.1 = .ok H →
    e.2.Nodup ∧ e.2.head? = some 0 ∧ (∀ c ∈ e.2, c < G.order) ∧
    ((H.flatMap fun h => e.2.map fun c => G.comp h c).Perm (List.range G.order))

theorem lookup_mem {β : Type} {d : List (String × β)} {k : String} {v : β} (h : lookup d k = .ok v) : (k, v) ∈ d := by
  unfold lookup at h
  split at h
  · rename_i e he
    cases h
    have h1 := List.find?_some he
    have h2 := List.mem_of_find?_eq_some he
    simp only [beq_iff_eq] at h1
    rw [← h1]; exact h2
  · cases h

structure Sym (G : Group) (d : Nat) (els : List SPerm) (ok : List Nat → Prop) : Prop where
  tab : Tables G.toGroupData d els
  dpos : 2 ≤ d
  okLen : ∀ n, ok n → n.length = d
  compat : ∀ n, ok n → ∀ σ ∈ els, σ.Compat n
  act : ∀ (α : Type) (x : Tensor α) (axs : List Nat) (a : Nat), AxesOk d x.rank axs → ok (coords axs x.shape) →
    a ≤ x.rank → ∃ y, G.act α x (axs.map Int.ofNat) a = .ok y ∧
      Stack y a (els.map fun σ => σ.pullIdx axs (coords axs x.shape)) x

macro "tables" : tactic => `(tactic| (constructor <;> first | decide +kernel | skip))

theorem cosets_dec {G : GroupData}
    (h : ∀ e ∈ G.cosets, ∃ H ∈ G.subgroup, H.1 = e.1 ∧
      e.2.Nodup ∧ e.2.head? = some 0 ∧ (∀ c ∈ e.2, c < G.order) ∧
      ((H.2.flatMap fun h => e.2.map fun c => G.comp h c).Perm (List.range G.order)))
    (hn : (G.subgroup.map Prod.fst).Nodup) :
    ∀ e ∈ G.cosets, ∀ H, lookup G.subgroup e.1 = .ok H →
    e.2.Nodup ∧ e.2.head? = some 0 ∧ (∀ c ∈ e.2, c < G.order) ∧
    ((H.flatMap fun h => e.2.map fun c => G.comp h c).Perm (List.range G.order)) := by
  intro e he H hH
  obtain ⟨K, hK, hKe, h1, h2, h3, h4⟩ := h e he
  have hm := lookup_mem hH
  have : K = (e.1, H) := by
    have := List.inj_on_of_nodup_map hn hK hm (by simpa using hKe)
    exact this
  subst this
  exact ⟨h1, h2, h3, h4⟩

theorem P1_tables : Tables P1.toGroupData 2 p1Els := by
  tables
  exact cosets_dec (by decide +kernel) (by decide +kernel)
theorem P2_tables : Tables P2.toGroupData 2 p2Els := by
  tables
  exact cosets_dec (by decide +kernel) (by decide +kernel)
theorem PMw_tables : Tables PMw.toGroupData 2 pmwEls := by
  tables
  exact cosets_dec (by decide +kernel) (by decide +kernel)
theorem PMh_tables : Tables PMh.toGroupData 2 pmhEls := by
  tables
  exact cosets_dec (by decide +kernel) (by decide +kernel)
theorem P2MM_tables : Tables P2MM.toGroupData 2 p2mmEls := by
  tables
  exact cosets_dec (by decide +kernel) (by decide +kernel)
theorem P4_tables : Tables P4.toGroupData 2 p4Els := by
  tables
  exact cosets_dec (by decide +kernel) (by decide +kernel)
theorem P4M_tables : Tables P4M.toGroupData 2 p4mEls := by
  tables
  exact cosets_dec (by decide +kernel) (by decide +kernel)
theorem Oh_tables : Tables OhData 3 ohEls := by
  tables
  exact cosets_dec (by decide +kernel) (by decide +kernel)
theorem O_tables : Tables OData 3 oEls := by
  tables
  exact cosets_dec (by decide +kernel) (by decide +kernel)
theorem D4h_tables : Tables D4hData 3 d4hEls := by
  tables
  exact cosets_dec (by decide +kernel) (by decide +kernel)
theorem D4_tables : Tables D4Data 3 d4Els := by
  tables
  exact cosets_dec (by decide +kernel) (by decide +kernel)

theorem axes2_of {α : Type} {x : Tensor α} {axs : List Nat} (h : AxesOk 2 x.rank axs) :
    ∃ i j, axs = [i, j] ∧ Axes2 x i j := by
  obtain ⟨h1, h2, h3, _⟩ := h
  match axs, h1 with
  | [i, j], _ =>
    refine ⟨i, j, rfl, h3 i (by simp), h3 j (by simp), ?_⟩
    intro e; simp [e] at h2

/-- A derived group: the action of the parent, followed by a selection. -/
theorem subgroup_act {P : Group} {els : List SPerm} {ok : List Nat → Prop} {d : Nat}
    (hP : ∀ (α : Type) (x : Tensor α) (axs : List Nat) (a : Nat), AxesOk d x.rank axs → ok (coords axs x.shape) →
      a ≤ x.rank → ∃ y, P.act α x (axs.map Int.ofNat) a = .ok y ∧
        Stack y a (els.map fun σ => σ.pullIdx axs (coords axs x.shape)) x)
    {name : String} {is : List Nat} (hl : lookup P.subgroup name = .ok is) (his : ∀ i ∈ is, i < els.length) :
    ∀ (α : Type) (x : Tensor α) (axs : List Nat) (a : Nat), AxesOk d x.rank axs → ok (coords axs x.shape) →
      a ≤ x.rank → ∃ y, subgroupAction P name α x (axs.map Int.ofNat) a = .ok y ∧
        Stack y a ((selEls els is).map fun σ => σ.pullIdx axs (coords axs x.shape)) x := by
  intro α x axs a hax hok ha
  obtain ⟨y, e, s⟩ := hP α x axs a hax hok ha
  obtain ⟨z, ez, sz⟩ := stack_take s ha (is := is) (by simpa using his)
  refine ⟨z, by simp [subgroupAction, e, hl, ez], ?_⟩
  have : (is.map fun i => (els.map fun σ : SPerm => σ.pullIdx axs (coords axs x.shape)).getD i id) =
      (selEls els is).map fun σ => σ.pullIdx axs (coords axs x.shape) := by
    rw [selEls, List.map_map]
    apply List.map_congr_left
    intro i hi
    simp [List.getElem?_eq_getElem (his i hi)]
  rw [this] at sz
  exact sz

theorem oh_act' : ∀ (α : Type) (x : Tensor α) (axs : List Nat) (a : Nat), AxesOk 3 x.rank axs →
    (coords axs x.shape).length = 3 ∧ nth (coords axs x.shape) 0 = nth (coords axs x.shape) 1 ∧ nth (coords axs x.shape) 0 = nth (coords axs x.shape) 2 →
    a ≤ x.rank → ∃ y, Oh.act α x (axs.map Int.ofNat) a = .ok y ∧
      Stack y a (ohEls.map fun σ => σ.pullIdx axs (coords axs x.shape)) x := by
  intro α x axs a hax hok ha
  obtain ⟨o, rfl⟩ := hax.2.2.2 rfl
  have h3 := hax.2.2.1 (o + 2) (by simp)
  simp only [coords, List.map_cons, List.map_nil, nth_cons_zero, nth_cons_succ] at hok
  exact Oh_act x (by romega) ha ([o, o + 1, o + 2].map Int.ofNat) rfl hok.2.1 hok.2.2

theorem compat_dec {els : List SPerm} {n m : List Nat} (h : ∀ σ ∈ els, ∀ a, a < σ.length → nth m a = nth m (σ.src a))
    (hm : ∀ a b, a < 3 → b < 3 → nth m a = nth m b → nth n a = nth n b) (hs : ∀ σ ∈ els, σ.length ≤ 3)
    (hb : ∀ σ ∈ els, ∀ a, a < σ.length → σ.src a < 3) : ∀ σ ∈ els, σ.Compat n := by
  intro σ hσ a ha
  exact hm _ _ (by have := hs σ hσ; omega) (hb σ hσ a ha) (h σ hσ a ha)

theorem GroupName.sym (n : GroupName) : Sym n.group n.dim n.els n.Grid where
  tab := by
    cases n
    · exact P1_tables
    · exact P2_tables
    · exact PMw_tables
    · exact PMh_tables
    · exact P2MM_tables
    · exact P4_tables
    · exact P4M_tables
    · exact Oh_tables
    · exact O_tables
    · exact D4h_tables
    · exact D4_tables
  dpos := by cases n <;> decide
  okLen := fun m h => h.1
  compat := by
    intro m h
    cases n
    all_goals first
      | exact compat_dec (m := [0, 1, 2]) (by decide +kernel) (fun a b ha hb e => by
          have : a = b := by
            have h1 : a = 0 ∨ a = 1 ∨ a = 2 := by omega
            have h2 : b = 0 ∨ b = 1 ∨ b = 2 := by omega
            rcases h1 with rfl | rfl | rfl <;> rcases h2 with rfl | rfl | rfl <;> simp_all
          rw [this]) (by decide +kernel) (by decide +kernel)
      | exact compat_dec (m := [0, 0, 2]) (by decide +kernel) (fun a b ha hb e => by
          have h0 := h.2
          simp only at h0
          have h1 : a = 0 ∨ a = 1 ∨ a = 2 := by omega
          have h2 : b = 0 ∨ b = 1 ∨ b = 2 := by omega
          rcases h1 with rfl | rfl | rfl <;> rcases h2 with rfl | rfl | rfl <;> simp_all) (by decide +kernel) (by decide +kernel)
      | exact compat_dec (m := [0, 0, 0]) (by decide +kernel) (fun a b ha hb e => by
          have h0 := h.2
          simp only at h0
          have h1 : a = 0 ∨ a = 1 ∨ a = 2 := by omega
          have h2 : b = 0 ∨ b = 1 ∨ b = 2 := by omega
          rcases h1 with rfl | rfl | rfl <;> rcases h2 with rfl | rfl | rfl <;> first | rfl | omega) (by decide +kernel) (by decide +kernel)
  act := by
    intro α x axs a hax hok ha
    cases n
    case Oh => exact oh_act' α x axs a hax hok ha
    case O => exact subgroup_act oh_act' (name := "O") (is := _) rfl (by decide +kernel) α x axs a hax hok ha
    case D4h => exact subgroup_act oh_act' (name := "D4h") (is := _) rfl (by decide +kernel) α x axs a hax hok ha
    case D4 => exact subgroup_act oh_act' (name := "D4") (is := _) rfl (by decide +kernel) α x axs a hax hok ha
    all_goals
      obtain ⟨i, j, rfl, h2⟩ := axes2_of hax
    case P4 => exact P4_act x h2 ha (by simpa [coords] using hok.2)
    case P4M => exact P4M_act x h2 ha (by simpa [coords] using hok.2)
    case P1 => exact P1_act x h2 ha
    case P2 => exact P2_act x h2 ha
    case PMw => exact PMw_act x h2 ha
    case PMh => exact PMh_act x h2 ha
    case P2MM => exact P2MM_act x h2 ha

end GroCo
