import Mathlib.Tactic.LinearCombination
import Verif.WeightLemmas

/-
Helper lemmas for equivariance: symmetries acting on integer positions, on windows and on signals.
-/

namespace GroCo
open Tensor

variable {α : Type}

/-! ### integer positions -/

/-- `pull` for positions that may lie outside the grid -/
def SPerm.pullZ (σ : SPerm) (n : List Nat) (q : List Int) : List Int :=
  (List.range σ.length).map fun a => if σ.neg a then (nth n a : Int) - 1 - q.getD (σ.src a) 0 else q.getD (σ.src a) 0

theorem SPerm.getD_pullZ (σ : SPerm) (n : List Nat) (q : List Int) {a : Nat} (h : a < σ.length) :
    (σ.pullZ n q).getD a 0 = if σ.neg a then (nth n a : Int) - 1 - q.getD (σ.src a) 0 else q.getD (σ.src a) 0 := by
  simp [pullZ, h]

theorem SPerm.length_pullZ (σ : SPerm) (n : List Nat) (q : List Int) : (σ.pullZ n q).length = σ.length := by simp [pullZ]

theorem SPerm.WF.surj {d : Nat} {σ : SPerm} (h : σ.WF d) {j : Nat} (hj : j < d) : ∃ a, a < d ∧ σ.src a = j := by
  have hsub : (σ.map Prod.fst) ⊆ List.range d := fun i hi => by
    obtain ⟨e, he, rfl⟩ := List.mem_map.1 hi
    exact List.mem_range.2 (h.2.2 e he)
  have hp := (List.subperm_of_subset h.2.1 hsub).perm_of_length_le (by simp [h.1])
  have hm : j ∈ σ.map Prod.fst := hp.symm.subset (List.mem_range.2 hj)
  obtain ⟨a, ha, he⟩ := List.mem_iff_getElem.1 hm
  rw [List.length_map] at ha
  refine ⟨a, by rw [← h.1]; exact ha, ?_⟩
  rw [← he]
  simp [SPerm.src, ha]

theorem inBox_iff {n : List Nat} {q : List Int} :
    InBox n q ↔ q.length = n.length ∧ ∀ i, i < n.length → 0 ≤ q.getD i 0 ∧ q.getD i 0 < nth n i := by
  induction n generalizing q with
  | nil => cases q <;> simp [InBox]
  | cons a n ih =>
    cases q with
    | nil => simp [InBox]
    | cons b q =>
      simp only [InBox, ih, List.length_cons, Nat.add_right_cancel_iff]
      constructor
      · rintro ⟨h1, h2, h3⟩
        refine ⟨h2, fun i hi => ?_⟩
        cases i with
        | zero => simpa using h1
        | succ i => simpa using h3 i (by omega)
      · rintro ⟨h2, h3⟩
        refine ⟨by simpa using h3 0 (by omega), h2, fun i hi => ?_⟩
        simpa using h3 (i + 1) (by omega)

theorem SPerm.inBox_pullZ {d : Nat} {σ : SPerm} (h : σ.WF d) {n : List Nat} (hn : n.length = d) (hc : σ.Compat n)
    {q : List Int} (hq : q.length = d) : InBox n (σ.pullZ n q) ↔ InBox n q := by
  rw [inBox_iff, inBox_iff, length_pullZ, h.1, hn, hq]
  have key : ∀ a, a < d → (0 ≤ (σ.pullZ n q).getD a 0 ∧ (σ.pullZ n q).getD a 0 < nth n a ↔
      0 ≤ q.getD (σ.src a) 0 ∧ q.getD (σ.src a) 0 < nth n (σ.src a)) := by
    intro a ha
    rw [getD_pullZ _ _ _ (by rw [h.1]; exact ha), ← hc a (by rw [h.1]; exact ha)]
    split <;> omega
  constructor
  · rintro ⟨_, hb⟩
    refine ⟨rfl, fun j hj => ?_⟩
    obtain ⟨a, ha, rfl⟩ := h.surj hj
    exact (key a ha).1 (hb a ha)
  · rintro ⟨_, hb⟩
    exact ⟨rfl, fun a ha => (key a ha).2 (hb _ (h.src_lt ha))⟩

theorem SPerm.toNat_pullZ {d : Nat} {σ : SPerm} (h : σ.WF d) {n : List Nat} (hn : n.length = d) (hc : σ.Compat n)
    {q : List Int} (hq : InBox n q) : (σ.pullZ n q).map Int.toNat = σ.pull n (q.map Int.toNat) := by
  have hql := hq.length
  have hb := inBox_iff.1 hq
  apply ext_nth
  · simp [pullZ, pull]
  · intro a ha
    rw [List.length_map, length_pullZ] at ha
    rw [nth_pull _ _ _ ha]
    have had : a < d := by rw [← h.1]; exact ha
    have h1 := h.src_lt had
    have e1 : nth (q.map Int.toNat) (σ.src a) = (q.getD (σ.src a) 0).toNat := by
      simp [nth, List.getElem?_eq_getElem (show σ.src a < q.length by omega)]
    have e2 : nth ((σ.pullZ n q).map Int.toNat) a = ((σ.pullZ n q).getD a 0).toNat := by
      simp [nth, List.getElem?_eq_getElem (show a < (σ.pullZ n q).length by rw [length_pullZ]; exact ha)]
    rw [e1, e2, getD_pullZ _ _ _ ha]
    have h2 := hb.2 (σ.src a) (by omega)
    rw [← hc a ha] at h2
    split
    · omega
    · rfl

/-- reading a signal that was moved by a symmetry -/
theorem readAt_pull [Zero α] {d : Nat} {σ : SPerm} (h : σ.WF d) {n : List Nat} (hn : n.length = d) (hc : σ.Compat n)
    {x x' : Tensor α} {b : Nat} {r r' : List Nat}
    (hx : ∀ p, Valid n p → x'.get (b :: p ++ r) = x.get (b :: σ.pull n p ++ r')) {q : List Int} (hq : q.length = d) :
    readAt x' n b q r = readAt x n b (σ.pullZ n q) r' := by
  unfold readAt
  by_cases hb : InBox n q
  · rw [if_pos hb, if_pos ((SPerm.inBox_pullZ h hn hc hq).2 hb), hx _ (inBox_toNat hb), SPerm.toNat_pullZ h hn hc hb]
  · rw [if_neg hb, if_neg (fun h' => hb ((SPerm.inBox_pullZ h hn hc hq).1 h'))]

/-- The windows of a symmetric configuration are moved into each other. -/
theorem pullZ_winZ {d : Nat} {σ : SPerm} (h : σ.WF d) {m out K before strides dil p k : List Nat}
    (hs : strides.length = d) (hO : out.length = d) (hKl : K.length = d)
    (cm : σ.Compat m) (cO : σ.Compat out) (cK : σ.Compat K) (cs : σ.Compat strides) (cd : σ.Compat dil)
    (hgeo : ∀ i, i < d → (nth out i - 1) * nth strides i + (nth K i - 1) * nth dil i + 1 = nth m i + 2 * nth before i)
    (hp : Valid out p) (hk : Valid K k) :
    σ.pullZ m (winZ before strides dil p k) = winZ before strides dil (σ.pull out p) (σ.pull K k) := by
  apply List.ext_getElem
  · rw [SPerm.length_pullZ, length_winZ, hs, h.1]
  · intro a h1 h2
    have ha : a < σ.length := by rw [SPerm.length_pullZ] at h1; exact h1
    have had : a < d := by rw [← h.1]; exact ha
    have e1 : ∀ (q : List Int) (hq : a < q.length), q[a] = q.getD a 0 := fun q hq => by simp [hq]
    have hw : ∀ p k j, j < d → (winZ before strides dil p k).getD j 0 =
        (nth p j * nth strides j + nth k j * nth dil j : Int) - nth before j := fun p k j hj => by
      simp [winZ, hs, hj]
    have hj := h.src_lt had
    rw [e1, e1, SPerm.getD_pullZ _ _ _ ha, hw _ _ _ had, hw _ _ _ hj, SPerm.nth_pull _ _ _ ha, SPerm.nth_pull _ _ _ ha]
    have g1 := hgeo a had
    have g2 := hgeo _ hj
    have c1 := cm a ha
    have c2 := cO a ha
    have c3 := cK a ha
    have c4 := cs a ha
    have c5 := cd a ha
    have hpj := hp.lt (i := σ.src a) (by rw [hO]; exact hj)
    have hkj := hk.lt (i := σ.src a) (by rw [hKl]; exact hj)
    have hb : nth before a = nth before (σ.src a) := by
      rw [c1, c2, c3, c4, c5] at g1
      omega
    rw [← c2] at hpj
    rw [← c3] at hkj
    split
    · have g3 : ((nth out a : Int) - 1) * nth strides a + ((nth K a : Int) - 1) * nth dil a + 1 =
          nth m a + 2 * nth before a := by
        have := congrArg (Nat.cast : Nat → Int) g1
        push_cast [Nat.cast_sub (show 1 ≤ nth out a by omega), Nat.cast_sub (show 1 ≤ nth K a by omega)] at this
        exact this
      have e2 : ((nth out a - 1 - nth p (σ.src a) : Nat) : Int) = nth out a - 1 - nth p (σ.src a) := by omega
      have e3 : ((nth K a - 1 - nth k (σ.src a) : Nat) : Int) = nth K a - 1 - nth k (σ.src a) := by omega
      rw [e2, e3, ← c4, ← c5, ← hb]
      linear_combination -g3
    · rw [← c4, ← c5, ← hb]

/-! ### acting on signals -/

theorem parse_acting [Zero α] {G : Group} {d : Nat} {els : List SPerm} {ok : List Nat → Prop} (S : Sym G d els ok)
    {t : Option String} {s : String} {H : List Nat}
    (ht : G.parseSubgroup t = some s) (hs : lookup G.subgroup s = .ok H) (x : Tensor α) (axs : List Int) (na : Int)
    (ga : Option Int) (dom : Option String) : G.action x axs na ga t dom = G.action x axs na ga (some s) dom := by
  simp only [Group.action, ht, (S.tab.parse hs).1]

theorem parse_domain [Zero α] {G : Group} {d : Nat} {els : List SPerm} {ok : List Nat → Prop} (S : Sym G d els ok)
    {t : Option String} {s : String} {H : List Nat}
    (ht : G.parseSubgroup t = some s) (hs : lookup G.subgroup s = .ok H) (x : Tensor α) (axs : List Int) (na : Int)
    (ga : Option Int) (ac : Option String) : G.action x axs na ga ac t = G.action x axs na ga ac (some s) := by
  simp only [Group.action, ht, (S.tab.parse hs).1]

/-- the grid action does not look at `group_axis` -/
theorem action_none [Zero α] (G : Group) (x : Tensor α) (axs : List Int) (na : Int) (ga : Option Int) (ac : Option String) :
    G.action x axs na ga ac none = G.action x axs na none ac none := rfl

section
variable {G : Group} {d : Nat} {els : List SPerm} {ok : List Nat → Prop}

/-- acting on a signal on the grid -/
theorem Sym.act_grid_sig [Zero α] (S : Sym G d els ok) (x : Tensor α) {P m R : List Nat} (hx : x.shape = P ++ m ++ R)
    (hm : ok m) {s : String} {A : List Nat} (hs : lookup G.subgroup s = .ok A) :
    ∃ y, G.action x ((spAxes P.length d).map Int.ofNat) 0 none (some s) none = .ok y ∧ y.shape = A.length :: x.shape ∧
      ∀ i b p r, i < A.length → Valid P b → Valid m p → Valid R r →
        (slice y 0 i).get (b ++ p ++ r) = x.get (b ++ back els m (nth A i) p ++ r) := by
  have hml := S.okLen m hm
  have hr : x.rank = P.length + d + R.length := by simp [Tensor.rank, hx, hml]; omega
  have hco : coords (spAxes P.length d) x.shape = m := by rw [hx]; exact coords_spAxes rfl hml
  obtain ⟨y, ey, sy⟩ := S.action_grid x (axs := spAxes P.length d) (a := 0) (axesOk_spAxes (by omega)) (by rw [hco]; exact hm)
    (by omega) hs
  refine ⟨y, ey, by rw [sy.1]; simp, ?_⟩
  intro i b p r hi hb hp hr'
  have hv : Valid x.shape (b ++ p ++ r) := by
    rw [hx]
    exact (valid_append _ _ _ _ (by simp [hb.length, hp.length])).2 ⟨(valid_append _ _ _ _ hb.length).2 ⟨hb, hp⟩, hr'⟩
  rw [sy.slice_get (by omega) (by simpa using hi) hv]
  have hf : (A.map fun i => elPull els (spAxes P.length d) (coords (spAxes P.length d) x.shape) i).getD i id =
      elPull els (spAxes P.length d) m (nth A i) := by
    rw [hco]; simp [hi, nth]
  rw [hf, elPull_spAxes hb.length (by rw [hp.length, hml]) (S.wf (S.sub_nth_lt hs hi)).1]

/-- acting on a signal on a subgroup with elements of the subgroup -/
theorem Sym.act_group_sig [Zero α] (S : Sym G d els ok) (x : Tensor α) {P m R : List Nat} {s sD : String} {A D : List Nat}
    (hs : lookup G.subgroup s = .ok A) (hD : lookup G.subgroup sD = .ok D) (hAD : ∀ e ∈ A, e ∈ D)
    (hx : x.shape = P ++ m ++ (D.length :: R)) (hm : ok m) :
    ∃ y, G.action x ((spAxes P.length d).map Int.ofNat) 0 (some ((P.length + d : Nat) : Int)) (some s) (some sD) = .ok y ∧
      y.shape = A.length :: x.shape ∧
      ∀ i b p j r, i < A.length → Valid P b → Valid m p → j < D.length → Valid R r →
        (slice y 0 i).get (b ++ p ++ (j :: r)) =
          x.get (b ++ back els m (nth A i) p ++ (turn G.toGroupData D (nth A i) j :: r)) := by
  have hml := S.okLen m hm
  have hr : x.rank = P.length + d + (R.length + 1) := by simp [Tensor.rank, hx, hml]; omega
  have hco : coords (spAxes P.length d) x.shape = m := by rw [hx]; exact coords_spAxes rfl hml
  have hPm : (P ++ m).length = P.length + d := by simp [hml]
  obtain ⟨y, ey, hy, hg⟩ := S.action_group x (axs := spAxes P.length d) (a := 0) (ga := P.length + d)
    (axesOk_spAxes (by omega)) (by rw [hco]; exact hm) (by omega) (by omega) (by simp) hs hD (by
      rw [hx, nth_app0 hPm]; rfl)
  refine ⟨y, ey, by rw [hy]; simp, ?_⟩
  intro i b p j r hi hb hp hj hr'
  have hv : Valid x.shape (b ++ p ++ (j :: r)) := by
    rw [hx]
    exact (valid_append _ _ _ _ (by simp [hb.length, hp.length])).2 ⟨(valid_append _ _ _ _ hb.length).2 ⟨hb, hp⟩, ⟨hj, hr'⟩⟩
  have hbp : (b ++ p).length = P.length + d := by simp [hb.length, hp.length, hml]
  have hmem : nth A i ∈ D := hAD _ (nth_mem _ _ hi)
  have e1 : (slice y 0 i).get (b ++ p ++ (j :: r)) = y.get ((b ++ p ++ (j :: r)).insertIdx 0 i) := rfl
  have hlt := S.sub_nth_lt hs hi
  rw [e1, hg i _ hi hv]
  unfold regular
  have e2 : nth (b ++ p ++ (j :: r)) (P.length + d) = j := by rw [nth_app0 hbp]; rfl
  simp only [e2]
  rw [if_pos (S.sub_turn_mem hD hmem hj), hco, elPull_spAxes hb.length (by rw [hp.length, hml]) (S.wf hlt).1,
    set_app0 (by simp [hb.length, S.length_back hlt])]
  rfl

end

/-! ### sizes shared by linked axes -/

/-- A list of sizes is a grid of the group as soon as it agrees on axes on which all grids agree. -/
theorem GroupName.grid_of (n : GroupName) {v : List Nat} (hl : v.length = n.dim)
    (h : ∀ a b, a < n.dim → b < n.dim → (∀ u, n.Grid u → nth u a = nth u b) → nth v a = nth v b) : n.Grid v := by
  refine ⟨hl, ?_⟩
  cases n
  case P4 => exact h 0 1 (by decide) (by decide) fun u hu => hu.2
  case P4M => exact h 0 1 (by decide) (by decide) fun u hu => hu.2
  case Oh => exact ⟨h 0 1 (by decide) (by decide) fun u hu => hu.2.1, h 0 2 (by decide) (by decide) fun u hu => hu.2.2⟩
  case O => exact ⟨h 0 1 (by decide) (by decide) fun u hu => hu.2.1, h 0 2 (by decide) (by decide) fun u hu => hu.2.2⟩
  case D4h => exact ⟨h 0 1 (by decide) (by decide) fun u hu => hu.2.1, h 0 2 (by decide) (by decide) fun u hu => hu.2.2⟩
  case D4 => exact ⟨h 0 1 (by decide) (by decide) fun u hu => hu.2.1, h 0 2 (by decide) (by decide) fun u hu => hu.2.2⟩
  all_goals trivial

/-- Sizes that element `h` leaves unchanged. -/
def GroupName.Kept (n : GroupName) (h : Nat) (u : List Nat) : Prop := u.length = n.dim ∧ (n.els.getD h []).Compat u

theorem GroupName.Grid.kept {n : GroupName} {u : List Nat} (hu : n.Grid u) {h : Nat} (hh : h < n.group.order) : n.Kept h u :=
  ⟨n.sym.okLen u hu, n.sym.compat' hu hh⟩

theorem GroupName.kept_of (n : GroupName) {h : Nat} (hh : h < n.group.order) {v : List Nat} (hl : v.length = n.dim)
    (hv : ∀ a b, a < n.dim → b < n.dim → (∀ u, n.Kept h u → nth u a = nth u b) → nth v a = nth v b) : n.Kept h v := by
  refine ⟨hl, fun a ha => ?_⟩
  have hw := n.sym.wf hh
  have had : a < n.dim := by rw [← hw.1]; exact ha
  exact hv a _ had (hw.src_lt had) fun u hu => hu.2 a ha

theorem GroupName.Kept.valid {n : GroupName} {h : Nat} {u p : List Nat} (hu : n.Kept h u) (hh : h < n.group.order)
    (hp : Valid u p) : Valid u (back n.els u h p) :=
  SPerm.valid_pull (n.sym.wf hh) hu.1 hu.2 hp

theorem GroupName.Kept.inj {n : GroupName} {h : Nat} {u p q : List Nat} (hu : n.Kept h u) (hh : h < n.group.order)
    (hp : Valid u p) (hq : Valid u q) (e : back n.els u h p = back n.els u h q) : p = q :=
  SPerm.pull_inj (n.sym.wf hh) hu.1 hu.2 hp hq e fun _ hj => (n.sym.wf hh).surj hj

theorem GroupName.Kept.perm {n : GroupName} {h : Nat} {u : List Nat} (hu : n.Kept h u) (hh : h < n.group.order) :
    ((indices u).map (back n.els u h)).Perm (indices u) := by
  apply perm_map_self (nodup_indices u)
  · intro k hk
    rw [mem_indices] at hk ⊢
    exact hu.valid hh hk
  · intro k hk k' hk' e
    rw [mem_indices] at hk hk'
    exact hu.inj hh hk hk' e

theorem GroupName.Kept.sum [AddCommMonoid α] {n : GroupName} {h : Nat} {u : List Nat} (hu : n.Kept h u)
    (hh : h < n.group.order) (F : List Nat → α) :
    ((indices u).map fun k => F (back n.els u h k)).sum = ((indices u).map F).sum := by
  have := ((hu.perm hh).map F).sum_eq
  rwa [List.map_map] at this

end GroCo
