import Verif.GroupLemmas
import Verif.ManipsLemmas

/- Helper: `upsample`, `_composition_flat_indices` and `_action_on_group` entry by entry. -/

namespace GroCo
open Tensor

variable {α : Type}

theorem set_nth_self (l : List Nat) (a : Nat) : l.set a (nth l a) = l := by
  apply ext_nth
  · simp
  · intro i _
    rw [nth_set]
    split
    · rename_i h; rw [h.1]
    · rfl

theorem nth_set_self {l : List Nat} {a v : Nat} (h : a < l.length) : nth (l.set a v) a = v := by
  rw [nth_set, if_pos ⟨rfl, h⟩]

theorem concatGet_unit {a : Nat} (t : Tensor α) (us : List (Tensor α)) (h : ∀ u ∈ t :: us, nth u.shape a = 1)
    (idx : List Nat) (hl : a < idx.length) (hi : nth idx a < us.length + 1) :
    concatGet a t us idx = ((t :: us)[nth idx a]'(by simpa using hi)).get (idx.set a 0) := by
  induction us generalizing t idx with
  | nil =>
    have h0 : nth idx a = 0 := by simpa using hi
    simp only [concatGet, h0, List.getElem_cons_zero]
    have := set_nth_self idx a
    rw [h0] at this
    rw [this]
  | cons u us ih =>
    rw [concatGet, h t (by simp)]
    split
    · rename_i h0
      have h0 : nth idx a = 0 := by omega
      simp only [h0, List.getElem_cons_zero]
      have := set_nth_self idx a
      rw [h0] at this
      rw [this]
    · rename_i h0
      rw [ih u (fun v hv => h v (by simp [hv])) (idx.set a (nth idx a - 1)) (by simpa using hl)
        (by rw [nth_set_self hl]; simp at hi; omega)]
      simp only [nth_set_self hl, List.set_set]
      have e : nth idx a = (nth idx a - 1) + 1 := by omega
      have : (t :: u :: us)[nth idx a]'(by simpa using hi) = (u :: us)[nth idx a - 1]'(by simp at hi ⊢; omega) := by
        rw [List.getElem_cons, dif_neg (by omega)]
      rw [this]

theorem sum_ones (l : List (Tensor α)) {a : Nat} (h : ∀ u ∈ l, nth u.shape a = 1) :
    (l.map (fun u => nth u.shape a)).sum = l.length := by
  induction l with
  | nil => rfl
  | cons u l ih =>
    rw [List.map_cons, List.sum_cons, h u (by simp), ih (fun v hv => h v (by simp [hv])), List.length_cons]; omega

theorem concatenate_unit {a : Nat} (ts : List (Tensor α)) (hne : ts ≠ []) {s : List Nat} (ha : a < s.length)
    (h : ∀ u ∈ ts, u.shape = s.set a 1) :
    ∃ y, concatenate ts a = .ok y ∧ y.shape = s.set a ts.length ∧
      ∀ idx, Valid y.shape idx → ∃ hi : nth idx a < ts.length, y.get idx = (ts[nth idx a]).get (idx.set a 0) := by
  match ts, hne with
  | t :: us, _ =>
    have h1 : ∀ u ∈ t :: us, nth u.shape a = 1 := fun u hu => by rw [h u hu, nth_set_self ha]
    have hok := concatenate_ok t us (a := a) (by simp only [Tensor.rank, h t (by simp), List.length_set]; exact ha) (by
      intro u hu
      simp only [Tensor.rank]
      rw [h u (by simp [hu]), h t (by simp)]; simp)
    refine ⟨_, hok, ?_, fun idx hv => ?_⟩
    · simp only [sum_ones _ h1]
      rw [h t (by simp), List.set_set]
    · simp only [sum_ones _ h1] at hv
      rw [h t (by simp), List.set_set] at hv
      have hl := hv.length
      have hlt := hv.lt (i := a) (by simpa using ha)
      rw [nth_set_self ha] at hlt
      exact ⟨hlt, concatGet_unit t us h1 idx (by rw [hl]; simpa using ha) hlt⟩

theorem lastIdxOf_eq {l : List Nat} (hnd : l.Nodup) {i : Nat} (hi : i ∈ l) : lastIdxOf l i = l.idxOf i := by
  unfold lastIdxOf
  have h1 : l.idxOf i < l.length := List.idxOf_lt_length_of_mem hi
  have h2 : l.reverse.idxOf i < l.length := by
    have := List.idxOf_lt_length_of_mem (List.mem_reverse.2 hi)
    rwa [List.length_reverse] at this
  have e1 := List.getElem_idxOf h1
  have h3 : l.reverse.idxOf i < l.reverse.length := by rwa [List.length_reverse]
  have e2 := List.getElem_idxOf h3
  rw [List.getElem_reverse] at e2
  exact (hnd.getElem_inj_iff).1 (e2.trans e1.symm)

theorem sliceTo_nat {β : Type} (l : List β) (i : Nat) : sliceTo l (i : Int) = l.take i := by
  rw [sliceTo, if_neg (by omega), Int.toNat_natCast]
theorem sliceFrom_nat {β : Type} (l : List β) (i : Nat) : sliceFrom l (i : Int) = l.drop i := by
  rw [sliceFrom, if_neg (by omega), Int.toNat_natCast]

theorem sub_of_lookup {G : GroupData} {s : String} {H : List Nat} (h : lookup G.subgroup s = .ok H) :
    G.sub (some s) = .ok H := h

theorem upsample_ok [Zero α] {G : GroupData} {s : String} {D : List Nat} (hs : lookup G.subgroup s = .ok D)
    (hnd : D.Nodup) (hpos : 0 < G.order) (x : Tensor α) {ga : Nat} (hga : ga < x.rank)
    (hsz : nth x.shape ga = D.length) :
    ∃ y, G.upsample x (ga : Int) (some s) = .ok y ∧ y.shape = x.shape.set ga G.order ∧
      ∀ idx, Valid y.shape idx →
        y.get idx = if nth idx ga ∈ D then x.get (idx.set ga (D.idxOf (nth idx ga))) else 0 := by
  have hz : sliceTo x.shape (ga : Int) ++ [1] ++ sliceFrom x.shape ((ga : Int) + 1) = x.shape.set ga 1 := by
    have : ((ga : Int) + 1) = ((ga + 1 : Nat) : Int) := by simp
    rw [this, sliceTo_nat, sliceFrom_nat, List.set_eq_take_cons_drop _ hga]
    simp
  obtain ⟨parts, hp, hp'⟩ := mapM_ok (R := fun (u : Tensor α) (i : Nat) => u.shape = x.shape.set ga 1 ∧
      ∀ idx : List Nat, nth idx ga = 0 → ga < idx.length → u.get idx = if i ∈ D then x.get (idx.set ga (D.idxOf i)) else 0)
    (f := fun i => if i ∈ D then take x [lastIdxOf D i] (ga : Int)
      else .ok (zeros (sliceTo x.shape (ga : Int) ++ [1] ++ sliceFrom x.shape ((ga : Int) + 1)) : Tensor α))
    (g := fun i => i) (l := List.range G.order) (by
      intro i _
      by_cases hi : i ∈ D
      · simp only [if_pos hi]
        have h1 := List.idxOf_lt_length_of_mem hi
        refine ⟨_, take_ok x hga (is := [lastIdxOf D i]) ?_, rfl, ?_⟩
        · intro j hj
          rw [List.mem_singleton] at hj
          rw [hj, hsz, lastIdxOf_eq hnd hi]; exact h1
        · intro idx h0 hl
          simp only [h0, nth_cons_zero, lastIdxOf_eq hnd hi]
      · simp only [if_neg hi]
        exact ⟨_, rfl, hz, fun idx _ _ => rfl⟩)
  rw [List.map_id'] at hp'
  have hlen := hp'.length_eq
  rw [List.length_range] at hlen
  have hall : ∀ u ∈ parts, u.shape = x.shape.set ga 1 := by
    intro u hu
    obtain ⟨i, hi, rfl⟩ := List.getElem_of_mem hu
    have := (hp'.get (i := i) hi (by rw [List.length_range]; omega)).1
    simpa using this
  obtain ⟨y, ey, hys, hyg⟩ := concatenate_unit (a := ga) parts (by intro h; simp [h] at hlen; omega) hga hall
  refine ⟨y, ?_, by rw [hys, hlen], fun idx hv => ?_⟩
  · simp only [GroupData.upsample, sub_of_lookup hs, res_bind_ok]
    rw [hp]
    exact ey
  · obtain ⟨hi, e⟩ := hyg idx hv
    rw [hys] at hv
    have hl : ga < idx.length := by rw [hv.length]; simpa using hga
    have := (hp'.get (i := nth idx ga) hi (by rw [List.length_range]; omega)).2 (idx.set ga 0)
      (nth_set_self hl) (by simpa using hl)
    simp only [List.get_eq_getElem, List.getElem_range, List.set_set] at this
    rw [e, this]

/-! ### flat indices -/

theorem getElem?_flatten_uniform {β : Type} {rows : List (List β)} {m : Nat} (h : ∀ r ∈ rows, r.length = m) {i j : Nat}
    (hj : j < m) : rows.flatten[i * m + j]? = (rows[i]?).bind (·[j]?) := by
  induction rows generalizing i with
  | nil => simp
  | cons r rows ih =>
    have hr := h r (by simp)
    rw [List.flatten_cons]
    cases i with
    | zero => simp [List.getElem?_append, hr, hj]
    | succ i =>
      rw [List.getElem?_append_right (by rw [hr, Nat.succ_mul]; omega)]
      have e : (i + 1) * m + j - r.length = i * m + j := by rw [hr, Nat.succ_mul]; omega
      rw [e, ih (fun s hs => h s (by simp [hs]))]
      simp

theorem length_flatten_uniform {β : Type} {rows : List (List β)} {m : Nat} (h : ∀ r ∈ rows, r.length = m) :
    rows.flatten.length = rows.length * m := by
  induction rows with
  | nil => simp
  | cons r rows ih =>
    rw [List.flatten_cons, List.length_append, h r (by simp), ih (fun s hs => h s (by simp [hs])), List.length_cons,
      Nat.succ_mul]; omega

theorem getIdx_ok {β : Type} (l : List β) {i : Nat} (h : i < l.length) : getIdx l i = .ok l[i] := by
  simp [getIdx, h]

theorem getIdx_nat (l : List Nat) {i : Nat} (h : i < l.length) : getIdx l i = .ok (nth l i) := by
  rw [getIdx_ok l h, nth_eq_getElem]

theorem Tables.row {G : GroupData} {d : Nat} {els : List SPerm} (T : Tables G d els) {r : Nat} (hr : r < G.order) :
    getIdx G.composition r = .ok (G.composition.getD r []) ∧ (G.composition.getD r []).length = G.order := by
  have h : r < G.composition.length := by rw [T.compLen]; exact hr
  refine ⟨by rw [getIdx_ok _ h]; simp [h], T.rowLen _ (getD_mem h)⟩

theorem compositionFlatIndices_ok {G : GroupData} {d : Nat} {els : List SPerm} (T : Tables G d els) {sA sD : String}
    {A D : List Nat} (hA : lookup G.subgroup sA = .ok A) (hD : lookup G.subgroup sD = .ok D) :
    ∃ ci, G.compositionFlatIndices (some sA) (some sD) = .ok ci ∧ ci.length = A.length * D.length ∧
      ∀ i j, i < A.length → j < D.length →
        nth ci (i * D.length + j) = i * G.order + G.comp (nth G.inverses (nth A i)) (nth D j) := by
  have hAlt := (T.subs _ (lookup_mem hA)).2.2.2.1
  have hDlt := (T.subs _ (lookup_mem hD)).2.2.2.1
  have e1 : A.mapM (getIdx G.inverses) = .ok (A.map (nth G.inverses)) :=
    mapM_eq_ok fun i hi => getIdx_nat _ (by rw [T.invLen]; exact hAlt i hi)
  have e2 : (A.map (nth G.inverses)).mapM (getIdx G.composition) =
      .ok ((A.map (nth G.inverses)).map fun r => G.composition.getD r []) :=
    mapM_eq_ok fun r hr => by
      obtain ⟨i, hi, rfl⟩ := List.mem_map.1 hr
      exact (T.row (T.inv i (hAlt i hi)).1).1
  have e3 : (((A.map (nth G.inverses)).map fun r => G.composition.getD r []).mapM fun row => D.mapM (getIdx row)) =
      .ok (((A.map (nth G.inverses)).map fun r => G.composition.getD r []).map fun row => D.map (nth row)) :=
    mapM_eq_ok fun row hrow => by
      obtain ⟨r, hr, rfl⟩ := List.mem_map.1 hrow
      obtain ⟨i, hi, rfl⟩ := List.mem_map.1 hr
      exact mapM_eq_ok fun j hj => getIdx_nat _ (by rw [(T.row (T.inv i (hAlt i hi)).1).2]; exact hDlt j hj)
  have e4 : G.compositionFlatIndices (some sA) (some sD) =
      .ok ((((A.map (nth G.inverses)).map fun r => G.composition.getD r []).map fun row => D.map (nth row)).mapIdx
        fun i row => row.map (fun c => i * G.order + c)).flatten := by
    simp only [GroupData.compositionFlatIndices, sub_of_lookup hA, sub_of_lookup hD, res_bind_ok, e1, e2, e3, res_pure]
  refine ⟨_, e4, ?_, ?_⟩
  · rw [length_flatten_uniform (m := D.length)]
    · simp
    · intro r hr
      obtain ⟨i, hi, rfl⟩ := List.mem_mapIdx.1 hr
      simp
  · intro i j hi hj
    have := getElem?_flatten_uniform (rows := (((A.map (nth G.inverses)).map fun r => G.composition.getD r []).map
      fun row => D.map (nth row)).mapIdx fun i row => row.map (fun c => i * G.order + c)) (m := D.length) (by
        intro r hr
        obtain ⟨i, hi, rfl⟩ := List.mem_mapIdx.1 hr
        simp) (i := i) hj
    rw [nth, List.getD_eq_getElem?_getD, this]
    simp [hi, hj, GroupData.comp, nth]

/-! ### action on signals on the group -/

theorem place_set {idx axs vs : List Nat} {a v : Nat} (h : a ∉ axs) :
    place (idx.set a v) axs vs = (place idx axs vs).set a v := by
  induction axs generalizing idx vs with
  | nil => cases vs <;> simp [place]
  | cons b axs ih =>
    cases vs with
    | nil => simp [place]
    | cons w vs =>
      simp only [List.mem_cons, not_or] at h
      simp only [place]
      rw [List.set_comm _ _ h.1, ih h.2]

theorem coords_set {idx axs : List Nat} {a v : Nat} (h : a ∉ axs) : coords axs (idx.set a v) = coords axs idx := by
  unfold coords
  apply List.map_congr_left
  intro b hb
  rw [nth_set, if_neg]
  rintro ⟨rfl, _⟩
  exact h hb

theorem elPull_set {els : List SPerm} {axs n idx : List Nat} {i a v : Nat} (h : a ∉ axs) :
    elPull els axs n i (idx.set a v) = (elPull els axs n i idx).set a v := by
  unfold elPull SPerm.pullIdx
  rw [coords_set h, place_set h]

theorem nth_elPull_of_not_mem {els : List SPerm} {axs n idx : List Nat} {i a : Nat} (h : a ∉ axs) :
    nth (elPull els axs n i idx) a = nth idx a := nth_place_of_not_mem _ _ _ h

theorem mul_add_lt {i j a b : Nat} (hi : i < a) (hj : j < b) : i * b + j < a * b := by
  calc i * b + j < i * b + b := by omega
    _ = (i + 1) * b := by rw [Nat.succ_mul]
    _ ≤ a * b := Nat.mul_le_mul_right _ hi

variable {G : Group} {d : Nat} {els : List SPerm} {ok : List Nat → Prop}

/-- value of the transformed signal, without referring to tensors -/
def regular [Zero α] (G : GroupData) (els : List SPerm) (axs n D : List Nat) (ga : Nat) (x : Tensor α) (g : Nat)
    (idx : List Nat) : α :=
  let c := G.comp (nth G.inverses g) (nth D (nth idx ga))
  if c ∈ D then x.get ((elPull els axs n g idx).set ga (D.idxOf c)) else 0

theorem Sym.actionOnGroup [Zero α] (S : Sym G d els ok) (x : Tensor α) {axs : List Nat} {a ga : Nat}
    (hax : AxesOk d x.rank axs) (hok : ok (coords axs x.shape)) (ha : a ≤ x.rank) (hga : ga < x.rank) (hgax : ga ∉ axs)
    {sA sD : String} {A D : List Nat} (hA : lookup G.subgroup sA = .ok A) (hD : lookup G.subgroup sD = .ok D)
    (hsz : nth x.shape ga = D.length) :
    ∃ y, G.actionOnGroup x a (axs.map Int.ofNat) (some sA) ga (some sD) = .ok y ∧
      y.shape = x.shape.insertIdx a A.length ∧
      ∀ i idx, i < A.length → Valid x.shape idx →
        y.get (idx.insertIdx a i) = regular G.toGroupData els axs (coords axs x.shape) D ga x (nth A i) idx := by
  have hAs := S.tab.subs _ (lookup_mem hA)
  have hDs := S.tab.subs _ (lookup_mem hD)
  have hDlen : 0 < D.length := by
    have := hDs.2.2.1
    cases D with
    | nil => simp at this
    | cons _ _ => simp
  have hAlen : 0 < A.length := by
    have := hAs.2.2.1
    cases A with
    | nil => simp at this
    | cons _ _ => simp
  have hDle : D.length ≤ G.order := by
    have := hDs.2.1.length_le_of_subset (l₂ := List.range G.order) (fun i hi => by simpa using hDs.2.2.2.1 i hi)
    simpa using this
  -- zero extension
  obtain ⟨x1, e1, hs1, hg1⟩ : ∃ x1, (if D.length < G.order then G.upsample x (ga : Int) (some sD) else .ok x) = .ok x1 ∧
      x1.shape = x.shape.set ga G.order ∧ ∀ idx, Valid x1.shape idx →
        x1.get idx = if nth idx ga ∈ D then x.get (idx.set ga (D.idxOf (nth idx ga))) else 0 := by
    by_cases hlt : D.length < G.order
    · rw [if_pos hlt]
      exact upsample_ok hD hDs.2.1 S.tab.pos x hga hsz
    · rw [if_neg hlt]
      have hDo : D.length = G.order := by omega
      have hDr := S.tab.full _ (lookup_mem hD) hDo
      simp only at hDr
      refine ⟨x, rfl, ?_, fun idx hv => ?_⟩
      · rw [← hDo, ← hsz, set_nth_self]
      · have hlt' := hv.lt hga
        rw [hsz, hDo] at hlt'
        rw [if_pos (by rw [hDr]; simpa using hlt')]
        congr 1
        have : D.idxOf (nth idx ga) = nth idx ga := by
          rw [hDr]
          apply idxOf_eq_of_nth (by simpa using hlt')
          · rw [nth_range, if_pos hlt']
          · intro j hj hja
            simp only [List.length_range] at hj
            rw [nth_range, if_pos hj] at hja
            exact hja
        rw [this, set_nth_self]
  have hr1 : x1.rank = x.rank := by simp only [Tensor.rank, hs1, List.length_set]
  have hcs : coords axs x1.shape = coords axs x.shape := by rw [hs1, coords_set hgax]
  -- action on the grid
  obtain ⟨x2, e2, s2⟩ := S.actionOnGrid x1 (axs := axs) (a := ga) (by rw [hr1]; exact hax) (by rw [hcs]; exact hok)
    (by romega) hA
  have hr2 := s2.rank (by romega)
  have hx2s : x2.shape = (x.shape.set ga G.order).insertIdx ga A.length := by rw [s2.1, hs1]; simp
  -- merge
  obtain ⟨x3, e3, hs3, hg3⟩ := mergeAxes_ok x2 (am := ga) (at' := (ga : Int) + 1) (m := ga) (t := ga + 1)
    (normAxis_nat (by romega)) (by
      have : ((ga : Int) + 1) = ((ga + 1 : Nat) : Int) := by simp
      rw [this]; exact normAxis_nat (by romega)) (by left; omega) (by omega)
  have haf : after ga (ga + 1) = ga := by simp [after]
  rw [haf] at hg3
  have hn0 : nth x2.shape ga = A.length := by
    rw [hx2s, nth_insertIdx _ _ _ _ (by simp; romega), if_neg (by omega), if_pos rfl]
  have hn1 : nth x2.shape (ga + 1) = G.order := by
    rw [hx2s, nth_insertIdx _ _ _ _ (by simp; romega), if_neg (by omega), if_neg (by omega)]
    simp only [Nat.add_sub_cancel]
    rw [nth_set_self (by romega)]
  have hs3' : x3.shape = x.shape.set ga (G.order * A.length) := by
    rw [hs3, hn0, hn1, hx2s]
    apply ext_nth
    · simp only [List.length_set]
      rw [length_eraseIdx_of_lt, List.length_set, List.length_insertIdx_of_le_length, List.length_set]
      · omega
      · simp; romega
      · rw [List.length_set, List.length_insertIdx_of_le_length, List.length_set]
        · romega
        · rw [List.length_set]; romega
    · intro k hk
      rw [nth_eraseIdx, nth_set, nth_set, nth_insertIdx _ _ _ _ (by simp; romega),
        nth_insertIdx _ _ _ _ (by simp; romega)]
      have h5 : (List.insertIdx (x.shape.set ga G.order) ga A.length).length = x.shape.length + 1 := by
        rw [List.length_insertIdx_of_le_length, List.length_set]; simp; romega
      simp only [Tensor.rank, nth_set, h5] at *
      split_ifs <;> first | rfl | omega
  -- take
  obtain ⟨ci, e4, hci, hcg⟩ := compositionFlatIndices_ok S.tab hA hD
  have hr3 : x3.rank = x.rank := by simp only [Tensor.rank, hs3', List.length_set]
  have hlt4 : ∀ i ∈ ci, i < nth x3.shape ga := by
    intro v hv
    obtain ⟨k, hk, rfl⟩ := exists_nth_of_mem hv
    rw [hci] at hk
    have h1 : k / D.length < A.length := by rw [Nat.div_lt_iff_lt_mul hDlen]; exact hk
    have h2 : k % D.length < D.length := Nat.mod_lt _ hDlen
    have h3 := hcg _ _ h1 h2
    rw [Nat.div_add_mod'] at h3
    rw [h3, hs3', nth_set_self (by romega), Nat.mul_comm G.order]
    apply mul_add_lt h1
    exact (S.tab.comp _ (S.tab.inv _ (hAs.2.2.2.1 _ (nth_mem _ _ h1))).1 _ (hDs.2.2.2.1 _ (nth_mem _ _ h2))).1
  have e5 := take_ok x3 (a := ga) (by romega) hlt4
  -- split
  obtain ⟨x5, e6, hs6, hg6⟩ := splitAxes_ok (⟨x3.shape.set ga ci.length,
      fun idx => x3.get (idx.set ga (nth ci (nth idx ga)))⟩ : Tensor α) (ax := ga) (k := ga) (left := A.length)
    (q := D.length) (normAxis_nat (by simp only [Tensor.rank, List.length_set]; romega)) hAlen (by
      simp only
      rw [nth_set_self (by romega), hci])
  simp only at hs6 hg6
  have hs6' : x5.shape = x.shape.insertIdx ga A.length := by
    rw [hs6, hs3', List.set_set, List.set_set, ← hsz, set_nth_self]
  have hr5 : x5.rank = x.rank + 1 := by
    simp only [Tensor.rank, hs6']
    rw [List.length_insertIdx_of_le_length (by romega)]
  -- move
  obtain ⟨y, e7, hs7, hg7⟩ := moveaxis_ok x5 (s := ga) (d := a) (by romega) (by romega)
  refine ⟨y, ?_, ?_, ?_⟩
  · simp only [Group.actionOnGroup, sub_of_lookup hA, sub_of_lookup hD, res_bind_ok]
    by_cases hlt : D.length < G.order
    · rw [if_pos hlt] at e1 ⊢
      simp only [e1, res_bind_ok, e2, e3, e4, e5, e6, e7]
    · rw [if_neg hlt] at e1 ⊢
      cases e1
      simp only [res_bind_ok, e2, e3, e4, e5, e6, e7]
  · rw [hs7, hs6', eraseIdx_insertIdx' _ _ _ (by romega), nth_insertIdx _ _ _ _ (by romega), if_neg (by omega),
      if_pos rfl]
  · intro i idx hi hv
    have hl : idx.length = x.rank := hv.length
    have hli : (idx.insertIdx a i).length = x.rank + 1 := by
      rw [List.length_insertIdx_of_le_length (by omega), hl]
    rw [hg7 _ (by rw [hli, hr5]), eraseIdx_insertIdx' _ _ _ (by omega), nth_insertIdx _ _ _ _ (by omega),
      if_neg (by omega), if_pos rfl]
    have hv5 : Valid x5.shape (idx.insertIdx ga i) := by
      rw [hs6']; exact valid_insertIdx (by romega) hv hi
    have hjlt : nth idx ga < D.length := by rw [← hsz]; exact hv.lt hga
    have hAi := hAs.2.2.2.1 _ (nth_mem _ _ hi)
    have hDj := hDs.2.2.2.1 _ (nth_mem _ _ hjlt)
    have hc := (S.tab.comp _ (S.tab.inv _ hAi).1 _ hDj).1
    rw [hg6 _ hv5, eraseIdx_insertIdx' _ _ _ (by romega), nth_insertIdx _ _ _ _ (by romega), if_neg (by omega),
      if_pos rfl, nth_insertIdx _ _ _ _ (by romega), if_neg (by omega), if_neg (by omega), Nat.add_sub_cancel,
      nth_set_self (by romega), List.set_set, hcg i _ hi hjlt]
    have hv3 : Valid x3.shape (idx.set ga (i * G.order + G.comp (nth G.inverses (nth A i)) (nth D (nth idx ga)))) := by
      rw [hs3']
      rw [valid_iff]
      refine ⟨by simp [hl], fun k hk => ?_⟩
      rw [nth_set, nth_set]
      simp only [List.length_set] at hk
      by_cases hkg : k = ga
      · rw [if_pos ⟨hkg, by romega⟩, if_pos ⟨hkg, by romega⟩, Nat.mul_comm G.order]
        exact mul_add_lt hi hc
      · rw [if_neg (by omega), if_neg (by omega)]
        exact hv.lt hk
    rw [hg3 _ hv3, nth_set_self (by romega), List.set_set, hn1]
    have hpos := S.tab.pos
    rw [show (i * G.order + G.comp (nth G.inverses (nth A i)) (nth D (nth idx ga))) % G.order =
        G.comp (nth G.inverses (nth A i)) (nth D (nth idx ga)) by
          rw [Nat.add_comm, Nat.add_mul_mod_self_right, Nat.mod_eq_of_lt hc],
      show (i * G.order + G.comp (nth G.inverses (nth A i)) (nth D (nth idx ga))) / G.order = i by
          rw [Nat.add_comm, Nat.add_mul_div_right _ _ hpos, Nat.div_eq_of_lt hc, Nat.zero_add]]
    have hv1 : Valid x1.shape (idx.set ga (G.comp (nth G.inverses (nth A i)) (nth D (nth idx ga)))) := by
      rw [hs1, valid_iff]
      refine ⟨by simp [hl], fun k hk => ?_⟩
      rw [nth_set, nth_set]
      simp only [List.length_set] at hk
      by_cases hkg : k = ga
      · rw [if_pos ⟨hkg, by romega⟩, if_pos ⟨hkg, by romega⟩]
        exact hc
      · rw [if_neg (by omega), if_neg (by omega)]
        exact hv.lt hk
    have h2 := s2.2 ((idx.set ga (G.comp (nth G.inverses (nth A i)) (nth D (nth idx ga)))).insertIdx ga i) (by
      rw [s2.1]
      exact valid_insertIdx (by romega) hv1 (by simpa using hi))
    rw [h2, eraseIdx_insertIdx' _ _ _ (by simp; romega), nth_insertIdx _ _ _ _ (by simp; romega), if_neg (by omega),
      if_pos rfl]
    have e8 : (A.map fun i => elPull els axs (coords axs x1.shape) i).getD i id =
        elPull els axs (coords axs x.shape) (nth A i) := by
      rw [hcs]
      simp [hi, nth]
    rw [e8]
    have hvp := S.valid_elPull (s := x1.shape) (by have := hr1; simp only [Tensor.rank] at this; rw [this]; exact hax)
      (by rw [hcs]; exact hok) hAi hv1
    rw [hcs] at hvp
    rw [hg1 _ hvp, nth_elPull_of_not_mem hgax, nth_set_self (by romega), elPull_set hgax, List.set_set]
    rfl

theorem Sym.action_group [Zero α] (S : Sym G d els ok) (x : Tensor α) {axs : List Nat} {a ga : Nat}
    (hax : AxesOk d x.rank axs) (hok : ok (coords axs x.shape)) (ha : a ≤ x.rank) (hga : ga < x.rank) (hgax : ga ∉ axs)
    {sA sD : String} {A D : List Nat} (hA : lookup G.subgroup sA = .ok A) (hD : lookup G.subgroup sD = .ok D)
    (hsz : nth x.shape ga = D.length) :
    ∃ y, G.action x (axs.map Int.ofNat) a (some (ga : Int)) (some sA) (some sD) = .ok y ∧
      y.shape = x.shape.insertIdx a A.length ∧
      ∀ i idx, i < A.length → Valid x.shape idx →
        y.get (idx.insertIdx a i) = regular G.toGroupData els axs (coords axs x.shape) D ga x (nth A i) idx := by
  obtain ⟨y, ey, h⟩ := S.actionOnGroup x hax hok ha hga hgax hA hD hsz
  refine ⟨y, ?_, h⟩
  have hne := (S.tab.parse hD).2
  simp only [Group.action, (S.tab.parse hA).1, (S.tab.parse hD).1]
  exact ey

theorem parse_own (G : GroupData) (h : G.name ≠ "") : G.parseSubgroup (some "") = G.parseSubgroup (some G.name) := by
  rw [parse_nonempty G h]; rfl

theorem action_own_acting [Zero α] (S : Sym G d els ok) (x : Tensor α) (axs : List Int) (a : Int) (ga : Option Int)
    (D : Option String) : G.action x axs a ga (some "") D = G.action x axs a ga (some G.name) D := by
  simp only [Group.action, parse_own _ S.own_ne]

theorem action_own_domain [Zero α] (S : Sym G d els ok) (x : Tensor α) (axs : List Int) (a : Int) (ga : Option Int)
    (A : Option String) : G.action x axs a ga A (some "") = G.action x axs a ga A (some G.name) := by
  simp only [Group.action, parse_own _ S.own_ne]

theorem regular_full [Zero α] (S : Sym G d els ok) {axs n : List Nat} {ga : Nat} (x : Tensor α) {g : Nat}
    {idx : List Nat} (hg : g < G.order) (hi : nth idx ga < G.order) :
    regular G.toGroupData els axs n (List.range G.order) ga x g idx =
      x.get ((elPull els axs n g idx).set ga (G.comp (nth G.inverses g) (nth idx ga))) := by
  have hc := (S.tab.comp _ (S.tab.inv g hg).1 _ hi).1
  simp only [regular, nth_range, if_pos hi]
  rw [if_pos (by simpa using hc)]
  congr 2
  apply idxOf_eq_of_nth (by simpa using hc)
  · rw [nth_range, if_pos hc]
  · intro j hj hja
    simp only [List.length_range] at hj
    rw [nth_range, if_pos hj] at hja
    exact hja

theorem slice_shape {y : Tensor α} {s : List Nat} {a g N : Nat} (h : y.shape = s.insertIdx a N) (ha : a ≤ s.length) :
    (slice y a g).shape = s := by
  simp only [slice, h]
  rw [eraseIdx_insertIdx' _ _ _ ha]

/-- `H[i]` composes in the small group like in the big one -/
theorem sub_embed (n m : GroupName) {H : List Nat} (h : lookup n.group.subgroup m.group.name = .ok H) :
    m.dim = n.dim ∧ m.els = selEls n.els H := by
  have key : ∀ n m : GroupName, ∀ e ∈ n.group.subgroup, e.1 = m.group.name → m.dim = n.dim ∧ m.els = selEls n.els e.2 := by
    intro n m
    cases n <;> cases m <;> decide +kernel
  exact key n m _ (lookup_mem h) rfl

theorem GroupName.sub_name (n : GroupName) {s : String} {H : List Nat} (h : lookup n.group.subgroup s = .ok H) :
    ∃ m : GroupName, m.group.name = s := by
  have key : ∀ n : GroupName, ∀ e ∈ n.group.subgroup,
      e.1 ∈ [GroupName.P1.group.name, GroupName.P2.group.name, GroupName.PMw.group.name, GroupName.PMh.group.name,
        GroupName.P2MM.group.name, GroupName.P4.group.name, GroupName.P4M.group.name, GroupName.Oh.group.name,
        GroupName.O.group.name, GroupName.D4h.group.name, GroupName.D4.group.name] := by
    intro n
    cases n <;> decide +kernel
  have := key n _ (lookup_mem h)
  simp only [List.mem_cons, List.not_mem_nil, or_false] at this
  rcases this with h | h | h | h | h | h | h | h | h | h | h <;> exact ⟨_, h.symm⟩

theorem sub_embed_els {n m : GroupName} {H : List Nat} (h : lookup n.group.subgroup m.group.name = .ok H) :
    m.group.order = H.length ∧ ∀ i, i < H.length → m.els.getD i [] = n.els.getD (nth H i) [] := by
  obtain ⟨_, he⟩ := sub_embed n m h
  refine ⟨by rw [← m.sym.tab.len, he]; simp [selEls], fun i hi => ?_⟩
  rw [he]
  simp [selEls, hi, nth]

theorem sub_embed_comp {n m : GroupName} {H : List Nat} (h : lookup n.group.subgroup m.group.name = .ok H)
    {i j : Nat} (hi : i < H.length) (hj : j < H.length) :
    nth H (m.group.comp i j) = n.group.comp (nth H i) (nth H j) := by
  obtain ⟨ho, he⟩ := sub_embed_els h
  have hlt := (n.sym.tab.subs _ (lookup_mem h)).2.2.2.1
  have hm := m.sym.tab.comp i (by omega) j (by omega)
  have hn := n.sym.tab.comp _ (hlt _ (nth_mem _ _ hi)) _ (hlt _ (nth_mem _ _ hj))
  have h1 : m.group.comp i j < H.length := by rw [← ho]; exact hm.1
  apply n.sym.tab.inj (hlt _ (nth_mem _ _ h1)) hn.1
  rw [← he _ h1, hm.2, hn.2, he i hi, he j hj]

theorem sub_embed_inv {n m : GroupName} {H : List Nat} (h : lookup n.group.subgroup m.group.name = .ok H)
    {i : Nat} (hi : i < H.length) : nth H (nth m.group.inverses i) = nth n.group.inverses (nth H i) := by
  obtain ⟨ho, he⟩ := sub_embed_els h
  have hs := n.sym.tab.subs _ (lookup_mem h)
  have hlt := hs.2.2.2.1
  have hmi := m.sym.tab.inv i (by omega)
  have hH0 : nth H 0 = 0 := by
    have := hs.2.2.1
    cases H with
    | nil => simp at this
    | cons a _ => simpa using this
  have h1 : nth m.group.inverses i < H.length := by rw [← ho]; exact hmi.1
  have e1 : n.group.comp (nth H i) (nth H (nth m.group.inverses i)) = 0 := by
    rw [← sub_embed_comp h hi h1, hmi.2.1, hH0]
  have hLi := hlt _ (nth_mem _ _ hi)
  have hL1 := hlt _ (nth_mem _ _ h1)
  have hni := n.sym.tab.inv _ hLi
  have L := n.sym.tab.laws
  have e2 := L.assoc (nth n.group.inverses (nth H i)) (nth H i) (nth H (nth m.group.inverses i)) hni.1 hLi hL1
  rw [e1, hni.2.2] at e2
  rw [L.one_mul _ hL1, L.mul_one _ hni.1] at e2
  exact e2

theorem sub_grid {n m : GroupName} {H : List Nat} (h : lookup n.group.subgroup m.group.name = .ok H) {sizes : List Nat}
    (hg : n.Grid sizes) : m.Grid sizes := by
  obtain ⟨hd, _⟩ := sub_embed n m h
  have key : ∀ n m : GroupName, ∀ e ∈ n.group.subgroup, e.1 = m.group.name → (m = .P4 ∨ m = .P4M) →
      (n = .P4 ∨ n = .P4M) := by
    intro n m
    cases n <;> cases m <;> decide +kernel
  have hk := key n m _ (lookup_mem h) rfl
  clear key h
  have h1 := hg.1
  have h2 := hg.2
  cases n <;> cases m <;>
    first
    | exact ⟨h1, trivial⟩
    | exact ⟨h1, h2⟩
    | exact absurd hd (by decide)
    | exact absurd (hk (by simp)) (by simp)

end GroCo
