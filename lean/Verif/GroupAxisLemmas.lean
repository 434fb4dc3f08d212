import Verif.NegativeLemmas
import Verif.TotalLemmas
import Mathlib.Data.List.InsertIdx

/-
Helper lemmas: the sizes of the axes other than the new one under the actions, for any way of writing the new axis.
-/

namespace GroCo
open Tensor

variable {α : Type}

/-- `y` has the shape of `x` with an axis put in at `a` -/
def AddsAxis (a : Nat) (x y : Tensor α) : Prop := y.shape.eraseIdx a = x.shape ∧ y.rank = x.rank + 1

theorem expandDims_adds {x y : Tensor α} {na : Int} {a : Nat} (h : expandDims x na = .ok y) (ha : normAxis (x.rank + 1) na = .ok a) :
    AddsAxis a x y := by
  refine ⟨?_, expandDims_rank h⟩
  unfold expandDims at h
  obtain ⟨b, hb, h⟩ := bind_eq_ok h
  rw [ha] at hb
  cases hb
  cases h
  have := normAxis_lt ha
  exact eraseIdx_insertIdx' _ _ _ (by unfold Tensor.rank at this; omega)

theorem flip_adds {x u v : Tensor α} {na : Int} {a : Nat} (hu : AddsAxis a x u) (h : flip u na = .ok v) : AddsAxis a x v := by
  unfold flip at h
  obtain ⟨b, hb, h⟩ := bind_eq_ok h
  cases h
  exact hu

theorem concatenate_adds {x u v : Tensor α} {us : List (Tensor α)} {na : Int} {a : Nat} (hu : AddsAxis a x u)
    (ha : normAxis (x.rank + 1) na = .ok a) (h : concatenate (u :: us) na = .ok v) : AddsAxis a x v := by
  refine ⟨?_, (concatenate_rank h).trans hu.2⟩
  unfold concatenate at h
  obtain ⟨b, hb, h⟩ := bind_eq_ok h
  rw [hu.2, ha] at hb
  cases hb
  split at h
  · cases h
    rw [eraseIdx_set_self]
    exact hu.1
  · cases h

theorem take_adds {x u v : Tensor α} {is : List Nat} {na : Int} {a : Nat} (hu : AddsAxis a x u)
    (ha : normAxis (x.rank + 1) na = .ok a) (h : take u is na = .ok v) : AddsAxis a x v := by
  refine ⟨?_, (take_rank h).trans hu.2⟩
  unfold take at h
  obtain ⟨b, hb, h⟩ := bind_eq_ok h
  rw [hu.2, ha] at hb
  cases hb
  split at h
  · cases h
    rw [eraseIdx_set_self]
    exact hu.1
  · cases h

theorem Oh_adds {x y : Tensor α} {axs : List Int} {na : Int} {a : Nat} (ha : normAxis (x.rank + 1) na = .ok a)
    (e : Oh_action x axs na = .ok y) : AddsAxis a x y := by
  unfold Oh_action at e
  obtain ⟨o, -, e⟩ := bind_eq_ok e
  obtain ⟨ys, hys, e⟩ := bind_eq_ok e
  have hp : ∃ m, ohParameters = ([0, 1, 2], []) :: m := ⟨_, rfl⟩
  obtain ⟨m, hp⟩ := hp
  rw [hp, List.mapM_cons] at hys
  obtain ⟨t, ht, hys⟩ := bind_eq_ok hys
  obtain ⟨ts, -, hys⟩ := bind_eq_ok hys
  cases hys
  refine concatenate_adds ?_ ha e
  obtain ⟨u, hu, ht⟩ := bind_eq_ok ht
  cases hu
  obtain ⟨v, hv, ht⟩ := bind_eq_ok ht
  have hr := transpose_rank hv
  have hs : v.shape = x.shape := by
    unfold transpose at hv
    split at hv
    · rename_i hc
      cases hv
      have h1 := hc.1
      have hl : o + 3 ≤ x.rank := by
        simp only [List.length_append, List.length_range, List.length_map, List.length_cons, List.length_nil,
          List.length_drop] at h1
        by_contra hcon
        have : (List.range x.rank).length - (o + 3) = 0 := by simp; omega
        have h2 := hc.2 (x.rank - 1)
        by_cases h0 : x.rank = 0
        · omega
        · simp only [List.length_range] at this
          omega
      have he : List.range o ++ [0, 1, 2].map (· + o) ++ (List.range x.rank).drop (o + 3) = List.range x.rank := by
        have h3 : List.range o ++ [0, 1, 2].map (· + o) = List.range (o + 3) := by
          rw [List.range_add]
          simp [List.range_succ, Nat.add_comm]
        rw [h3]
        have h4 : List.range (o + 3) = (List.range x.rank).take (o + 3) := by
          rw [List.take_range, Nat.min_eq_left hl]
        rw [h4, List.take_append_drop]
      simp only [he]
      exact map_nth_range _
    · cases hv
  have := expandDims_adds ht (by rw [hr]; exact ha)
  exact ⟨this.1.trans hs, by rw [this.2, hr]⟩

/-- the actions leave the sizes of the other axes alone, whatever the spatial axes -/
theorem act_adds (n : GroupName) {x y : Tensor α} {axs : List Int} {na : Int} {a : Nat} (ha : normAxis (x.rank + 1) na = .ok a)
    (e : n.group.act α x axs na = .ok y) : AddsAxis a x y := by
  have sub : ∀ s, subgroupAction Oh s α x axs na = .ok y → AddsAxis a x y := by
    intro s e
    obtain ⟨z, ez, e⟩ := bind_eq_ok e
    obtain ⟨is, -, e⟩ := bind_eq_ok e
    exact take_adds (Oh_adds ha ez) ha e
  cases n
  · exact expandDims_adds e ha
  · obtain ⟨hw, -, e⟩ := bind_eq_ok e
    obtain ⟨x1, e1, e⟩ := bind_eq_ok e
    obtain ⟨_, -, e⟩ := bind_eq_ok e
    obtain ⟨_, -, e⟩ := bind_eq_ok e
    exact concatenate_adds (expandDims_adds e1 ha) ha e
  · obtain ⟨hw, -, e⟩ := bind_eq_ok e
    obtain ⟨x1, e1, e⟩ := bind_eq_ok e
    obtain ⟨_, -, e⟩ := bind_eq_ok e
    exact concatenate_adds (expandDims_adds e1 ha) ha e
  · obtain ⟨hw, -, e⟩ := bind_eq_ok e
    obtain ⟨x1, e1, e⟩ := bind_eq_ok e
    obtain ⟨_, -, e⟩ := bind_eq_ok e
    exact concatenate_adds (expandDims_adds e1 ha) ha e
  · obtain ⟨hw, -, e⟩ := bind_eq_ok e
    obtain ⟨x1, e1, e⟩ := bind_eq_ok e
    obtain ⟨_, -, e⟩ := bind_eq_ok e
    obtain ⟨x2, e2, e⟩ := bind_eq_ok e
    obtain ⟨_, -, e⟩ := bind_eq_ok e
    exact concatenate_adds (concatenate_adds (expandDims_adds e1 ha) ha e2) ha e
  · obtain ⟨hw, -, e⟩ := bind_eq_ok e
    obtain ⟨x1, e1, e⟩ := bind_eq_ok e
    obtain ⟨_, -, e⟩ := bind_eq_ok e
    obtain ⟨_, -, e⟩ := bind_eq_ok e
    obtain ⟨x2, e2, e⟩ := bind_eq_ok e
    obtain ⟨_, -, e⟩ := bind_eq_ok e
    obtain ⟨_, -, e⟩ := bind_eq_ok e
    obtain ⟨_, -, e⟩ := bind_eq_ok e
    obtain ⟨x3, e3, e⟩ := bind_eq_ok e
    exact take_adds (concatenate_adds (concatenate_adds (expandDims_adds e1 ha) ha e2) ha e3) ha e
  · obtain ⟨hw, -, e⟩ := bind_eq_ok e
    obtain ⟨x1, e1, e⟩ := bind_eq_ok e
    obtain ⟨_, -, e⟩ := bind_eq_ok e
    obtain ⟨x2, e2, e⟩ := bind_eq_ok e
    obtain ⟨_, -, e⟩ := bind_eq_ok e
    obtain ⟨x3, e3, e⟩ := bind_eq_ok e
    obtain ⟨_, -, e⟩ := bind_eq_ok e
    obtain ⟨_, -, e⟩ := bind_eq_ok e
    obtain ⟨x4, e4, e⟩ := bind_eq_ok e
    exact take_adds (concatenate_adds (concatenate_adds (concatenate_adds (expandDims_adds e1 ha) ha e2) ha e3) ha e4) ha e
  · exact Oh_adds ha e
  · exact sub _ e
  · exact sub _ e
  · exact sub _ e

theorem actionOnGrid_adds (n : GroupName) {x y : Tensor α} {axs : List Int} {na : Int} {s : Option String} {a : Nat}
    (ha : normAxis (x.rank + 1) na = .ok a) (e : n.group.actionOnGrid x na axs s = .ok y) : AddsAxis a x y := by
  obtain ⟨z, ez, e⟩ := bind_eq_ok e
  obtain ⟨is, -, e⟩ := bind_eq_ok e
  exact take_adds (act_adds n ha ez) ha e

theorem take_size {x y : Tensor α} {is : List Nat} {ax : Int} {a : Nat} (ha : normAxis x.rank ax = .ok a)
    (h : take x is ax = .ok y) : nth y.shape a = is.length ∧ ∀ i ∈ is, i < nth x.shape a := by
  unfold take at h
  obtain ⟨b, hb, h⟩ := bind_eq_ok h
  rw [ha] at hb
  cases hb
  split at h
  · cases h
    refine ⟨?_, ‹_›⟩
    have := normAxis_lt ha
    unfold Tensor.rank at this
    simp [nth, this]
  · cases h

theorem concatenate_size {x y : Tensor α} {us : List (Tensor α)} {ax : Int} {a : Nat} (ha : normAxis x.rank ax = .ok a)
    (h : concatenate (x :: us) ax = .ok y) : nth y.shape a = ((x :: us).map fun u => nth u.shape a).sum := by
  unfold concatenate at h
  obtain ⟨b, hb, h⟩ := bind_eq_ok h
  rw [ha] at hb
  cases hb
  split at h
  · cases h
    have := normAxis_lt ha
    unfold Tensor.rank at this
    simp [nth, this]
  · cases h

theorem mapM_length {β γ : Type} {f : β → Res γ} {l : List β} {r : List γ} (h : l.mapM f = .ok r) : r.length = l.length := by
  induction l generalizing r with
  | nil => cases h; rfl
  | cons a l ih =>
    rw [List.mapM_cons] at h
    obtain ⟨c, hc, h⟩ := bind_eq_ok h
    obtain ⟨cs, hcs, h⟩ := bind_eq_ok h
    cases h
    simp [ih hcs]

/-- upsampling gives the whole group, also along an axis counted from the end -/
theorem upsample_size [Zero α] (n : GroupName) {x y : Tensor α} {k : Nat} (h1 : 0 < k) (h2 : k ≤ x.rank) {d : Option String}
    (h : n.group.upsample x (-(k : Int)) d = .ok y) : nth y.shape (x.rank - k) = n.group.order := by
  unfold GroupData.upsample at h
  obtain ⟨dom, hd, h⟩ := bind_eq_ok h
  have h0 := sub_zero_mem n hd
  obtain ⟨ps, hps, h⟩ := bind_eq_ok h
  have hlen : ps.length = n.group.order := by
    have := mapM_length hps
    rwa [List.length_range] at this
  have hone : ∀ p ∈ ps, nth p.shape (x.rank - k) = 1 := by
    refine mapM_ok_all _ ?_ hps
    intro i _ p hp
    split at hp
    · exact (take_size (normAxis_neg h2 h1) hp).1
    · cases hp
      have e1 : (-(k : Int)) < 0 := by omega
      have e2 : (((x.shape.length : Int) + -(k : Int))).toNat = x.rank - k := by unfold Tensor.rank; omega
      simp only [zeros, sliceTo, if_pos e1, e2]
      have e3 : (x.shape.take (x.rank - k)).length = x.rank - k := by
        rw [List.length_take]; unfold Tensor.rank; omega
      rw [List.append_assoc, nth_append, if_neg (by omega), e3, Nat.sub_self]
      rfl
  have ho : ∃ m, List.range n.group.order = 0 :: m := by cases n <;> exact ⟨_, rfl⟩
  obtain ⟨m, ho⟩ := ho
  rw [ho, List.mapM_cons, if_pos h0] at hps
  obtain ⟨p, hp, hps⟩ := bind_eq_ok hps
  obtain ⟨qs, -, hps⟩ := bind_eq_ok hps
  cases hps
  rw [concatenate_size (by rw [take_rank hp]; exact normAxis_neg h2 h1) h, List.map_congr_left hone, ← hlen]
  simp [Nat.add_comm]

/-- merging axes: the sizes of axes in front of the merged one, other than the target -/
theorem mergeAxes_size {x y : Tensor α} {m t : Int} {m' t' i : Nat} (hm : pyIndex x.rank m = .ok m') (ht : pyIndex x.rank t = .ok t')
    (h : mergeAxes x m t = .ok y) (hi : i < m') (hit : i ≠ t') : nth y.shape i = nth x.shape i := by
  unfold mergeAxes mergeAxesS at h
  obtain ⟨s, hs, h⟩ := bind_eq_ok h
  obtain ⟨z, hz, h⟩ := bind_eq_ok h
  have hm' := pyIndex_lt' hm
  have ht' := pyIndex_lt' ht
  unfold Tensor.rank at hm ht hm' ht'
  unfold mergeShapes at hs
  simp only [List.length_map, hm, ht, res_bind_ok, List.getElem?_map, List.getElem?_eq_getElem hm',
    List.getElem?_eq_getElem ht', Option.map_some] at hs
  cases hs
  obtain ⟨l, hl, h⟩ := bind_eq_ok h
  have hl' : l = (x.shape.set t' (x.shape[t'] * x.shape[m'])).eraseIdx m' := by
    unfold resolveShape at hl
    have hall : (formatBatchDim (((x.shape.map some).set t' (some (x.shape[t'] * x.shape[m']))).eraseIdx m')) =
        ((x.shape.set t' (x.shape[t'] * x.shape[m'])).eraseIdx m').map Int.ofNat := by
      rw [formatBatchDim, ← List.map_set, List.eraseIdx_map, List.map_map]
      rfl
    rw [hall, if_pos] at hl
    · cases hl
      simp [List.map_map, Function.comp_def]
    · simp
  unfold reshapeN at h
  split at h
  · cases h
    simp only [hl', nth, List.getD_eq_getElem?_getD]
    rw [List.getElem?_eraseIdx, if_pos hi, List.getElem?_set, if_neg (Ne.symm hit)]
  · cases h

/-- the flat composition indices of two acting elements leave the range of one -/
theorem compositionFlatIndices_large (n : GroupName) {acting domain : Option String} {A ci : List Nat}
    (hA : n.group.sub acting = .ok A) (h2 : 2 ≤ A.length) (h : n.group.compositionFlatIndices acting domain = .ok ci) :
    ∃ i ∈ ci, n.group.order ≤ i := by
  unfold GroupData.compositionFlatIndices at h
  rw [hA, res_bind_ok] at h
  obtain ⟨invs, h1, h⟩ := bind_eq_ok h
  obtain ⟨rows, h3, h⟩ := bind_eq_ok h
  obtain ⟨D, hD, h⟩ := bind_eq_ok h
  obtain ⟨sub, h4, h⟩ := bind_eq_ok h
  cases h
  have hlen : 1 < sub.length := by rw [mapM_length h4, mapM_length h3, mapM_length h1]; omega
  have hrow : ∀ row ∈ sub, row ≠ [] := by
    refine mapM_ok_all _ ?_ h4
    intro row _ z hz e
    have := mapM_length hz
    have h0 := List.length_pos_of_mem (sub_zero_mem n hD)
    rw [e] at this
    simp only [List.length_nil] at this
    omega
  obtain ⟨c, hc⟩ := List.exists_mem_of_ne_nil _ (hrow _ (List.getElem_mem hlen))
  refine ⟨1 * n.group.order + c, ?_, by omega⟩
  rw [List.mem_flatten]
  refine ⟨sub[1].map fun c => 1 * n.group.order + c, ?_, List.mem_map_of_mem hc⟩
  rw [List.mem_mapIdx]
  exact ⟨1, hlen, rfl⟩

end GroCo
