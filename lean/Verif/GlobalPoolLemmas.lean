import Mathlib.Algebra.BigOperators.Ring.List
import Verif.FirstEquiv
import Verif.PoolEquiv

/-
Helper lemmas: global group pooling.
-/

namespace GroCo
open Tensor

variable {α : Type}

/-! ### nested maxima and means -/

theorem maxOf_flatMap [LinearOrder α] [Zero α] {β : Type} {l : List β} (hl : l ≠ []) {F : β → List α} (hF : ∀ b ∈ l, F b ≠ []) :
    maxOf (l.map fun b => maxOf (F b)) = maxOf (l.flatMap F) := by
  have h1 := maxOf_mem (l := l.map fun b => maxOf (F b)) (by simpa using hl)
  have h2 := maxOf_mem (l := l.flatMap F) (by
    cases l with
    | nil => exact absurd rfl hl
    | cons b l =>
      rw [List.flatMap_cons]
      intro h
      exact hF b (by simp) (List.append_eq_nil_iff.1 h).1)
  apply le_antisymm
  · obtain ⟨b, hb, e⟩ := List.mem_map.1 h1
    rw [← e]
    exact le_maxOf (List.mem_flatMap.2 ⟨b, hb, maxOf_mem (hF b hb)⟩)
  · obtain ⟨b, hb, e⟩ := List.mem_flatMap.1 h2
    exact le_trans (le_maxOf e) (le_maxOf (List.mem_map.2 ⟨b, hb, rfl⟩))

theorem sum_map_div [Field α] {β : Type} (l : List β) (F : β → α) (c : α) : (l.map fun b => F b / c).sum = (l.map F).sum / c := by
  induction l with
  | nil => simp
  | cons b l ih => simp only [List.map_cons, List.sum_cons, ih, add_div]

theorem meanOf_flatMap [Field α] {β : Type} {l : List β} {F : β → List α} {g : Nat} (hF : ∀ b ∈ l, (F b).length = g) :
    meanOf (l.map fun b => meanOf (F b)) = meanOf (l.flatMap F) := by
  have hlen : (l.flatMap F).length = l.length * g := by
    clear * - hF
    induction l with
    | nil => simp
    | cons b l ih =>
      rw [List.flatMap_cons, List.length_append, hF b (by simp), ih fun c hc => hF c (by simp [hc]), List.length_cons]
      ring
  have hsum : (l.flatMap F).sum = (l.map fun b => (F b).sum).sum := by
    clear * -
    induction l with
    | nil => simp
    | cons b l ih => rw [List.flatMap_cons, List.sum_append, ih, List.map_cons, List.sum_cons]
  unfold meanOf
  rw [hlen, hsum, List.length_map]
  have : (l.map fun b => (F b).sum / ((F b).length : α)) = l.map fun b => (F b).sum / (g : α) := by
    apply List.map_congr_left
    intro b hb
    rw [hF b hb]
  rw [this, sum_map_div, div_div]
  push_cast
  rw [mul_comm]

theorem reduce_flatMap [Field α] [LinearOrder α] (t : PoolType) {β : Type} {l : List β} (hl : l ≠ []) {F : β → List α} {g : Nat}
    (hg : g ≠ 0) (hF : ∀ b ∈ l, (F b).length = g) : t.reduce (l.map fun b => t.reduce (F b)) = t.reduce (l.flatMap F) := by
  cases t with
  | max => exact maxOf_flatMap hl fun b hb h => hg (by rw [← hF b hb, h]; rfl)
  | average => exact meanOf_flatMap hF

theorem indices_ne_nil {n : List Nat} (h : 0 ∉ n) : indices n ≠ [] := by
  intro e
  have : List.replicate n.length 0 ∈ indices n := by
    rw [mem_indices]
    clear e
    induction n with
    | nil => trivial
    | cons a n ih =>
      simp only [List.mem_cons, not_or] at h
      exact ⟨by omega, ih h.2⟩
  rw [e] at this
  exact absurd this (by simp)

/-! ### calling -/

theorem poolGroup_ok [Field α] [LinearOrder α] {l : GlobalGroupPooling} {x : Tensor α} {B C g : Nat} {m : List Nat}
    (hx : x.shape = sigShape l.dataFormat B m (some g) C) (hm : m.length = l.dimensions) (hg : g ≠ 0) :
    ∃ y, l.poolGroup x = .ok y ∧ y.shape = sigShape l.dataFormat B m none C ∧
      ∀ b p c, p.length = m.length → y.get (match l.dataFormat with
        | .channelsLast => b :: p ++ [c]
        | .channelsFirst => b :: c :: p) =
          l.poolType.reduce ((List.range g).map fun j => x.get (sigIndex l.dataFormat b p j c)) := by
  unfold GlobalGroupPooling.poolGroup GlobalGroupPooling.groupAxis
  cases hf : l.dataFormat with
  | channelsLast =>
    rw [hf] at hx
    have hx' : x.shape = B :: m ++ [g, C] := hx
    have hr : x.rank = l.dimensions + 3 := by simp [Tensor.rank, hx', hm]
    have hl1 : (B :: m).length = l.dimensions + 1 := by simp [hm]
    have hsz : nth x.shape (l.dimensions + 1) = g := by rw [hx']; lay hl1
    unfold reduceAxis
    simp only
    rw [show (l.dimensions : Int) + 1 = ((l.dimensions + 1 : Nat) : Int) by push_cast; rfl, normAxis_nat (by omega)]
    simp only [res_bind_ok, hsz, if_neg hg, res_pure]
    refine ⟨_, rfl, ?_, ?_⟩
    · simp only [hx']
      show _ = B :: m ++ [C]
      lay hl1
    · intro b p c hp
      have hpl : (b :: p).length = l.dimensions + 1 := by simp [hp, hm]
      simp only
      congr 1
      apply List.map_congr_left
      intro j _
      congr 1
      show (b :: p ++ [c]).insertIdx (l.dimensions + 1) j = b :: p ++ [j, c]
      lay hpl
  | channelsFirst =>
    rw [hf] at hx
    have hx' : x.shape = B :: C :: m ++ [g] := hx
    have hr : x.rank = l.dimensions + 3 := by simp [Tensor.rank, hx', hm]
    have hl1 : (B :: C :: m).length = l.dimensions + 2 := by simp [hm]
    have hsz : nth x.shape (l.dimensions + 2) = g := by rw [hx']; lay hl1
    unfold reduceAxis
    simp only
    rw [show (l.dimensions : Int) + 2 = ((l.dimensions + 2 : Nat) : Int) by push_cast; rfl, normAxis_nat (by omega)]
    simp only [res_bind_ok, hsz, if_neg hg, res_pure]
    refine ⟨_, rfl, ?_, ?_⟩
    · simp only [hx']
      show _ = B :: C :: m ++ []
      lay hl1
    · intro b p c hp
      have hpl : (b :: c :: p).length = l.dimensions + 2 := by simp [hp, hm]
      simp only
      congr 1
      apply List.map_congr_left
      intro j _
      congr 1
      show (b :: c :: p).insertIdx (l.dimensions + 2) j = b :: c :: p ++ [j]
      rw [show b :: c :: p = (b :: c :: p) ++ [] by simp]
      lay hpl
      simp

theorem global_call [Field α] [LinearOrder α] {l : GlobalGroupPooling} {x : Tensor α} {B C g : Nat} {m : List Nat}
    (hx : x.shape = sigShape l.dataFormat B m (some g) C) (hm : m.length = l.dimensions) (hg : g ≠ 0) (h0 : 0 ∉ m) :
    ∃ y, l.call x = .ok y ∧ y.shape = globalShape l.dataFormat l.dimensions l.keepdims B C ∧
      ∀ b c, y.get (globalIndex l.dataFormat l.dimensions l.keepdims b c) =
        l.poolType.reduce (allEntries l.dataFormat m g x b c) := by
  obtain ⟨u, eu, hu, hug⟩ := poolGroup_ok hx hm hg
  have hred : ∀ b c, l.poolType.reduce ((indices m).map fun p => l.poolType.reduce ((List.range g).map fun j =>
      x.get (sigIndex l.dataFormat b p j c))) = l.poolType.reduce (allEntries l.dataFormat m g x b c) := fun b c =>
    reduce_flatMap l.poolType (indices_ne_nil h0) hg fun p _ => by simp
  unfold GlobalGroupPooling.call
  rw [eu]
  simp only [res_bind_ok]
  cases hf : l.dataFormat with
  | channelsLast =>
    rw [hf] at hu hug hred
    have hu' : u.shape = B :: m ++ [C] := hu
    have hr : u.rank = l.dimensions + 2 := by simp [Tensor.rank, hu', hm]
    have hl1 : (B :: m).length = l.dimensions + 1 := by simp [hm]
    have hsp : spatialShapeOf .channelsLast l.dimensions u.shape = m := by
      simp [spatialShapeOf, hu', ← hm]
    have h1 : nth u.shape (l.dimensions + 1) = C := by rw [hu']; lay hl1
    have h2 : nth u.shape 0 = B := by rw [hu']; rfl
    unfold kerasGlobalPool
    simp only [hsp, hr, h1, h2, h0, ne_eq, not_true, or_self, if_false, res_bind_ok]
    unfold GlobalGroupPooling.restoreGroupAxis GlobalGroupPooling.groupAxis
    rw [hf]
    cases hk : l.keepdims with
    | false =>
      simp only [Bool.false_eq_true, if_false]
      refine ⟨_, rfl, rfl, ?_⟩
      intro b c
      rw [← hred]
      show l.poolType.reduce ((indices m).map fun p => u.get (b :: p ++ [c])) = _
      congr 1
      apply List.map_congr_left
      intro p hp
      rw [mem_indices] at hp
      exact hug b p c hp.length
    | true =>
      simp only [if_true]
      rw [show (l.dimensions : Int) + 1 = ((l.dimensions + 1 : Nat) : Int) by push_cast; rfl,
        expandDims_ok _ (by simp [Tensor.rank])]
      refine ⟨_, rfl, ?_, ?_⟩
      · have hl2 : (B :: List.replicate l.dimensions 1).length = l.dimensions + 1 := by simp
        show _ = B :: List.replicate l.dimensions 1 ++ [1, C]
        simp only
        lay hl2
      · intro b c
        rw [← hred]
        have hl2 : (b :: List.replicate l.dimensions 0).length = l.dimensions + 1 := by simp
        have hi : (globalIndex .channelsLast l.dimensions true b c).eraseIdx (l.dimensions + 1) =
            b :: List.replicate l.dimensions 0 ++ [c] := by
          show (b :: List.replicate l.dimensions 0 ++ [0, c]).eraseIdx _ = _
          lay hl2
        simp only [hi]
        have h3 : nth (b :: List.replicate l.dimensions 0 ++ [c]) (l.dimensions + 1) = c := by lay hl2
        have h4 : nth (b :: List.replicate l.dimensions 0 ++ [c]) 0 = b := rfl
        simp only [h3, h4]
        congr 1
        apply List.map_congr_left
        intro p hp
        rw [mem_indices] at hp
        exact hug b p c hp.length
  | channelsFirst =>
    rw [hf] at hu hug hred
    have hu' : u.shape = B :: C :: m := by rw [hu]; simp [sigShape]
    have hr : u.rank = l.dimensions + 2 := by simp [Tensor.rank, hu', hm]
    have hsp : spatialShapeOf .channelsFirst l.dimensions u.shape = m := by
      simp [spatialShapeOf, hu', ← hm]
    have h1 : nth u.shape 1 = C := by rw [hu']; rfl
    have h2 : nth u.shape 0 = B := by rw [hu']; rfl
    unfold kerasGlobalPool
    simp only [hsp, hr, h1, h2, h0, ne_eq, not_true, or_self, if_false, res_bind_ok]
    unfold GlobalGroupPooling.restoreGroupAxis GlobalGroupPooling.groupAxis
    rw [hf]
    cases hk : l.keepdims with
    | false =>
      simp only [Bool.false_eq_true, if_false]
      refine ⟨_, rfl, rfl, ?_⟩
      intro b c
      rw [← hred]
      show l.poolType.reduce ((indices m).map fun p => u.get (b :: c :: p)) = _
      congr 1
      apply List.map_congr_left
      intro p hp
      rw [mem_indices] at hp
      exact hug b p c hp.length
    | true =>
      simp only [if_true]
      rw [show (l.dimensions : Int) + 2 = ((l.dimensions + 2 : Nat) : Int) by push_cast; rfl,
        expandDims_ok _ (by simp [Tensor.rank])]
      refine ⟨_, rfl, ?_, ?_⟩
      · have hl2 : (B :: C :: List.replicate l.dimensions 1).length = l.dimensions + 2 := by simp
        show _ = B :: C :: List.replicate l.dimensions 1 ++ [1]
        simp only
        rw [show B :: C :: List.replicate l.dimensions 1 = (B :: C :: List.replicate l.dimensions 1) ++ [] by simp]
        lay hl2
        simp
      · intro b c
        rw [← hred]
        have hl2 : (b :: c :: List.replicate l.dimensions 0).length = l.dimensions + 2 := by simp
        have hi : (globalIndex .channelsFirst l.dimensions true b c).eraseIdx (l.dimensions + 2) =
            b :: c :: List.replicate l.dimensions 0 := by
          show (b :: c :: List.replicate l.dimensions 0 ++ [0]).eraseIdx _ = _
          lay hl2
          simp
        simp only [hi]
        have h3 : nth (b :: c :: List.replicate l.dimensions 0) 1 = c := rfl
        have h4 : nth (b :: c :: List.replicate l.dimensions 0) 0 = b := rfl
        simp only [h3, h4]
        congr 1
        apply List.map_congr_left
        intro p hp
        rw [mem_indices] at hp
        exact hug b p c hp.length

/-! ### invariance -/

/-- acting on a signal on the group, both data formats -/
theorem act_sig [Zero α] (n : GroupName) (fmt : DataFormat) (x : Tensor α) {B : Nat} {m : List Nat} {g C : Nat}
    (hx : x.shape = sigShape fmt B m (some g) C) (hm : n.Grid m) {s sD : String} {A D : List Nat} {ta td : Option String}
    (hta : n.group.parseSubgroup ta = some s) (hA : lookup n.group.subgroup s = .ok A)
    (hg : g = D.length) (htd : n.group.parseSubgroup td = some sD) (hD : lookup n.group.subgroup sD = .ok D)
    (hAD : ∀ e ∈ A, e ∈ D) :
    ∃ y, n.group.action x (spatialAxes fmt n.dim) 0 (some (groupAxis fmt n.dim : Int)) ta td = .ok y ∧
      y.shape = A.length :: x.shape ∧
      ∀ i, i < A.length → (slice y 0 i).shape = x.shape ∧
        ∀ b p j c, b < B → Valid m p → j < g → c < C → (slice y 0 i).get (sigIndex fmt b p j c) =
          x.get (sigIndex fmt b (back n.els m (nth A i) p) (turn n.group.toGroupData D (nth A i) j) c) := by
  cases fmt with
  | channelsLast =>
    obtain ⟨y, e1, e2, e3⟩ := act_last n x hx hm hta hA (D := D) (td := td) ⟨hg, sD, htd, hD⟩ hAD
    refine ⟨y, e1, e2, fun i hi => ⟨(e3 i hi).1, ?_⟩⟩
    intro b p j c hb hp hj hc
    have := (e3 i hi).2 b p (j * C + c) hb hp (mul_add_lt hj hc)
    simp only [restIdx, turnChan, div_of hc, mod_of hc] at this
    exact this
  | channelsFirst =>
    obtain ⟨y, e1, e2, e3⟩ := act_first n x hx hm hta hA (D := D) (td := td) ⟨hg, sD, htd, hD⟩ hAD
    refine ⟨y, e1, e2, fun i hi => ⟨(e3 i hi).1, ?_⟩⟩
    intro b p j c hb hp hj hc
    have := (e3 i hi).2 b p (j * C + c) hb hp (mul_add_lt hj hc)
    simp only [restIdx, turnChan, div_of hc, mod_of hc] at this
    exact this

theorem perm_turn {G : Group} {d : Nat} {els : List SPerm} {ok : List Nat → Prop} (S : Sym G d els ok) {s : String} {D : List Nat}
    (hD : lookup G.subgroup s = .ok D) {e : Nat} (he : e ∈ D) :
    ((List.range D.length).map (turn G.toGroupData D e)).Perm (List.range D.length) := by
  apply perm_map_self List.nodup_range
  · intro j hj
    rw [List.mem_range] at hj ⊢
    exact S.turn_lt hD he hj
  · intro j hj j' hj' h
    rw [List.mem_range] at hj hj'
    exact S.turn_inj hD he hj hj' h

theorem flatMap_perm_left {β γ : Type} {l l' : List β} (h : l.Perm l') (F : β → List γ) : (l.flatMap F).Perm (l'.flatMap F) := by
  induction h with
  | nil => exact List.Perm.refl _
  | cons b _ ih => simp only [List.flatMap_cons]; exact ih.append_left _
  | swap b c l =>
    simp only [List.flatMap_cons, ← List.append_assoc]
    exact (List.perm_append_comm).append_right _
  | trans _ _ ih1 ih2 => exact ih1.trans ih2

theorem flatMap_perm_right {β γ : Type} {l : List β} {F G : β → List γ} (h : ∀ b ∈ l, (F b).Perm (G b)) :
    (l.flatMap F).Perm (l.flatMap G) := by
  induction l with
  | nil => exact List.Perm.refl _
  | cons b l ih =>
    simp only [List.flatMap_cons]
    exact (h b (by simp)).append (ih fun c hc => h c (by simp [hc]))

/-- moving a signal permutes its entries -/
theorem allEntries_perm {n : GroupName} {fmt : DataFormat} {m : List Nat} {h : Nat} (hm : n.Kept h m) {sD : String} {D : List Nat}
    (hD : lookup n.group.subgroup sD = .ok D) (hh : h ∈ D) {x x' : Tensor α} {b c : Nat}
    (hxx : ∀ p j, Valid m p → j < D.length → x'.get (sigIndex fmt b p j c) =
      x.get (sigIndex fmt b (back n.els m h p) (turn n.group.toGroupData D h j) c)) :
    (allEntries fmt m D.length x' b c).Perm (allEntries fmt m D.length x b c) := by
  have S := n.sym
  have hh' := S.sub_lt hD hh
  unfold allEntries
  refine List.Perm.trans ?_ (flatMap_perm_left (hm.perm hh') _)
  rw [List.flatMap_map]
  apply flatMap_perm_right
  intro p hp
  rw [mem_indices] at hp
  refine List.Perm.trans (List.Perm.of_eq ?_) ((perm_turn S hD hh).map _)
  rw [List.map_map]
  apply List.map_congr_left
  intro j hj
  rw [List.mem_range] at hj
  exact hxx p j hp hj

end GroCo
