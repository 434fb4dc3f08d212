import Mathlib.Algebra.Order.Ring.Defs
import Mathlib.Algebra.Order.Ring.Nat
import Mathlib.Data.Nat.Cast.Order.Ring
import Verif.ExactLemmas
import Verif.PoolMovedSpec
import Verif.RectLemmas
import Verif.ExactTLemmas

/-
Helper lemmas for C70: a pooling layer moves its output with its input exactly if its windows are moved into each other.
-/

namespace GroCo
open Tensor

variable {α : Type}

theorem maxOf_congr [LinearOrder α] [Zero α] {l l' : List α} (h : ∀ a, a ∈ l ↔ a ∈ l') : maxOf l = maxOf l' := by
  by_cases hl : l = []
  · subst hl
    have : l' = [] := List.eq_nil_iff_forall_not_mem.2 fun a ha => by simpa using (h a).2 ha
    rw [this]
  · have hl' : l' ≠ [] := fun h' => by
      subst h'
      exact hl (List.eq_nil_iff_forall_not_mem.2 fun a ha => by simpa using (h a).1 ha)
    exact le_antisymm (le_maxOf ((h _).1 (maxOf_mem hl))) (le_maxOf ((h _).2 (maxOf_mem hl')))

theorem maxOf_const [LinearOrder α] [Zero α] {l : List α} {v : α} (h : ∀ a ∈ l, a = v) (hl : l ≠ []) : maxOf l = v :=
  h _ (maxOf_mem hl)

theorem maxOf_zero [LinearOrder α] [Zero α] {l : List α} (h : ∀ a ∈ l, a = 0) : maxOf l = 0 := by
  by_cases hl : l = []
  · subst hl; rfl
  · exact maxOf_const h hl

theorem sum_const_eq [Field α] {l : List α} {v : α} (h : ∀ a ∈ l, a = v) : l.sum = l.length * v := by
  induction l with
  | nil => simp
  | cons a l ih =>
    rw [List.sum_cons, ih (fun b hb => h b (by simp [hb])), h a (by simp), List.length_cons]
    push_cast
    ring

/-- the maximum or mean of equal values -/
theorem reduce_const [Field α] [LinearOrder α] [IsStrictOrderedRing α] (t : PoolType) {l : List α} {v : α} (h : ∀ a ∈ l, a = v)
    (hl : l ≠ []) : t.reduce l = v := by
  cases t with
  | max => exact maxOf_const h hl
  | average =>
    have : (l.length : α) ≠ 0 := by
      rw [Nat.cast_ne_zero]
      exact fun h => hl (List.length_eq_zero_iff.1 h)
    simp only [PoolType.reduce, meanOf]
    rw [sum_const_eq h, mul_comm, mul_div_assoc, div_self this, mul_one]

theorem reduce_zero [Field α] [LinearOrder α] (t : PoolType) {l : List α} (h : ∀ a ∈ l, a = 0) : t.reduce l = 0 := by
  cases t with
  | max => exact maxOf_zero h
  | average =>
    simp only [PoolType.reduce, meanOf]
    rw [sum_const_eq h]
    simp

/-- the value of a signal at an integer position -/
def valAt [Zero α] (m : List Nat) (φ : List Nat → α) (q : List Int) : α := if InBox m q then φ (q.map Int.toNat) else 0

theorem inBox_eq {s : List Nat} : ∀ {q : List Int}, InBox s q → q = (q.map Int.toNat).map Int.ofNat := by
  induction s with
  | nil => intro q hq; cases q with
    | nil => rfl
    | cons => exact absurd hq (by simp [InBox])
  | cons m s ih => intro q hq; cases q with
    | nil => exact absurd hq (by simp [InBox])
    | cons i q =>
      simp only [InBox] at hq
      have e := ih hq.2
      simp only [List.map_cons]
      rw [← e]
      have : Int.ofNat i.toNat = i := by
        have : ((i.toNat : Nat) : Int) = i := Int.toNat_of_nonneg hq.1.1
        exact this
      rw [this]

theorem toNat_ofNat (w : List Nat) : (w.map Int.ofNat).map Int.toNat = w := by
  simp [Function.comp_def]

theorem valAt_cast [Zero α] {m w : List Nat} (φ : List Nat → α) (hw : Valid m w) : valAt m φ (w.map Int.ofNat) = φ w := by
  rw [valAt, if_pos (inBox_cast.2 hw), toNat_ofNat]

theorem map_ofNat_inj {w w' : List Nat} (h : w.map Int.ofNat = w'.map Int.ofNat) : w = w' :=
  List.map_injective_iff.2 (fun a b h => by simpa using h) h

/-- condition on two windows of which the second is the image of the first; `β` takes a position back -/
def WindowMoved (t : PoolType) (m : List Nat) (β : List Nat → List Nat) (W W' : List (List Int)) : Prop :=
  (∀ w, Valid m w → (w.map Int.ofNat ∈ W ↔ (β w).map Int.ofNat ∈ W')) ∧
  ((∃ w, Valid m w ∧ w.map Int.ofNat ∈ W) →
    match t with
    | .max => (∃ q ∈ W, ¬ InBox m q) ↔ ∃ q ∈ W', ¬ InBox m q
    | .average => W.length = W'.length)

theorem reduce_moved [Field α] [LinearOrder α] {t : PoolType} {m : List Nat} {β : List Nat → List Nat} {W W' : List (List Int)}
    (hβ : ∀ w, Valid m w → Valid m (β w)) (hinj : ∀ w w', Valid m w → Valid m w' → β w = β w' → w = w')
    (hsurj : ∀ w, Valid m w → ∃ w', Valid m w' ∧ β w' = w) (hW : W.Nodup) (hW' : W'.Nodup) (hM : WindowMoved t m β W W')
    {φ φ' : List Nat → α} (hφ : ∀ w, Valid m w → φ' w = φ (β w)) :
    t.reduce (W.map (valAt m φ')) = t.reduce (W'.map (valAt m φ)) := by
  obtain ⟨h1, h2⟩ := hM
  have back : ∀ q, q ∈ W' → InBox m q → ∃ w, Valid m w ∧ w.map Int.ofNat ∈ W ∧ q = (β w).map Int.ofNat := by
    intro q hq hin
    obtain ⟨w, hw, e⟩ := hsurj _ (inBox_toNat hin)
    refine ⟨w, hw, (h1 w hw).2 ?_, ?_⟩
    · rw [e, ← inBox_eq hin]; exact hq
    · rw [e, ← inBox_eq hin]
  by_cases hs : ∃ w, Valid m w ∧ w.map Int.ofNat ∈ W
  · have h2 := h2 hs
    cases t with
    | max =>
      simp only at h2
      refine maxOf_congr fun v => ?_
      rw [List.mem_map, List.mem_map]
      constructor
      · rintro ⟨q, hq, rfl⟩
        by_cases hin : InBox m q
        · refine ⟨(β (q.map Int.toNat)).map Int.ofNat, (h1 _ (inBox_toNat hin)).1 (by rw [← inBox_eq hin]; exact hq), ?_⟩
          rw [valAt_cast _ (hβ _ (inBox_toNat hin)), ← hφ _ (inBox_toNat hin), valAt, if_pos hin]
        · obtain ⟨q', hq', hn⟩ := h2.1 ⟨q, hq, hin⟩
          exact ⟨q', hq', by rw [valAt, if_neg hn, valAt, if_neg hin]⟩
      · rintro ⟨q, hq, rfl⟩
        by_cases hin : InBox m q
        · obtain ⟨w, hw, h3, rfl⟩ := back q hq hin
          exact ⟨_, h3, by rw [valAt_cast _ hw, valAt_cast _ (hβ _ hw), hφ _ hw]⟩
        · obtain ⟨q', hq', hn⟩ := h2.2 ⟨q, hq, hin⟩
          exact ⟨q', hq', by rw [valAt, if_neg hn, valAt, if_neg hin]⟩
    | average =>
      simp only at h2
      have split : ∀ (φ : List Nat → α) (W : List (List Int)), (W.map (valAt m φ)).sum =
          (((W.filter (fun q => InBox m q)).map (List.map Int.toNat)).map φ).sum := by
        intro φ W
        induction W with
        | nil => rfl
        | cons q W ih =>
          rw [List.map_cons, List.sum_cons, ih, List.filter_cons]
          by_cases hin : InBox m q
          · rw [if_pos (by simpa using hin)]
            simp [valAt, hin]
          · rw [if_neg (by simpa using hin)]
            simp [valAt, hin]
      have mem : ∀ (W : List (List Int)) (w : List Nat), w ∈ (W.filter (fun q => InBox m q)).map (List.map Int.toNat) ↔
          Valid m w ∧ w.map Int.ofNat ∈ W := by
        intro W w
        rw [List.mem_map]
        constructor
        · rintro ⟨q, hq, rfl⟩
          rw [List.mem_filter, decide_eq_true_eq] at hq
          exact ⟨inBox_toNat hq.2, by rw [← inBox_eq hq.2]; exact hq.1⟩
        · rintro ⟨hw, h3⟩
          exact ⟨_, List.mem_filter.2 ⟨h3, by simpa using inBox_cast.2 hw⟩, toNat_ofNat w⟩
      have nd : ∀ W : List (List Int), W.Nodup → ((W.filter (fun q => InBox m q)).map (List.map Int.toNat)).Nodup := by
        intro W hW
        refine List.Nodup.map_on ?_ (hW.filter _)
        intro q hq q' hq' e
        rw [List.mem_filter, decide_eq_true_eq] at hq hq'
        rw [inBox_eq hq.2, inBox_eq hq'.2, e]
      simp only [PoolType.reduce, meanOf, List.length_map, h2]
      congr 1
      rw [split, split]
      have hp : (((W.filter (fun q => InBox m q)).map (List.map Int.toNat)).map β).Perm
          ((W'.filter (fun q => InBox m q)).map (List.map Int.toNat)) := by
        refine (List.perm_ext_iff_of_nodup ?_ (nd _ hW')).2 fun w => ?_
        · refine List.Nodup.map_on ?_ (nd _ hW)
          intro w hw w' hw' e
          exact hinj _ _ ((mem _ _).1 hw).1 ((mem _ _).1 hw').1 e
        · rw [mem, List.mem_map]
          constructor
          · rintro ⟨w', hw', rfl⟩
            rw [mem] at hw'
            exact ⟨hβ _ hw'.1, (h1 _ hw'.1).1 hw'.2⟩
          · rintro ⟨hw, h3⟩
            obtain ⟨w', hw', rfl⟩ := hsurj w hw
            exact ⟨w', (mem _ _).2 ⟨hw', (h1 _ hw').2 h3⟩, rfl⟩
      rw [← (hp.map φ).sum_eq, List.map_map (f := β)]
      exact sum_congr fun w hw => hφ w ((mem _ _).1 hw).1
  · rw [reduce_zero, reduce_zero]
    · intro v hv
      obtain ⟨q, hq, rfl⟩ := List.mem_map.1 hv
      rw [valAt, if_neg]
      intro hin
      obtain ⟨w, hw, h3, _⟩ := back q hq hin
      exact hs ⟨w, hw, h3⟩
    · intro v hv
      obtain ⟨q, hq, rfl⟩ := List.mem_map.1 hv
      rw [valAt, if_neg]
      intro hin
      exact hs ⟨_, inBox_toNat hin, by rw [← inBox_eq hin]; exact hq⟩

/-- the pooled value of the signal that is one at a single position -/
theorem reduce_single [Field α] [LinearOrder α] [IsStrictOrderedRing α] {t : PoolType} {m w : List Nat} {W : List (List Int)}
    (hw : Valid m w) (hW : W.Nodup) : t.reduce (W.map (valAt m fun w' => if w' = w then (1 : α) else 0)) = open Classical in
      if w.map Int.ofNat ∈ W then (match t with
        | .max => 1
        | .average => 1 / (W.length : α)) else 0 := by
  have hval : ∀ q, valAt m (fun w' => if w' = w then (1 : α) else 0) q = if q = w.map Int.ofNat then 1 else 0 := by
    intro q
    unfold valAt
    by_cases e : q = w.map Int.ofNat
    · subst e
      rw [if_pos (inBox_cast.2 hw), if_pos rfl]
      exact if_pos (toNat_ofNat w)
    · rw [if_neg e]
      by_cases hin : InBox m q
      · rw [if_pos hin]
        refine if_neg ?_
        intro h
        rw [← h] at e
        exact e (inBox_eq hin)
      · rw [if_neg hin]
  have hmap : W.map (valAt m fun w' => if w' = w then (1 : α) else 0) = W.map fun q => if q = w.map Int.ofNat then 1 else 0 :=
    List.map_congr_left fun q _ => hval q
  rw [hmap]
  by_cases hin : w.map Int.ofNat ∈ W
  · rw [if_pos hin]
    cases t with
    | max =>
      have h1 : (1 : α) ∈ W.map fun q => if q = w.map Int.ofNat then (1 : α) else 0 := List.mem_map.2 ⟨_, hin, if_pos rfl⟩
      refine le_antisymm ?_ (le_maxOf h1)
      have := maxOf_mem (List.ne_nil_of_mem h1)
      obtain ⟨q, _, e⟩ := List.mem_map.1 this
      show maxOf _ ≤ 1
      rw [← e]
      split
      · exact le_refl _
      · exact zero_le_one
    | average =>
      simp only [PoolType.reduce, meanOf, List.length_map]
      rw [sum_ite_one hW (P := fun q => q = w.map Int.ofNat) (F := fun _ => (1 : α)) hin (fun _ _ => Iff.rfl)]
  · rw [if_neg hin]
    apply reduce_zero
    intro v hv
    obtain ⟨q, hq, rfl⟩ := List.mem_map.1 hv
    rw [if_neg]
    rintro rfl
    exact hin hq

theorem moved_of_reduce [Field α] [LinearOrder α] [IsStrictOrderedRing α] {t : PoolType} {m : List Nat} {β : List Nat → List Nat} {W W' : List (List Int)}
    (hβ : ∀ w, Valid m w → Valid m (β w)) (hinj : ∀ w w', Valid m w → Valid m w' → β w = β w' → w = w')
    (hW : W.Nodup) (hW' : W'.Nodup)
    (h : ∀ φ φ' : List Nat → α, (∀ w, Valid m w → φ' w = φ (β w)) → t.reduce (W.map (valAt m φ')) = t.reduce (W'.map (valAt m φ))) :
    WindowMoved t m β W W' := by
  have key : ∀ w, Valid m w → (w.map Int.ofNat ∈ W ↔ (β w).map Int.ofNat ∈ W') ∧ (w.map Int.ofNat ∈ W → t = .average → W.length = W'.length) := by
    intro w hw
    have h1 := h (fun w' => if w' = β w then 1 else 0) (fun w' => if w' = w then 1 else 0) (fun w' hw' => by
      refine if_congr ⟨fun e => by rw [e], fun e => hinj _ _ hw' hw e⟩ rfl rfl)
    rw [reduce_single hw hW, reduce_single (hβ w hw) hW'] at h1
    have hne : ∀ {W : List (List Int)} {q : List Int}, q ∈ W → (W.length : α) ≠ 0 := by
      intro W q hq
      rw [Nat.cast_ne_zero]
      exact fun h => List.ne_nil_of_mem hq (List.length_eq_zero_iff.1 h)
    by_cases i1 : w.map Int.ofNat ∈ W
    · by_cases i2 : (β w).map Int.ofNat ∈ W'
      · rw [if_pos i1, if_pos i2] at h1
        refine ⟨⟨fun _ => i2, fun _ => i1⟩, fun _ ht => ?_⟩
        subst ht
        simp only at h1
        have e1 := hne i1
        have e2 := hne i2
        rw [one_div, one_div, inv_inj] at h1
        exact_mod_cast h1
      · rw [if_pos i1, if_neg i2] at h1
        cases t with
        | max => exact absurd h1 one_ne_zero
        | average => exact absurd h1 (one_div_ne_zero (hne i1))
    · by_cases i2 : (β w).map Int.ofNat ∈ W'
      · rw [if_neg i1, if_pos i2] at h1
        cases t with
        | max => exact absurd h1.symm one_ne_zero
        | average => exact absurd h1.symm (one_div_ne_zero (hne i2))
      · exact ⟨⟨fun h => absurd h i1, fun h => absurd h i2⟩, fun h => absurd h i1⟩
  refine ⟨fun w hw => (key w hw).1, ?_⟩
  rintro ⟨w, hw, hin⟩
  cases t with
  | average => exact (key w hw).2 hin rfl
  | max =>
    have hin' := (key w hw).1.1 hin
    have h1 := h (fun _ => -1) (fun _ => -1) (fun _ _ => rfl)
    have val : ∀ {W : List (List Int)} {w : List Nat}, Valid m w → w.map Int.ofNat ∈ W →
        ((∃ q ∈ W, ¬ InBox m q) ↔ PoolType.max.reduce (W.map (valAt m fun _ => (-1 : α))) = 0) := by
      intro W w hw hin
      have hneg : (-1 : α) < 0 := neg_lt_zero.2 zero_lt_one
      constructor
      · rintro ⟨q, hq, hn⟩
        have h0 : (0 : α) ∈ W.map (valAt m fun _ => (-1 : α)) := List.mem_map.2 ⟨q, hq, if_neg hn⟩
        refine le_antisymm ?_ (le_maxOf h0)
        obtain ⟨q', _, e⟩ := List.mem_map.1 (maxOf_mem (List.ne_nil_of_mem h0))
        show maxOf _ ≤ 0
        rw [← e, valAt]
        split
        · exact le_of_lt hneg
        · exact le_refl _
      · intro h0
        by_contra hc
        have : PoolType.max.reduce (W.map (valAt m fun _ => (-1 : α))) = -1 := by
          refine maxOf_const ?_ ?_
          · intro v hv
            obtain ⟨q, hq, rfl⟩ := List.mem_map.1 hv
            rw [valAt, if_pos]
            by_contra hn
            exact hc ⟨q, hq, hn⟩
          · simpa using List.ne_nil_of_mem hin
        rw [this] at h0
        exact absurd h0 (ne_of_lt hneg)
    simp only
    rw [val hw hin, val (hβ w hw) hin', h1]

theorem PoolPads.unique {opt : PadOption} {n m k s s' lo hi skip skip' lo2 hi2 skip2 skip2' : Nat}
    (h : PoolPads opt n m k s s' lo hi skip skip') (h2 : PoolPads opt n m k s s' lo2 hi2 skip2 skip2') :
    lo = lo2 ∧ hi = hi2 ∧ skip = skip2 ∧ skip' = skip2' := by
  obtain ⟨e, a1, a2, a3, a4, a5⟩ := h
  obtain ⟨e', b1, b2, b3, b4, b5⟩ := h2
  have he : e = e' := by
    cases opt
    · exact Eq.trans a1 b1.symm
    · exact Eq.trans a1 b1.symm
    · exact Nat.le_antisymm (a1.2 _ b1.1) (b1.2 _ a1.1)
    · exact Nat.le_antisymm (a1.2 _ b1.1) (b1.2 _ a1.1)
  subst he
  omega

theorem poolWindow_congr {lo lo2 m hi hi2 skip skip2 K strides p : List Nat}
    (h : ∀ i, i < m.length → nth lo i = nth lo2 i ∧ nth hi i = nth hi2 i ∧ nth skip i = nth skip2 i) :
    poolWindow lo m hi skip K strides p = poolWindow lo2 m hi2 skip2 K strides p := by
  unfold poolWindow
  have e1 : ((List.range m.length).map fun i => nth skip i + nth lo i) = (List.range m.length).map fun i => nth skip2 i + nth lo2 i :=
    List.map_congr_left fun i hi => by
      have := h i (List.mem_range.1 hi)
      rw [this.1, this.2.2]
  rw [e1]
  apply List.filter_congr
  intro q _
  rw [decide_eq_decide]
  unfold InExtended
  refine and_congr_right fun _ => forall_congr' fun i => forall_congr' fun hi => ?_
  have := h i hi
  rw [this.1, this.2.1]

theorem nodup_poolWindow {lo m hi skip K strides p : List Nat} (hK : K.length = m.length) (hs : strides.length = m.length) :
    (poolWindow lo m hi skip K strides p).Nodup := by
  refine List.Nodup.filter _ (List.Nodup.map_on ?_ (nodup_indices K))
  intro k hk k' hk' e
  have hk := ((mem_indices _ _).1 hk).length
  have hk' := ((mem_indices _ _).1 hk').length
  apply ext_nth
  · omega
  · intro i hi
    have hi' : i < strides.length := by omega
    have h1 := congrArg (fun q => q.getD i 0) e
    simp only [window, List.getD_eq_getElem?_getD, List.getElem?_map, List.getElem?_range hi', Option.map_some,
      Option.getD_some] at h1
    have h2 : nth (List.replicate m.length 1) i = 1 := by simp [nth, hs ▸ hi']
    rw [h2] at h1
    omega

/-- the signal whose values depend on the position only -/
def everywhere (n : List Nat) (g C : Nat) (φ : List Nat → α) : Tensor α :=
  ⟨sigShape .channelsLast 1 n (some g) C, fun idx => φ ((idx.drop 1).take n.length)⟩

theorem everywhere_get {n : List Nat} {g C : Nat} (φ : List Nat → α) {b : Nat} {w r : List Nat} (hw : w.length = n.length) :
    (everywhere n g C φ).get (b :: w ++ r) = φ w := by
  simp [everywhere, ← hw]

/-- the window at `p` along an axis contains `w` -/
def Covers (s k skip p w : Nat) : Prop := p * s ≤ w + skip ∧ w + skip < p * s + k

theorem inExtended_zero {m : List Nat} {d : Nat} (hm : m.length = d) {q : List Int} :
    InExtended (List.replicate d 0) m (List.replicate d 0) q ↔ InBox m q := by
  rw [inBox_iff]
  unfold InExtended
  refine and_congr_right fun _ => forall_congr' fun i => forall_congr' fun hi => ?_
  rw [nth_replicate, if_pos (by omega)]
  simp

theorem mem_poolWindow {m skip K strides p w : List Nat} {d : Nat} (hm : m.length = d) (hK : K.length = d) (hs : strides.length = d)
    (hw : Valid m w) : w.map Int.ofNat ∈ poolWindow (List.replicate d 0) m (List.replicate d 0) skip K strides p ↔
      ∀ i, i < d → Covers (nth strides i) (nth K i) (nth skip i) (nth p i) (nth w i) := by
  have hwl := hw.length
  unfold poolWindow
  rw [List.mem_filter, decide_eq_true_eq, inExtended_zero hm, List.mem_map]
  have hwin : ∀ k, window ((List.range m.length).map fun i => nth skip i + nth (List.replicate d 0) i) strides
      (List.replicate m.length 1) p k = w.map Int.ofNat ↔ ∀ i, i < d → nth p i * nth strides i + nth k i = nth w i + nth skip i := by
    intro k
    have : window ((List.range m.length).map fun i => nth skip i + nth (List.replicate d 0) i) strides
      (List.replicate m.length 1) p k = winZ ((List.range m.length).map fun i => nth skip i + nth (List.replicate d 0) i) strides
      (List.replicate m.length 1) p k := rfl
    rw [this, ← reads_iff (by omega)]
    unfold Reads
    rw [hs]
    refine forall_congr' fun i => forall_congr' fun hi => ?_
    simp only [nth_map_range, nth_replicate, if_pos hi, if_pos (show i < m.length by omega)]
    simp
  constructor
  · rintro ⟨⟨k, hk, e⟩, _⟩ i hi
    have h1 := (hwin k).1 e i hi
    have h2 := ((mem_indices _ _).1 hk).lt (i := i) (by omega)
    unfold Covers
    omega
  · intro h
    refine ⟨⟨(List.range d).map fun i => nth w i + nth skip i - nth p i * nth strides i, ?_, ?_⟩, inBox_cast.2 hw⟩
    · rw [mem_indices, valid_iff]
      refine ⟨by simp [hK], fun i hi => ?_⟩
      rw [nth_map_range, if_pos (by omega)]
      have := h i (by omega)
      unfold Covers at this
      omega
    · rw [hwin]
      intro i hi
      rw [nth_map_range, if_pos hi]
      have := h i hi
      unfold Covers at this
      omega

/-- Keras leaves out the positions of `PlainMirrored` -/
theorem covers_mirror {opt : PadOption} {n k s skip out : Nat} (hs : 0 < s) (hk : 0 < k) (hn : 0 < n)
    (hsk : skip = builtIn opt n k s / 2) (hfit : k ≤ n + builtIn opt n k s)
    (hout : out = (n + builtIn opt n k s - k) / s + 1) :
    PlainMirrored opt n k s ↔ ∀ p w, p < out → w < n → (Covers s k skip (out - 1 - p) (n - 1 - w) ↔ Covers s k skip p w) := by
  have hT : builtIn opt n k s < k := by
    have : sameTotal n k s < k := by
      unfold sameTotal
      split <;> omega
    cases opt <;> simp only [builtIn] <;> assumption
  have hTs : 0 < builtIn opt n k s → s ∣ n + builtIn opt n k s - k := by
    intro h0
    have h1 : builtIn opt n k s = sameTotal n k s := by cases opt <;> first | rfl | exact absurd h0 (by simp [builtIn])
    rw [h1] at h0 ⊢ 
    unfold sameTotal at h0 ⊢
    have hmod := Nat.mod_lt n hs
    have hdiv := Nat.div_add_mod n s
    split
    · rename_i hz
      rw [if_pos hz] at h0
      have : n + (k - s) - k = n - s := by omega
      rw [this]
      exact Nat.dvd_sub (Nat.dvd_of_mod_eq_zero hz) (Nat.dvd_refl s)
    · rename_i hz
      rw [if_neg hz] at h0
      have : n + (k - n % s) - k = n - n % s := by omega
      rw [this]
      exact Nat.dvd_sub_mod n
  unfold PlainMirrored Covers
  generalize builtIn opt n k s = T at *
  have hmul : (out - 1) * s ≤ n + T - k := by
    rw [hout, Nat.add_sub_cancel]
    exact Nat.div_mul_le_self _ _
  have hlast : n + T - k < (out - 1) * s + s := by
    rw [hout, Nat.add_sub_cancel]
    have h1 := Nat.div_add_mod (n + T - k) s
    have h2 := Nat.mod_lt (n + T - k) hs
    rw [Nat.mul_comm] at h1
    omega
  have hout1 : 1 ≤ out := by rw [hout]; exact Nat.succ_pos _
  constructor
  · rintro (⟨h1, h2⟩ | h1) p w hp hw
    · have h3 : (out - 1) * s = n + T - k := by rw [hout, Nat.add_sub_cancel, Nat.div_mul_cancel h2]
      have h4 : (out - 1 - p) * s + p * s = (out - 1) * s := by
        rw [← Nat.add_mul]; congr 1; omega
      rw [h3] at h4
      generalize (out - 1 - p) * s = A at *
      generalize p * s = B at *
      omega
    · have h4 : (out - 1 - p) * s + p * s = (out - 1) * s := by
        rw [← Nat.add_mul]; congr 1; omega
      have h5 : (out - 1 - p) * s ≤ (out - 1) * s := Nat.mul_le_mul_right _ (by omega)
      have h6 : p * s ≤ (out - 1) * s := Nat.mul_le_mul_right _ (by omega)
      generalize (out - 1 - p) * s = A at *
      generalize p * s = B at *
      generalize (out - 1) * s = D at *
      omega
  · intro h
    by_contra hc
    rw [not_or, not_and] at hc
    obtain ⟨c1, c2⟩ := hc
    -- the first window covers the first position, so the last window covers the last one
    have h0 := h 0 0 (by omega) hn
    simp only [Nat.sub_zero, Nat.zero_mul, Nat.zero_add] at h0
    have h1 := h0.2 ⟨by omega, by omega⟩
    by_cases hcov : n ≤ k - skip
    · -- the first window covers everything
      have h2 := h 0 (n - 1) (by omega) (by omega)
      simp only [Nat.sub_zero, Nat.zero_mul, Nat.zero_add] at h2
      have h3 := h2.2 ⟨by omega, by omega⟩
      have h4 : n - 1 - (n - 1) = 0 := by omega
      rw [h4] at h3
      by_cases hT0 : T = 0
      · subst hT0
        have := c1 rfl
        apply this
        have : n = k := by omega
        subst this
        simp
      · have h5 := hTs (by omega)
        have h6 : (out - 1) * s = n + T - k := by rw [hout, Nat.add_sub_cancel, Nat.div_mul_cancel h5]
        omega
    · have h2 := h 0 (k - skip - 1) (by omega) (by omega)
      have h2' := h 0 (k - skip) (by omega) (by omega)
      simp only [Nat.sub_zero, Nat.zero_mul, Nat.zero_add] at h2 h2'
      have h3 := h2.2 ⟨by omega, by omega⟩
      by_cases hT0 : T = 0
      · subst hT0
        apply c1 rfl
        have : (out - 1) * s = n + 0 - k := by
          generalize (out - 1) * s = D at *
          omega
        rw [← this]
        exact Nat.dvd_mul_left _ _
      · have h5 := hTs (by omega)
        have h6 : (out - 1) * s = n + T - k := by rw [hout, Nat.add_sub_cancel, Nat.div_mul_cancel h5]
        rw [h6] at h2 h2' h3 h1
        have h7 : ¬ T % 2 = 0 := fun h => c1 h h5
        have h8 : ¬ (n + T - k ≤ n - 1 - (k - skip) + skip ∧ n - 1 - (k - skip) + skip < n + T - k + k) := fun h => by
          have := h2'.1 h
          omega
        omega

/-- `PoolWindowsMoved` in terms of `back` -/
theorem poolWindowsMoved_iff {t : PoolType} {n : GroupName} {h : Nat} (hh : h < n.group.order) {lo m hi skip K strides out : List Nat}
    (hm : n.Kept h m) (hO : n.Kept h out) : PoolWindowsMoved t (n.motion h) lo m hi skip K strides out ↔
      ∀ p, Valid out p → WindowMoved t m (back n.els m h) (poolWindow lo m hi skip K strides p)
        (poolWindow lo m hi skip K strides (back n.els out h p)) := by
  constructor
  · intro hW p hp
    obtain ⟨h1, h2⟩ := hW _ _ (hO.valid hh hp) hp (Kept.moves hh hO hp)
    have h1' : ∀ w, Valid m w → (w.map Int.ofNat ∈ poolWindow lo m hi skip K strides p ↔
        (back n.els m h w).map Int.ofNat ∈ poolWindow lo m hi skip K strides (back n.els out h p)) :=
      fun w hw => (h1 _ _ (hm.valid hh hw) hw (Kept.moves hh hm hw)).symm
    refine ⟨h1', ?_⟩
    rintro ⟨w, hw, hin⟩
    have := h2 ⟨_, hm.valid hh hw, (h1' w hw).1 hin⟩
    revert this
    cases t
    · exact Iff.symm
    · exact Eq.symm
  · intro hW p p' hp hp' hmv
    rw [Kept.of_moves hh hO hp hp' hmv]
    obtain ⟨h1, h2⟩ := hW p' hp'
    refine ⟨fun w w' hw hw' hmw => ?_, ?_⟩
    · rw [Kept.of_moves hh hm hw hw' hmw]
      exact (h1 w' hw').symm
    · rintro ⟨w, hw, hin⟩
      obtain ⟨w', hw', rfl⟩ := hm.surj hh hw
      have := h2 ⟨w', hw', (h1 w' hw').2 hin⟩
      revert this
      cases t
      · exact Iff.symm
      · exact Eq.symm

/-- without zeros it is enough that the windows contain corresponding positions -/
theorem windowMoved_plain {t : PoolType} {m skip K strides p p' : List Nat} {β : List Nat → List Nat} {d : Nat} (hm : m.length = d)
    (hK : K.length = d) (hs : strides.length = d)
    (hβ : ∀ w, Valid m w → Valid m (β w)) (hinj : ∀ w w', Valid m w → Valid m w' → β w = β w' → w = w')
    (hsurj : ∀ w, Valid m w → ∃ w', Valid m w' ∧ β w' = w)
    (h : ∀ w, Valid m w → (w.map Int.ofNat ∈ poolWindow (List.replicate d 0) m (List.replicate d 0) skip K strides p ↔
      (β w).map Int.ofNat ∈ poolWindow (List.replicate d 0) m (List.replicate d 0) skip K strides p')) :
    WindowMoved t m β (poolWindow (List.replicate d 0) m (List.replicate d 0) skip K strides p)
      (poolWindow (List.replicate d 0) m (List.replicate d 0) skip K strides p') := by
  have hin : ∀ p, ∀ q ∈ poolWindow (List.replicate d 0) m (List.replicate d 0) skip K strides p, InBox m q := by
    intro p q hq
    unfold poolWindow at hq
    rw [List.mem_filter, decide_eq_true_eq, inExtended_zero hm] at hq
    exact hq.2
  refine ⟨h, fun _ => ?_⟩
  cases t with
  | max =>
    constructor
    · rintro ⟨q, hq, hn⟩; exact absurd (hin _ q hq) hn
    · rintro ⟨q, hq, hn⟩; exact absurd (hin _ q hq) hn
  | average =>
    have nd : ∀ p, (poolWindow (List.replicate d 0) m (List.replicate d 0) skip K strides p).Nodup := fun p =>
      nodup_poolWindow (by omega) (by omega)
    have hp : ((poolWindow (List.replicate d 0) m (List.replicate d 0) skip K strides p).map fun q =>
        (β (q.map Int.toNat)).map Int.ofNat).Perm (poolWindow (List.replicate d 0) m (List.replicate d 0) skip K strides p') := by
      refine (List.perm_ext_iff_of_nodup (List.Nodup.map_on ?_ (nd p)) (nd p')).2 fun q => ?_
      · intro q hq q' hq' e
        rw [inBox_eq (hin _ _ hq), inBox_eq (hin _ _ hq'),
          hinj _ _ (inBox_toNat (hin _ _ hq)) (inBox_toNat (hin _ _ hq')) (map_ofNat_inj e)]
      · rw [List.mem_map]
        constructor
        · rintro ⟨q', hq', rfl⟩
          have := hin _ _ hq'
          exact (h _ (inBox_toNat this)).1 (by rw [← inBox_eq this]; exact hq')
        · intro hq
          have := hin _ _ hq
          obtain ⟨w, hw, e⟩ := hsurj _ (inBox_toNat this)
          refine ⟨w.map Int.ofNat, (h w hw).2 (by rw [e, ← inBox_eq this]; exact hq), ?_⟩
          rw [toNat_ofNat, e, ← inBox_eq this]
    have := hp.length_eq
    simpa using this

/-- windows that are mirrored along the axes reversed by a symmetry are moved by it -/
theorem covers_pull {d : Nat} {σ : SPerm} (h : σ.WF d) {m out K strides skip p w : List Nat} (hm : m.length = d) (hO : out.length = d)
    (cm : σ.Compat m) (cO : σ.Compat out) (cK : σ.Compat K) (cs : σ.Compat strides) (ck : σ.Compat skip)
    (hmir : ∀ i, i < d → σ.neg i = true → ∀ p w, p < nth out i → w < nth m i →
      (Covers (nth strides i) (nth K i) (nth skip i) (nth out i - 1 - p) (nth m i - 1 - w) ↔
        Covers (nth strides i) (nth K i) (nth skip i) p w))
    (hp : Valid out p) (hw : Valid m w) :
    (∀ i, i < d → Covers (nth strides i) (nth K i) (nth skip i) (nth p i) (nth w i)) ↔
      ∀ i, i < d → Covers (nth strides i) (nth K i) (nth skip i) (nth (σ.pull out p) i) (nth (σ.pull m w) i) := by
  have key : ∀ a, a < d → (Covers (nth strides a) (nth K a) (nth skip a) (nth (σ.pull out p) a) (nth (σ.pull m w) a) ↔
      Covers (nth strides (σ.src a)) (nth K (σ.src a)) (nth skip (σ.src a)) (nth p (σ.src a)) (nth w (σ.src a))) := by
    intro a ha
    have ha' : a < σ.length := by rw [h.1]; exact ha
    have hj := h.src_lt ha
    have hpj := hp.lt (i := σ.src a) (by omega)
    have hwj := hw.lt (i := σ.src a) (by omega)
    rw [SPerm.nth_pull _ _ _ ha', SPerm.nth_pull _ _ _ ha', ← cs a ha', ← cK a ha', ← ck a ha']
    rw [← cO a ha'] at hpj
    rw [← cm a ha'] at hwj
    split
    · rename_i hneg
      exact hmir a ha hneg _ _ hpj hwj
    · exact Iff.rfl
  constructor
  · intro hh a ha
    exact (key a ha).2 (hh _ (h.src_lt ha))
  · intro hh j hj
    obtain ⟨a, ha, rfl⟩ := h.surj hj
    exact (key a ha).1 (hh a ha)

end GroCo
