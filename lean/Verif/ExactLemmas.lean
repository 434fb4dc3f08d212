import Verif.CompleteLemmas
import Verif.Training

/-
Helper lemmas for C68: a layer moves its output with its input exactly if its windows are moved into each other.
-/

namespace GroCo
open Tensor

variable {α : Type}

theorem reads_iff {before strides dil p k w : List Nat} (hw : w.length = strides.length) :
    Reads before strides dil p k w ↔ winZ before strides dil p k = w.map Int.ofNat := by
  constructor
  · intro h
    apply List.ext_getElem
    · simp [winZ, hw]
    · intro i h1 h2
      have hi : i < strides.length := by simpa [winZ] using h1
      have := h i hi
      simp only [winZ, List.getElem_map, List.getElem_range]
      rw [← nth_eq_getElem w i (by omega)]
      have e : Int.ofNat (nth w i) = (nth w i : Int) := rfl
      rw [e]
      push_cast [← Int.natCast_inj] at this
      omega
  · intro h i hi
    have h1 : (winZ before strides dil p k)[i]? = (w.map Int.ofNat)[i]? := by rw [h]
    rw [List.getElem?_eq_getElem (by rw [length_winZ]; exact hi), List.getElem?_eq_getElem (by simp [hw, hi])] at h1
    simp only [winZ, List.getElem_map, List.getElem_range, Option.some.injEq] at h1
    rw [← nth_eq_getElem w i (by omega)] at h1
    have e : Int.ofNat (nth w i) = (nth w i : Int) := rfl
    rw [e] at h1
    rw [← Int.natCast_inj]
    push_cast
    omega

/-- reading where a window points to -/
theorem readAt_of_reads [Zero α] {x : Tensor α} {n before strides dil p k w : List Nat} {b : Nat} {r : List Nat}
    (hn : n.length = strides.length) (hw : Valid n w) (h : Reads before strides dil p k w) :
    readAt x n b (winZ before strides dil p k) r = x.get (b :: w ++ r) := by
  rw [(reads_iff (hw.length.trans hn)).1 h, readAt, if_pos (inBox_cast.2 hw)]
  simp [Function.comp_def]

/-- reading outside -/
theorem readAt_of_none [Zero α] {x : Tensor α} {n before strides dil p k : List Nat} {b : Nat} {r : List Nat}
    (hn : n.length = strides.length) (h : ∀ w, Valid n w → ¬ Reads before strides dil p k w) :
    readAt x n b (winZ before strides dil p k) r = 0 := by
  unfold readAt
  split
  · rename_i hb
    have hw := inBox_toNat hb
    refine absurd ((reads_iff (hw.length.trans hn)).2 ?_) (h _ hw)
    have : ∀ {s : List Nat} {q : List Int}, InBox s q → q = (q.map Int.toNat).map Int.ofNat := by
      intro s
      induction s with
      | nil => intro q hq; cases q with
        | nil => rfl
        | cons => exact absurd hq (by simp [InBox])
      | cons m s ih => intro q hq; cases q with
        | nil => exact absurd hq (by simp [InBox])
        | cons i q =>
          simp only [InBox] at hq
          have e := ih hq.2
          simp only [List.map_cons]
          rw [← e]
          have : Int.ofNat i.toNat = i := by
            have : ((i.toNat : Nat) : Int) = i := Int.toNat_of_nonneg hq.1.1
            exact this
          rw [this]
    exact this hb
  · rfl

/-- every position is moved to some position -/
theorem GroupName.Kept.surj {n : GroupName} {h : Nat} (hh : h < n.group.order) {m : List Nat} (hm : n.Kept h m) {p : List Nat}
    (hp : Valid m p) : ∃ q, Valid m q ∧ back n.els m h q = p := by
  have h1 : ((indices m).map (back n.els m h)).Nodup := by
    refine List.Nodup.map_on ?_ (nodup_indices m)
    intro q hq q' hq' e
    exact hm.inj hh ((mem_indices _ _).1 hq) ((mem_indices _ _).1 hq') e
  have h2 : (indices m).map (back n.els m h) ⊆ indices m := by
    intro q hq
    obtain ⟨q', hq', rfl⟩ := List.mem_map.1 hq
    exact (mem_indices _ _).2 (hm.valid hh ((mem_indices _ _).1 hq'))
  have h3 := (h1.subperm h2).perm_of_length_le (by simp)
  have h4 := h3.mem_iff.2 ((mem_indices _ _).2 hp)
  obtain ⟨q, hq, e⟩ := List.mem_map.1 h4
  exact ⟨q, (mem_indices _ _).1 hq, e⟩

/-- `WindowsMoved` in terms of `back` -/
theorem windowsMoved_iff {n : GroupName} {h : Nat} (hh : h < n.group.order) {m out K before strides dil : List Nat}
    (hm : n.Kept h m) (hO : n.Kept h out) (hK : n.Kept h K) :
    WindowsMoved (n.motion h) m out K before strides dil ↔ ∀ p k w, Valid out p → Valid K k → Valid m w →
      (Reads before strides dil (back n.els out h p) (back n.els K h k) (back n.els m h w) ↔ Reads before strides dil p k w) := by
  constructor
  · intro hW p k w hp hk hw
    exact hW _ _ _ _ _ _ (hO.valid hh hp) hp (hK.valid hh hk) hk (hm.valid hh hw) hw (Kept.moves hh hO hp) (Kept.moves hh hK hk)
      (Kept.moves hh hm hw)
  · intro hW p p' k k' w w' hp hp' hk hk' hw hw' h1 h2 h3
    rw [Kept.of_moves hh hO hp hp' h1, Kept.of_moves hh hK hk hk' h2, Kept.of_moves hh hm hw hw' h3]
    exact hW p' k' w' hp' hk' hw'

/-- the values read by windows moved into each other -/
theorem readAt_moved [Zero α] {n : GroupName} {h : Nat} (hh : h < n.group.order) {m out K before strides dil : List Nat}
    (hm : n.Kept h m) (hO : n.Kept h out) (hK : n.Kept h K) (hs : strides.length = n.dim)
    (hW : WindowsMoved (n.motion h) m out K before strides dil) {x x' : Tensor α} {b : Nat} {r r' : List Nat}
    (hxx : ∀ w, Valid m w → x'.get (b :: w ++ r) = x.get (b :: back n.els m h w ++ r')) {p k : List Nat}
    (hp : Valid out p) (hk : Valid K k) :
    readAt x' m b (winZ before strides dil p k) r =
      readAt x m b (winZ before strides dil (back n.els out h p) (back n.els K h k)) r' := by
  rw [windowsMoved_iff hh hm hO hK] at hW
  have hl : m.length = strides.length := by rw [hm.1, hs]
  by_cases hr : ∃ w, Valid m w ∧ Reads before strides dil p k w
  · obtain ⟨w, hw, h1⟩ := hr
    rw [readAt_of_reads hl hw h1, readAt_of_reads hl (hm.valid hh hw) ((hW p k w hp hk hw).2 h1), hxx w hw]
  · rw [readAt_of_none hl (fun w hw h1 => hr ⟨w, hw, h1⟩), readAt_of_none hl]
    intro w hw h1
    obtain ⟨w', hw', rfl⟩ := hm.surj hh hw
    exact hr ⟨w', hw', (hW p k w' hp hk hw').1 h1⟩

/-- a sum with a single term -/
theorem sum_delta [Semiring α] {K : List Nat} {N : Nat} {P : List Nat → Nat → Prop} [∀ k c, Decidable (P k c)]
    (F : List Nat → Nat → α) (v : α) {k : List Nat} {c : Nat} (hk : Valid K k) (hc : c < N)
    (h : ∀ k' c', Valid K k' → c' < N → (P k' c' ↔ k' = k ∧ c' = c)) :
    ((indices K).map fun k' => ((List.range N).map fun c' => F k' c' * if P k' c' then v else 0).sum).sum = F k c * v := by
  have key : ∀ k' ∈ indices K, ((List.range N).map fun c' => F k' c' * if P k' c' then v else 0).sum =
      if k' = k then F k c * v else 0 := by
    intro k' hk'
    rw [mem_indices] at hk'
    by_cases e : k' = k
    · subst e
      rw [if_pos rfl]
      have := sum_ite_one (List.nodup_range (n := N)) (P := fun c' => c' = c) (F := fun c' => F k' c' * v) (c := c)
        (List.mem_range.2 hc) (fun _ _ => Iff.rfl)
      rw [← this]
      apply sum_congr
      intro c' hc'
      rw [List.mem_range] at hc'
      by_cases e : c' = c
      · rw [if_pos ((h k' c' hk' hc').2 ⟨rfl, e⟩), if_pos e]
      · rw [if_neg (fun hP => e ((h k' c' hk' hc').1 hP).2), if_neg e, mul_zero]
    · rw [if_neg e]
      have : ∀ c' ∈ List.range N, (F k' c' * if P k' c' then v else 0) = 0 := by
        intro c' hc'
        rw [List.mem_range] at hc'
        rw [if_neg (fun hP => e ((h k' c' hk' hc').1 hP).1), mul_zero]
      rw [sum_congr this]
      simp
  rw [sum_congr key, sum_ite_one (nodup_indices K) (P := fun k' => k' = k) (F := fun _ => F k c * v) ((mem_indices _ _).2 hk)
    (fun _ _ => Iff.rfl)]

/-- the weights that are `v` at one offset, channel and filter -/
def oneWeight [Zero α] (v : α) (idx : List Nat) : List Nat → α := fun i => if i = idx then v else 0

/-- the value of a layer with a single weight -/
theorem formula_one [Semiring α] {a : ConvArgs α} {g : Option Nat} {C : Nat} {v : α} {A before : List Nat} {e : Nat}
    (he : e < a.group.group.order) (hg : ∀ g', g = some g' → g' = a.group.group.order) (hK : a.group.Grid a.kernelSize)
    (hF : 0 < a.filters) {x : Tensor α} {m : List Nat} {b : Nat} {p : List Nat} {i : Nat} (hi : nth A i = e) {k : List Nat} {c : Nat}
    (hk : Valid a.kernelSize k) (hc : c < chanO g C) :
    convFormula a g C (oneWeight v (back a.group.els a.kernelSize e k ++
        [turnChan a.group.group.toGroupData (List.range a.group.group.order) g C e c, 0])) (fun _ => 0) A
        (List.range a.group.group.order) before x m b p i 0 =
      a.activation (readAt x m b (winZ before a.strides a.dilation p k) (restIdx g C c) * v) := by
  have S := a.group.sym
  have her : e ∈ List.range a.group.group.order := List.mem_range.2 he
  have hg' : ∀ g', g = some g' → g' = (List.range a.group.group.order).length := by simpa using hg
  unfold convFormula
  have hb : (if a.useBias then (0 : α) else 0) = 0 := by split <;> rfl
  rw [hb, add_zero, hi]
  congr 1
  rw [← sum_delta (P := fun k' c' => back a.group.els a.kernelSize e k' = back a.group.els a.kernelSize e k ∧
      turnChan a.group.group.toGroupData (List.range a.group.group.order) g C e c' =
        turnChan a.group.group.toGroupData (List.range a.group.group.order) g C e c)
    (fun k c => readAt x m b (winZ before a.strides a.dilation p k) (restIdx g C c)) v hk hc (by
      intro k' c' hk' hc'
      constructor
      · rintro ⟨h1, h2⟩
        exact ⟨S.back_inj hK he hk' hk h1, S.turnChan_inj S.tab.own hg' her hc' hc h2⟩
      · rintro ⟨rfl, rfl⟩; exact ⟨rfl, rfl⟩)]
  apply sum_congr
  intro k' hk'
  rw [mem_indices] at hk'
  apply sum_congr
  intro c' hc'
  rw [List.mem_range] at hc'
  rw [weight_false hg hK he hk' hc' hF]
  unfold oneWeight
  congr 1
  refine if_congr ?_ rfl rfl
  constructor
  · intro h
    obtain ⟨h1, h2⟩ := List.append_inj h (by rw [(S.valid_back hK he hk').length, (S.valid_back hK he hk).length])
    simp only [List.cons.injEq, and_true] at h2
    exact ⟨h1, h2⟩
  · rintro ⟨h1, h2⟩
    rw [h1, h2]

theorem turnChan_zero {n : GroupName} {g : Option Nat} (hg : ∀ g', g = some g' → g' = n.group.order) {C c : Nat} (hc : c < chanO g C) :
    turnChan n.group.toGroupData (List.range n.group.order) g C 0 c = c := by
  have S := n.sym
  cases g with
  | none => rfl
  | some g' =>
    have := hg g' rfl
    subst this
    obtain ⟨h1, h2, h3⟩ := split_lt (m := n.group.order) (n := C) hc
    have h0 : nth n.group.inverses 0 = 0 := by
      have L := S.tab.laws
      have := L.mul_inv 0 L.pos
      rwa [L.one_mul _ (S.inv_lt L.pos)] at this
    simp only [turnChan]
    rw [turn_range S.tab.laws.pos h1, h0, S.tab.laws.one_mul _ h1]
    exact h3.symm

/-- A layer moves its output with its input, whatever its weights, exactly if its windows are moved into each other. -/
theorem conv_exact [Semiring α] {a : ConvArgs α} {bt : Option Nat} {n : List Nat} {g : Option Nat} {C : Nat}
    {k0 b0 : List Nat → α} {H : List Nat} {l : GroupConv α} (hl : BuiltConv a false bt n g C k0 b0 H l)
    (hall : ∀ k1 b1, BuiltConv a false bt n g C k1 b1 H (l.assign k1 b1)) (hf : a.dataFormat = .channelsLast)
    {v : α} (hv : a.activation v ≠ a.activation 0) (hC : 0 < C) (hF : 0 < a.filters) {h : Nat} (hh : h ∈ H)
    (hn : a.group.Kept h n) {kp : KerasPadding} (hkp : standardizePadding (builtInPaddingOption a.padding) = .ok kp)
    (hfit : FitsIn a.strides a.dilation a.kernelSize (padded l.transforms.padState kp a.strides a.dilation a.kernelSize n))
    {out before : List Nat}
    (hbef : before = totalBefore l.transforms.padState kp a.strides a.dilation a.kernelSize n)
    (hout : out = outSizes a.strides a.dilation a.kernelSize (padded l.transforms.padState kp a.strides a.dilation a.kernelSize n)) :
    (∀ k1 b1, MovesOutput a.group (List.range a.group.group.order) H h (fun x => ((l.assign k1 b1).call x).2) n g C a.filters) ↔
      a.group.Kept h out ∧ WindowsMoved (a.group.motion h) n out a.kernelSize before a.strides a.dilation := by
  have S := a.group.sym
  have hA' : actingOf a.group false H = H := rfl
  have hD' : domainOf a.group false H = List.range a.group.group.order := rfl
  obtain ⟨sH, hsH, hH⟩ := parse_sub hl.elements
  have hh' := S.sub_lt hH hh
  have hhr : h ∈ List.range a.group.group.order := List.mem_range.2 hh'
  have hAD : ∀ e ∈ H, e ∈ List.range a.group.group.order := fun e he => List.mem_range.2 (S.sub_lt hH he)
  have facts : ∀ k1 b1, ConvFacts a false g C k1 b1 H (List.range a.group.group.order) (l.assign k1 b1) kp := by
    intro k1 b1
    obtain ⟨opt, kp', hopt, hkp', f, _⟩ := (hall k1 b1).facts_last hf
    rw [hkp] at hkp'
    cases hkp'
    rw [hA', hD'] at f
    exact f
  have fk := facts k0 b0
  have hg : ∀ g', g = some g' → g' = a.group.group.order := by simpa using fk.size
  have hKk := fk.grid.kept hh'
  have calls : ∀ k1 b1 (B : Nat) (x : Tensor α), x.shape = sigShape .channelsLast B n g C → ∃ y,
      (l.assign k1 b1).call x = (l.assign k1 b1, .ok y) ∧ y.shape = B :: out ++ [H.length, a.filters] ∧
      ∀ b p i o, b < B → Valid out p → i < H.length → o < a.filters → y.get (b :: p ++ [i, o]) =
        convFormula a g C k1 b1 H (List.range a.group.group.order) before x n b p i o := by
    intro k1 b1 B x hx
    obtain ⟨y, e1, e2, e3⟩ := (conv_call_last (facts k1 b1) hf hx hl.dims).2 hfit
    refine ⟨y, e1, by rw [e2, hout]; rfl, fun b p i o hb hp hi ho => ?_⟩
    subst hbef
    exact e3 b p i o hb (by rw [hout] at hp; exact hp) hi ho
  constructor
  · intro hmoves
    -- the output sizes are kept
    have hO : a.group.Kept h out := by
      obtain ⟨y, e1, e2, _⟩ := calls k0 b0 0 ⟨sigShape .channelsLast 0 n g C, fun _ => 0⟩ rfl
      obtain ⟨m, y', h1, h2, _⟩ := hmoves k0 b0 0 ⟨sigShape .channelsLast 0 n g C, fun _ => 0⟩ ⟨sigShape .channelsLast 0 n g C, fun _ => 0⟩ y rfl
        (movedBy_of S.tab.own hhr hn fk.size rfl (fun _ _ _ _ _ _ => rfl)) (congrArg Prod.snd e1)
      rw [e2] at h1
      have : out = m := by simpa [sigShape] using h1
      rw [this]
      exact (keeps_iff _ hh' _).1 h2
    refine ⟨hO, (windowsMoved_iff hh' hn hO hKk).2 ?_⟩
    intro p k w hp hk hw
    have hc0 : 0 < chanO g C := by
      cases g with
      | none => exact hC
      | some g' => rw [hg g' rfl]; exact Nat.mul_pos S.tab.laws.pos hC
    have hct := S.turnChan_lt S.tab.own fk.size hhr hc0
    have hwb := hn.valid hh' hw
    -- the signals
    have hmv := movedBy_of (α := α) (B := 1) (C := C) S.tab.own hhr hn fk.size
      (x := single (sigShape .channelsLast 1 n g C) (0 :: back a.group.els n h w ++
        restIdx g C (turnChan a.group.group.toGroupData (List.range a.group.group.order) g C h 0)))
      (x' := single (sigShape .channelsLast 1 n g C) (0 :: w ++ restIdx g C 0)) rfl (by
        intro b q c' hb hq hc'
        have hb : b = 0 := by omega
        subst hb
        simp only [single]
        refine if_congr ?_ rfl rfl
        constructor
        · intro e
          simp only [List.cons_append, List.cons.injEq, true_and] at e ⊢
          obtain ⟨e1, e2⟩ := List.append_inj e (by rw [hq.length, hw.length])
          rw [e1, restIdx_inj e2]
        · intro e
          simp only [List.cons_append, List.cons.injEq, true_and] at e ⊢
          obtain ⟨e1, e2⟩ := List.append_inj e (by rw [(hn.valid hh' hq).length, hwb.length])
          rw [hn.inj hh' hq hw e1, S.turnChan_inj S.tab.own fk.size hhr hc' hc0 (restIdx_inj e2)])
    have hxs : (single (α := α) (sigShape .channelsLast 1 n g C) (0 :: back a.group.els n h w ++
        restIdx g C (turnChan a.group.group.toGroupData (List.range a.group.group.order) g C h 0))).shape =
        sigShape .channelsLast 1 n g C := rfl
    have hxs' : (single (α := α) (sigShape .channelsLast 1 n g C) (0 :: w ++ restIdx g C 0)).shape =
        sigShape .channelsLast 1 n g C := rfl
    -- the value of a reading
    have hread : ∀ (p k w : List Nat) (c : Nat), Valid n w → readAt (single (α := α) (sigShape .channelsLast 1 n g C) (0 :: w ++ restIdx g C c)) n 0
        (winZ before a.strides a.dilation p k) (restIdx g C c) * v = open Classical in
          if Reads before a.strides a.dilation p k w then v else 0 := by
      intro p k w c hw
      have hns : n.length = a.strides.length := by rw [hl.dims, fk.stridesLen]
      by_cases hr : ∃ w', Valid n w' ∧ Reads before a.strides a.dilation p k w'
      · obtain ⟨w', hw', h1⟩ := hr
        rw [readAt_of_reads hns hw' h1]
        have e : Reads before a.strides a.dilation p k w ↔ w' = w := by
          rw [reads_iff (hw.length.trans hns), (reads_iff (hw'.length.trans hns)).1 h1]
          constructor
          · intro e
            exact List.map_injective_iff.2 (fun a b h => by simpa using h) e
          · rintro rfl; rfl
        by_cases hww : w' = w
        · subst hww
          rw [if_pos h1]
          simp [single]
        · rw [if_neg (fun hr => hww (e.1 hr))]
          have : ¬ (0 :: w' ++ restIdx g C c = 0 :: w ++ restIdx g C c) := by
            simpa using hww
          simp only [single]
          rw [if_neg this, zero_mul]
      · rw [readAt_of_none hns (fun w hw h1 => hr ⟨w, hw, h1⟩), zero_mul, if_neg (fun h1 => hr ⟨w, hw, h1⟩)]
    generalize hX : single (α := α) (sigShape .channelsLast 1 n g C) (0 :: back a.group.els n h w ++
        restIdx g C (turnChan a.group.group.toGroupData (List.range a.group.group.order) g C h 0)) = x at hmv hxs
    generalize hX' : single (α := α) (sigShape .channelsLast 1 n g C) (0 :: w ++ restIdx g C 0) = x' at hmv hxs'
    -- the weights
    obtain ⟨y, e1, e2, e3⟩ := calls (oneWeight v (back a.group.els a.kernelSize h k ++
        [turnChan a.group.group.toGroupData (List.range a.group.group.order) g C h 0, 0])) (fun _ => 0) 1 x hxs
    obtain ⟨y2, e1', e2', e3'⟩ := calls (oneWeight v (back a.group.els a.kernelSize h k ++
        [turnChan a.group.group.toGroupData (List.range a.group.group.order) g C h 0, 0])) (fun _ => 0) 1 x' hxs'
    obtain ⟨m, y', h1, h2, h3, h4⟩ := hmoves (oneWeight v (back a.group.els a.kernelSize h k ++
        [turnChan a.group.group.toGroupData (List.range a.group.group.order) g C h 0, 0])) (fun _ => 0) 1 x x' y hxs hmv
        (congrArg Prod.snd e1)
    have : m = out := by
      rw [e2] at h1
      have : out = m := by simpa [sigShape] using h1
      exact this.symm
    subst this
    have h3 : .ok y2 = Except.ok y' := (congrArg Prod.snd e1').symm.trans h3
    cases h3
    obtain ⟨_, h5⟩ := (movedBy_group hH hh hO).1 h4
    have hi : H.idxOf h < H.length := List.idxOf_lt_length_iff.2 hh
    have hHi : nth H (H.idxOf h) = h := by
      rw [nth_eq_getElem _ _ hi]; exact List.getElem_idxOf hi
    have ht : nth H (turn a.group.group.toGroupData H h (H.idxOf h)) = 0 := by
      rw [S.nth_turn hH hh hi, hHi, S.tab.laws.inv_mul _ hh']
    have h6 := h5 0 p (H.idxOf h) 0 (by omega) hp hi hF
    simp only [sigIndex] at h6
    rw [e3' 0 p _ 0 (by omega) hp hi hF, e3 0 _ _ 0 (by omega) (hO.valid hh' hp) (S.turn_lt hH hh hi) hF,
      formula_one hh' hg fk.grid hF hHi hk hc0] at h6
    have hkb := hKk.valid hh' hk
    have h7 := formula_one (α := α) (a := a) (v := v) (before := before) (x := x) (m := n) (b := 0) (p := back a.group.els m h p)
      S.tab.laws.pos hg fk.grid hF ht hkb hct
    rw [S.back_one (by rw [hkb.length, fk.kernelLen]), turnChan_zero hg hct] at h7
    rw [h7, ← hX, ← hX', hread _ _ _ _ hw, hread _ _ _ _ hwb] at h6
    by_cases r1 : Reads before a.strides a.dilation p k w
    · by_cases r2 : Reads before a.strides a.dilation (back a.group.els m h p) (back a.group.els a.kernelSize h k) (back a.group.els n h w)
      · exact ⟨fun _ => r1, fun _ => r2⟩
      · rw [if_pos r1, if_neg r2] at h6
        exact absurd h6 hv
    · by_cases r2 : Reads before a.strides a.dilation (back a.group.els m h p) (back a.group.els a.kernelSize h k) (back a.group.els n h w)
      · rw [if_neg r1, if_pos r2] at h6
        exact absurd h6.symm hv
      · exact ⟨fun r => absurd r r2, fun r => absurd r r1⟩
  · rintro ⟨hO, hW⟩ k1 b1 B x x' y hx hmv hy
    obtain ⟨h1, h2⟩ := movedBy_last S.tab.own hhr hn fk.size hmv
    obtain ⟨y1, e1, e2, e3⟩ := calls k1 b1 B x hx
    obtain ⟨y', e1', e2', e3'⟩ := calls k1 b1 B x' (h1.trans hx)
    have hy : .ok y1 = Except.ok y := (congrArg Prod.snd e1).symm.trans hy
    cases hy
    refine ⟨out, y', e2, (keeps_iff _ hh' _).2 hO, congrArg Prod.snd e1', (movedBy_group hH hh hO).2 ⟨e2'.trans e2.symm, ?_⟩⟩
    intro b p j o hb hp hj ho
    simp only [sigIndex]
    rw [e3' b p j o hb hp hj ho, e3 b _ _ o hb (hO.valid hh' hp) (S.turn_lt hH hh hj) ho]
    exact formula_of_reads (facts k1 b1) hAD hh o hj fun k c hk hc =>
      readAt_moved hh' hn hO hKk fk.stridesLen hW (fun w hw => h2 b w c hb hw hc) hp hk

/-- a symmetry that reverses an axis mirrors its coordinate -/
theorem moves_mirror {n : GroupName} {h : Nat} (hh : h < n.group.order) {i : Fin n.dim} (hi : n.motion h i i = -1) {m p q : List Nat}
    (hm : MovesTo (n.motion h) (List.range n.dim) m p q) : nth q i + nth p i + 1 = nth m i := by
  have hw := n.sym.wf hh
  have hrow : ∀ k : Fin n.dim, k ≠ i → n.motion h i k = 0 := by
    intro k hk
    have e : (n.els.getD h []).src i = i := by
      by_contra hc
      have : n.motion h i i = 0 := if_neg hc
      rw [this] at hi
      exact absurd hi (by decide)
    exact if_neg (fun hc => hk (Fin.ext (hw.src_inj k.2 i.2 (hc.trans e.symm))))
  have e := hm.2 i
  rw [Finset.sum_eq_single i (fun k _ hk => by rw [hrow k hk, zero_mul]) (fun hc => absurd (Finset.mem_univ _) hc), hi] at e
  have er : ∀ j : Fin n.dim, nth (List.range n.dim) j = j := fun j => by simp [nth]
  simp only [er, centred] at e
  omega

/-- Keras's padding is symmetric if the first and the last window are mirror images -/
theorem symmetric_of_mirror {opt : PadOption} {n k s before after : Nat} (hs : 0 < s)
    (hb : before = builtIn opt n k s / 2) (hba : before + after = builtIn opt n k s)
    (hfit : k ≤ before + n + after) (h : (before + n + after - k) / s * s + k = n + 2 * before) :
    Symmetric n k s (builtIn opt n k s) := by
  have hdiv := Nat.div_add_mod (before + n + after - k) s
  rw [Nat.mul_comm] at hdiv
  have hlt := Nat.mod_lt (before + n + after - k) hs
  generalize hq : (before + n + after - k) / s * s = q at h hdiv
  have hev : builtIn opt n k s % 2 = 0 := by
    by_contra hodd
    have h1 : (before + n + after - k) % s = 1 := by omega
    have hsame : builtIn opt n k s = sameTotal n k s := by
      cases opt <;> first | rfl | exact absurd rfl hodd
    rw [hsame] at hba hodd
    unfold sameTotal at hba hodd
    have hn := Nat.div_add_mod n s
    split at hba
    · rename_i h0
      rw [if_pos h0] at hodd
      have e : before + n + after - k = s * (n / s) - s := by omega
      rw [e] at h1
      have : (s * (n / s) - s) % s = 0 := by
        rw [← Nat.mul_sub_one]; exact Nat.mul_mod_right _ _
      omega
    · rename_i h0
      rw [if_neg h0] at hodd
      have e : before + n + after - k = s * (n / s) := by omega
      rw [e, Nat.mul_mod_right] at h1
      omega
  refine ⟨hev, ?_⟩
  have h1 : (before + n + after - k) % s = 0 := by omega
  have : (n : Int) + builtIn opt n k s - k = ((before + n + after - k : Nat) : Int) := by omega
  rw [this]
  exact_mod_cast h1

/-- Keras never adds as many zeros as the kernel is long -/
theorem builtIn_lt {opt : PadOption} {n k s : Nat} (hk : 0 < k) (hs : 0 < s) : builtIn opt n k s / 2 < k := by
  have hr : ∀ r, k - r ≤ k := fun r => Nat.sub_le _ _
  have h : builtIn opt n k s ≤ k := by
    cases opt <;> simp only [builtIn, sameTotal] <;> first | omega | (split <;> exact hr _)
  omega

end GroCo
