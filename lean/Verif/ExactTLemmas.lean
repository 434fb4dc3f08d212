import Verif.ExactLemmas
import Verif.TransposeEquiv

/-
Helper lemmas for C69: a transposed layer moves its output with its input exactly if its contributions are moved into each other.
-/

namespace GroCo
open Tensor

variable {α : Type}

theorem hitsMoved_iff {n : GroupName} {h : Nat} (hh : h < n.group.order) {m out K before strides dil crop : List Nat}
    (hm : n.Kept h m) (hO : n.Kept h out) (hK : n.Kept h K) :
    HitsMoved (n.motion h) m out K before strides dil crop ↔ ∀ p k q, Valid m p → Valid K k → Valid out q →
      (Hits before strides dil crop (back n.els m h p) (back n.els K h k) (back n.els out h q) ↔
        Hits before strides dil crop p k q) := by
  constructor
  · intro hW p k q hp hk hq
    exact hW _ _ _ _ _ _ (hm.valid hh hp) hp (hK.valid hh hk) hk (hO.valid hh hq) hq (Kept.moves hh hm hp) (Kept.moves hh hK hk)
      (Kept.moves hh hO hq)
  · intro hW p p' k k' q q' hp hp' hk hk' hq hq' h1 h2 h3
    rw [Kept.of_moves hh hm hp hp' h1, Kept.of_moves hh hK hk hk' h2, Kept.of_moves hh hO hq hq' h3]
    exact hW p' k' q' hp' hk' hq'

/-- the index of the stored weight used for the identity -/
theorem wIdx_zero {a : ConvArgs α} {g : Option Nat} {C : Nat} {s : String} {D : List Nat}
    (hD : lookup a.group.group.subgroup s = .ok D) (hg : ∀ g', g = some g' → g' = D.length) {k : List Nat}
    (hk : Valid a.kernelSize k) (hK : a.kernelSize.length = a.group.dim) {c o : Nat} (hc : c < chanO g C) :
    wIdx a.group.group.toGroupData a.group.els g.isSome D a.kernelSize C a.filters 0 k c o =
      ravel (a.kernelSize ++ [chanO g C, a.filters]) (k ++ [c, o]) := by
  have S := a.group.sym
  have hb := S.back_one (n := a.kernelSize) (p := k) (by rw [hk.length, hK])
  cases g with
  | none => simp only [wIdx, Option.isSome_none, Bool.false_eq_true, if_false, liftIdx, hb, chanO]
  | some g' =>
    have := hg g' rfl
    subst this
    obtain ⟨h1, h2, h3⟩ := split_lt (m := D.length) (n := C) hc
    have L := S.tab.laws
    have h0 : nth a.group.group.inverses 0 = 0 := by
      have := L.mul_inv 0 L.pos
      rwa [L.one_mul _ (S.inv_lt L.pos)] at this
    have hsub := S.tab.subs _ (lookup_mem hD)
    simp only [wIdx, Option.isSome_some, if_true, groupIdx, h0, hb, chanO]
    rw [L.one_mul _ (S.sub_nth_lt hD h1), if_pos (nth_mem _ _ h1), idxOf_nth hsub.2.1 h1, ← h3]

/-- weights of a transposed layer with a single stored weight -/
theorem weightT_one [Zero α] {a : ConvArgs α} {g : Option Nat} {C : Nat} {v : α} {s : String} {D : List Nat}
    (hD : lookup a.group.group.subgroup s = .ok D) (hg : ∀ g', g = some g' → g' = D.length) (hK : a.group.Grid a.kernelSize)
    (hKl : a.kernelSize.length = a.group.dim) (hF : 0 < a.filters) {e : Nat} (he : e ∈ D) {k k1 : List Nat} {c c1 : Nat}
    (hk : Valid a.kernelSize k) (hk1 : Valid a.kernelSize k1) (hc : c < chanO g C) (hc1 : c1 < chanO g C) :
    weightOf a true g C (oneWeight v (unravel (kShape a true g C) (ravel (a.kernelSize ++ [chanO g C, a.filters]) (k1 ++ [c1, 0]))))
      D e k c 0 = if back a.group.els a.kernelSize e k = k1 ∧ turnChan a.group.group.toGroupData D g C e c = c1 then v else 0 := by
  have S := a.group.sym
  have he' := S.sub_lt hD he
  have e1 := weight_covariant (tr := true) (g := g) (C := C) (o := 0)
    (k0 := oneWeight v (unravel (kShape a true g C) (ravel (a.kernelSize ++ [chanO g C, a.filters]) (k1 ++ [c1, 0]))))
    hD hg hK he S.tab.laws.pos hk hc
  rw [S.tab.laws.mul_one _ he'] at e1
  rw [e1]
  have hkb := S.valid_back hK he' hk
  have hct := S.turnChan_lt hD hg he hc
  unfold weightOf
  rw [wIdx_zero hD hg hkb hKl hct]
  unfold oneWeight
  refine if_congr ?_ rfl rfl
  generalize back a.group.els a.kernelSize e k = k2 at hkb
  generalize turnChan a.group.group.toGroupData D g C e c = c2 at hct
  constructor
  · intro h
    have hp : prod (a.kernelSize ++ [chanO g C, a.filters]) = prod (kShape a true g C) := by
      unfold kShape
      rw [prod_append, prod_append]
      simp [Nat.mul_comm]
    have v1 : Valid (a.kernelSize ++ [chanO g C, a.filters]) (k1 ++ [c1, 0]) := valid_two.2 ⟨hk1, hc1, hF⟩
    have v2 : Valid (a.kernelSize ++ [chanO g C, a.filters]) (k2 ++ [c2, 0]) := valid_two.2 ⟨hkb, hct, hF⟩
    have h1 := congrArg (ravel (kShape a true g C)) h
    rw [ravel_unravel (by rw [← hp]; exact ravel_lt v2), ravel_unravel (by rw [← hp]; exact ravel_lt v1)] at h1
    have h2 := congrArg (unravel (a.kernelSize ++ [chanO g C, a.filters])) h1
    rw [unravel_ravel v1, unravel_ravel v2] at h2
    obtain ⟨h3, h4⟩ := List.append_inj h2 (by rw [hkb.length, hk1.length])
    simp only [List.cons.injEq, and_true] at h4
    exact ⟨h3, h4⟩
  · rintro ⟨h1, h2⟩
    rw [h1, h2]

/-- the value of a transposed layer with a single stored weight -/
theorem formulaT_one [Semiring α] {a : ConvArgs α} {g : Option Nat} {C : Nat} {v : α} {A before crop : List Nat} {e : Nat}
    {s : String} {D : List Nat} (hD : lookup a.group.group.subgroup s = .ok D) (hg : ∀ g', g = some g' → g' = D.length)
    (hK : a.group.Grid a.kernelSize) (hKl : a.kernelSize.length = a.group.dim) (hF : 0 < a.filters) (he : e ∈ D)
    {x : Tensor α} {m : List Nat} {b : Nat} {q : List Nat} {i : Nat} (hi : nth A i = e) {k : List Nat} {c : Nat}
    (hk : Valid a.kernelSize k) (hc : c < chanO g C) :
    convTFormula a g C (oneWeight v (unravel (kShape a true g C) (ravel (a.kernelSize ++ [chanO g C, a.filters])
        (back a.group.els a.kernelSize e k ++ [turnChan a.group.group.toGroupData D g C e c, 0])))) (fun _ => 0) A
        D before crop x m b q i 0 =
      a.activation (spread before a.strides a.dilation crop x m b q k (restIdx g C c) * v) := by
  have S := a.group.sym
  have he' := S.sub_lt hD he
  unfold convTFormula
  have hb : (if a.useBias then (0 : α) else 0) = 0 := by split <;> rfl
  rw [hb, add_zero, hi]
  congr 1
  rw [← sum_delta (P := fun k' c' => back a.group.els a.kernelSize e k' = back a.group.els a.kernelSize e k ∧
      turnChan a.group.group.toGroupData D g C e c' = turnChan a.group.group.toGroupData D g C e c)
    (fun k c => spread before a.strides a.dilation crop x m b q k (restIdx g C c)) v hk hc (by
      intro k' c' hk' hc'
      constructor
      · rintro ⟨h1, h2⟩
        exact ⟨S.back_inj hK he' hk' hk h1, S.turnChan_inj hD hg he hc' hc h2⟩
      · rintro ⟨rfl, rfl⟩; exact ⟨rfl, rfl⟩)]
  apply sum_congr
  intro k' hk'
  rw [mem_indices] at hk'
  apply sum_congr
  intro c' hc'
  rw [List.mem_range] at hc'
  rw [weightT_one hD hg hK hKl hF he hk' (S.valid_back hK he' hk) hc' (S.turnChan_lt hD hg he hc)]

theorem zero_mem_sub {n : GroupName} {s : String} {D : List Nat} (hD : lookup n.group.subgroup s = .ok D) : 0 ∈ D :=
  List.mem_of_mem_head? (by rw [(n.sym.tab.subs _ (lookup_mem hD)).2.2.1]; rfl)

theorem turnChan_one {n : GroupName} {s : String} {D : List Nat} (hD : lookup n.group.subgroup s = .ok D) {g : Option Nat}
    (hg : ∀ g', g = some g' → g' = D.length) {C c : Nat} (hc : c < chanO g C) :
    turnChan n.group.toGroupData D g C 0 c = c := by
  have S := n.sym
  cases g with
  | none => rfl
  | some g' =>
    have := hg g' rfl
    subst this
    obtain ⟨h1, h2, h3⟩ := split_lt (m := D.length) (n := C) hc
    have L := S.tab.laws
    have h0 : nth n.group.inverses 0 = 0 := by
      have := L.mul_inv 0 L.pos
      rwa [L.one_mul _ (S.inv_lt L.pos)] at this
    simp only [turnChan, turn]
    rw [h0, L.one_mul _ (S.sub_nth_lt hD h1), idxOf_nth (S.tab.subs _ (lookup_mem hD)).2.1 h1]
    exact h3.symm

/-- the contribution of a single entry -/
theorem spread_single [Semiring α] {before strides dil crop n w q k : List Nat} {g : Option Nat} {C c : Nat} {shape : List Nat}
    (hw : Valid n w) :
    spread before strides dil crop (single (α := α) shape (0 :: w ++ restIdx g C c)) n 0 q k (restIdx g C c) =
      if Hits before strides dil crop w k q then 1 else 0 := by
  unfold spread
  have h : ∀ p ∈ indices n, (if Hits before strides dil crop p k q then
      (single (α := α) shape (0 :: w ++ restIdx g C c)).get (0 :: p ++ restIdx g C c) else 0) =
      if p = w then (if Hits before strides dil crop w k q then 1 else 0) else 0 := by
    intro p hp
    have e : (0 :: p ++ restIdx g C c = 0 :: w ++ restIdx g C c) ↔ p = w := by simp
    simp only [single, e]
    by_cases hpw : p = w
    · subst hpw; simp
    · simp [hpw]
  rw [sum_congr h, sum_ite_one (nodup_indices n) (P := fun p => p = w) (F := fun _ => if Hits before strides dil crop w k q then (1 : α) else 0)
    ((mem_indices _ _).2 hw) (fun _ _ => Iff.rfl)]

/-- A function given by the formula of a transposed convolution moves its output with its input, whatever the weights, exactly if the
contributions are moved into each other. -/
theorem transposed_exact [Semiring α] {a : ConvArgs α} {n : List Nat} {g : Option Nat} {C : Nat} {s : String}
    {H : List Nat} (hH : lookup a.group.group.subgroup s = .ok H) {L : (List Nat → α) → (List Nat → α) → GroupConv α} {kp : KerasPadding}
    (facts : ∀ k1 b1, ConvFacts a true g C k1 b1 (List.range a.group.group.order) H (L k1 b1) kp)
    {F : (List Nat → α) → (List Nat → α) → Tensor α → Res (Tensor α)} {out before crop : List Nat}
    (calls : ∀ k1 b1 (B : Nat) (x : Tensor α), x.shape = sigShape .channelsLast B n g C → ∃ y,
      F k1 b1 x = .ok y ∧ y.shape = B :: out ++ [(List.range a.group.group.order).length, a.filters] ∧
      ∀ b p i o, b < B → Valid out p → i < (List.range a.group.group.order).length → o < a.filters → y.get (b :: p ++ [i, o]) =
        convTFormula a g C k1 b1 (List.range a.group.group.order) H before crop x n b p i o)
    {v : α} (hv : a.activation v ≠ a.activation 0) (hC : 0 < C) (hF : 0 < a.filters) {h : Nat} (hh : h ∈ H)
    (hn : a.group.Kept h n) :
    (∀ k1 b1, MovesOutput a.group H (List.range a.group.group.order) h (F k1 b1) n g C a.filters) ↔
      a.group.Kept h out ∧ HitsMoved (a.group.motion h) n out a.kernelSize before a.strides a.dilation crop := by
  have S := a.group.sym
  have hh' := S.sub_lt hH hh
  have hhr : h ∈ List.range a.group.group.order := List.mem_range.2 hh'
  have fk := facts (fun _ => 0) (fun _ => 0)
  have hg := fk.size
  have hKk := fk.grid.kept hh'
  constructor
  · intro hmoves
    -- the output sizes are kept
    have hO : a.group.Kept h out := by
      obtain ⟨y, e1, e2, _⟩ := calls (fun _ => 0) (fun _ => 0) 0 ⟨sigShape .channelsLast 0 n g C, fun _ => 0⟩ rfl
      obtain ⟨m, y', h1, h2, _⟩ := hmoves (fun _ => 0) (fun _ => 0) 0 ⟨sigShape .channelsLast 0 n g C, fun _ => 0⟩ ⟨sigShape .channelsLast 0 n g C, fun _ => 0⟩ y rfl
        (movedBy_of hH hh hn fk.size rfl (fun _ _ _ _ _ _ => rfl)) e1
      rw [e2] at h1
      have : out = m := by simpa [sigShape] using h1
      rw [this]
      exact (keeps_iff _ hh' _).1 h2
    refine ⟨hO, (hitsMoved_iff hh' hn hO hKk).2 ?_⟩
    intro w k p hw hk hp
    have hc0 : 0 < chanO g C := by
      cases g with
      | none => exact hC
      | some g' =>
        rw [hg g' rfl]
        exact Nat.mul_pos (List.length_pos_of_mem hh) hC
    have hct := S.turnChan_lt hH fk.size hh hc0
    have hwb := hn.valid hh' hw
    -- the signals
    have hmv := movedBy_of (α := α) (B := 1) (C := C) hH hh hn fk.size
      (x := single (sigShape .channelsLast 1 n g C) (0 :: back a.group.els n h w ++
        restIdx g C (turnChan a.group.group.toGroupData H g C h 0)))
      (x' := single (sigShape .channelsLast 1 n g C) (0 :: w ++ restIdx g C 0)) rfl (by
        intro b q c' hb hq hc'
        have hb : b = 0 := by omega
        subst hb
        simp only [single]
        refine if_congr ?_ rfl rfl
        constructor
        · intro e
          simp only [List.cons_append, List.cons.injEq, true_and] at e ⊢
          obtain ⟨e1, e2⟩ := List.append_inj e (by rw [hq.length, hw.length])
          rw [e1, restIdx_inj e2]
        · intro e
          simp only [List.cons_append, List.cons.injEq, true_and] at e ⊢
          obtain ⟨e1, e2⟩ := List.append_inj e (by rw [(hn.valid hh' hq).length, hwb.length])
          rw [hn.inj hh' hq hw e1, S.turnChan_inj hH fk.size hh hc' hc0 (restIdx_inj e2)])
    have hxs : (single (α := α) (sigShape .channelsLast 1 n g C) (0 :: back a.group.els n h w ++
        restIdx g C (turnChan a.group.group.toGroupData H g C h 0))).shape = sigShape .channelsLast 1 n g C := rfl
    have hxs' : (single (α := α) (sigShape .channelsLast 1 n g C) (0 :: w ++ restIdx g C 0)).shape =
        sigShape .channelsLast 1 n g C := rfl
    have hread : ∀ (q k w : List Nat) (c : Nat), Valid n w →
        spread before a.strides a.dilation crop (single (α := α) (sigShape .channelsLast 1 n g C) (0 :: w ++ restIdx g C c)) n 0 q k
          (restIdx g C c) * v = if Hits before a.strides a.dilation crop w k q then v else 0 := by
      intro q k w c hw
      rw [spread_single hw]
      split <;> simp
    generalize hX : single (α := α) (sigShape .channelsLast 1 n g C) (0 :: back a.group.els n h w ++
        restIdx g C (turnChan a.group.group.toGroupData H g C h 0)) = x at hmv hxs
    generalize hX' : single (α := α) (sigShape .channelsLast 1 n g C) (0 :: w ++ restIdx g C 0) = x' at hmv hxs'
    -- the weights
    have f1 := fun (x : Tensor α) (q : List Nat) (i : Nat) (hi : nth (List.range a.group.group.order) i = h) =>
      formulaT_one (v := v) (before := before) (crop := crop) (x := x) (m := n) (b := 0) (q := q) hH hg fk.grid fk.kernelLen hF hh hi hk hc0
    have hkb := hKk.valid hh' hk
    have f0 := fun (x : Tensor α) (q : List Nat) (i : Nat) (hi : nth (List.range a.group.group.order) i = 0) =>
      formulaT_one (v := v) (before := before) (crop := crop) (x := x) (m := n) (b := 0) (q := q) hH hg fk.grid fk.kernelLen hF
        (zero_mem_sub hH) hi hkb hct
    rw [S.back_one (by rw [hkb.length, fk.kernelLen]), turnChan_one hH hg hct] at f0
    generalize oneWeight v (unravel (kShape a true g C) (ravel (a.kernelSize ++ [chanO g C, a.filters])
        (back a.group.els a.kernelSize h k ++ [turnChan a.group.group.toGroupData H g C h 0, 0]))) = k1 at f0 f1
    obtain ⟨y, e1, e2, e3⟩ := calls k1 (fun _ => 0) 1 x hxs
    obtain ⟨y2, e1', e2', e3'⟩ := calls k1 (fun _ => 0) 1 x' hxs'
    obtain ⟨m, y', h1, h2, h3, h4⟩ := hmoves k1 (fun _ => 0) 1 x x' y hxs hmv e1
    have : m = out := by
      rw [e2] at h1
      have : out = m := by simpa [sigShape] using h1
      exact this.symm
    subst this
    have h3 : .ok y2 = Except.ok y' := e1'.symm.trans h3
    cases h3
    obtain ⟨_, h5⟩ := (movedBy_group S.tab.own hhr hO).1 h4
    have hi : h < (List.range a.group.group.order).length := by simpa using hh'
    have hHi : nth (List.range a.group.group.order) h = h := by rw [nth_range, if_pos hh']
    have ht : nth (List.range a.group.group.order) (turn a.group.group.toGroupData (List.range a.group.group.order) h h) = 0 := by
      rw [S.nth_turn S.tab.own hhr hi, hHi, S.tab.laws.inv_mul _ hh']
    have h6 := h5 0 p h 0 (by omega) hp hi hF
    simp only [sigIndex] at h6
    rw [e3' 0 p _ 0 (by omega) hp hi hF, e3 0 _ _ 0 (by omega) (hO.valid hh' hp) (S.turn_lt S.tab.own hhr hi) hF,
      f1 _ _ _ hHi, f0 _ _ _ ht, ← hX, ← hX', hread _ _ _ _ hw, hread _ _ _ _ hwb] at h6
    by_cases r1 : Hits before a.strides a.dilation crop w k p
    · by_cases r2 : Hits before a.strides a.dilation crop (back a.group.els n h w) (back a.group.els a.kernelSize h k) (back a.group.els m h p)
      · exact ⟨fun _ => r1, fun _ => r2⟩
      · rw [if_pos r1, if_neg r2] at h6
        exact absurd h6 hv
    · by_cases r2 : Hits before a.strides a.dilation crop (back a.group.els n h w) (back a.group.els a.kernelSize h k) (back a.group.els m h p)
      · rw [if_neg r1, if_pos r2] at h6
        exact absurd h6.symm hv
      · exact ⟨fun r => absurd r r2, fun r => absurd r r1⟩
  · rintro ⟨hO, hW⟩ k1 b1 B x x' y hx hmv hy
    rw [hitsMoved_iff hh' hn hO hKk] at hW
    obtain ⟨h1, h2⟩ := movedBy_last hH hh hn fk.size hmv
    obtain ⟨y1, e1, e2, e3⟩ := calls k1 b1 B x hx
    obtain ⟨y', e1', e2', e3'⟩ := calls k1 b1 B x' (h1.trans hx)
    have hy : .ok y1 = Except.ok y := e1.symm.trans hy
    cases hy
    refine ⟨out, y', e2, (keeps_iff _ hh' _).2 hO, e1', (movedBy_group S.tab.own hhr hO).2 ⟨e2'.trans e2.symm, ?_⟩⟩
    intro b p j o hb hp hj ho
    simp only [sigIndex]
    rw [e3' b p j o hb hp hj ho, e3 b _ _ o hb (hO.valid hh' hp) (S.turn_lt S.tab.own hhr hj) ho]
    exact formulaT_of_hits (facts k1 b1) hn hh hhr h2 o hb hj fun w k hw hk => hW w k p hw hk hp

/-- A transposed layer moves its output with its input, whatever its weights, exactly if its contributions are moved into each
other. -/
theorem convT_exact [Semiring α] {a : ConvArgs α} {bt : Option Nat} {n : List Nat} {g : Option Nat} {C : Nat}
    {k0 b0 : List Nat → α} {H : List Nat} {l : GroupConv α} (hl : BuiltConv a true bt n g C k0 b0 H l)
    (hall : ∀ k1 b1, BuiltConv a true bt n g C k1 b1 H (l.assign k1 b1)) (hf : a.dataFormat = .channelsLast)
    {v : α} (hv : a.activation v ≠ a.activation 0) (hC : 0 < C) (hF : 0 < a.filters) {h : Nat} (hh : h ∈ H)
    (hn : a.group.Kept h n) {kp : KerasPadding} (hkp : standardizePadding (builtInPaddingOption a.padding) = .ok kp)
    {out before crop : List Nat}
    (hbef : before = befores (epads l.transforms.padState a.group.dim))
    (hout : out = upSizes kp a.strides a.dilation a.kernelSize (grow n (epads l.transforms.padState a.group.dim)))
    (hcrop : crop = upCrop kp a.strides a.dilation a.kernelSize (grow n (epads l.transforms.padState a.group.dim))) :
    (∀ k1 b1, MovesOutput a.group H (List.range a.group.group.order) h (fun x => ((l.assign k1 b1).call x).2) n g C a.filters) ↔
      a.group.Kept h out ∧ HitsMoved (a.group.motion h) n out a.kernelSize before a.strides a.dilation crop := by
  have hA' : actingOf a.group true H = List.range a.group.group.order := rfl
  have hD' : domainOf a.group true H = H := rfl
  obtain ⟨sH, hsH, hH⟩ := parse_sub hl.elements
  have facts : ∀ k1 b1, ConvFacts a true g C k1 b1 (List.range a.group.group.order) H (l.assign k1 b1) kp := by
    intro k1 b1
    obtain ⟨opt, kp', hopt, hkp', f, _⟩ := (hall k1 b1).facts_last hf
    rw [hkp] at hkp'
    cases hkp'
    rw [hA', hD'] at f
    exact f
  refine transposed_exact hH facts (F := fun k1 b1 x => ((l.assign k1 b1).call x).2) ?_ hv hC hF hh hn
  intro k1 b1 B x hx
  obtain ⟨y, e1, e2, e3⟩ := convT_call_last (facts k1 b1) hf hx hl.dims
  refine ⟨y, congrArg Prod.snd e1, by rw [e2, hout]; rfl, fun b p i o hb hp hi ho => ?_⟩
  subst hbef hcrop
  exact e3 b p i o hb (by rw [hout] at hp; exact hp) hi ho

/-- the zeros the padding layer of a transposed layer adds along an axis -/
def extraT (o : PadOption) (n k s : Nat) : Nat :=
  if o = .same ∨ o = .valid then 0 else (computeEquivariantPadding o true n k s).1.toNat

theorem epadsT {o : PadOption} {allow : Bool} {d : Nat} {strides K n : List Nat} {b c : Option Nat} {st : PadState}
    (hn : n.length = d) (hK : K.length = d) (hs : strides.length = d) (h0 : 0 ∉ strides)
    (h : (EquivariantPadding.mk o allow d strides K true true).build (signalShape true b c n) = .ok st) {i : Nat} (hi : i < d) :
    st.amount (i + 1) = (((extraT o (nth n i) (nth K i) (nth strides i) - extraT o (nth n i) (nth K i) (nth strides i) / 2 : Nat) : Int),
      ((extraT o (nth n i) (nth K i) (nth strides i) / 2 : Nat) : Int)) ∧
    (allow = false → (computeEquivariantPadding o true (nth n i) (nth K i) (nth strides i)).1 =
      extraT o (nth n i) (nth K i) (nth strides i)) ∧
    (allow = false → (computeEquivariantPadding o true (nth n i) (nth K i) (nth strides i)).2 % 2 = 0) := by
  have hf := signal_fits (o := o) (allow := allow) (l := true) (tr := true) hn hK hs h0
  have hsp : 0 < nth strides i := Nat.pos_of_ne_zero fun h => h0 (h ▸ nth_mem _ _ (by omega))
  have e1 : (EquivariantPadding.mk o allow d strides K true true).padAt n i =
    computeEquivariantPadding o true (nth n i) (nth K i) (nth strides i) := rfl
  by_cases hp : (o = .same ∨ o = .valid) ∧ allow = true
  · have := EquivariantPadding.build_eq ⟨o, allow, d, strides, K, true, true⟩ b c hf
    rw [if_pos hp, h] at this
    cases this
    refine ⟨?_, fun h => ?_, fun h => ?_⟩
    · unfold extraT
      rw [if_pos hp.1]
      rfl
    · rw [hp.2] at h; cases h
    · rw [hp.2] at h; cases h
  · obtain ⟨h1, h2, h3⟩ := (build_amount hf h hp).1 i (by omega)
    simp only [spatialAxis, if_true] at h1
    rw [e1] at h1 h2 h3
    have key : (computeEquivariantPadding o true (nth n i) (nth K i) (nth strides i)).1 =
        extraT o (nth n i) (nth K i) (nth strides i) := by
      unfold extraT
      by_cases hpl : o = .same ∨ o = .valid
      · rw [if_pos hpl]
        have hb := EquivariantPadding.build_eq ⟨o, allow, d, strides, K, true, true⟩ b c hf
        rw [if_neg hp] at hb
        have hall : ∀ i, i < n.length → ((EquivariantPadding.mk o allow d strides K true true).padAt n i).1 = 0 := by
          by_contra hc
          rw [if_neg hc, if_pos hpl, h] at hb
          cases hb
        exact hall i (by omega)
      · rw [if_neg hpl]
        omega
    refine ⟨?_, fun _ => key, fun _ => h2⟩
    rw [h1, key]
    simp only [Prod.mk.injEq]
    omega

/-- when the contributions along an axis are symmetric -/
theorem mirrorT_iff {opt : PadOption} {n k s b a : Nat} (hs : 0 < s) (hk : 0 < k) (hba : b = a ∨ b = a + 1) :
    ((b + n + a) * s + excess opt k s + 2 * cutOff opt k s + s = (n + 2 * b) * s + k) ↔
    s ≤ k ∧ b = a ∧ (opt = .valid ∨ opt = .validEquiv ∨ (k - s) % 2 = 0) := by
  rcases hba with rfl | rfl
  · have : b + n + b = n + 2 * b := by omega
    rw [this]
    generalize (n + 2 * b) * s = t
    cases opt <;> simp only [excess, cutOff, reduceCtorEq, false_or, or_false, true_or, or_true, and_true, true_and, or_self] <;> omega
  · have : (n + 2 * (a + 1)) * s = (a + 1 + n + a) * s + s := by ring
    rw [this]
    generalize (a + 1 + n + a) * s = t
    have hne : ¬ (a + 1 = a) := by omega
    cases opt <;> simp only [excess, cutOff, hne, false_and, and_false, iff_false] <;> omega

/-- a subgroup with an element that reverses an axis, possibly exchanging it with others, has one that mirrors the axis -/
theorem mirror_of_neg (n : GroupName) {s : String} {H : List Nat} (hs : lookup n.group.subgroup s = .ok H) {h : Nat} (hh : h ∈ H)
    {i : Nat} (hi : i < n.dim) (hneg : (n.els.getD h []).neg i = true) : ∃ e ∈ H, n.motion e ⟨i, hi⟩ ⟨i, hi⟩ = -1 := by
  have key : ∀ e ∈ n.group.subgroup, ∀ h ∈ e.2, ∀ i : Fin n.dim, (n.els.getD h []).neg i = true → ∃ h ∈ e.2, n.motion h i i = -1 := by
    cases n <;> decide +kernel
  exact key _ (lookup_mem hs) h hh ⟨i, hi⟩ hneg

end GroCo
