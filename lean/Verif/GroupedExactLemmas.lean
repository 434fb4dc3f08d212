import Verif.ExactLemmas
import Verif.GroupedLemmas
import Verif.Props.Training

/-
Helper lemmas for C48: with more than one group a layer on a nontrivial subgroup cannot be equivariant.
-/

namespace GroCo
open Tensor

variable {α : Type}

/-- a permutation that commutes with cutting into parts of `q`, up to a shift, is no shift -/
theorem no_shift {N q P : Nat} {f f' : Nat → Nat} (hN : 0 < N) (hq : 2 ≤ q) (h1 : ∀ m, m < N → f' m < N)
    (h2 : ∀ m, m < N → f (f' m) = m) (h3 : ∀ m, m < N → f' (f m) = m) (hP : ∀ m, m < N → P + m < q * N)
    (h : ∀ m, m < N → f m = f ((P + m) / q) * q + (P + m) % q) : f' 0 = 0 := by
  have key : ∀ m, m < N → P + f' m = f' (m / q) * q + m % q := by
    intro m hm
    have e := h _ (h1 m hm)
    rw [h2 m hm] at e
    have hlt : (P + f' m) / q < N := Nat.div_lt_of_lt_mul (hP _ (h1 m hm))
    have hr : (P + f' m) % q < q := Nat.mod_lt _ (by omega)
    have e1 : m / q = f ((P + f' m) / q) := (congrArg (· / q) e).trans (div_of hr)
    have e2 : m % q = (P + f' m) % q := by
      have := Nat.div_add_mod m q
      rw [e1, Nat.mul_comm] at this
      omega
    rw [e1, h3 _ hlt, e2, Nat.mul_comm]
    exact (Nat.div_add_mod _ _).symm
  have h0 := key 0 hN
  simp only [Nat.zero_div, Nat.zero_mod, Nat.add_zero] at h0
  have hall : ∀ m, m < N → f' m = f' 0 + m := by
    intro m
    induction m using Nat.strong_induction_on with
    | _ m ih =>
      intro hm
      rcases Nat.eq_zero_or_pos m with rfl | hm0
      · rfl
      · have hlt : m / q < m := Nat.div_lt_self hm0 (by omega)
        have e := key m hm
        rw [ih _ hlt (by omega), Nat.add_mul] at e
        have := Nat.div_add_mod m q
        rw [Nat.mul_comm] at this
        omega
  have := hall (N - 1) (by omega)
  have := h1 (N - 1) (by omega)
  omega

/-- the part of a slice -/
theorem part_eq {i F q L : Nat} (hF : F % q = 0) (hF0 : 0 < F) (hq : 0 < q) : (i * F + 0) / (L * F / q) = i * q / L := by
  obtain ⟨f, rfl⟩ := Nat.dvd_of_mod_eq_zero hF
  have hf : 0 < f := Nat.pos_of_mul_pos_left hF0
  have e : L * (q * f) / q = L * f := by
    rw [show L * (q * f) = L * f * q by ring, Nat.mul_div_cancel _ hq]
  rw [e, Nat.add_zero, ← Nat.mul_assoc, Nat.mul_div_mul_right _ _ hf]

/-- the identity is the first element of every subgroup -/
theorem sub_first (n : GroupName) {s : String} {H : List Nat} (h : lookup n.group.subgroup s = .ok H) : H.idxOf 0 = 0 := by
  have hall : ∀ p ∈ n.group.subgroup, p.2.idxOf 0 = 0 := by cases n <;> decide
  exact hall _ (lookup_mem h)

theorem grouped_assign {a : ConvArgs α} {q : Nat} {bt : Option Nat} {n : List Nat} {g : Option Nat} {C : Nat}
    {k0 b0 k1 b1 : List Nat → α} {H : List Nat} {l : GroupConv α} (hl : BuiltGrouped a q bt n g C k0 b0 H l) :
    BuiltGrouped a q bt n g C k1 b1 H (l.assign k1 b1) := by
  obtain ⟨⟨l0, h0, h1⟩, hn, hH⟩ := hl
  refine ⟨⟨l0, h0, ?_⟩, hn, hH⟩
  unfold GroupConv.buildGroups at *
  obtain ⟨t, ht, h1⟩ := bind_eq_ok h1
  rw [ht, res_bind_ok]
  simp only at h1 ⊢
  obtain ⟨ch, hch, h1⟩ := bind_eq_ok h1
  split at h1
  · exact absurd h1 (by simp)
  · rename_i hd
    obtain ⟨os, hos, h1⟩ := bind_eq_ok h1
    obtain ⟨t2, ht2, h1⟩ := bind_eq_ok h1
    have ht3 : t.buildConv ⟨l0.kernelSize ++ [ch / q, l0.filters], k1⟩
        (if l0.useBias then some ⟨[l0.filters], b1⟩ else none) = .ok t2 := by
      refine buildConv_shape ?_ ?_ ht2
      · rfl
      · cases l0.useBias <;> rfl
    rw [hch, res_bind_ok, if_neg hd, hos, res_bind_ok, ht3, res_bind_ok]
    cases h1
    unfold GroupConv.assign
    cases l0.useBias <;> rfl

/-- the sum over windows of the `i`-th element, filter 0, with a single weight -/
theorem grouped_one [Semiring α] {a : ConvArgs α} {g : Option Nat} {s C : Nat} {v : α} {A before : List Nat} {e S0 : Nat}
    (he : e < a.group.group.order) (hg : ∀ g', g = some g' → g' = a.group.group.order) (hK : a.group.Grid a.kernelSize)
    (hF : 0 < a.filters) {x : Tensor α} {m : List Nat} {b : Nat} {p : List Nat} {i : Nat} (hi : nth A i = e) {k : List Nat} {c : Nat}
    (hk : Valid a.kernelSize k) (hc : c < chanO g s) :
    ((indices a.kernelSize).map fun k' => ((List.range (chanO g s)).map fun c' =>
      readAt x m b (winZ before a.strides a.dilation p k') (restIdx g C (S0 + c')) *
        weightOf a false g s (oneWeight v (back a.group.els a.kernelSize e k ++
          [turnChan a.group.group.toGroupData (List.range a.group.group.order) g s e c, 0]))
          (List.range a.group.group.order) (nth A i) k' c' 0).sum).sum =
      readAt x m b (winZ before a.strides a.dilation p k) (restIdx g C (S0 + c)) * v := by
  have S := a.group.sym
  have her : e ∈ List.range a.group.group.order := List.mem_range.2 he
  have hg' : ∀ g', g = some g' → g' = (List.range a.group.group.order).length := by simpa using hg
  rw [hi]
  rw [← sum_delta (P := fun k' c' => back a.group.els a.kernelSize e k' = back a.group.els a.kernelSize e k ∧
      turnChan a.group.group.toGroupData (List.range a.group.group.order) g s e c' =
        turnChan a.group.group.toGroupData (List.range a.group.group.order) g s e c)
    (fun k c => readAt x m b (winZ before a.strides a.dilation p k) (restIdx g C (S0 + c))) v hk hc (by
      intro k' c' hk' hc'
      constructor
      · rintro ⟨h1, h2⟩
        exact ⟨S.back_inj hK he hk' hk h1, S.turnChan_inj S.tab.own hg' her hc' hc h2⟩
      · rintro ⟨rfl, rfl⟩; exact ⟨rfl, rfl⟩)]
  apply sum_congr
  intro k' hk'
  rw [mem_indices] at hk'
  apply sum_congr
  intro c' hc'
  rw [List.mem_range] at hc'
  rw [weight_false hg hK he hk' hc' hF]
  unfold oneWeight
  congr 1
  refine if_congr ?_ rfl rfl
  constructor
  · intro h
    obtain ⟨h1, h2⟩ := List.append_inj h (by rw [(S.valid_back hK he hk').length, (S.valid_back hK he hk).length])
    simp only [List.cons.injEq, and_true] at h2
    exact ⟨h1, h2⟩
  · rintro ⟨h1, h2⟩
    rw [h1, h2]

/-- If a layer with `groups := q` moves its output with its input whatever its weights are, the parts of the channels are moved
into each other. -/
theorem grouped_moves [Semiring α] {a : ConvArgs α} {q : Nat} {bt : Option Nat} {n : List Nat} {g : Option Nat} {C : Nat}
    {k0 b0 : List Nat → α} {H : List Nat} {l : GroupConv α} (hl : BuiltGrouped a q bt n g C k0 b0 H l)
    (hf : a.dataFormat = .channelsLast) {v : α} (hv : a.activation v ≠ a.activation 0) (hC : 0 < C) {h : Nat} (hh : h ∈ H)
    (hn : a.group.Kept h n) {kp : KerasPadding} (hkp : standardizePadding (builtInPaddingOption a.padding) = .ok kp)
    (hfit : FitsIn a.strides a.dilation a.kernelSize (padded l.transforms.padState kp a.strides a.dilation a.kernelSize n))
    {out before : List Nat}
    (hbef : before = totalBefore l.transforms.padState kp a.strides a.dilation a.kernelSize n)
    (hout : out = outSizes a.strides a.dilation a.kernelSize (padded l.transforms.padState kp a.strides a.dilation a.kernelSize n))
    (hsee : ∃ p k w, Valid out p ∧ Valid a.kernelSize k ∧ Valid n w ∧ Reads before a.strides a.dilation p k w)
    (hmoves : ∀ k1 b1, MovesOutput a.group (List.range a.group.group.order) H h (fun x => ((l.assign k1 b1).call x).2) n g C a.filters) :
    ∀ c, c < chanO g (C / q) →
      H.idxOf h * q / H.length * chanO g (C / q) + c < q * chanO g (C / q) ∧
      turnChan a.group.group.toGroupData (List.range a.group.group.order) g (C / q) h c =
        turnChan a.group.group.toGroupData (List.range a.group.group.order) g C h
          (H.idxOf h * q / H.length * chanO g (C / q) + c) := by
  intro c hc
  have S := a.group.sym
  obtain ⟨hq, hFq, hF, hCq, _⟩ := hl.facts_last hf
  obtain ⟨sH, hsH, hH⟩ := parse_sub hl.elements
  have hh' := S.sub_lt hH hh
  have hhr : h ∈ List.range a.group.group.order := List.mem_range.2 hh'
  have facts : ∀ k1 b1, ConvCore a false g (C / q) k1 b1 H (List.range a.group.group.order) (l.assign k1 b1) kp ∧
      (l.assign k1 b1).inputSpec = some (a.group.dim + 2, some C) := by
    intro k1 b1
    obtain ⟨_, _, _, _, opt, kp', hopt, hkp', f, hs, _⟩ := (grouped_assign (k1 := k1) (b1 := b1) hl).facts_last hf
    rw [hkp] at hkp'
    cases hkp'
    exact ⟨f, hs⟩
  have fk := (facts k0 b0).1
  have hg : ∀ g', g = some g' → g' = a.group.group.order := by simpa using fk.size
  have hgp : ∀ g', g = some g' → 0 < g' := fun g' hg' => by rw [hg g' hg']; exact S.tab.laws.pos
  have hKk := fk.grid.kept hh'
  have hi : H.idxOf h < H.length := List.idxOf_lt_length_iff.2 hh
  have hHi : nth H (H.idxOf h) = h := by
    rw [nth_eq_getElem _ _ hi]; exact List.getElem_idxOf hi
  have ht : turn a.group.group.toGroupData H h (H.idxOf h) = 0 := by
    unfold turn
    rw [hHi, S.tab.laws.inv_mul _ hh']
    exact sub_first _ hH
  have hlen : 0 < H.length := by omega
  have ht0 : nth H 0 = 0 := by
    have := S.nth_turn hH hh hi
    rwa [ht, hHi, S.tab.laws.inv_mul _ hh'] at this
  have hstart : ∀ i, groupStart (chanO g C) (chanO g (C / q)) (H.length * a.filters) (i * a.filters + 0) =
      i * q / H.length * chanO g (C / q) := by
    intro i
    rw [grouped_start hgp hq hCq hC, part_eq hFq hF hq]
  have calls : ∀ k1 b1 (B : Nat) (x : Tensor α), x.shape = sigShape .channelsLast B n g C → ∃ y,
      (l.assign k1 b1).call x = (l.assign k1 b1, .ok y) ∧ y.shape = B :: out ++ [H.length, a.filters] ∧
      ∀ b p i o, b < B → Valid out p → i < H.length → o < a.filters → y.get (b :: p ++ [i, o]) =
        a.activation ((((indices a.kernelSize).map fun k =>
            ((List.range (chanO g (C / q))).map fun c =>
              readAt x n b (winZ before a.strides a.dilation p k)
                (restIdx g C (groupStart (chanO g C) (chanO g (C / q)) (H.length * a.filters) (i * a.filters + o) + c)) *
                weightOf a false g (C / q) k1 (List.range a.group.group.order) (nth H i) k c o).sum).sum) +
              if a.useBias then b1 [o] else 0) := by
    intro k1 b1 B x hx
    have f1 := facts k1 b1
    obtain ⟨y, e1, e2, e3⟩ := (conv_call_groups f1.1 hf rfl hx hl.dims (check_sig f1.2 (f1.1.fmt.trans hf) hx hl.dims)).2
      (grouped_div hgp hq hCq hFq) hfit
    refine ⟨y, e1, by rw [e2, hout]; rfl, fun b p i o hb hp hi ho => ?_⟩
    subst hbef
    exact e3 b p i o hb (by rw [hout] at hp; exact hp) hi ho
  have hO : a.group.Kept h out := by
    obtain ⟨y, e1, e2, _⟩ := calls k0 b0 0 ⟨sigShape .channelsLast 0 n g C, fun _ => 0⟩ rfl
    obtain ⟨m, y', h1, h2, _⟩ := hmoves k0 b0 0 ⟨sigShape .channelsLast 0 n g C, fun _ => 0⟩ ⟨sigShape .channelsLast 0 n g C, fun _ => 0⟩ y rfl
      (movedBy_of S.tab.own hhr hn fk.size rfl (fun _ _ _ _ _ _ => rfl)) (congrArg Prod.snd e1)
    rw [e2] at h1
    have : out = m := by simpa [sigShape] using h1
    rw [this]
    exact (keeps_iff _ hh' _).1 h2
  obtain ⟨p, k, w, hp, hk, hw, hr⟩ := hsee
  have hwb := hn.valid hh' hw
  have hM : H.idxOf h * q / H.length * chanO g (C / q) + c < chanO g C := by
    have := groupStart_lt (grouped_div (m := H.length) (F := a.filters) hgp hq hCq hFq) hc (mul_add_lt hi hF)
    rwa [hstart] at this
  refine ⟨by rw [← (chanO_quot hgp hq hCq hC).2]; exact hM, ?_⟩
  generalize hMe : H.idxOf h * q / H.length * chanO g (C / q) + c = M at hM
  have hct := S.turnChan_lt S.tab.own (C := C / q) fk.size hhr hc
  have hmv := movedBy_of (α := α) (B := 1) (C := C) S.tab.own hhr hn fk.size
    (x := single (sigShape .channelsLast 1 n g C) (0 :: back a.group.els n h w ++
      restIdx g C (turnChan a.group.group.toGroupData (List.range a.group.group.order) g C h M)))
    (x' := single (sigShape .channelsLast 1 n g C) (0 :: w ++ restIdx g C M)) rfl (by
      intro b q c' hb hq hc'
      have hb : b = 0 := by omega
      subst hb
      simp only [single]
      refine if_congr ?_ rfl rfl
      constructor
      · intro e
        simp only [List.cons_append, List.cons.injEq, true_and] at e ⊢
        obtain ⟨e1, e2⟩ := List.append_inj e (by rw [hq.length, hw.length])
        rw [e1, restIdx_inj e2]
      · intro e
        simp only [List.cons_append, List.cons.injEq, true_and] at e ⊢
        obtain ⟨e1, e2⟩ := List.append_inj e (by rw [(hn.valid hh' hq).length, hwb.length])
        rw [hn.inj hh' hq hw e1, S.turnChan_inj S.tab.own fk.size hhr hc' hM (restIdx_inj e2)])
  have hxs : (single (α := α) (sigShape .channelsLast 1 n g C) (0 :: back a.group.els n h w ++
      restIdx g C (turnChan a.group.group.toGroupData (List.range a.group.group.order) g C h M))).shape =
      sigShape .channelsLast 1 n g C := rfl
  have hxs' : (single (α := α) (sigShape .channelsLast 1 n g C) (0 :: w ++ restIdx g C M)).shape =
      sigShape .channelsLast 1 n g C := rfl
  have hns : n.length = a.strides.length := by rw [hl.dims, fk.stridesLen]
  have hr1 : readAt (single (α := α) (sigShape .channelsLast 1 n g C) (0 :: w ++ restIdx g C M)) n 0
      (winZ before a.strides a.dilation p k) (restIdx g C M) = 1 := by
    rw [readAt_of_reads hns hw hr]
    exact if_pos rfl
  have hr2 : ∀ p k c', c' ≠ turnChan a.group.group.toGroupData (List.range a.group.group.order) g C h M →
      readAt (single (α := α) (sigShape .channelsLast 1 n g C) (0 :: back a.group.els n h w ++
        restIdx g C (turnChan a.group.group.toGroupData (List.range a.group.group.order) g C h M))) n 0
        (winZ before a.strides a.dilation p k) (restIdx g C c') = 0 := by
    intro p k c' hne
    unfold readAt
    split
    · rename_i hb
      have hwv := (inBox_toNat hb).length
      refine if_neg fun e => hne ?_
      simp only [List.cons_append, List.cons.injEq, true_and] at e
      exact restIdx_inj (List.append_inj e (by rw [hwb.length, ← hwv])).2
    · rfl
  generalize single (α := α) (sigShape .channelsLast 1 n g C) (0 :: back a.group.els n h w ++
      restIdx g C (turnChan a.group.group.toGroupData (List.range a.group.group.order) g C h M)) = x at hmv hxs hr2
  generalize single (α := α) (sigShape .channelsLast 1 n g C) (0 :: w ++ restIdx g C M) = x' at hmv hxs' hr1
  obtain ⟨y, e1, e2, e3⟩ := calls (oneWeight v (back a.group.els a.kernelSize h k ++
      [turnChan a.group.group.toGroupData (List.range a.group.group.order) g (C / q) h c, 0])) (fun _ => 0) 1 x hxs
  obtain ⟨y2, e1', e2', e3'⟩ := calls (oneWeight v (back a.group.els a.kernelSize h k ++
      [turnChan a.group.group.toGroupData (List.range a.group.group.order) g (C / q) h c, 0])) (fun _ => 0) 1 x' hxs'
  obtain ⟨m, y', h1, h2, h3, h4⟩ := hmoves (oneWeight v (back a.group.els a.kernelSize h k ++
      [turnChan a.group.group.toGroupData (List.range a.group.group.order) g (C / q) h c, 0])) (fun _ => 0) 1 x x' y hxs hmv
      (congrArg Prod.snd e1)
  have : m = out := by
    rw [e2] at h1
    have : out = m := by simpa [sigShape] using h1
    exact this.symm
  subst this
  have h3 : .ok y2 = Except.ok y' := (congrArg Prod.snd e1').symm.trans h3
  cases h3
  obtain ⟨_, h5⟩ := (movedBy_group hH hh hO).1 h4
  have h6 := h5 0 p (H.idxOf h) 0 (by omega) hp hi hF
  simp only [sigIndex, ht] at h6
  have hb0 : (if a.useBias then (0 : α) else 0) = 0 := by split <;> rfl
  rw [e3' 0 p _ 0 (by omega) hp hi hF, e3 0 _ _ 0 (by omega) (hO.valid hh' hp) hlen hF] at h6
  simp only [hb0, add_zero] at h6
  rw [grouped_one hh' hg fk.grid hF hHi hk hc] at h6
  have hkb := hKk.valid hh' hk
  have h7 := fun S0 => grouped_one (α := α) (a := a) (v := v) (before := before) (x := x) (m := n) (b := 0) (p := back a.group.els m h p)
    (S0 := S0) (C := C) S.tab.laws.pos hg fk.grid hF ht0 hkb hct
  rw [S.back_one (by rw [hkb.length, fk.kernelLen]), turnChan_zero hg hct] at h7
  have h8 := hstart (H.idxOf h)
  have h9 := hstart 0
  simp only [Nat.add_zero] at h8 h9
  rw [h7, h8, h9, hMe, hr1, one_mul] at h6
  by_contra hne
  refine hv ?_
  rw [h6, hr2 _ _ _ (by simpa using hne), zero_mul]

/-- a layer with `groups := q` that moves its output with its input whatever its weights are has one group or one element -/
theorem grouped_split [Semiring α] {a : ConvArgs α} {q : Nat} {bt : Option Nat} {n : List Nat} {g : Option Nat} {C : Nat}
    {k0 b0 : List Nat → α} {H : List Nat} {l : GroupConv α} (hl : BuiltGrouped a q bt n g C k0 b0 H l)
    (hf : a.dataFormat = .channelsLast) {v : α} (hv : a.activation v ≠ a.activation 0) (hC : 0 < C)
    (hn : ∀ h ∈ H, a.group.Kept h n) {kp : KerasPadding} (hkp : standardizePadding (builtInPaddingOption a.padding) = .ok kp)
    (hfit : FitsIn a.strides a.dilation a.kernelSize (padded l.transforms.padState kp a.strides a.dilation a.kernelSize n))
    {out before : List Nat}
    (hbef : before = totalBefore l.transforms.padState kp a.strides a.dilation a.kernelSize n)
    (hout : out = outSizes a.strides a.dilation a.kernelSize (padded l.transforms.padState kp a.strides a.dilation a.kernelSize n))
    (hsee : ∃ p k w, Valid out p ∧ Valid a.kernelSize k ∧ Valid n w ∧ Reads before a.strides a.dilation p k w)
    (hmoves : ∀ h ∈ H, ∀ k1 b1,
      MovesOutput a.group (List.range a.group.group.order) H h (fun x => ((l.assign k1 b1).call x).2) n g C a.filters) :
    H.length = 1 ∨ q = 1 := by
  have S := a.group.sym
  obtain ⟨hq, hFq, hF, hCq, opt, kp', _, _, f, _⟩ := hl.facts_last hf
  obtain ⟨sH, hsH, hH⟩ := parse_sub hl.elements
  have hpos : 0 < H.length := sub_pos S.tab hH
  by_contra hcon
  rw [not_or] at hcon
  have hq2 : 2 ≤ q := by omega
  have hl2 : 2 ≤ H.length := by omega
  have hlast : H.length - 1 < H.length := by omega
  have hmem : nth H (H.length - 1) ∈ H := nth_mem _ _ hlast
  have hidx : H.idxOf (nth H (H.length - 1)) = H.length - 1 := by
    rw [nth_eq_getElem _ _ hlast]
    exact (S.sub_nodup hH).idxOf_getElem _ hlast
  have key := grouped_moves hl hf hv hC hmem (hn _ hmem) hkp hfit hbef hout hsee (hmoves _ hmem)
  rw [hidx] at key
  have hlt := S.sub_lt hH hmem
  have hne : nth H (H.length - 1) ≠ 0 := by
    intro e
    rw [e, sub_first _ hH] at hidx
    omega
  generalize nth H (H.length - 1) = h at key hlt hne hmem
  have hs : 0 < C / q := Nat.div_pos (Nat.le_of_dvd hC (Nat.dvd_of_mod_eq_zero hCq)) hq
  have hCs : C = C / q * q := (Nat.div_mul_cancel (Nat.dvd_of_mod_eq_zero hCq)).symm
  generalize hse : C / q = s at key hs hCs
  cases g with
  | none =>
    have e := (key 0 hs).2
    simp only [turnChan, chanO, Nat.add_zero] at e
    have h0 : (H.length - 1) * q / H.length = 0 := by
      rcases Nat.mul_eq_zero.1 e.symm with h | h
      · exact h
      · omega
    rw [Nat.div_eq_zero_iff] at h0
    have : (H.length - 1) * 2 ≤ (H.length - 1) * q := Nat.mul_le_mul_left _ hq2
    omega
  | some g' =>
    have hg' := f.size g' rfl
    rw [List.length_range] at hg'
    subst hg'
    have L := S.tab.laws
    have hinv := L.inv_closed h hlt
    have hinv' : nth a.group.group.inverses h < a.group.group.order := S.inv_lt hlt
    generalize hP : (H.length - 1) * q / H.length * a.group.group.order = P
    have hPs : (H.length - 1) * q / H.length * chanO (some a.group.group.order) s = P * s := by
      rw [← hP]; simp only [chanO]; ring
    rw [hPs] at key
    have hms : ∀ m, m < a.group.group.order → m * s < chanO (some a.group.group.order) s := fun m hm =>
      Nat.mul_lt_mul_of_pos_right hm hs
    have hPm : ∀ m, m < a.group.group.order → P + m < q * a.group.group.order := by
      intro m hm
      have := (key _ (hms m hm)).1
      simp only [chanO] at this
      rw [← Nat.add_mul, ← Nat.mul_assoc] at this
      exact Nat.lt_of_mul_lt_mul_right this
    have h0 := no_shift (N := a.group.group.order) (q := q) (P := P)
      (f := fun m => a.group.group.comp (nth a.group.group.inverses h) m) (f' := fun m => a.group.group.comp h m) L.pos hq2
      (fun m hm => L.closed _ _ hlt hm)
      (fun m hm => by
        show a.group.group.comp _ (a.group.group.comp _ _) = _
        rw [← L.assoc _ _ _ hinv' hlt hm, L.inv_mul _ hlt, L.one_mul _ hm])
      (fun m hm => by
        show a.group.group.comp _ (a.group.group.comp _ _) = _
        rw [← L.assoc _ _ _ hlt hinv' hm, L.mul_inv _ hlt, L.one_mul _ hm])
      hPm (by
        intro m hm
        have e := (key _ (hms m hm)).2
        have hd : (P + m) / q < a.group.group.order := Nat.div_lt_of_lt_mul (hPm m hm)
        simp only [turnChan] at e
        rw [← Nat.add_mul, Nat.mul_div_cancel _ hs, Nat.mul_mod_left, turn_range hlt hm, hCs, Nat.mul_comm s q,
          Nat.mul_div_mul_right _ _ hs, Nat.mul_mod_mul_right, turn_range hlt hd, Nat.add_zero] at e
        refine Nat.eq_of_mul_eq_mul_right hs ?_
        rw [e]
        ring)
    simp only [L.mul_one _ hlt] at h0
    exact hne h0

end GroCo
