import Verif.Layout
import Verif.KernelLemmas
import Verif.Keras
import Verif.Padding

/-
Helper lemmas: channels_last signals (batch, *grid, *rest), padding and convolving them.
-/

namespace GroCo
open Tensor

variable {α : Type}

/-- Entry of a signal with grid sizes `n` at an integer position, zero outside the grid. -/
def readAt [Zero α] (x : Tensor α) (n : List Nat) (b : Nat) (q : List Int) (r : List Nat) : α :=
  if InBox n q then x.get (b :: q.map Int.toNat ++ r) else 0

theorem inBox_of_valid {s idx : List Nat} (h : Valid s idx) : InBox s (idx.map Int.ofNat) := inBox_cast.2 h

theorem read0_sig [Zero α] {x : Tensor α} {B b : Nat} {n R r : List Nat} {q : List Int} (hx : x.shape = B :: n ++ R)
    (hb : b < B) (hq : q.length = n.length) (hr : Valid R r) :
    read0 x ((b : Int) :: q ++ r.map Int.ofNat) = readAt x n b q r := by
  unfold read0 readAt
  have : InBox x.shape ((b : Int) :: q ++ r.map Int.ofNat) ↔ InBox n q := by
    rw [hx, List.cons_append, List.cons_append]
    simp only [InBox]
    rw [inBox_append hq]
    constructor
    · exact fun h => h.2.1
    · exact fun h => ⟨by omega, h, inBox_of_valid hr⟩
  by_cases h : InBox n q
  · rw [if_pos (this.2 h), if_pos h]; simp [Function.comp_def]
  · rw [if_neg (fun h' => h (this.1 h')), if_neg h]

theorem readAt_valid [Zero α] (x : Tensor α) {n p : List Nat} (b : Nat) (r : List Nat) (hp : Valid n p) :
    readAt x n b (p.map Int.ofNat) r = x.get (b :: p ++ r) := by
  rw [readAt, if_pos (inBox_of_valid hp)]; simp [Function.comp_def]

/-- sizes after padding -/
def grow (n : List Nat) (ps : List (Nat × Nat)) : List Nat := List.zipWith (fun n p => p.1 + n + p.2) n ps

/-- positions before padding -/
def shiftBack (q : List Int) (ps : List (Nat × Nat)) : List Int := List.zipWith (fun i p => i - (p.1 : Int)) q ps

theorem length_grow {n : List Nat} {ps : List (Nat × Nat)} (h : ps.length = n.length) : (grow n ps).length = n.length := by
  simp [grow, h]

theorem nth_grow {n : List Nat} {ps : List (Nat × Nat)} {i : Nat} (hi : i < n.length) (h : ps.length = n.length) :
    nth (grow n ps) i = (ps.getD i (0, 0)).1 + nth n i + (ps.getD i (0, 0)).2 := by
  have hi' : i < ps.length := by omega
  simp [grow, nth, hi, hi']

theorem zipWith_zeros_grow (R : List Nat) :
    List.zipWith (fun n (p : Nat × Nat) => p.1 + n + p.2) R (R.map fun _ => (0, 0)) = R := by
  induction R with
  | nil => rfl
  | cons a R ih => simp only [List.map_cons, List.zipWith_cons_cons, ih, Nat.zero_add, Nat.add_zero]

theorem zipWith_zeros_shift (r : List Int) (R : List Nat) (h : r.length = R.length) :
    List.zipWith (fun i (p : Nat × Nat) => i - (p.1 : Int)) r (R.map fun _ => (0, 0)) = r := by
  induction R generalizing r with
  | nil => simp at h; simp [h]
  | cons a R ih =>
    match r, h with
    | i :: r, h =>
      simp only [List.map_cons, List.zipWith_cons_cons, ih r (by simpa using h)]; simp

/-- padding the grid of a signal -/
theorem pad_sig [Zero α] (x : Tensor α) {B : Nat} {n R : List Nat} {ps : List (Nat × Nat)} (hx : x.shape = B :: n ++ R)
    (hps : ps.length = n.length) :
    ∃ y, pad x ((0, 0) :: ps ++ R.map (fun _ => (0, 0))) = .ok y ∧ y.shape = B :: grow n ps ++ R ∧
      ∀ b q r, b < B → q.length = n.length → Valid R r → readAt y (grow n ps) b q r = readAt x n b (shiftBack q ps) r := by
  obtain ⟨y, e, hs, hg⟩ := pad_ok x (ps := (0, 0) :: ps ++ R.map (fun _ => (0, 0))) (by simp [Tensor.rank, hx, hps])
  have hs' : y.shape = B :: grow n ps ++ R := by
    rw [hs, hx, List.cons_append, List.cons_append, List.zipWith_cons_cons, List.zipWith_append hps.symm,
      zipWith_zeros_grow]
    simp [grow]
  refine ⟨y, e, hs', ?_⟩
  intro b q r hb hq hr
  rw [← read0_sig hs' hb (by rw [length_grow hps, hq]) hr, ← read0_sig hx hb (by simp [shiftBack, hq, hps]) hr,
    hg _ (by simp [Tensor.rank, hx, hq, hr.length])]
  congr 1
  rw [List.cons_append, List.cons_append, List.zipWith_cons_cons, List.zipWith_append (by omega),
    zipWith_zeros_shift _ _ (by simp [hr.length])]
  simp [shiftBack]

/-- The position read by the window at `p` for kernel offset `k` if `before` zeros precede the signal. -/
def winZ (before strides dil p k : List Nat) : List Int :=
  (List.range strides.length).map fun i => (nth p i * nth strides i + nth k i * nth dil i : Int) - nth before i

theorem length_winZ (before strides dil p k : List Nat) : (winZ before strides dil p k).length = strides.length := by
  simp [winZ]

/-- zeros added before each axis -/
def befores (ps : List (Nat × Nat)) : List Nat := ps.map Prod.fst

theorem nth_befores (ps : List (Nat × Nat)) (i : Nat) : nth (befores ps) i = (ps.getD i (0, 0)).1 := by
  unfold befores nth
  simp only [List.getD_eq_getElem?_getD, List.getElem?_map]
  cases ps[i]? <;> rfl

theorem shiftBack_winZ {before strides dil p k : List Nat} {ps : List (Nat × Nat)} (h : ps.length = strides.length) :
    shiftBack (winZ before strides dil p k) ps =
      winZ ((List.range strides.length).map fun i => nth before i + nth (befores ps) i) strides dil p k := by
  apply List.ext_getElem
  · simp [shiftBack, length_winZ, h]
  · intro i h1 h2
    simp only [length_winZ] at h2
    have hp : i < ps.length := by omega
    simp only [shiftBack, winZ, List.getElem_zipWith, List.getElem_map, List.getElem_range, nth_map_range, if_pos h2,
      nth_befores]
    simp [hp]
    ring

/-- The windows of a convolution fit into an axis. -/
def FitsIn (strides dil K n : List Nat) : Prop :=
  ∀ i, i < strides.length → 0 < nth strides i ∧ 0 < nth K i ∧ dilated (nth K i) (nth dil i) ≤ nth n i

/-- number of windows per axis -/
def outSizes (strides dil K n : List Nat) : List Nat :=
  (List.range strides.length).map fun i => (nth n i - dilated (nth K i) (nth dil i)) / nth strides i + 1

theorem length_outSizes (strides dil K n : List Nat) : (outSizes strides dil K n).length = strides.length := by
  simp [outSizes]

/-- Keras's padding of each spatial axis -/
def kpads (padding : KerasPadding) (strides dil K sp : List Nat) : List (Nat × Nat) :=
  (List.range strides.length).map fun i => match padding with
    | .valid => (0, 0)
    | .same => samePads (nth sp i) (dilated (nth K i) (nth dil i)) (nth strides i)

theorem kerasPads_eq (padding : KerasPadding) (strides dil K sp : List Nat) (C : Nat) :
    kerasPads padding strides dil K sp = (0, 0) :: kpads padding strides dil K sp ++ [C].map (fun _ => (0, 0)) := by
  cases padding <;> rfl

theorem spatialPart_cons {p r : List Nat} {d b : Nat} (h : p.length = d) : spatialPart d (b :: p ++ r) = p := by
  unfold spatialPart
  simp [← h]

theorem groupStart_one {C F f : Nat} (h : f < F) : groupStart C C F f = 0 := by
  unfold groupStart
  rcases Nat.eq_zero_or_pos C with rfl | hC
  · simp
  · rw [Nat.div_self hC, Nat.div_one, Nat.div_eq_of_lt h, Nat.zero_mul]

/-- the channels read by a group of a convolution exist -/
theorem groupStart_lt {Cx C F c o : Nat} (h : Cx = C ∨ 0 < C ∧ Cx % C = 0 ∧ F % (Cx / C) = 0 ∧ 0 < Cx) (hc : c < C)
    (ho : o < F) : groupStart Cx C F o + c < Cx := by
  rcases h with rfl | ⟨h1, h2, h3, h4⟩
  · rw [groupStart_one ho]; omega
  · unfold groupStart
    have hq : Cx = Cx / C * C := (Nat.div_mul_cancel (Nat.dvd_of_mod_eq_zero h2)).symm
    have hF : F = Cx / C * (F / (Cx / C)) := (Nat.mul_div_cancel' (Nat.dvd_of_mod_eq_zero h3)).symm
    have hlt : o / (F / (Cx / C)) < Cx / C := by
      apply Nat.div_lt_of_lt_mul
      rw [Nat.mul_comm, ← hF]; exact ho
    calc o / (F / (Cx / C)) * C + c < o / (F / (Cx / C)) * C + C := by omega
      _ = (o / (F / (Cx / C)) + 1) * C := by ring
      _ ≤ Cx / C * C := Nat.mul_le_mul_right _ hlt
      _ = Cx := hq.symm

/-- unpadded convolution, with any number of groups -/
theorem convValid_groups [Semiring α] {strides dil K n : List Nat} {B Cx C F : Nat} {x w : Tensor α}
    (hx : x.shape = B :: n ++ [Cx]) (hw : w.shape = K ++ [C, F]) (hn : n.length = strides.length)
    (hK : K.length = strides.length) (hd : dil.length = strides.length) :
    (∀ y, convValid strides dil x w = .ok y →
      (Cx = C ∨ 0 < C ∧ Cx % C = 0 ∧ F % (Cx / C) = 0 ∧ 0 < Cx) ∧ FitsIn strides dil K n) ∧
    ((Cx = C ∨ 0 < C ∧ Cx % C = 0 ∧ F % (Cx / C) = 0 ∧ 0 < Cx) → FitsIn strides dil K n →
      ∃ y, convValid strides dil x w = .ok y ∧
      y.shape = B :: outSizes strides dil K n ++ [F] ∧
      ∀ b p o, p.length = strides.length → y.get (b :: p ++ [o]) =
        ((indices K).map fun k => ((List.range C).map fun c =>
          x.get (b :: windowPos strides dil p k ++ [groupStart Cx C F o + c]) * w.get (k ++ [c, o])).sum).sum) := by
  have hxr : x.rank = strides.length + 2 := by simp [Tensor.rank, hx, hn]
  have hwr : w.rank = strides.length + 2 := by simp [Tensor.rank, hw, hK]
  have h1 : spatialPart strides.length x.shape = n := by rw [hx]; exact spatialPart_cons hn
  have h2 : w.shape.take strides.length = K := by rw [hw, ← hK]; simp
  have h3 : nth w.shape strides.length = C := by rw [hw]; lay hK
  have h4 : nth x.shape (strides.length + 1) = Cx := by
    rw [hx]; exact nth_app0 (a := B :: n) (by simp [hn])
  have h5 : nth w.shape (strides.length + 1) = F := by rw [hw]; lay hK
  have h6 : nth x.shape 0 = B := by rw [hx]; simp
  unfold convValid
  simp only [h1, h2, h3, h4, h5, h6, hxr, hwr, hd, true_and]
  constructor
  · intro y hy
    split at hy
    · assumption
    · exact absurd hy (by simp)
  · intro hC hf
    rw [if_pos ⟨hC, show ∀ i, i < strides.length → _ from hf⟩]
    refine ⟨_, rfl, rfl, ?_⟩
    intro b p o hp
    have g1 : nth (b :: p ++ [o]) (strides.length + 1) = o := nth_app0 (a := b :: p) (by simp [hp])
    simp only [g1, spatialPart_cons hp]
    simp

/-- every window position is inside the signal -/
theorem windowPos_valid {strides dil K n p k : List Nat} (hn : n.length = strides.length)
    (hf : FitsIn strides dil K n) (hp : Valid (outSizes strides dil K n) p) (hk : Valid K k)
    (hK : K.length = strides.length) : Valid n (windowPos strides dil p k) := by
  rw [valid_iff]
  refine ⟨by simp [windowPos, hn], fun i hi => ?_⟩
  rw [hn] at hi
  obtain ⟨h1, h2, h3⟩ := hf i hi
  have hp' := hp.lt (i := i) (by rw [length_outSizes]; exact hi)
  have hk' := hk.lt (i := i) (by omega)
  simp only [outSizes, windowPos, nth_map_range, if_pos hi] at hp' ⊢
  unfold dilated at *
  have h4 : nth k i * nth dil i ≤ (nth K i - 1) * nth dil i := Nat.mul_le_mul_right _ (by omega)
  have h5 : nth p i * nth strides i ≤ (nth n i - ((nth K i - 1) * nth dil i + 1)) := by
    calc nth p i * nth strides i ≤ (nth n i - ((nth K i - 1) * nth dil i + 1)) / nth strides i * nth strides i :=
          Nat.mul_le_mul_right _ (by omega)
      _ ≤ _ := Nat.div_mul_le_self _ _
  omega

theorem windowPos_cast (strides dil p k ps : List Nat) (hz : ∀ i, nth ps i = 0) :
    (windowPos strides dil p k).map Int.ofNat = winZ ps strides dil p k := by
  simp [windowPos, winZ, hz]

/-- Keras's convolution of a channels_last signal, with any number of groups. -/
theorem convLast_groups [Semiring α] (padding : KerasPadding) {strides dil K n : List Nat} {B Cx C F : Nat} {x w : Tensor α}
    (hx : x.shape = B :: n ++ [Cx]) (hw : w.shape = K ++ [C, F]) (hn : n.length = strides.length)
    (hK : K.length = strides.length) (hd : dil.length = strides.length) :
    (∀ y, convLast padding strides dil x w = .ok y →
      (Cx = C ∨ 0 < C ∧ Cx % C = 0 ∧ F % (Cx / C) = 0 ∧ 0 < Cx) ∧
        FitsIn strides dil K (grow n (kpads padding strides dil K n))) ∧
    ((Cx = C ∨ 0 < C ∧ Cx % C = 0 ∧ F % (Cx / C) = 0 ∧ 0 < Cx) →
      FitsIn strides dil K (grow n (kpads padding strides dil K n)) → ∃ y, convLast padding strides dil x w = .ok y ∧
      y.shape = B :: outSizes strides dil K (grow n (kpads padding strides dil K n)) ++ [F] ∧
      ∀ b p o, b < B → Valid (outSizes strides dil K (grow n (kpads padding strides dil K n))) p → o < F →
        y.get (b :: p ++ [o]) = ((indices K).map fun k => ((List.range C).map fun c =>
          readAt x n b (winZ (befores (kpads padding strides dil K n)) strides dil p k) [groupStart Cx C F o + c] *
            w.get (k ++ [c, o])).sum).sum) := by
  have h1 : spatialPart strides.length x.shape = n := by rw [hx]; exact spatialPart_cons hn
  have h2 : w.shape.take strides.length = K := by rw [hw, ← hK]; simp
  have hl : (kpads padding strides dil K n).length = n.length := by simp [kpads, hn]
  obtain ⟨z, ez, hz, hzg⟩ := pad_sig x hx hl
  have hzl : (grow n (kpads padding strides dil K n)).length = strides.length := by rw [length_grow hl, hn]
  have hc := convValid_groups (F := F) hz hw hzl hK hd
  unfold convLast
  simp only [h1, h2, kerasPads_eq padding strides dil K n Cx, ez, res_bind_ok]
  refine ⟨hc.1, fun hC hf => ?_⟩
  obtain ⟨y, ey, hy, hyg⟩ := hc.2 hC hf
  refine ⟨y, ey, hy, ?_⟩
  intro b p o hb hp ho
  rw [hyg b p o (by rw [hp.length, length_outSizes])]
  apply sum_congr
  intro k hk
  rw [mem_indices] at hk
  apply sum_congr
  intro c hc
  rw [List.mem_range] at hc
  have hlt := groupStart_lt hC hc ho
  congr 1
  rw [← readAt_valid z b [groupStart Cx C F o + c] (windowPos_valid hzl hf hp hk hK),
    hzg b _ [groupStart Cx C F o + c] hb (by simp [windowPos, hn]) (by simp [Valid, hlt]),
    windowPos_cast strides dil p k [] (by simp), shiftBack_winZ (by rw [hl, hn])]
  congr 1
  apply List.map_congr_left
  intro i hi
  rw [List.mem_range] at hi
  simp [nth_map_range, hi]

/-- Keras's convolution of a channels_last signal. -/
theorem convLast_ok [Semiring α] (padding : KerasPadding) {strides dil K n : List Nat} {B C F : Nat} {x w : Tensor α}
    (hx : x.shape = B :: n ++ [C]) (hw : w.shape = K ++ [C, F]) (hn : n.length = strides.length)
    (hK : K.length = strides.length) (hd : dil.length = strides.length) :
    (∀ y, convLast padding strides dil x w = .ok y → FitsIn strides dil K (grow n (kpads padding strides dil K n))) ∧
    (FitsIn strides dil K (grow n (kpads padding strides dil K n)) → ∃ y, convLast padding strides dil x w = .ok y ∧
      y.shape = B :: outSizes strides dil K (grow n (kpads padding strides dil K n)) ++ [F] ∧
      ∀ b p o, b < B → Valid (outSizes strides dil K (grow n (kpads padding strides dil K n))) p → o < F →
        y.get (b :: p ++ [o]) = ((indices K).map fun k => ((List.range C).map fun c =>
          readAt x n b (winZ (befores (kpads padding strides dil K n)) strides dil p k) [c] *
            w.get (k ++ [c, o])).sum).sum) := by
  obtain ⟨h1, h2⟩ := convLast_groups (F := F) padding hx hw hn hK hd
  refine ⟨fun y hy => (h1 y hy).2, fun hf => ?_⟩
  obtain ⟨y, ey, hy, hyg⟩ := h2 (Or.inl rfl) hf
  refine ⟨y, ey, hy, fun b p o hb hp ho => ?_⟩
  rw [hyg b p o hb hp ho, groupStart_one ho]
  simp only [Nat.zero_add]

end GroCo
