import Verif.TransposeEquiv
import Verif.MovedLemmas
import Verif.MovedSpec

/-
Helper lemmas: sums over signals, and the weights of a convolution that is the transpose of a transposed layer.
-/

namespace GroCo
open Tensor

variable {α : Type}

theorem list_sum_comm {β γ : Type} [AddCommMonoid α] (l : List β) (m : List γ) (F : β → γ → α) :
    (l.map fun a => (m.map fun b => F a b).sum).sum = (m.map fun b => (l.map fun a => F a b).sum).sum := by
  induction l with
  | nil => simp
  | cons a l ih => simp [ih, List.sum_map_add]

theorem sum_indices_cons [AddCommMonoid α] (n : Nat) (s : List Nat) (F : List Nat → α) :
    ((indices (n :: s)).map F).sum = ((List.range n).map fun i => ((indices s).map fun j => F (i :: j)).sum).sum := by
  rw [indices]
  generalize List.range n = l
  induction l with
  | nil => simp
  | cons a l ih => simp [ih, List.map_map, Function.comp_def]

theorem sum_indices_append [AddCommMonoid α] (s t : List Nat) (F : List Nat → α) :
    ((indices (s ++ t)).map F).sum = ((indices s).map fun i => ((indices t).map fun j => F (i ++ j)).sum).sum := by
  induction s generalizing F with
  | nil => simp [indices]
  | cons n s ih =>
    rw [List.cons_append, sum_indices_cons, sum_indices_cons]
    apply sum_congr
    intro i _
    exact ih fun j => F (i :: j)

/-- the entries of a signal with a group axis, position by position and merged channel by merged channel -/
theorem sum_sig [AddCommMonoid α] (B : Nat) (m : List Nat) (g C : Nat) (F : List Nat → α) :
    ((indices (sigShape .channelsLast B m (some g) C)).map F).sum =
      ((List.range B).map fun b => ((indices m).map fun p => ((List.range (g * C)).map fun v =>
        F (b :: p ++ restIdx (some g) C v)).sum).sum).sum := by
  have h : sigShape .channelsLast B m (some g) C = B :: (m ++ [g, C]) := by simp [sigShape]
  rw [h, sum_indices_cons]
  apply sum_congr
  intro b _
  rw [sum_indices_append m [g, C] fun j => F (b :: j)]
  apply sum_congr
  intro p _
  rw [sum_range_mul, sum_indices_cons]
  apply sum_congr
  intro j _
  rw [sum_indices_cons]
  apply sum_congr
  intro c hc
  rw [List.mem_range] at hc
  simp [restIdx, div_of hc, mod_of hc, indices]

/-- reading a window entry, as a sum over all positions -/
theorem readAt_sum [AddCommMonoid α] {strides dil crop p k n r : List Nat} {x : Tensor α} {b : Nat}
    (hn : n.length = strides.length) :
    readAt x n b (winZ crop strides dil p k) r =
      ((indices n).map fun q => if Hits (List.replicate strides.length 0) strides dil crop p k q then x.get (b :: q ++ r) else 0).sum := by
  have hz : ∀ i, nth (List.replicate strides.length 0) i = 0 := by
    intro i; rw [nth_replicate]; split <;> rfl
  have key : ∀ q, q.length = strides.length →
      (Hits (List.replicate strides.length 0) strides dil crop p k q ↔ q.map Int.ofNat = winZ crop strides dil p k) := by
    intro q hq
    unfold Hits winZ
    constructor
    · intro h
      apply List.ext_getElem
      · simp [hq]
      · intro i h1 h2
        have hi : i < strides.length := by simpa using h2
        have e := h i hi
        rw [hz, nth_eq_getElem q i (by omega)] at e
        simp only [List.getElem_map, List.getElem_range]
        simp only [Int.ofNat_eq_natCast]
        zify at e
        linarith
    · intro h i hi
      have e : (q.map Int.ofNat)[i]'(by simp; omega) = _ := List.getElem_of_eq h (by simp; omega)
      simp only [List.getElem_map, List.getElem_range, Int.ofNat_eq_natCast] at e
      rw [hz, nth_eq_getElem q i (by omega)]
      zify
      linarith
  unfold readAt
  by_cases hb : InBox n (winZ crop strides dil p k)
  · rw [if_pos hb, sum_ite_one (nodup_indices n) (c := (winZ crop strides dil p k).map Int.toNat)
      ((mem_indices _ _).2 hb.valid)]
    intro q hq
    rw [mem_indices] at hq
    rw [key q (by rw [hq.length, hn])]
    constructor
    · intro h; rw [← h]; simp [Function.comp_def]
    · intro h; rw [h]; exact hb.toNat
  · rw [if_neg hb, sum_ite_none]
    intro q hq h
    rw [mem_indices] at hq
    rw [key q (by rw [hq.length, hn])] at h
    rw [← h] at hb
    exact hb (inBox_cast.2 hq)

/-- exchanging the order of all sums -/
theorem sum_transpose {P V K W Q : Type} [CommSemiring α] (lp : List P) (lv : List V) (lk : List K) (lw : List W) (lq : List Q)
    (hit : P → K → Q → Prop) [∀ p k q, Decidable (hit p k q)] (x : Q → W → α) (y : P → V → α) (T : K → W → V → α) :
    (lp.map fun p => (lv.map fun v =>
      (lk.map fun k => (lw.map fun w => (lq.map fun q => if hit p k q then x q w else 0).sum * T k w v).sum).sum * y p v).sum).sum =
    (lq.map fun q => (lw.map fun w =>
      x q w * (lk.map fun k => (lv.map fun v => (lp.map fun p => if hit p k q then y p v else 0).sum * T k w v).sum).sum).sum).sum := by
  simp only [← List.sum_map_mul_right, ← List.sum_map_mul_left]
  -- p v k w q  ->  q w k v p
  have e1 : ∀ p, (lv.map fun v => (lk.map fun k => (lw.map fun w => (lq.map fun q =>
      (if hit p k q then x q w else 0) * T k w v * y p v).sum).sum).sum).sum =
      (lq.map fun q => (lw.map fun w => (lk.map fun k => (lv.map fun v =>
        (if hit p k q then x q w else 0) * T k w v * y p v).sum).sum).sum).sum := by
    intro p
    rw [list_sum_comm lv lk]
    simp only [list_sum_comm lv lw, list_sum_comm lv lq]
    rw [list_sum_comm lk lw]
    simp only [list_sum_comm lk lq]
    rw [list_sum_comm lw lq]
  simp only [e1]
  rw [list_sum_comm lp lq]
  simp only [list_sum_comm lp lw, list_sum_comm lp lk, list_sum_comm lp lv]
  apply sum_congr; intro q _
  apply sum_congr; intro w _
  apply sum_congr; intro k _
  apply sum_congr; intro v _
  apply sum_congr; intro p _
  split
  · ring
  · simp

theorem nth_transposeOut (kp : KerasPadding) (strides dil K m : List Nat) {i : Nat} (hi : i < strides.length) :
    nth (upSizes kp strides dil K m) i = (transposeOut kp (nth m i) (dilated (nth K i) (nth dil i)) (nth strides i)).1 ∧
    nth (upCrop kp strides dil K m) i = (transposeOut kp (nth m i) (dilated (nth K i) (nth dil i)) (nth strides i)).2 := by
  unfold upSizes upCrop
  rw [nth_map_range, nth_map_range, if_pos hi, if_pos hi]
  exact ⟨rfl, rfl⟩

/-- Keras's padding of one axis -/
def kpad1 (kp : KerasPadding) (n k s : Nat) : Nat × Nat := match kp with | .valid => (0, 0) | .same => samePads n k s

/-- a convolution of an image with the size of an upsampled image has the size of the original -/
theorem round_trip (kp : KerasPadding) {m s k : Nat} (hm : 0 < m) (hs : 0 < s) (hk : 0 < k) :
    let n := (transposeOut kp m k s).1
    let pads := kpad1 kp n k s
    k ≤ pads.1 + n + pads.2 ∧ (pads.1 + n + pads.2 - k) / s + 1 = m ∧ pads.1 = (transposeOut kp m k s).2 := by
  obtain ⟨m, rfl⟩ : ∃ m', m = m' + 1 := ⟨m - 1, by omega⟩
  have hms : (m + 1) * s = m * s + s := by ring
  have key : ∀ t, (t = m * s ∨ k < s ∧ t = m * s + (s - k)) → t / s + 1 = m + 1 := by
    rintro t (rfl | ⟨h, rfl⟩)
    · rw [Nat.mul_div_cancel _ hs]
    · rw [Nat.add_comm (m * s), Nat.add_mul_div_right _ _ hs, Nat.div_eq_of_lt (by omega)]; omega
  cases kp with
  | valid =>
    simp only [transposeOut, kpad1]
    refine ⟨by omega, key _ (by omega), trivial⟩
  | same =>
    have ht : sameTotal ((m + 1) * s) k s = k - s := by unfold sameTotal; rw [if_pos (Nat.mul_mod_left _ _)]
    simp only [transposeOut, kpad1, samePads, ht]
    refine ⟨by omega, key _ (by omega), trivial⟩

/-- A convolution whose weights are those of a transposed layer with inputs and outputs exchanged is its transpose. -/
theorem adjoint_core [CommSemiring α] {a a' : ConvArgs α} (hgr : a'.group = a.group) (hks : a'.kernelSize = a.kernelSize)
    (hss : a'.strides = a.strides) (hds : a'.dilation = a.dilation) {C : Nat} (hfil : a'.filters = C)
    (hf : a.dataFormat = .channelsLast) (hf' : a'.dataFormat = .channelsLast)
    (hact : a.activation = id) (hact' : a'.activation = id) (hb : a.useBias = false) (hb' : a'.useBias = false)
    {k0 b0 k1 b1 : List Nat → α} {H : List Nat} {l l' : GroupConv α} {kp : KerasPadding}
    (f : ConvFacts a true (some H.length) C k0 b0 (List.range a.group.group.order) H l kp)
    (f' : ConvFacts a' false (some a.group.group.order) a.filters k1 b1 H (List.range a.group.group.order) l' kp)
    (hst : l.transforms.padState = ⟨false, []⟩) (hst' : l'.transforms.padState = ⟨false, []⟩)
    (hw : ∀ k i j o c, Valid a.kernelSize k → i < H.length → j < a.group.group.order → o < a.filters → c < C →
      weightOf a' false (some a.group.group.order) a.filters k1 (List.range a.group.group.order) (nth H i) k (j * a.filters + o) c =
        weightOf a true (some H.length) C k0 H j k (i * C + c) o)
    {B : Nat} {m : List Nat} (hm : m.length = a.group.dim) (hmp : 0 ∉ m) {x y z : Tensor α}
    (hy : y.shape = sigShape .channelsLast B m (some H.length) C) (hz : (l.call y).2 = .ok z) (hx : x.shape = z.shape) :
    ∃ u, (l'.call x).2 = .ok u ∧ u.shape = y.shape ∧ inner u y = inner x z := by
  have hel : ∀ d, ∀ p ∈ epads ⟨false, []⟩ d, p = (0, 0) := by
    intro d p hp
    simp only [epads, List.mem_map] at hp
    obtain ⟨i, _, rfl⟩ := hp
    simp
  have hsl := f.stridesLen
  have hgrow : ∀ n : List Nat, n.length = a.group.dim → grow n (epads ⟨false, []⟩ a.group.dim) = n := fun n hn =>
    grow_zeros (by rw [length_epads, hn]) (hel _)
  have hbef : befores (epads ⟨false, []⟩ a.group.dim) = List.replicate a.strides.length 0 := by
    apply ext_nth
    · rw [length_befores, length_epads]; simp [hsl]
    · intro i hi
      rw [nth_befores, nth_replicate]
      simp only [length_befores, length_epads] at hi
      rw [if_pos (by omega), List.getD_eq_getElem?_getD, List.getElem?_eq_getElem (by rw [length_epads]; exact hi),
        Option.getD_some, hel _ _ (List.getElem_mem _)]
  obtain ⟨z', ez, hzs, hzg⟩ := convT_call_last f hf hy hm
  rw [ez] at hz
  cases hz
  rw [hst, hgrow m hm, List.length_range] at hzs
  rw [hst, hgrow m hm, hbef] at hzg
  generalize hup : upSizes kp a.strides a.dilation a.kernelSize m = n at *
  have hn : n.length = a.group.dim := by rw [← hup, length_upSizes, hsl]
  have hxs : x.shape = sigShape .channelsLast B n (some a.group.group.order) a.filters := by rw [hx, hzs]; simp [sigShape]
  have hn' : n.length = a'.group.dim := by rw [hn, hgr]
  obtain ⟨-, c2⟩ := conv_call_last f' hf' hxs hn'
  have hpad : padded l'.transforms.padState kp a'.strides a'.dilation a'.kernelSize n =
      grow n (kpads kp a.strides a.dilation a.kernelSize n) := by
    rw [hst', hks, hss, hds]
    unfold padded
    rw [hsl, hgrow n hn]
  have hkl : (kpads kp a.strides a.dilation a.kernelSize n).length = a.group.dim := by simp [kpads, hsl]
  have hnum : ∀ i, i < a.group.dim →
      dilated (nth a.kernelSize i) (nth a.dilation i) ≤ nth (grow n (kpads kp a.strides a.dilation a.kernelSize n)) i ∧
      (nth (grow n (kpads kp a.strides a.dilation a.kernelSize n)) i - dilated (nth a.kernelSize i) (nth a.dilation i)) /
        nth a.strides i + 1 = nth m i ∧
      nth (befores (kpads kp a.strides a.dilation a.kernelSize n)) i =
        nth (upCrop kp a.strides a.dilation a.kernelSize m) i := by
    intro i hi
    have hi' : i < a.strides.length := by rw [hsl]; exact hi
    obtain ⟨t1, t2⟩ := nth_transposeOut kp a.strides a.dilation a.kernelSize m hi'
    rw [hup] at t1
    have hmi : 0 < nth m i := Nat.pos_of_ne_zero fun h => hmp (h ▸ nth_mem _ _ (by rw [hm]; exact hi))
    have hsi : 0 < nth a.strides i := Nat.pos_of_ne_zero fun h => f.stridesPos (h ▸ nth_mem _ _ hi')
    have := round_trip kp (k := dilated (nth a.kernelSize i) (nth a.dilation i)) hmi hsi (by unfold dilated; omega)
    have hk : (kpads kp a.strides a.dilation a.kernelSize n).getD i (0, 0) =
        kpad1 kp (nth n i) (dilated (nth a.kernelSize i) (nth a.dilation i)) (nth a.strides i) := by
      unfold kpads
      rw [List.getD_eq_getElem?_getD, List.getElem?_map, List.getElem?_range hi']
      cases kp <;> rfl
    rw [nth_grow (by omega) (by rw [hkl, hn]), nth_befores, hk, t1, t2]
    exact this
  have hout : outSizes a'.strides a'.dilation a'.kernelSize
      (padded l'.transforms.padState kp a'.strides a'.dilation a'.kernelSize n) = m := by
    rw [hpad, hss, hds, hks]
    apply ext_nth
    · rw [length_outSizes, hm, hsl]
    · intro i hi
      rw [length_outSizes] at hi
      rw [outSizes, nth_map_range, if_pos hi]
      exact (hnum i (by omega)).2.1
  have hbefC : totalBefore l'.transforms.padState kp a'.strides a'.dilation a'.kernelSize n =
      upCrop kp a.strides a.dilation a.kernelSize m := by
    rw [hst', hss, hds, hks]
    apply ext_nth
    · simp [totalBefore, upCrop]
    · intro i hi
      have hi : i < a.strides.length := by simpa [totalBefore] using hi
      rw [totalBefore, nth_map_range, if_pos hi, hsl, hgrow n hn, hbef, nth_replicate, if_pos hi]
      exact (hnum i (by omega)).2.2
  have hfit : FitsIn a'.strides a'.dilation a'.kernelSize
      (padded l'.transforms.padState kp a'.strides a'.dilation a'.kernelSize n) := by
    rw [hpad, hss, hds, hks]
    intro i hi
    refine ⟨Nat.pos_of_ne_zero fun h => f.stridesPos (h ▸ nth_mem _ _ hi),
      Nat.pos_of_ne_zero fun h => f.kernelPos (h ▸ nth_mem _ _ (by rw [f.kernelLen, ← hsl]; exact hi)),
      (hnum i (by omega)).1⟩
  obtain ⟨u, eu, hus, hug⟩ := c2 hfit
  rw [hout] at hus hug
  rw [hbefC] at hug
  have hus' : u.shape = sigShape .channelsLast B m (some H.length) C := by rw [hus, hfil]; simp [sigShape]
  refine ⟨u, by rw [eu], by rw [hus', hy], ?_⟩
  unfold inner
  rw [hus', sum_sig, hxs, sum_sig]
  apply sum_congr
  intro b hbB
  rw [List.mem_range] at hbB
  have key := sum_transpose (indices m) (List.range (H.length * C)) (indices a.kernelSize)
    (List.range (a.group.group.order * a.filters)) (indices n)
    (fun p k q => Hits (List.replicate a.strides.length 0) a.strides a.dilation (upCrop kp a.strides a.dilation a.kernelSize m) p k q)
    (fun q w => x.get (b :: q ++ restIdx (some a.group.group.order) a.filters w))
    (fun p v => y.get (b :: p ++ restIdx (some H.length) C v))
    (fun k w v => weightOf a true (some H.length) C k0 H (w / a.filters) k v (w % a.filters))
  refine Eq.trans ?_ (key.trans ?_)
  · apply sum_congr
    intro p hp
    rw [mem_indices] at hp
    apply sum_congr
    intro v hv
    rw [List.mem_range] at hv
    obtain ⟨v1, v2, v3⟩ := split_lt hv
    congr 1
    have := hug b p (v / C) (v % C) hbB hp v1 (by rw [hfil]; exact v2)
    simp only [restIdx]
    rw [this, hact', hb', id, if_neg (by simp), add_zero, hks]
    apply sum_congr
    intro k hk
    rw [mem_indices] at hk
    apply sum_congr
    intro w hw'
    rw [List.mem_range] at hw'
    obtain ⟨w1, w2, w3⟩ := split_lt (m := a.group.group.order) (n := a.filters) hw'
    have e := hw k (v / C) (w / a.filters) (w % a.filters) (v % C) hk v1 w1 w2 v2
    rw [← w3, ← v3] at e
    rw [e, hss, hds, readAt_sum (by rw [hn, hsl])]
    rfl
  · apply sum_congr
    intro q hq
    rw [mem_indices] at hq
    apply sum_congr
    intro w hw'
    rw [List.mem_range] at hw'
    obtain ⟨w1, w2, w3⟩ := split_lt (m := a.group.group.order) (n := a.filters) hw'
    congr 1
    have := hzg b q (w / a.filters) (w % a.filters) hbB hq (by simpa using w1) w2
    simp only [restIdx]
    rw [this, hact, hb, id, if_neg (by simp), add_zero, nth_range, if_pos w1]
    rfl

/-- stored weights of the convolution that is the transpose of a transposed layer -/
def adjointKernel (a : ConvArgs α) (C : Nat) (k0 : List Nat → α) (H : List Nat) (idx : List Nat) : α :=
  let u := nth idx a.group.dim
  weightOf a true (some H.length) C k0 H (u / a.filters) (idx.take a.group.dim) (H.idxOf 0 * C + nth idx (a.group.dim + 1))
    (u % a.filters)

theorem adjointKernel_weights {a a' : ConvArgs α} (hgr : a'.group = a.group) (hks : a'.kernelSize = a.kernelSize) {C : Nat}
    (hfil : a'.filters = C) {k0 : List Nat → α} {s : String} {H : List Nat} (hH : lookup a.group.group.subgroup s = .ok H)
    (hK : a.group.Grid a.kernelSize) {k : List Nat} {i j o c : Nat} (hk : Valid a.kernelSize k) (hi : i < H.length)
    (hj : j < a.group.group.order) (ho : o < a.filters) (hc : c < C) :
    weightOf a' false (some a.group.group.order) a.filters (adjointKernel a C k0 H) (List.range a.group.group.order) (nth H i) k
        (j * a.filters + o) c =
      weightOf a true (some H.length) C k0 H j k (i * C + c) o := by
  have S := a.group.sym
  have hm := nth_mem H i hi
  have he := S.sub_lt hH hm
  have hinv := S.tab.laws.closed _ _ (S.inv_lt he) hj
  have e1 := weight_group (a := a') (C := a.filters) (k0 := adjointKernel a C k0 H) (e := nth H i) (k := k) (j := j) (c := o)
    (o := c) (by rw [hgr, hks]; exact hK) (by rw [hgr]; exact he) (by rw [hks]; exact hk) (by rw [hgr]; exact hj) ho
    (by rw [hfil]; exact hc)
  rw [hgr, hks] at e1
  rw [e1]
  have hl : (back a.group.els a.kernelSize (nth H i) k).length = a.group.dim := by
    rw [(S.valid_back hK he hk).length, S.okLen _ hK]
  have e2 := weight_covariant (k0 := k0) (o := o) (tr := true) (g := some H.length) (C := C) hH (fun _ h => by simp_all) hK hm hinv hk
    (c := i * C + c) (by simpa [chanO] using mul_add_lt hi hc)
  have hcomp : a.group.group.comp (nth H i) (a.group.group.comp (nth a.group.group.inverses (nth H i)) j) = j := by
    rw [← S.tab.laws.assoc _ _ _ he (S.inv_lt he) hj, S.tab.laws.mul_inv _ he, S.tab.laws.one_mul _ hj]
  rw [hcomp] at e2
  rw [e2]
  have ht : turnChan a.group.group.toGroupData H (some H.length) C (nth H i) (i * C + c) = H.idxOf 0 * C + c := by
    simp only [turnChan, div_of hc, mod_of hc, turn, S.tab.laws.inv_mul _ he]
  rw [ht]
  have t1 : (back a.group.els a.kernelSize (nth H i) k ++
      [a.group.group.comp (nth a.group.group.inverses (nth H i)) j * a.filters + o, c]).take a.group.dim =
      back a.group.els a.kernelSize (nth H i) k := by rw [← hl]; simp
  have t2 : nth (back a.group.els a.kernelSize (nth H i) k ++
      [a.group.group.comp (nth a.group.group.inverses (nth H i)) j * a.filters + o, c]) a.group.dim =
      a.group.group.comp (nth a.group.group.inverses (nth H i)) j * a.filters + o := by
    rw [nth_app0 hl]; rfl
  have t3 : nth (back a.group.els a.kernelSize (nth H i) k ++
      [a.group.group.comp (nth a.group.group.inverses (nth H i)) j * a.filters + o, c]) (a.group.dim + 1) = c := by
    rw [nth_app hl]; rfl
  unfold adjointKernel
  simp only [t1, t2, t3, div_of ho, mod_of ho]

/-- stored weights of the transposed layer, on the whole group, that is the transpose of a convolution -/
def adjointKernelT (a : ConvArgs α) (C : Nat) (k1 : List Nat → α) (idx : List Nat) : α :=
  let jdx := unravel (a.kernelSize ++ [a.group.group.order * C, a.filters])
    (ravel (a.kernelSize ++ [a.filters, a.group.group.order * C]) idx)
  let k := jdx.take a.group.dim
  let v := nth jdx a.group.dim
  let o := nth jdx (a.group.dim + 1)
  k1 (back a.group.els a.kernelSize (v / C) k ++ [nth a.group.group.inverses (v / C) * a.filters + o, v % C])

theorem adjointKernelT_weights {a a' : ConvArgs α} (hgr : a'.group = a.group) (hks : a'.kernelSize = a.kernelSize) {C : Nat}
    (hfil : a'.filters = C) {k1 : List Nat → α}
    (hK : a.group.Grid a.kernelSize) {k : List Nat} {i j o c : Nat} (hk : Valid a.kernelSize k) (hi : i < a.group.group.order)
    (hj : j < a.group.group.order) (ho : o < a.filters) (hc : c < C) :
    weightOf a' false (some a.group.group.order) a.filters k1 (List.range a.group.group.order) i k
        (j * a.filters + o) c =
      weightOf a true (some a.group.group.order) C (adjointKernelT a C k1) (List.range a.group.group.order) j k (i * C + c) o := by
  have S := a.group.sym
  have hinv := S.tab.laws.closed _ _ (S.inv_lt hj) hi
  have e1 := weight_group (a := a') (C := a.filters) (k0 := k1) (e := i) (k := k) (j := j) (c := o)
    (o := c) (by rw [hgr, hks]; exact hK) (by rw [hgr]; exact hi) (by rw [hks]; exact hk) (by rw [hgr]; exact hj) ho
    (by rw [hfil]; exact hc)
  rw [hgr, hks] at e1
  rw [e1]
  have hkb := S.valid_back hK hj hk
  have hl : (back a.group.els a.kernelSize j k).length = a.group.dim := by rw [hkb.length, S.okLen _ hK]
  have hval : Valid (a.kernelSize ++ [a.group.group.order * C, a.filters])
      (back a.group.els a.kernelSize j k ++ [a.group.group.comp (nth a.group.group.inverses j) i * C + c, o]) :=
    valid_two.2 ⟨hkb, mul_add_lt hinv hc, ho⟩
  have hprod : prod (a.kernelSize ++ [a.filters, a.group.group.order * C]) =
      prod (a.kernelSize ++ [a.group.group.order * C, a.filters]) := by
    rw [prod_append, prod_append]; simp only [prod_cons, prod_nil]; ring
  unfold weightOf wIdx groupIdx kShape
  simp only [Option.isSome_some, if_true, chanO, div_of hc, mod_of hc, List.length_range, nth_range, if_pos hi]
  rw [if_pos (List.mem_range.2 hinv), idxOf_range hinv]
  unfold adjointKernelT
  rw [ravel_unravel (by rw [hprod]; exact ravel_lt hval), unravel_ravel hval]
  have t1 : (back a.group.els a.kernelSize j k ++
      [a.group.group.comp (nth a.group.group.inverses j) i * C + c, o]).take a.group.dim =
      back a.group.els a.kernelSize j k := by rw [← hl]; simp
  have t2 : nth (back a.group.els a.kernelSize j k ++
      [a.group.group.comp (nth a.group.group.inverses j) i * C + c, o]) a.group.dim =
      a.group.group.comp (nth a.group.group.inverses j) i * C + c := by
    rw [nth_app0 hl]; rfl
  have t3 : nth (back a.group.els a.kernelSize j k ++
      [a.group.group.comp (nth a.group.group.inverses j) i * C + c, o]) (a.group.dim + 1) = o := by
    rw [nth_app hl]; rfl
  simp only [t1, t2, t3, div_of hc, mod_of hc]
  rw [← S.back_comp hK hinv hj hk, S.inv_comp (S.inv_lt hj) hi]
  rw [← S.tab.laws.assoc _ _ _ hj (S.inv_lt hj) hi, S.tab.laws.mul_inv _ hj, S.tab.laws.one_mul _ hi]
  have hii : nth a.group.group.inverses (nth a.group.group.inverses j) = j := by
    have i1 := S.inv_lt hj
    have i2 := S.inv_lt i1
    rw [← S.tab.laws.mul_one _ i2, ← S.tab.laws.inv_mul _ hj, ← S.tab.laws.assoc _ _ _ i2 i1 hj, S.tab.laws.inv_mul _ i1,
      S.tab.laws.one_mul _ hj]
  rw [hii]

end GroCo
