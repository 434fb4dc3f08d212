import Verif.ExactLemmas

/-
Helper lemmas for C25: which strides, dilation rates and zeros move the windows of a convolution into each other.
-/

namespace GroCo
open Tensor

/-- the axis a nonzero entry belongs to -/
theorem motion_src {n : GroupName} {h : Nat} {i j : Fin n.dim} (hij : n.motion h i j ≠ 0) :
    (n.els.getD h []).src j = i := by
  by_contra hc
  exact hij (if_neg hc)

/-- the other entries of the row are zero -/
theorem motion_row {n : GroupName} {h : Nat} (hh : h < n.group.order) {i j k : Fin n.dim} (hij : n.motion h i j ≠ 0) (hk : k ≠ j) :
    n.motion h i k = 0 :=
  if_neg fun hc => hk (Fin.ext ((n.sym.wf hh).src_inj k.2 j.2 (hc.trans (motion_src hij).symm)))

/-- entries are 0, 1 or -1 -/
theorem motion_entry {n : GroupName} {h : Nat} {i j : Fin n.dim} (hij : n.motion h i j ≠ 0) :
    n.motion h i j = 1 ∨ n.motion h i j = -1 := by
  unfold GroupName.motion SPerm.mat at hij ⊢
  split at hij
  · rename_i e
    rw [if_pos e]
    split <;> simp
  · exact absurd rfl hij

/-- every column has a nonzero entry -/
theorem motion_col {n : GroupName} {h : Nat} (hh : h < n.group.order) (j : Fin n.dim) : ∃ i, n.motion h i j ≠ 0 := by
  refine ⟨⟨_, (n.sym.wf hh).src_lt j.2⟩, ?_⟩
  unfold GroupName.motion SPerm.mat
  rw [if_pos rfl]
  split <;> simp

/-- every row has a nonzero entry -/
theorem motion_row_ne {n : GroupName} {h : Nat} (hh : h < n.group.order) (i : Fin n.dim) : ∃ j, n.motion h i j ≠ 0 := by
  have hinj : Function.Injective fun j : Fin n.dim => (⟨_, (n.sym.wf hh).src_lt j.2⟩ : Fin n.dim) := by
    intro a b e
    exact Fin.ext ((n.sym.wf hh).src_inj a.2 b.2 (congrArg Fin.val e))
  obtain ⟨j, hj⟩ := (Finite.injective_iff_surjective.1 hinj) i
  refine ⟨j, ?_⟩
  unfold GroupName.motion SPerm.mat
  rw [if_pos (congrArg Fin.val hj)]
  split <;> simp

/-- coordinates along axes taken to each other -/
theorem moves_coord {n : GroupName} {h : Nat} (hh : h < n.group.order) {i j : Fin n.dim} (hij : n.motion h i j ≠ 0) {m p q : List Nat}
    (hk : n.Kept h m) (hm : MovesTo (n.motion h) (List.range n.dim) m p q) :
    (n.motion h i j = 1 → nth q i = nth p j) ∧ (n.motion h i j = -1 → nth q i + nth p j + 1 = nth m i) := by
  have hs : nth m i = nth m j := ((keeps_iff n hh m).2 hk).2 i j hij
  have e := hm.2 i
  rw [Finset.sum_eq_single j (fun k _ hk => by rw [motion_row hh hij hk, zero_mul]) (fun hc => absurd (Finset.mem_univ _) hc)] at e
  have er : ∀ j : Fin n.dim, nth (List.range n.dim) j = j := fun j => by simp [nth]
  simp only [er, centred] at e
  constructor
  · intro h1
    rw [h1] at e
    omega
  · intro h1
    rw [h1] at e
    omega

/-- the sampling of one axis compared with that of the axis it is taken to -/
def AxisMoved (sign : Int) (n out K s s' d d' b b' : Nat) : Prop :=
  s = s' ∧ (K = 1 ∨ d = d') ∧ (sign = 1 → b = b') ∧ (sign = -1 → (out - 1) * s + (K - 1) * d + 1 = n + b + b')

/-- if the sampling is the same along axes taken to each other, windows are moved into each other -/
theorem windowsMoved_of_axes {n : GroupName} {h : Nat} (hh : h < n.group.order) {m out K before strides dil : List Nat}
    (hm : n.Kept h m) (hO : n.Kept h out) (hK : n.Kept h K) (hs : strides.length = n.dim)
    (hall : ∀ i j : Fin n.dim, n.motion h i j ≠ 0 → AxisMoved (n.motion h i j) (nth m i) (nth out i) (nth K i) (nth strides i)
      (nth strides j) (nth dil i) (nth dil j) (nth before i) (nth before j)) :
    WindowsMoved (n.motion h) m out K before strides dil := by
  intro p p' k k' w w' hp hp' hk hk' hw hw' mp mk mw
  have key : ∀ i j : Fin n.dim, n.motion h i j ≠ 0 →
      (nth p j * nth strides j + nth k j * nth dil j = nth w j + nth before j ↔
        nth p' i * nth strides i + nth k' i * nth dil i = nth w' i + nth before i) := by
    intro i j hij
    obtain ⟨h1, h2, h3, h4⟩ := hall i j hij
    have cp := moves_coord hh hij hO mp
    have ck := moves_coord hh hij hK mk
    have cw := moves_coord hh hij hm mw
    rw [h1]
    have hkd : nth k j * nth dil j = nth k j * nth dil i ∧ nth k' i * nth dil i = nth k' i * nth dil i := by
      rcases h2 with h2 | h2
      · have hki : nth K i = nth K j := ((keeps_iff n hh K).2 hK).2 i j hij
        have := hk.lt (i := j) (by rw [hK.1]; exact j.2)
        have : nth k j = 0 := by omega
        rw [this]
        simp
      · rw [h2]; exact ⟨rfl, rfl⟩
    rw [hkd.1]
    rcases motion_entry hij with e | e
    · rw [cp.1 e, ck.1 e, cw.1 e, h3 e]
    · have a1 := cp.2 e
      have a2 := ck.2 e
      have a3 := cw.2 e
      have a4 := h4 e
      rw [h1] at a4
      have b1 : (nth out i - 1) * nth strides j = nth p' i * nth strides j + nth p j * nth strides j := by
        rw [← Nat.add_mul]; congr 1; omega
      have b2 : (nth K i - 1) * nth dil i = nth k' i * nth dil i + nth k j * nth dil i := by
        rw [← Nat.add_mul]; congr 1; omega
      rw [b1, b2] at a4
      omega
  constructor
  · intro hr i hi
    rw [hs] at hi
    obtain ⟨j, hij⟩ := motion_row_ne hh ⟨i, hi⟩
    exact (key _ j hij).1 (hr j (by rw [hs]; exact j.2))
  · intro hr j hj
    rw [hs] at hj
    obtain ⟨i, hij⟩ := motion_col hh ⟨j, hj⟩
    exact (key i _ hij).2 (hr i (by rw [hs]; exact i.2))

/-- what is read along an axis is read along the axis it is taken to -/
theorem moved_axis {n : GroupName} {h : Nat} (hh : h < n.group.order) {m out K before strides dil : List Nat}
    (hm : n.Kept h m) (hO : n.Kept h out) (hK : n.Kept h K) (hs : strides.length = n.dim)
    (hW : WindowsMoved (n.motion h) m out K before strides dil) (p k w : Nat → Nat)
    (hpkw : ∀ l, l < n.dim → p l < nth out l ∧ k l < nth K l ∧ w l < nth m l ∧
      p l * nth strides l + k l * nth dil l = w l + nth before l) {i j : Fin n.dim} (hij : n.motion h i j ≠ 0) :
    ∃ p' k' w', p' * nth strides i + k' * nth dil i = w' + nth before i ∧
      (n.motion h i j = 1 → p' = p j ∧ k' = k j ∧ w' = w j) ∧
      (n.motion h i j = -1 → p' + p j + 1 = nth out i ∧ k' + k j + 1 = nth K i ∧ w' + w j + 1 = nth m i) := by
  have nf : ∀ (f : Nat → Nat) l, l < n.dim → nth ((List.range n.dim).map f) l = f l := fun f l hl => by
    rw [nth_map_range, if_pos hl]
  have hv : ∀ (u : List Nat) (f : Nat → Nat), u.length = n.dim → (∀ l, l < n.dim → f l < nth u l) → Valid u ((List.range n.dim).map f) := by
    intro u f hu hlt
    rw [valid_iff]
    refine ⟨by simp [hu], fun l hl => ?_⟩
    rw [hu] at hl
    rw [nf f l hl]
    exact hlt l hl
  have hp := hv out p hO.1 fun l hl => (hpkw l hl).1
  have hk := hv K k hK.1 fun l hl => (hpkw l hl).2.1
  have hw := hv m w hm.1 fun l hl => (hpkw l hl).2.2.1
  obtain ⟨p', hp', ep⟩ := hO.surj hh hp
  obtain ⟨k', hk', ek⟩ := hK.surj hh hk
  obtain ⟨w', hw', ew⟩ := hm.surj hh hw
  have mp := Kept.moves hh hO hp'
  have mk := Kept.moves hh hK hk'
  have mw := Kept.moves hh hm hw'
  rw [ep] at mp
  rw [ek] at mk
  rw [ew] at mw
  have hr : Reads before strides dil ((List.range n.dim).map p) ((List.range n.dim).map k) ((List.range n.dim).map w) := by
    intro l hl
    rw [hs] at hl
    rw [nf p l hl, nf k l hl, nf w l hl]
    exact (hpkw l hl).2.2.2
  have hr' := (hW _ _ _ _ _ _ hp hp' hk hk' hw hw' mp mk mw).1 hr i (by rw [hs]; exact i.2)
  have cp := moves_coord hh hij hO mp
  have ck := moves_coord hh hij hK mk
  have cw := moves_coord hh hij hm mw
  rw [nf p j j.2] at cp
  rw [nf k j j.2] at ck
  rw [nf w j j.2] at cw
  exact ⟨_, _, _, hr', fun e => ⟨cp.1 e, ck.1 e, cw.1 e⟩, fun e => ⟨cp.2 e, ck.2 e, cw.2 e⟩⟩

/-- the first window that starts inside -/
theorem first_inside {n D s b a : Nat} (hs : 0 < s) (hn : 2 * s + D ≤ n) :
    ∃ p, b ≤ p * s ∧ p * s < b + s ∧ p + 1 < (b + n + a - D) / s + 1 := by
  refine ⟨(b + s - 1) / s, ?_, ?_, ?_⟩
  · have := Nat.div_add_mod (b + s - 1) s
    have := Nat.mod_lt (b + s - 1) hs
    rw [Nat.mul_comm] 
    omega
  · have := Nat.div_add_mod (b + s - 1) s
    rw [Nat.mul_comm]
    omega
  · have h1 := Nat.div_add_mod (b + s - 1) s
    have : (b + s - 1) / s + 1 ≤ (b + n + a - D) / s := by
      rw [Nat.le_div_iff_mul_le hs, Nat.add_mul, Nat.one_mul, Nat.mul_comm]
      omega
    omega

/-- On images that are larger than the windows, windows are moved into each other only if the sampling is the same along axes taken to
each other. -/
theorem axes_of_windowsMoved {n : GroupName} {h : Nat} (hh : h < n.group.order) {m out K before after strides dil : List Nat}
    (hm : n.Kept h m) (hO : n.Kept h out) (hK : n.Kept h K) (hs : strides.length = n.dim)
    (hout : ∀ i, i < n.dim → nth out i =
      (nth before i + nth m i + nth after i - dilated (nth K i) (nth dil i)) / nth strides i + 1)
    (hspos : ∀ i, i < n.dim → 0 < nth strides i) (hkpos : ∀ i, i < n.dim → 0 < nth K i)
    (hbig : ∀ i, i < n.dim → 2 * nth strides i + dilated (nth K i) (nth dil i) ≤ nth m i)
    (hW : WindowsMoved (n.motion h) m out K before strides dil) (i j : Fin n.dim) (hij : n.motion h i j ≠ 0) :
    AxisMoved (n.motion h i j) (nth m i) (nth out i) (nth K i) (nth strides i)
      (nth strides j) (nth dil i) (nth dil j) (nth before i) (nth before j) := by
  have hfirst : ∀ l, ∃ p, l < n.dim → nth before l ≤ p * nth strides l ∧ p * nth strides l < nth before l + nth strides l ∧
      p + 1 < nth out l := by
    intro l
    by_cases hl : l < n.dim
    · obtain ⟨p, hp⟩ := first_inside (b := nth before l) (a := nth after l) (hspos l hl) (hbig l hl)
      exact ⟨p, fun _ => by rw [hout l hl]; exact hp⟩
    · exact ⟨0, fun h => absurd h hl⟩
  choose p hp using hfirst
  have hki : nth K i = nth K j := ((keeps_iff n hh K).2 hK).2 i j hij
  have base : ∀ l, l < n.dim → p l < nth out l ∧ 0 < nth K l ∧ p l * nth strides l - nth before l < nth m l ∧
      p l * nth strides l + 0 * nth dil l = (p l * nth strides l - nth before l) + nth before l := by
    intro l hl
    obtain ⟨h1, h2, h3⟩ := hp l hl
    have := hbig l hl
    exact ⟨by omega, hkpos l hl, by omega, by omega⟩
  obtain ⟨p0, k0, w0, e0, a0, c0⟩ := moved_axis hh hm hO hK hs hW p (fun _ => 0) (fun l => p l * nth strides l - nth before l) base hij
  -- one step further along the axis
  obtain ⟨p1, k1, w1, e1, a1, c1⟩ := moved_axis hh hm hO hK hs hW (fun l => if l = j then p l + 1 else p l) (fun _ => 0)
    (fun l => if l = j then p l * nth strides l - nth before l + nth strides l else p l * nth strides l - nth before l) (by
      intro l hl
      by_cases e : l = (j : Nat)
      · simp only [e, if_true]
        obtain ⟨h1, h2, h3⟩ := hp j j.2
        have := hbig j j.2
        refine ⟨h3, hkpos j j.2, by omega, ?_⟩
        rw [Nat.add_mul]
        omega
      · simp only [e, if_false]
        exact base l hl) hij
  simp only [if_true] at a1 c1
  obtain ⟨h1, h2, h3⟩ := hp j j.2
  have hsj : nth strides i = nth strides j := by
    rcases motion_entry hij with e | e
    · obtain ⟨rfl, rfl, rfl⟩ := a0 e
      obtain ⟨rfl, rfl, rfl⟩ := a1 e
      rw [Nat.add_mul] at e1
      omega
    · have q0 := c0 e
      have q1 := c1 e
      have hp1 : p0 = p1 + 1 := by omega
      have hk1 : k0 = k1 := by omega
      rw [hp1, hk1, Nat.add_mul] at e0
      omega
  have hdj : nth K i = 1 ∨ nth dil i = nth dil j := by
    by_cases hK1 : nth K i = 1
    · exact Or.inl hK1
    right
    have hKj : 1 < nth K j := by have := hkpos i i.2; omega
    obtain ⟨p2, k2, w2, e2, a2, c2⟩ := moved_axis hh hm hO hK hs hW p (fun l => if l = j then 1 else 0)
      (fun l => if l = j then p l * nth strides l - nth before l + nth dil l else p l * nth strides l - nth before l) (by
        intro l hl
        by_cases e : l = (j : Nat)
        · simp only [e, if_true]
          have h4 := hbig j j.2
          have h5 : nth dil j ≤ (nth K j - 1) * nth dil j := Nat.le_mul_of_pos_left _ (by omega)
          unfold dilated at h4
          refine ⟨by omega, hKj, by omega, by omega⟩
        · simp only [e, if_false]
          exact base l hl) hij
    simp only [if_true] at a2 c2
    rcases motion_entry hij with e | e
    · obtain ⟨rfl, rfl, rfl⟩ := a0 e
      obtain ⟨rfl, rfl, rfl⟩ := a2 e
      omega
    · have q0 := c0 e
      have q2 := c2 e
      have hp2 : p0 = p2 := by omega
      have hk2 : k0 = k2 + 1 := by omega
      rw [hp2, hk2, Nat.add_mul] at e0
      omega
  refine ⟨hsj, hdj, fun e => ?_, fun e => ?_⟩
  · obtain ⟨rfl, rfl, rfl⟩ := a0 e
    rw [hsj] at e0
    omega
  · obtain ⟨q1, q2, q3⟩ := c0 e
    have b1 : (nth out i - 1) * nth strides i = p0 * nth strides i + p j * nth strides j := by
      rw [← hsj, ← Nat.add_mul]; congr 1; omega
    have b2 : (nth K i - 1) * nth dil i = k0 * nth dil i := by congr 1; omega
    rw [b1, b2]
    omega

/-- the dilation rates with which the sampling stays symmetric are no others than these -/
theorem dilationOk_of_geo {opt : PadOption} {n k s r e before after : Nat} (hk : 0 < k) (hone : s = 1 ∨ r = 1)
    (h1 : Symmetric n k s (e + builtIn opt n k s))
    (hba : before + after = e + builtIn opt (n + e) (dilated k r) s)
    (hfit : dilated k r ≤ before + n + after)
    (hgeo : (before + n + after - dilated k r) / s * s + dilated k r = n + 2 * before) : DilationOk opt k s r := by
  by_cases hr : r = 1
  · exact Or.inl hr
  have hs := hone.resolve_right hr
  subst hs
  refine Or.inr ⟨rfl, ?_⟩
  rw [Nat.div_one, Nat.mul_one] at hgeo
  by_contra hc
  simp only [not_or] at hc
  obtain ⟨c1, c2, c3, c4⟩ := hc
  have e1 : ∀ m j, builtIn opt m j 1 = j - 1 := by
    intro m j
    cases opt <;> first | exact absurd rfl c1 | exact absurd rfl c2 | simp [builtIn, sameTotal, Nat.mod_one]
  have h5 := h1.1
  rw [e1] at h5 hba
  have hdk : dilated k r - 1 = (k - 1) * r := by unfold dilated; omega
  rw [hdk] at hba
  have hj : ((k - 1) * r) % 2 = (k - 1) % 2 * (r % 2) % 2 := Nat.mul_mod _ _ _
  have hr0 : r % 2 = 0 := by omega
  rw [hr0, Nat.mul_zero, Nat.zero_mod] at hj
  generalize (k - 1) * r = t at *
  omega

end GroCo
