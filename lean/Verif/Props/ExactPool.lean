import Verif.PoolExactLemmas
import Verif.Props.Build
import Verif.Props.Exact
import Verif.Props.Pooling

/-
Properties C70 and C71: which pooling layers are equivariant, and which are refused. The vocabulary (`poolWindow`, `PoolWindowsMoved`) is in PoolMovedSpec.
-/

namespace GroCo
open Tensor

variable {α : Type}

/-- C70: a group pooling layer on signals of sizes `n` moves its output with its input exactly if element `h` of its subgroup keeps
the sizes of the output and moves the windows into each other. Nothing is assumed about allow_non_equivariance, pool sizes or
strides. -/
theorem C70_windows [Field α] [LinearOrder α] [IsStrictOrderedRing α] {a : PoolArgs} {bt : Option Nat} {n : List Nat} {g C : Nat}
    {H : List Nat} {l : GroupPooling} (hl : BuiltPool a bt n g C H l) (hf : a.dataFormat = .channelsLast) (opt : PadOption)
    (hopt : formatPaddingOption a.padding = .ok opt) (hC : 0 < C) (h : Nat) (hh : h ∈ H) (hn : KeepsSizes (a.group.motion h) n)
    (lo hi skip skip' out : List Nat)
    (hpad : ∀ i, i < a.group.dim → PoolPads opt (nth n i) (nth n i) (nth a.poolSize i) (nth a.windowStrides i)
      (nth a.paddingStrides i) (nth lo i) (nth hi i) (nth skip i) (nth skip' i))
    (hfit : ∀ i, i < a.group.dim → nth a.poolSize i ≤ nth skip i + (nth lo i + nth n i + nth hi i) + nth skip' i)
    (hout : out = (List.range a.group.dim).map fun i =>
      (nth skip i + (nth lo i + nth n i + nth hi i) + nth skip' i - nth a.poolSize i) / nth a.windowStrides i + 1) :
    MovesOutput a.group (List.range a.group.group.order) H h (l.call (α := α)) n (some g) C C ↔
      KeepsSizes (a.group.motion h) out ∧
      PoolWindowsMoved a.poolType (a.group.motion h) lo n hi skip a.poolSize a.windowStrides out := by
  have S := a.group.sym
  obtain ⟨opt', kp, cos', hopt', hkp, f, rfl, hst⟩ := hl.facts hf
  obtain ⟨sH, hsH, hH, _⟩ := f.sub
  have hh' := S.sub_lt hH hh
  have hhr : h ∈ List.range a.group.group.order := List.mem_range.2 hh'
  have hn' := (keeps_iff _ hh' _).1 hn
  have hdim := hl.dims
  obtain ⟨cos, lo2, hi2, skip2, skip2', ht, hpad2, hcall⟩ := C33_uniform (α := α) hl hf opt hopt n hdim
  have hu := fun i (hi' : i < a.group.dim) => (hpad i hi').unique (hpad2 i hi')
  have hwin : ∀ p, ((indices a.poolSize).map fun k => window ((List.range a.group.dim).map fun i => nth skip2 i + nth lo2 i)
      a.windowStrides (List.replicate a.group.dim 1) p k).filter (fun q => InExtended lo2 n hi2 q) =
      poolWindow lo n hi skip a.poolSize a.windowStrides p := by
    intro p
    rw [poolWindow_congr (lo2 := lo2) (hi2 := hi2) (skip2 := skip2) fun i hi' => by
      rw [hdim] at hi'
      exact ⟨(hu i hi').1, (hu i hi').2.1, (hu i hi').2.2.1⟩]
    unfold poolWindow
    rw [hdim]
  -- the cosets
  have hcos : cos ≠ [] := by
    rintro rfl
    obtain ⟨_, _, _, h1, _⟩ := ht.2.2.1 0 S.tab.laws.pos
    exact absurd h1 (by simp)
  have calls : ∀ (B : Nat) (x : Tensor α), x.shape = sigShape .channelsLast B n (some a.group.group.order) C → ∃ y,
      l.call x = .ok y ∧ y.shape = sigShape .channelsLast B out (some H.length) C ∧
      ∀ b p i c, b < B → Valid out p → i < H.length → c < C → y.get (b :: p ++ [i, c]) =
        a.poolType.reduce ((poolWindow lo n hi skip a.poolSize a.windowStrides p).map (valAt n fun w =>
          a.poolType.reduce (cos.map fun t => x.get (b :: w ++ [a.group.group.comp (nth H i) t, c])))) := by
    intro B x hx
    obtain ⟨c1, c2⟩ := hcall x B hx
    obtain ⟨y, hy⟩ := c1.2 fun i hi' => by
      obtain ⟨e1, e2, e3, e4⟩ := hu i hi'
      rw [← e1, ← e2, ← e3, ← e4]
      exact hfit i hi'
    obtain ⟨h1, h2⟩ := c2 y hy
    have hs : y.shape = sigShape .channelsLast B out (some H.length) C := by
      rw [h1, hout]
      congr 1
      apply List.map_congr_left
      intro i hi'
      obtain ⟨e1, e2, e3, e4⟩ := hu i (List.mem_range.1 hi')
      rw [← e1, ← e2, ← e3, ← e4]
    refine ⟨y, hy, hs, ?_⟩
    intro b p i c hb hp hi' hc
    obtain ⟨qs, hqs, _, h3⟩ := h2 b p i c (by
      rw [hs]
      show Valid (B :: out ++ [H.length, C]) _
      exact (valid_append (B :: out) [H.length, C] (b :: p) [i, c] (by simp [hp.length])).2 ⟨⟨hb, hp⟩, hi', hc, trivial⟩)
    rw [h3, hqs, hwin]
    rfl
  have hol : out.length = a.group.dim := by rw [hout]; simp
  have nd : ∀ p, (poolWindow lo n hi skip a.poolSize a.windowStrides p).Nodup := fun p =>
    nodup_poolWindow (by rw [f.sizeLen, hdim]) (by rw [f.stridesLen, hdim])
  constructor
  · intro hm
    have hO : a.group.Kept h out := by
      obtain ⟨y, e1, e2, _⟩ := calls 0 ⟨sigShape .channelsLast 0 n (some a.group.group.order) C, fun _ => 0⟩ rfl
      obtain ⟨m, y', h1, h2, _⟩ := hm 0 ⟨sigShape .channelsLast 0 n (some a.group.group.order) C, fun _ => 0⟩
        ⟨sigShape .channelsLast 0 n (some a.group.group.order) C, fun _ => 0⟩ y rfl
        ((movedBy_group S.tab.own hhr hn').2 ⟨rfl, fun _ _ _ _ _ _ _ _ => rfl⟩) e1
      rw [e2] at h1
      have : out = m := by simpa [sigShape] using h1
      rw [this]
      exact (keeps_iff _ hh' _).1 h2
    refine ⟨(keeps_iff _ hh' _).2 hO, (poolWindowsMoved_iff hh' hn' hO).2 fun p hp => ?_⟩
    refine moved_of_reduce (α := α) (fun w hw => hn'.valid hh' hw) (fun w w' hw hw' e => hn'.inj hh' hw hw' e) (nd _) (nd _) ?_
    intro φ φ' hφ
    have hmv : MovedBy a.group h .channelsLast (some (List.range a.group.group.order)) 1 n C
        (everywhere n a.group.group.order C φ) (everywhere n a.group.group.order C φ') := by
      refine (movedBy_group S.tab.own hhr hn').2 ⟨rfl, fun b w j c _ hw _ _ => ?_⟩
      simp only [sigIndex]
      rw [everywhere_get _ hw.length, everywhere_get _ (hn'.valid hh' hw).length, hφ w hw]
    obtain ⟨y, e1, e2, e3⟩ := calls 1 (everywhere n a.group.group.order C φ) rfl
    obtain ⟨y2, e1', e2', e3'⟩ := calls 1 (everywhere n a.group.group.order C φ') rfl
    obtain ⟨m, y', h1, h2, h3, h4⟩ := hm 1 _ _ y rfl hmv e1
    have : m = out := by
      rw [e2] at h1
      have : out = m := by simpa [sigShape] using h1
      exact this.symm
    subst this
    rw [e1'] at h3
    cases h3
    obtain ⟨_, h5⟩ := (movedBy_group hH hh hO).1 h4
    have hi0 : H.idxOf h < H.length := List.idxOf_lt_length_iff.2 hh
    have h6 := h5 0 p (H.idxOf h) 0 (by omega) hp hi0 hC
    simp only [sigIndex] at h6
    rw [e3' 0 p _ 0 (by omega) hp hi0 hC, e3 0 _ _ 0 (by omega) (hO.valid hh' hp) (S.turn_lt hH hh hi0) hC] at h6
    have hval : ∀ (ψ : List Nat → α) (i : Nat) (W : List (List Int)), W.map (valAt n fun w => a.poolType.reduce (cos.map fun t =>
        (everywhere n a.group.group.order C ψ).get (0 :: w ++ [a.group.group.comp (nth H i) t, 0]))) = W.map (valAt n ψ) := by
      intro ψ i W
      apply List.map_congr_left
      intro q _
      unfold valAt
      by_cases hin : InBox n q
      · rw [if_pos hin, if_pos hin]
        refine reduce_const _ ?_ (by simpa using hcos)
        intro v hv
        obtain ⟨t, _, rfl⟩ := List.mem_map.1 hv
        exact everywhere_get _ (inBox_toNat hin).length
      · rw [if_neg hin, if_neg hin]
    rw [hval, hval] at h6
    exact h6
  · rintro ⟨hO, hW⟩ B x x' y hx hmv hy
    have hO' := (keeps_iff _ hh' _).1 hO
    rw [poolWindowsMoved_iff hh' hn' hO'] at hW
    obtain ⟨h1, h2⟩ := (movedBy_group S.tab.own hhr hn').1 hmv
    obtain ⟨y1, e1, e2, e3⟩ := calls B x hx
    obtain ⟨y', e1', e2', e3'⟩ := calls B x' (h1.trans hx)
    rw [e1] at hy
    cases hy
    refine ⟨out, y', e2, hO, e1', (movedBy_group hH hh hO').2 ⟨e2'.trans e2.symm, ?_⟩⟩
    intro b p j c hb hp hj hc
    simp only [sigIndex]
    rw [e3' b p j c hb hp hj hc, e3 b _ _ c hb (hO'.valid hh' hp) (S.turn_lt hH hh hj) hc]
    refine reduce_moved (fun w hw => hn'.valid hh' hw) (fun w w' hw hw' e => hn'.inj hh' hw hw' e)
      (fun w hw => hn'.surj hh' hw) (nd _) (nd _) (hW p hp) ?_
    intro w hw
    refine congrArg a.poolType.reduce (List.map_congr_left fun t htc => ?_)
    have hHj := S.sub_nth_lt hH hj
    have htl := ht.2.1 t htc
    have hjt := S.tab.laws.closed _ _ hHj htl
    have h3 := h2 b w _ c hb hw (by simpa using hjt) hc
    simp only [sigIndex] at h3
    rw [h3, turn_range hh' hjt, S.nth_turn hH hh hj, S.tab.laws.assoc _ _ _ (S.inv_lt hh') hHj htl]

/-- C70: a pooling layer that adds no zeros to signals of sizes `n` is equivariant exactly if its windows are mirrored into each
other along every axis that is reversed by an element of its subgroup. -/
theorem C70_no_zeros [Field α] [LinearOrder α] [IsStrictOrderedRing α] {a : PoolArgs} {bt : Option Nat} {n : List Nat} {g C : Nat}
    {H : List Nat} {l : GroupPooling} (hl : BuiltPool a bt n g C H l) (hf : a.dataFormat = .channelsLast) (opt : PadOption)
    (hopt : formatPaddingOption a.padding = .ok opt) (hC : 0 < C)
    (hn : ∀ h ∈ H, KeepsSizes (a.group.motion h) n) (hK : ∀ h ∈ H, KeepsSizes (a.group.motion h) a.poolSize)
    (hs : ∀ h ∈ H, KeepsSizes (a.group.motion h) a.windowStrides)
    (hnone : ∀ i, i < a.group.dim → ∃ skip skip', PoolPads opt (nth n i) (nth n i) (nth a.poolSize i) (nth a.windowStrides i)
      (nth a.paddingStrides i) 0 0 skip skip')
    (hcall : ∃ (x y : Tensor α) (B : Nat), x.shape = sigShape .channelsLast B n (some g) C ∧ l.call x = .ok y) :
    (∀ h ∈ H, MovesOutput a.group (List.range a.group.group.order) H h (l.call (α := α)) n (some g) C C) ↔
      ∀ i : Fin a.group.dim, (∃ h ∈ H, a.group.motion h i i = -1) →
        PlainMirrored opt (nth n i) (nth a.poolSize i) (nth a.windowStrides i) := by
  have S := a.group.sym
  obtain ⟨opt', kp, cos', hopt', hkp, f, hg, hst⟩ := hl.facts hf
  obtain ⟨sH, hsH, hH, _⟩ := f.sub
  have hdim := hl.dims
  -- the positions left out
  have hskip : ∀ i, i < a.group.dim → PoolPads opt (nth n i) (nth n i) (nth a.poolSize i) (nth a.windowStrides i)
      (nth a.paddingStrides i) 0 0 (builtIn opt (nth n i) (nth a.poolSize i) (nth a.windowStrides i) / 2)
      (builtIn opt (nth n i) (nth a.poolSize i) (nth a.windowStrides i) -
        builtIn opt (nth n i) (nth a.poolSize i) (nth a.windowStrides i) / 2) := by
    intro i hi
    obtain ⟨skip, skip', e, h1, h2, h3, h4, h5⟩ := hnone i hi
    have he : e = 0 := by omega
    subst he
    refine ⟨0, h1, h2, h3, by simp, by simp only [Nat.add_zero]; omega⟩
  have hfit : ∀ i, i < a.group.dim → nth a.poolSize i ≤
      nth n i + builtIn opt (nth n i) (nth a.poolSize i) (nth a.windowStrides i) := by
    obtain ⟨x, y, B, hx, hy⟩ := hcall
    obtain ⟨cos, lo2, hi2, skip2, skip2', ht, hpad2, hcall⟩ := C33_uniform (α := α) hl hf opt hopt n hdim
    intro i hi
    have h1 := (hcall x B hx).1.1 ⟨y, hy⟩ i hi
    obtain ⟨e1, e2, e3, e4⟩ := (hskip i hi).unique (hpad2 i hi)
    rw [← e1, ← e2, ← e3, ← e4] at h1
    omega
  have hspos : ∀ i, i < a.group.dim → 0 < nth a.windowStrides i := fun i hi =>
    Nat.pos_of_ne_zero fun h => f.stridesPos (h ▸ nth_mem _ _ (by rw [f.stridesLen]; exact hi))
  have hkpos : ∀ i, i < a.group.dim → 0 < nth a.poolSize i := fun i hi =>
    Nat.pos_of_ne_zero fun h => f.sizePos (h ▸ nth_mem _ _ (by rw [f.sizeLen]; exact hi))
  have hTlt : ∀ i, i < a.group.dim → builtIn opt (nth n i) (nth a.poolSize i) (nth a.windowStrides i) < nth a.poolSize i := by
    intro i hi
    have h1 := hspos i hi
    have h2 := hkpos i hi
    have : sameTotal (nth n i) (nth a.poolSize i) (nth a.windowStrides i) < nth a.poolSize i := by
      unfold sameTotal
      split <;> omega
    cases opt <;> simp only [builtIn] <;> assumption
  have hnpos : ∀ i, i < a.group.dim → 0 < nth n i := by
    intro i hi
    have h1 := hfit i hi
    have h2 := hTlt i hi
    omega
  -- the layer in terms of windows
  generalize hsk : ((List.range a.group.dim).map fun i =>
    builtIn opt (nth n i) (nth a.poolSize i) (nth a.windowStrides i) / 2) = skip
  have hski : ∀ i, i < a.group.dim → nth skip i = builtIn opt (nth n i) (nth a.poolSize i) (nth a.windowStrides i) / 2 := by
    intro i hi
    rw [← hsk, nth_map_range, if_pos hi]
  generalize hout : ((List.range a.group.dim).map fun i =>
    (nth n i + builtIn opt (nth n i) (nth a.poolSize i) (nth a.windowStrides i) - nth a.poolSize i) / nth a.windowStrides i + 1) = out
  have houti : ∀ i, i < a.group.dim → nth out i =
      (nth n i + builtIn opt (nth n i) (nth a.poolSize i) (nth a.windowStrides i) - nth a.poolSize i) / nth a.windowStrides i + 1 := by
    intro i hi
    rw [← hout, nth_map_range, if_pos hi]
  have hol : out.length = a.group.dim := by rw [← hout]; simp
  have hwin : ∀ h ∈ H, (MovesOutput a.group (List.range a.group.group.order) H h (l.call (α := α)) n (some g) C C ↔
      KeepsSizes (a.group.motion h) out ∧ PoolWindowsMoved a.poolType (a.group.motion h) (List.replicate a.group.dim 0) n
        (List.replicate a.group.dim 0) skip a.poolSize a.windowStrides out) := by
    intro h hh
    refine C70_windows hl hf opt hopt hC h hh (hn h hh) _ _ skip ((List.range a.group.dim).map fun i =>
      builtIn opt (nth n i) (nth a.poolSize i) (nth a.windowStrides i) -
        builtIn opt (nth n i) (nth a.poolSize i) (nth a.windowStrides i) / 2) out ?_ ?_ ?_
    · intro i hi
      rw [nth_replicate, if_pos hi, hski i hi, nth_map_range, if_pos hi]
      exact hskip i hi
    · intro i hi
      rw [nth_replicate, if_pos hi, hski i hi, nth_map_range, if_pos hi]
      have := hfit i hi
      omega
    · rw [← hout]
      apply List.map_congr_left
      intro i hi
      rw [List.mem_range] at hi
      rw [nth_replicate, if_pos hi, hski i hi, nth_map_range, if_pos hi]
      have e : ∀ T m : Nat, T / 2 + (0 + m + 0) + (T - T / 2) = m + T := fun T m => by omega
      rw [e]
  have hmir : ∀ i, i < a.group.dim → (PlainMirrored opt (nth n i) (nth a.poolSize i) (nth a.windowStrides i) ↔
      ∀ p w, p < nth out i → w < nth n i →
        (Covers (nth a.windowStrides i) (nth a.poolSize i) (nth skip i) (nth out i - 1 - p) (nth n i - 1 - w) ↔
          Covers (nth a.windowStrides i) (nth a.poolSize i) (nth skip i) p w)) := fun i hi =>
    covers_mirror (hspos i hi) (hkpos i hi) (hnpos i hi) (hski i hi) (hfit i hi) (houti i hi)
  constructor
  · rintro hall i ⟨h, hh, hneg⟩
    have hh' := S.sub_lt hH hh
    obtain ⟨hO, hW⟩ := (hwin h hh).1 (hall h hh)
    have hO' := (keeps_iff _ hh' _).1 hO
    have hn' := (keeps_iff _ hh' _).1 (hn h hh)
    rw [hmir i i.2]
    suffices hone : ∀ p w, p < nth out i → w < nth n i →
        Covers (nth a.windowStrides i) (nth a.poolSize i) (nth skip i) p w →
        Covers (nth a.windowStrides i) (nth a.poolSize i) (nth skip i) (nth out i - 1 - p) (nth n i - 1 - w) by
      intro p w hp hw
      refine ⟨fun hc => ?_, hone p w hp hw⟩
      have := hone _ _ (by omega) (by omega) hc
      rwa [show nth out i - 1 - (nth out i - 1 - p) = p by omega, show nth n i - 1 - (nth n i - 1 - w) = w by omega] at this
    intro p w hp hw hc
    have hP : Valid out ((List.range a.group.dim).map fun j => if j = i.1 then p else 0) := by
      rw [valid_iff]
      refine ⟨by simp [hol], fun j hj => ?_⟩
      rw [hol] at hj
      rw [nth_map_range, if_pos hj]
      split
      · rename_i e; rw [e]; exact hp
      · rw [houti j hj]; exact Nat.succ_pos _
    have hQ : Valid n ((List.range a.group.dim).map fun j => if j = i.1 then w else 0) := by
      rw [valid_iff]
      refine ⟨by simp [hdim], fun j hj => ?_⟩
      rw [hdim] at hj
      rw [nth_map_range, if_pos hj]
      split
      · rename_i e; rw [e]; exact hw
      · exact hnpos j hj
    obtain ⟨P', hP', eP⟩ := hO'.surj hh' hP
    obtain ⟨Q', hQ', eQ⟩ := hn'.surj hh' hQ
    have mP := Kept.moves hh' hO' hP'
    have mQ := Kept.moves hh' hn' hQ'
    rw [eP] at mP
    rw [eQ] at mQ
    have h1 := ((hW _ _ hP hP' mP).1 _ _ hQ hQ' mQ).1 ((mem_poolWindow hdim f.sizeLen f.stridesLen hQ).2 fun j hj => by
      rw [nth_map_range, if_pos hj, nth_map_range, if_pos hj]
      by_cases e : j = i.1
      · rw [if_pos e, if_pos e, e]; exact hc
      · rw [if_neg e, if_neg e]
        have h1 := hTlt j hj
        have h2 := hski j hj
        unfold Covers
        omega)
    have h2 := (mem_poolWindow hdim f.sizeLen f.stridesLen hQ').1 h1 i i.2
    have m1 := moves_mirror hh' hneg mP
    have m2 := moves_mirror hh' hneg mQ
    rw [nth_map_range, if_pos i.2, if_pos rfl] at m1 m2
    rwa [show nth P' i = nth out i - 1 - p by omega, show nth Q' i = nth n i - 1 - w by omega] at h2
  · intro hall h hh
    have hh' := S.sub_lt hH hh
    have hn' := (keeps_iff _ hh' _).1 (hn h hh)
    have hK' := (keeps_iff _ hh' _).1 (hK h hh)
    have hs' := (keeps_iff _ hh' _).1 (hs h hh)
    have hO' : a.group.Kept h out := a.group.kept_of hh' hol fun i j hi hj hlink => by
      rw [houti i hi, houti j hj, hlink _ hn', hlink _ hK', hlink _ hs']
    have hsk' : a.group.Kept h skip := a.group.kept_of hh' (by rw [← hsk]; simp) fun i j hi hj hlink => by
      rw [hski i hi, hski j hj, hlink _ hn', hlink _ hK', hlink _ hs']
    refine (hwin h hh).2 ⟨(keeps_iff _ hh' _).2 hO', (poolWindowsMoved_iff hh' hn' hO').2 fun p hp => ?_⟩
    refine windowMoved_plain hdim f.sizeLen f.stridesLen (fun w hw => hn'.valid hh' hw)
      (fun w w' hw hw' e => hn'.inj hh' hw hw' e) (fun w hw => hn'.surj hh' hw) fun w hw => ?_
    rw [mem_poolWindow hdim f.sizeLen f.stridesLen hw, mem_poolWindow hdim f.sizeLen f.stridesLen (hn'.valid hh' hw)]
    refine covers_pull (S.wf hh') hdim hol hn'.2 hO'.2 hK'.2 hs'.2 hsk'.2 ?_ hp hw
    intro i hi hneg
    exact (hmir i hi).1 (hall ⟨i, hi⟩ (mirror_of_neg a.group hH hh hi hneg))

/-- C70: layers whose strides are not given, with padding 'valid' or 'valid_equiv', are equivariant exactly if the pool size
divides the size of every axis that is reversed by an element of the subgroup. -/
theorem C70_default_strides [Field α] [LinearOrder α] [IsStrictOrderedRing α] {a : PoolArgs} {bt : Option Nat} {n : List Nat} {g C : Nat}
    {H : List Nat} {l : GroupPooling} (hl : BuiltPool a bt n g C H l) (hf : a.dataFormat = .channelsLast)
    (hpad : a.padding = "valid" ∨ a.padding = "valid_equiv") (hstr : a.strides = none) (hC : 0 < C)
    (hn : ∀ h ∈ H, KeepsSizes (a.group.motion h) n) (hK : ∀ h ∈ H, KeepsSizes (a.group.motion h) a.poolSize)
    (hcall : ∃ (x y : Tensor α) (B : Nat), x.shape = sigShape .channelsLast B n (some g) C ∧ l.call x = .ok y) :
    (∀ h ∈ H, MovesOutput a.group (List.range a.group.group.order) H h (l.call (α := α)) n (some g) C C) ↔
      ∀ i : Fin a.group.dim, (∃ h ∈ H, a.group.motion h i i = -1) → nth a.poolSize i ∣ nth n i := by
  have hw : a.windowStrides = a.poolSize := by simp [PoolArgs.windowStrides, hstr]
  have hp : a.paddingStrides = List.replicate a.group.dim 1 := by simp [PoolArgs.paddingStrides, hstr]
  obtain ⟨opt, hopt, hv⟩ : ∃ opt, formatPaddingOption a.padding = .ok opt ∧ (opt = .valid ∨ opt = .validEquiv) := by
    rcases hpad with h | h
    · exact ⟨.valid, by rw [h]; rfl, Or.inl rfl⟩
    · exact ⟨.validEquiv, by rw [h]; rfl, Or.inr rfl⟩
  have hT : ∀ n k s, builtIn opt n k s = 0 := by rcases hv with rfl | rfl <;> exact fun _ _ _ => rfl
  have hnone : ∀ i, i < a.group.dim → ∃ skip skip', PoolPads opt (nth n i) (nth n i) (nth a.poolSize i) (nth a.windowStrides i)
      (nth a.paddingStrides i) 0 0 skip skip' := by
    intro i hi
    refine ⟨0, 0, 0, ?_, rfl, rfl, by rw [hT], by rw [hT]⟩
    rcases hv with rfl | rfl
    · rfl
    · refine ⟨⟨rfl, ?_⟩, fun e' _ => Nat.zero_le _⟩
      rw [hp, nth_replicate, if_pos hi]
      simp
  rw [C70_no_zeros hl hf opt hopt hC hn hK (by rw [hw]; exact hK) hnone hcall, hw]
  refine forall_congr' fun i => forall_congr' fun _ => ?_
  obtain ⟨x, y, B, hx, hy⟩ := hcall
  obtain ⟨cos, lo2, hi2, skip2, skip2', _, hpad2, hc⟩ := C33_uniform (α := α) hl hf opt hopt n hl.dims
  have h1 := (hc x B hx).1.1 ⟨y, hy⟩ i i.2
  obtain ⟨sk, sk', h2⟩ := hnone i i.2
  obtain ⟨e1, e2, e3, e4⟩ := h2.unique (hpad2 i i.2)
  obtain ⟨e, _, _, h3, _, h4⟩ := h2
  rw [hT] at h4
  rw [← e1, ← e2, ← e3, ← e4] at h1
  have hle : nth a.poolSize i ≤ nth n i := by omega
  unfold PlainMirrored
  rw [hT]
  constructor
  · rintro (⟨_, h⟩ | h)
    · have := Nat.dvd_add h (Nat.dvd_refl (nth a.poolSize i))
      rwa [Nat.add_zero, Nat.sub_add_cancel hle] at this
    · rw [show nth n i = nth a.poolSize i by omega]
  · intro h
    exact Or.inl ⟨rfl, by rw [Nat.add_zero]; exact Nat.dvd_sub h (Nat.dvd_refl _)⟩

/-- C71 as one would like it: with plain padding, a pooling layer is refused exactly if it would not be equivariant. -/
def PoolRefusedIffBroken : Prop :=
  ∀ (a : PoolArgs) (bt : Option Nat) (n : List Nat) (g C : Nat) (H : List Nat) (l : GroupPooling),
    BuiltPool a bt n g C H l → a.dataFormat = .channelsLast → (a.padding = "same" ∨ a.padding = "valid") →
    a.group.Grid n → a.group.Grid a.poolSize → a.group.Grid a.windowStrides → 0 < C →
    (∀ i : Fin a.group.dim, ∃ h ∈ H, a.group.motion h i i = -1) →
    (∃ (x y : Tensor ℚ) (B : Nat), x.shape = sigShape .channelsLast B n (some g) C ∧ l.call x = .ok y) →
    ((¬ ∃ l', BuiltPool { a with allowNonEquivariance := false } bt n g C H l') ↔
      ∃ h ∈ H, ¬ MovesOutput a.group (List.range a.group.group.order) H h (l.call (α := ℚ)) n (some g) C C)

/-- C71: the part that holds. With plain padding and given strides, on signals that are larger than the part of a window that
Keras leaves, a layer is refused with allow_non_equivariance=False exactly if the layer one gets with allow_non_equivariance=True is
not equivariant. What is missing to the full statement `PoolRefusedIffBroken`: strides that are not given and smaller signals, for
which it is false. -/
theorem C71_refused_iff_broken_partial [Field α] [LinearOrder α] [IsStrictOrderedRing α] {a : PoolArgs} {bt : Option Nat} {n : List Nat}
    {g C : Nat} {H : List Nat} {l : GroupPooling} (hl : BuiltPool a bt n g C H l) (hf : a.dataFormat = .channelsLast)
    (opt : PadOption) (hopt : formatPaddingOption a.padding = .ok opt) (hplain : opt = .same ∨ opt = .valid)
    (s : List Nat) (hstr : a.strides = some s) (hC : 0 < C)
    (hn : ∀ h ∈ H, KeepsSizes (a.group.motion h) n) (hK : ∀ h ∈ H, KeepsSizes (a.group.motion h) a.poolSize)
    (hs : ∀ h ∈ H, KeepsSizes (a.group.motion h) s)
    (hrev : ∀ i : Fin a.group.dim, ∃ h ∈ H, a.group.motion h i i = -1)
    (hcall : ∃ (x y : Tensor α) (B : Nat), x.shape = sigShape .channelsLast B n (some g) C ∧ l.call x = .ok y)
    (hlarge : ∀ i, i < a.group.dim → nth a.poolSize i + builtIn opt (nth n i) (nth a.poolSize i) (nth s i) / 2 <
      nth n i + builtIn opt (nth n i) (nth a.poolSize i) (nth s i)) :
    (¬ ∃ l', BuiltPool { a with allowNonEquivariance := false } bt n g C H l') ↔
      ∃ h ∈ H, ¬ MovesOutput a.group (List.range a.group.group.order) H h (l.call (α := α)) n (some g) C C := by
  have hw : a.windowStrides = s := by simp [PoolArgs.windowStrides, hstr]
  have hp : a.paddingStrides = s := by simp [PoolArgs.paddingStrides, hstr]
  have hnone : ∀ i, i < a.group.dim → ∃ skip skip', PoolPads opt (nth n i) (nth n i) (nth a.poolSize i) (nth a.windowStrides i)
      (nth a.paddingStrides i) 0 0 skip skip' := by
    intro i hi
    refine ⟨_, _, 0, ?_, rfl, rfl, rfl, Nat.add_sub_cancel' (Nat.div_le_self _ 2)⟩
    rcases hplain with rfl | rfl <;> rfl
  have key := C70_no_zeros hl hf opt hopt hC hn hK (by rw [hw]; exact hs) hnone hcall
  have hb := C44_pooling { a with allowNonEquivariance := false } hf bt n g C H hl.dims hl.elements
  obtain ⟨opt', kp', hacc, hz, hst, hg, hcan⟩ := (C44_pooling a hf bt n g C H hl.dims hl.elements).1 ⟨l, hl⟩
  have hopt' := ((accepted_iff _ _ _).2 hacc).1
  rw [hopt] at hopt'
  cases hopt'
  have hsym : (∃ l', BuiltPool { a with allowNonEquivariance := false } bt n g C H l') ↔
      ∀ i, i < a.group.dim → Symmetric (nth n i) (nth a.poolSize i) (nth s i)
        (builtIn opt (nth n i) (nth a.poolSize i) (nth s i)) := by
    rw [hb]
    have hp' : ({ a with allowNonEquivariance := false } : PoolArgs).paddingStrides = s := hp
    constructor
    · rintro ⟨opt2, kp2, hacc2, _, _, _, hcan2⟩ i hi
      have hopt2 := ((accepted_iff _ _ _).2 hacc2).1
      rw [hopt] at hopt2
      cases hopt2
      have := hcan2 i hi
      rw [hp'] at this
      rcases hplain with rfl | rfl
      · exact this.resolve_left (by simp)
      · exact this.resolve_left (by simp)
    · intro hall
      refine ⟨opt, kp', hacc, hz, hst, hg, fun i hi => ?_⟩
      rw [hp']
      rcases hplain with rfl | rfl
      · exact Or.inr (hall i hi)
      · exact Or.inr (hall i hi)
  have hmir : ∀ i, i < a.group.dim → (PlainMirrored opt (nth n i) (nth a.poolSize i) (nth a.windowStrides i) ↔
      Symmetric (nth n i) (nth a.poolSize i) (nth s i) (builtIn opt (nth n i) (nth a.poolSize i) (nth s i))) := by
    intro i hi
    rw [hw]
    have h1 := hlarge i hi
    unfold PlainMirrored Symmetric
    generalize builtIn opt (nth n i) (nth a.poolSize i) (nth s i) = T at *
    have e : ((nth n i : Int) + T - nth a.poolSize i) = ((nth n i + T - nth a.poolSize i : Nat) : Int) := by omega
    rw [e, or_iff_left (by omega), Nat.dvd_iff_mod_eq_zero]
    refine and_congr_right fun _ => ?_
    norm_cast
  suffices hmain : (∃ l', BuiltPool { a with allowNonEquivariance := false } bt n g C H l') ↔
      ∀ h ∈ H, MovesOutput a.group (List.range a.group.group.order) H h (l.call (α := α)) n (some g) C C by
    rw [hmain]
    constructor
    · intro hnot
      by_contra hc
      exact hnot fun h hh => by
        by_contra hm
        exact hc ⟨h, hh, hm⟩
    · rintro ⟨h, hh, hm⟩ hall
      exact hm (hall h hh)
  rw [hsym, key]
  constructor
  · intro h i _
    exact (hmir i i.2).2 (h i i.2)
  · intro h i hi
    exact (hmir i hi).1 (h ⟨i, hi⟩ (hrev ⟨i, hi⟩))

/-- C71 fails for strides that are not given: the padding is checked for strides 1, so that a layer that leaves out the last row
and column is accepted. -/
theorem C71_violation_default_strides : ¬ PoolRefusedIffBroken := by
  intro h
  obtain ⟨l, hl, hcall⟩ : ∃ l, BuiltPool { defaultStridesPool with padding := "valid" } none [3, 3] 2 1 [0, 1] l ∧
      ∃ (x y : Tensor ℚ) (B : Nat), x.shape = sigShape .channelsLast B [3, 3] (some 2) 1 ∧ l.call x = .ok y :=
    ⟨_, ⟨⟨_, rfl, rfl⟩, rfl, rfl⟩, ⟨[1, 3, 3, 2, 1], fun _ => 1⟩, _, 1, rfl, rfl⟩
  have hk : ∀ e ∈ [0, 1], ∀ m : Nat, KeepsSizes (GroupName.P2.motion e) [m, m] := fun e he m => by
    have he' : e < 2 := by simp at he; omega
    have hg : GroupName.P2.Grid [m, m] := ⟨rfl, trivial⟩
    exact (keeps_iff _ he' _).2 (hg.kept he')
  have hb := (h _ none [3, 3] 2 1 [0, 1] _ hl rfl (Or.inr rfl) ⟨rfl, trivial⟩ ⟨rfl, trivial⟩ ⟨rfl, trivial⟩ (by decide)
    (C68_reversing .P2 "P2" _ (by decide) (by decide)) hcall).2
  refine hb ?_ ⟨_, hl⟩
  by_contra hc
  have := (C70_default_strides hl rfl (Or.inl rfl) rfl (by decide) (fun e he => hk e he 3) (fun e he => hk e he 2) hcall).1
    (fun e he => by
      by_contra hm
      exact hc ⟨e, he, hm⟩) ⟨0, by decide⟩ (C68_reversing .P2 "P2" _ (by decide) (by decide) ⟨0, by decide⟩)
  revert this
  decide

/-- 'same' with windows of size 4 on signals of size 2: every window covers the whole signal -/
def coveringPool : PoolArgs :=
  { group := .P2, subgroup := some "", poolType := .average, poolSize := [4, 4], strides := some [1, 1], padding := "same",
    allowNonEquivariance := true, dataFormat := .channelsLast }

/-- C71 fails for small signals: an equivariant layer is refused. -/
theorem C71_violation_small : ¬ PoolRefusedIffBroken := by
  intro h
  obtain ⟨l, hl, hcall⟩ : ∃ l, BuiltPool coveringPool none [2, 2] 2 1 [0, 1] l ∧
      ∃ (x y : Tensor ℚ) (B : Nat), x.shape = sigShape .channelsLast B [2, 2] (some 2) 1 ∧ l.call x = .ok y :=
    ⟨_, ⟨⟨_, rfl, rfl⟩, rfl, rfl⟩, ⟨[1, 2, 2, 2, 1], fun _ => 1⟩, _, 1, rfl, rfl⟩
  have hk : ∀ e ∈ [0, 1], ∀ m : Nat, KeepsSizes (GroupName.P2.motion e) [m, m] := fun e he m => by
    have he' : e < 2 := by simp at he; omega
    have hg : GroupName.P2.Grid [m, m] := ⟨rfl, trivial⟩
    exact (keeps_iff _ he' _).2 (hg.kept he')
  obtain ⟨e, he, hm⟩ := (h _ none [2, 2] 2 1 [0, 1] _ hl rfl (Or.inl rfl) ⟨rfl, trivial⟩ ⟨rfl, trivial⟩ ⟨rfl, trivial⟩ (by decide)
    (C68_reversing .P2 "P2" _ (by decide) (by decide)) hcall).1 (by
      rintro ⟨l', ⟨l0, h0, h1⟩, _⟩
      cases h0
      cases h1)
  refine hm ((C70_no_zeros hl rfl .same rfl (by decide) (fun e he => hk e he 2) (fun e he => hk e he 4) (fun e he => hk e he 1)
    ?_ hcall).2 ?_ e he)
  · intro i hi
    exact ⟨_, _, 0, rfl, rfl, rfl, rfl, Nat.add_sub_cancel' (Nat.div_le_self _ 2)⟩
  · intro i _
    refine Or.inr ?_
    revert i
    decide

/-- The premises of C70 are met by layers that are equivariant and by layers that are not: P2 pooling with pool size 2 on signals of
size 4 by 6 and of size 3 by 4. -/
example : (∃ l, BuiltPool defaultStridesPool none [4, 6] 2 1 [0, 1] l ∧
      ∀ h ∈ [0, 1], MovesOutput .P2 (List.range 2) [0, 1] h (l.call (α := ℚ)) [4, 6] (some 2) 1 1) ∧
    ∃ l, BuiltPool defaultStridesPool none [3, 4] 2 1 [0, 1] l ∧
      ¬ ∀ h ∈ [0, 1], MovesOutput .P2 (List.range 2) [0, 1] h (l.call (α := ℚ)) [3, 4] (some 2) 1 1 := by
  have hk : ∀ e ∈ [0, 1], ∀ m m' : Nat, KeepsSizes (GroupName.P2.motion e) [m, m'] := fun e he m m' => by
    have he' : e < 2 := by simp at he; omega
    have hg : GroupName.P2.Grid [m, m'] := ⟨rfl, trivial⟩
    exact (keeps_iff _ he' _).2 (hg.kept he')
  constructor
  · have hl : BuiltPool defaultStridesPool none [4, 6] 2 1 [0, 1] _ := ⟨⟨_, rfl, rfl⟩, rfl, rfl⟩
    refine ⟨_, hl, (C70_default_strides hl rfl (Or.inr rfl) rfl (by decide) (fun e he => hk e he 4 6) (fun e he => hk e he 2 2)
      ⟨⟨[1, 4, 6, 2, 1], fun _ => 1⟩, _, 1, rfl, rfl⟩).2 ?_⟩
    intro i _
    revert i
    decide
  · have hl : BuiltPool defaultStridesPool none [3, 4] 2 1 [0, 1] _ := ⟨⟨_, rfl, rfl⟩, rfl, rfl⟩
    refine ⟨_, hl, fun hall => ?_⟩
    have := (C70_default_strides hl rfl (Or.inr rfl) rfl (by decide) (fun e he => hk e he 3 4) (fun e he => hk e he 2 2)
      ⟨⟨[1, 3, 4, 2, 1], fun _ => 1⟩, _, 1, rfl, rfl⟩).1 hall ⟨0, by decide⟩
      (C68_reversing .P2 "P2" _ (by decide) (by decide) ⟨0, by decide⟩)
    revert this
    decide

/-- pool size 3 and strides 2 without padding -/
def remainderPool : PoolArgs :=
  { group := .P2, subgroup := some "", poolType := .max, poolSize := [3, 3], strides := some [2, 2], padding := "valid",
    allowNonEquivariance := true, dataFormat := .channelsLast }

/-- the premises of `C71_refused_iff_broken_partial` are met by a refused layer: pool size 3 and strides 2 on signals of size 4 -/
example : ∃ l h, BuiltPool remainderPool none [4, 4] 2 1 [0, 1] l ∧ h ∈ [0, 1] ∧
    ¬ MovesOutput .P2 (List.range 2) [0, 1] h (l.call (α := ℚ)) [4, 4] (some 2) 1 1 := by
  have hk : ∀ e ∈ [0, 1], ∀ m m' : Nat, KeepsSizes (GroupName.P2.motion e) [m, m'] := fun e he m m' => by
    have he' : e < 2 := by simp at he; omega
    have hg : GroupName.P2.Grid [m, m'] := ⟨rfl, trivial⟩
    exact (keeps_iff _ he' _).2 (hg.kept he')
  obtain ⟨l, hl, hcall⟩ : ∃ l, BuiltPool remainderPool none [4, 4] 2 1 [0, 1] l ∧
      ∃ (x y : Tensor ℚ) (B : Nat), x.shape = sigShape .channelsLast B [4, 4] (some 2) 1 ∧ l.call x = .ok y :=
    ⟨_, ⟨⟨_, rfl, rfl⟩, rfl, rfl⟩, ⟨[1, 4, 4, 2, 1], fun _ => 1⟩, _, 1, rfl, rfl⟩
  obtain ⟨h, hh, hm⟩ := (C71_refused_iff_broken_partial hl rfl .valid rfl (Or.inr rfl) [2, 2] rfl (by decide) (fun e he => hk e he 4 4)
    (fun e he => hk e he 3 3) (fun e he => hk e he 2 2) (C68_reversing .P2 "P2" _ (by decide) (by decide))
    hcall (by decide)).1 (by
      rintro ⟨l', ⟨l0, h0, h1⟩, _⟩
      cases h0
      cases h1)
  exact ⟨l, h, hl, hh, hm⟩

end GroCo
