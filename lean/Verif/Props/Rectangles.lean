import Verif.RectLemmas
import Verif.Props.Transpose
import Verif.Props.Pooling
import Verif.Props.Groups
import Verif.Props.Check

/-
Properties C64 and C65: images that are not squares and volumes that are not cubes. The vocabulary is in MovedSpec.
-/

namespace GroCo
open Tensor

variable {α : Type}

/-! ### C64: layers -/

/-- C64: `MovedBy` determines the moved signal: there is one, and it is unique. -/
theorem C64_moved_signal (n : GroupName) (h : Nat) (fmt : DataFormat) (domain : Option String) (D : List Nat)
    (hD : n.group.sub (n.group.parseSubgroup domain) = .ok D) (hh : h ∈ D) (onGroup : Bool) (B C : Nat) (m : List Nat)
    (hm : KeepsSizes (n.motion h) m) (x : Tensor α)
    (hx : x.shape = sigShape fmt B m (if onGroup then some D.length else none) C) :
    (∃ x', MovedBy n h fmt (if onGroup then some D else none) B m C x x') ∧
    ∀ x' x'', MovedBy n h fmt (if onGroup then some D else none) B m C x x' →
      MovedBy n h fmt (if onGroup then some D else none) B m C x x'' → x'.Same x'' := by
  obtain ⟨s, _, hD⟩ := parse_sub hD
  have S := n.sym
  have hh' := S.sub_lt hD hh
  have hk := (keeps_iff n hh' m).1 hm
  have hpos : ∀ q, Valid m q → ∃ p, Valid m p ∧ MovesTo (n.motion h) (List.range n.dim) m p q := fun q hq =>
    ⟨_, hk.valid hh' hq, Kept.moves hh' hk hq⟩
  have hml : m.length = n.dim := hm.1
  cases onGroup with
  | false =>
    simp only [Bool.false_eq_true, if_false] at hx ⊢
    constructor
    · cases fmt with
      | channelsLast =>
        refine ⟨⟨x.shape, fun idx => x.get (nth idx 0 :: back n.els m h ((idx.drop 1).take n.dim) ++ idx.drop (n.dim + 1))⟩, rfl, ?_⟩
        intro b c p q hb hc hp hq hpq
        rw [Kept.of_moves hh' hk hp hq hpq]
        have hl : q.length = n.dim := hq.length.trans hml
        simp [nth, ← hl]
      | channelsFirst =>
        refine ⟨⟨x.shape, fun idx => x.get (nth idx 0 :: nth idx 1 :: back n.els m h (idx.drop 2))⟩, rfl, ?_⟩
        intro b c p q hb hc hp hq hpq
        rw [Kept.of_moves hh' hk hp hq hpq]
        simp [nth]
    · rintro x' x'' ⟨s1, g1⟩ ⟨s2, g2⟩
      refine ⟨s1.trans s2.symm, fun idx hv => ?_⟩
      rw [s1, hx] at hv
      cases fmt with
      | channelsLast =>
        obtain ⟨bp, r, rfl, hbp, hr⟩ := valid_append_split (s := B :: m) (t := [C]) (by simpa [sigShape] using hv)
        match bp, hbp, r, hr with
        | b :: q, ⟨hb, hq⟩, [c], ⟨hc, _⟩ =>
          obtain ⟨p, hp, hpq⟩ := hpos q hq
          exact (g1 b c p q hb hc hp hq hpq).trans (g2 b c p q hb hc hp hq hpq).symm
      | channelsFirst =>
        match idx, hv with
        | b :: c :: q, ⟨hb, hc, hq⟩ =>
          have hq : Valid m q := by simpa using hq
          obtain ⟨p, hp, hpq⟩ := hpos q hq
          exact (g1 b c p q hb hc hp hq hpq).trans (g2 b c p q hb hc hp hq hpq).symm
  | true =>
    simp only [if_true] at hx ⊢
    constructor
    · cases fmt with
      | channelsLast =>
        refine ⟨⟨x.shape, fun idx => x.get (nth idx 0 :: back n.els m h ((idx.drop 1).take n.dim) ++
          [turn n.group.toGroupData D h (nth idx (n.dim + 1)), nth idx (n.dim + 2)])⟩, (movedBy_group hD hh hk).2 ⟨rfl, ?_⟩⟩
        intro b q j c hb hq hj hc
        have hl : q.length = n.dim := hq.length.trans hml
        simp [nth, ← hl, sigIndex]
      | channelsFirst =>
        refine ⟨⟨x.shape, fun idx => x.get (nth idx 0 :: nth idx 1 :: back n.els m h ((idx.drop 2).take n.dim) ++
          [turn n.group.toGroupData D h (nth idx (n.dim + 2))])⟩, (movedBy_group hD hh hk).2 ⟨rfl, ?_⟩⟩
        intro b q j c hb hq hj hc
        have hl : q.length = n.dim := hq.length.trans hml
        simp [nth, ← hl, sigIndex]
    · intro x' x'' h1 h2
      obtain ⟨s1, g1⟩ := (movedBy_group hD hh hk).1 h1
      obtain ⟨s2, g2⟩ := (movedBy_group hD hh hk).1 h2
      refine ⟨s1.trans s2.symm, fun idx hv => ?_⟩
      rw [s1, hx] at hv
      cases fmt with
      | channelsLast =>
        obtain ⟨bp, r, rfl, hbp, hr⟩ := valid_append_split (s := B :: m) (t := [D.length, C]) (by simpa [sigShape] using hv)
        match bp, hbp, r, hr with
        | b :: q, ⟨hb, hq⟩, [j, c], ⟨hj, hc, _⟩ => exact (g1 b q j c hb hq hj hc).trans (g2 b q j c hb hq hj hc).symm
      | channelsFirst =>
        obtain ⟨bp, r, rfl, hbp, hr⟩ := valid_append_split (s := B :: C :: m) (t := [D.length]) (by simpa [sigShape] using hv)
        match bp, hbp, r, hr with
        | b :: c :: q, ⟨hb, hc, hq⟩, [j], ⟨hj, _⟩ => exact (g1 b q j c hb hq hj hc).trans (g2 b q j c hb hq hj hc).symm

/-- C64: a convolution layer that builds with allow_non_equivariance=False (and no dilation) on images of any sizes commutes
with every element of its subgroup that maps the image to itself: moving the input moves the output. The input is on the grid
(lifting) or on the whole group. -/
theorem C64_convolution [Semiring α] {a : ConvArgs α} {bt : Option Nat} {n : List Nat} {g : Option Nat} {C : Nat}
    {k0 b0 : List Nat → α} {H : List Nat} {l : GroupConv α} (hl : BuiltConv a false bt n g C k0 b0 H l)
    (hf : a.dataFormat = .channelsLast) (hallow : a.allowNonEquivariance = false)
    (hdil : a.dilation = List.replicate a.group.dim 1) (h : Nat) (hh : h ∈ H)
    (hn : KeepsSizes (a.group.motion h) n) (hs : KeepsSizes (a.group.motion h) a.strides)
    (x x' : Tensor α) (B : Nat) (hx : x.shape = sigShape .channelsLast B n g C)
    (hx' : MovedBy a.group h .channelsLast (g.map fun _ => List.range a.group.group.order) B n C x x')
    (y : Tensor α) (hy : (l.call x).2 = .ok y) :
    ∃ m y', y.shape = sigShape .channelsLast B m (some H.length) a.filters ∧ KeepsSizes (a.group.motion h) m ∧
      (l.call x').2 = .ok y' ∧ MovedBy a.group h .channelsLast (some H) B m a.filters y y' := by
  obtain ⟨opt, kp, hopt, hkp, f, hst⟩ := hl.facts_last hf
  obtain ⟨sH, _, hH⟩ := parse_sub hl.elements
  have hh' := a.group.sym.sub_lt hH hh
  have hd : a.group.Kept h a.dilation := by
    rw [hdil]
    apply a.group.kept_of hh' (by simp)
    intro i j hi hj _
    simp [nth, hi, hj]
  obtain ⟨m, y', h1, h2, h3, h4⟩ := conv_moves hl hf hallow hopt hh ((keeps_iff _ hh' _).1 hn) ((keeps_iff _ hh' _).1 hs) hd
    (by intro i hi; left; rw [hdil]; simp [nth, hi]) hx hx' hy
  exact ⟨m, y', h1, (keeps_iff _ hh' _).2 h2, h3, h4⟩

/-- C64: so does a transposed layer, in the configurations of C31. The input is on the grid or on the subgroup, the output
on the whole group. -/
theorem C64_transposed [Semiring α] {a : ConvArgs α} {bt : Option Nat} {n : List Nat} {g : Option Nat} {C : Nat}
    {k0 b0 : List Nat → α} {H : List Nat} {l : GroupConv α} (hl : BuiltConv a true bt n g C k0 b0 H l)
    (hf : a.dataFormat = .channelsLast) (hallow : a.allowNonEquivariance = false)
    (hok : ∀ opt, formatPaddingOption a.padding = .ok opt → ∀ i, i < a.group.dim →
      TransposeOk opt (nth n i) (nth a.kernelSize i) (nth a.strides i) (nth a.dilation i)) (h : Nat) (hh : h ∈ H)
    (hn : KeepsSizes (a.group.motion h) n) (hs : KeepsSizes (a.group.motion h) a.strides)
    (hd : KeepsSizes (a.group.motion h) a.dilation)
    (x x' : Tensor α) (B : Nat) (hx : x.shape = sigShape .channelsLast B n g C)
    (hx' : MovedBy a.group h .channelsLast (g.map fun _ => H) B n C x x')
    (y : Tensor α) (hy : (l.call x).2 = .ok y) :
    ∃ m y', y.shape = sigShape .channelsLast B m (some a.group.group.order) a.filters ∧ KeepsSizes (a.group.motion h) m ∧
      (l.call x').2 = .ok y' ∧
      MovedBy a.group h .channelsLast (some (List.range a.group.group.order)) B m a.filters y y' := by
  obtain ⟨opt, kp, hopt, hkp, f, hst⟩ := hl.facts_last hf
  obtain ⟨sH, _, hH⟩ := parse_sub hl.elements
  have hh' := a.group.sym.sub_lt hH hh
  obtain ⟨m, y', h1, h2, h3, h4⟩ := convT_moves hl hf hallow hopt hh ((keeps_iff _ hh' _).1 hn) ((keeps_iff _ hh' _).1 hs)
    ((keeps_iff _ hh' _).1 hd) (hok opt hopt) hx hx' hy
  exact ⟨m, y', h1, (keeps_iff _ hh' _).2 h2, h3, h4⟩

/-- C64: so does a group pooling layer, in the configurations of C34; its pool sizes need not be equal. -/
theorem C64_pooling [Field α] [LinearOrder α] {a : PoolArgs} {bt : Option Nat} {n : List Nat} {g C : Nat}
    {H : List Nat} {l : GroupPooling} (hl : BuiltPool a bt n g C H l) (hf : a.dataFormat = .channelsLast)
    (hallow : a.allowNonEquivariance = false)
    (hok : ∀ opt, formatPaddingOption a.padding = .ok opt → ∀ i, i < a.group.dim →
      PoolOk opt (nth n i) (nth a.poolSize i) (a.strides.map fun s => nth s i)) (h : Nat) (hh : h ∈ H)
    (hn : KeepsSizes (a.group.motion h) n) (hK : KeepsSizes (a.group.motion h) a.poolSize)
    (hs : KeepsSizes (a.group.motion h) a.windowStrides)
    (x x' : Tensor α) (B : Nat) (hx : x.shape = sigShape .channelsLast B n (some g) C)
    (hx' : MovedBy a.group h .channelsLast (some (List.range a.group.group.order)) B n C x x')
    (y : Tensor α) (hy : l.call x = .ok y) :
    ∃ m y', y.shape = sigShape .channelsLast B m (some H.length) C ∧ KeepsSizes (a.group.motion h) m ∧
      l.call x' = .ok y' ∧ MovedBy a.group h .channelsLast (some H) B m C y y' := by
  obtain ⟨opt, kp, cos, hopt, _⟩ := hl.facts hf
  obtain ⟨sH, _, hH⟩ := parse_sub hl.elements
  have hh' := a.group.sym.sub_lt hH hh
  obtain ⟨m, y', h1, h2, h3, h4⟩ := pool_moves hl hf hallow hopt hh ((keeps_iff _ hh' _).1 hn) ((keeps_iff _ hh' _).1 hK)
    ((keeps_iff _ hh' _).1 hs) (hok opt hopt) hx hx' hy
  exact ⟨m, y', h1, (keeps_iff _ hh' _).2 h2, h3, h4⟩

/-- C64: and the result of global group pooling does not change, in both data formats. -/
theorem C64_global_pooling [Field α] [LinearOrder α] (l : GlobalGroupPooling) (n : GroupName) (hd : l.dimensions = n.dim)
    (domain : Option String) (D : List Nat) (hD : n.group.sub (n.group.parseSubgroup domain) = .ok D) (h : Nat) (hh : h ∈ D)
    (m : List Nat) (hm : KeepsSizes (n.motion h) m) (h0 : 0 ∉ m) (x x' : Tensor α) (B C : Nat)
    (hx : x.shape = sigShape l.dataFormat B m (some D.length) C)
    (hx' : MovedBy n h l.dataFormat (some D) B m C x x') :
    ∃ y y', l.call x = .ok y ∧ l.call x' = .ok y' ∧ y'.Same y := by
  obtain ⟨sD, pD, hD'⟩ := parse_sub hD
  have hh' := n.sym.sub_lt hD' hh
  have hk := (keeps_iff n hh' m).1 hm
  have hml : m.length = l.dimensions := by rw [hd]; exact hm.1
  have hg : D.length ≠ 0 := fun h => by rw [List.length_eq_zero_iff.1 h] at hh; cases hh
  obtain ⟨s1, s2⟩ := (movedBy_group hD' hh hk).1 hx'
  obtain ⟨y, c1, c2, c3⟩ := C35_value l x B C D.length m hml hx hg h0
  obtain ⟨z, d1, d2, d3⟩ := C35_value l x' B C D.length m hml (s1.trans hx) hg h0
  refine ⟨y, z, c1, d1, d2.trans c2.symm, ?_⟩
  intro idx hidx
  rw [d2] at hidx
  obtain ⟨b, c, hb, hc, rfl⟩ := C35_indices _ _ _ _ _ _ hidx
  rw [d3 b c hb hc, c3 b c hb hc]
  refine reduce_perm _ (allEntries_perm hk hD' hh ?_)
  intro p j hp hj
  exact s2 b p j c hb hp hj hc

/-- the half turn of P4 keeps every rectangle -/
theorem keeps_rectangle (u v : Nat) : KeepsSizes (GroupName.P4.motion 2) [u, v] := by
  refine (keeps_iff .P4 (by decide) _).2 ⟨rfl, fun a ha => ?_⟩
  have : ∀ a, a < (GroupName.P4.els.getD 2 []).length → a = (GroupName.P4.els.getD 2 []).src a := by decide +kernel
  rw [← this a ha]

set_option maxRecDepth 16000 in
/-- hypotheses of C64 are met on images that are not squares, with the half turn of P4 -/
example : (∃ l y, BuiltConv exampleConv false none [5, 7] none 3 (fun _ => 1) (fun _ => 0) [0, 2] l ∧
      (l.call ⟨[1, 5, 7, 3], fun _ => 1⟩).2 = .ok y) ∧
    (∃ l y, BuiltConv exampleConv false none [5, 7] (some 4) 3 (fun _ => 1) (fun _ => 0) [0, 2] l ∧
      (l.call ⟨[1, 5, 7, 4, 3], fun _ => 1⟩).2 = .ok y) ∧
    (∃ l y, BuiltConv exampleTranspose true none [2, 4] (some 2) 3 (fun _ => 1) (fun _ => 0) [0, 2] l ∧
      (l.call ⟨[1, 2, 4, 2, 3], fun _ => 1⟩).2 = .ok y) ∧
    (∃ l y, BuiltPool examplePool none [5, 7] 4 3 [0, 2] l ∧
      l.call (⟨[1, 5, 7, 4, 3], fun _ => 1⟩ : Tensor ℚ) = .ok y) ∧
    2 ∈ [0, 2] ∧ ¬ GroupName.P4.Grid [5, 7] ∧ KeepsSizes (GroupName.P4.motion 2) [5, 7] ∧
    (∀ i, i < 2 → TransposeOk .valid (nth [2, 4] i) (nth exampleTranspose.kernelSize i) (nth exampleTranspose.strides i)
      (nth exampleTranspose.dilation i)) ∧
    (∀ i, i < 2 → PoolOk .validEquiv (nth [5, 7] i) (nth examplePool.poolSize i) (examplePool.strides.map fun s => nth s i)) := by
  refine ⟨⟨_, _, ⟨⟨_, rfl, rfl⟩, rfl, rfl⟩, rfl⟩, ⟨_, _, ⟨⟨_, rfl, rfl⟩, rfl, rfl⟩, rfl⟩,
    ⟨_, _, ⟨⟨_, rfl, rfl⟩, rfl, rfl⟩, rfl⟩, ⟨_, _, ⟨⟨_, rfl, rfl⟩, rfl, rfl⟩, rfl⟩, by simp, ?_, keeps_rectangle 5 7, ?_, ?_⟩
  · rintro ⟨_, h⟩
    exact absurd h (by decide)
  · intro i hi
    have : i = 0 ∨ i = 1 := by omega
    rcases this with rfl | rfl
    · exact ⟨by decide, Or.inl rfl, Or.inl rfl⟩
    · exact ⟨by decide, Or.inl rfl, Or.inl rfl⟩
  · intro i hi
    have : i = 0 ∨ i = 1 := by omega
    rcases this with rfl | rfl
    · exact fun h => absurd h (by decide)
    · exact fun h => absurd h (by decide)

/-! ### C65: acting -/

/-- C65 as stated: a subgroup acts on every grid that its elements map to themselves. -/
def ActsOnKeptGrids : Prop :=
  ∀ (n : GroupName) (s : String) (H : List Nat), lookup n.group.subgroup s = .ok H →
  ∀ (x : Tensor Int) (axs : List Nat) (a : Nat), AxesOk n.dim x.rank axs → a ≤ x.rank →
    (∀ h ∈ H, KeepsSizes (n.motion h) (axs.map (nth x.shape))) →
    ∃ y, n.group.action x (axs.map Int.ofNat) a none (some s) none = .ok y

/-- C65, what holds: acting with a subgroup succeeds exactly on the grids on which the whole group acts, and raises
ValueError on other grids. Missing: grids that the subgroup keeps and the whole group does not. -/
theorem C65_acting_partial [Zero α] (n : GroupName) (s : String) (H : List Nat) (hs : lookup n.group.subgroup s = .ok H)
    (x : Tensor α) (axs : List Nat) (a : Nat) (hax : AxesOk n.dim x.rank axs) (ha : a ≤ x.rank) :
    (n.Grid (axs.map (nth x.shape)) →
      ∃ y, n.group.action x (axs.map Int.ofNat) a none (some s) none = .ok y ∧ y.shape = x.shape.insertIdx a H.length) ∧
    (¬ n.Grid (axs.map (nth x.shape)) →
      n.group.action x (axs.map Int.ofNat) a none (some s) none = .error .value) := by
  refine ⟨fun hgrid => ?_, fun hgrid => ?_⟩
  · obtain ⟨y, ey, sy⟩ := n.sym.action_grid x hax hgrid ha hs
    exact ⟨y, ey, by rw [sy.1]; simp⟩
  · have key := n.act_error x hax ha hgrid
    simp only [Group.action, GroupData.parseSubgroup, Group.actionOnGrid, key, res_bind_error]

/-- C65 fails: P4M cannot act with its subgroup P2MM on a rectangle, although the group P2MM itself acts on it. -/
theorem C65_violation : ¬ ActsOnKeptGrids ∧
    ∀ (x : Tensor Int) (h w : Nat), h ≠ w → x.shape = [h, w] →
      GroupName.P4M.group.action x [0, 1] 0 none (some "P2MM") none = .error .value ∧
      ∃ y, GroupName.P2MM.group.action x [0, 1] 0 none (some "") none = .ok y := by
  have hax : ∀ x : Tensor Int, ∀ h w : Nat, x.shape = [h, w] → AxesOk 2 x.rank [0, 1] := fun x h w hx =>
    ⟨rfl, by decide, by simp [Tensor.rank, hx], fun h => absurd h (by decide)⟩
  have key : ∀ (x : Tensor Int) (h w : Nat), h ≠ w → x.shape = [h, w] →
      GroupName.P4M.group.action x [0, 1] 0 none (some "P2MM") none = .error .value := by
    intro x h w hw hx
    refine (C65_acting_partial .P4M "P2MM" _ rfl x [0, 1] 0 (hax x h w hx) (Nat.zero_le _)).2 ?_
    rintro ⟨_, hg⟩
    rw [hx] at hg
    exact hw hg
  refine ⟨fun hall => ?_, fun x h w hw hx => ⟨key x h w hw hx, ?_⟩⟩
  · obtain ⟨y, hy⟩ := hall .P4M "P2MM" _ rfl ⟨[3, 4], fun _ => 0⟩ [0, 1] 0 (hax _ 3 4 rfl) (Nat.zero_le _) (by
      have h1 : ∀ h ∈ [0, 4, 6, 2], h < GroupName.P4M.group.order := by decide +kernel
      have h2 : ∀ h ∈ [0, 4, 6, 2], ∀ a, a < (GroupName.P4M.els.getD h []).length →
        nth [3, 4] a = nth [3, 4] ((GroupName.P4M.els.getD h []).src a) := by decide +kernel
      exact fun h hh => (keeps_iff .P4M (h1 h hh) _).2 ⟨rfl, h2 h hh⟩)
    rw [show ([0, 1] : List Nat).map Int.ofNat = [0, 1] from rfl] at hy
    rw [show ((0 : Nat) : Int) = 0 from rfl, key _ 3 4 (by decide) rfl] at hy
    cases hy
  · obtain ⟨y, hy, _⟩ := (C04_grid_partial .P2MM x [0, 1] 0 (hax x h w hx) (Nat.zero_le _)).1 ⟨rfl, trivial⟩
    exact ⟨y, hy⟩

/-- C65: nor can check_equivariance be used on such images: with any acting subgroup it raises ValueError, whether the layer
is equivariant (C64) or not. -/
theorem C65_check [Field α] [LinearOrder α] (n : GroupName) (f : Tensor α → Res (Tensor α)) (x y : Tensor α) (hy : f x = .ok y)
    (s : String) (ga : Option Int) (target : Option String)
    (ht : checkShape n.group.toGroupData y ga (n.group.parseSubgroup target) = .ok ())
    (axs : List Nat) (hax : AxesOk n.dim x.rank axs) (hgrid : ¬ n.Grid (axs.map (nth x.shape))) :
    checkEquivariance f x n.group (axs.map Int.ofNat) ga (some s) none target = .error .value := by
  have key := n.act_error x hax (Nat.zero_le _) hgrid
  have e : ∀ t, Group.action n.group x (axs.map Int.ofNat) 0 ga t none = .error .value := by
    intro t
    simp only [Group.action, GroupData.parseSubgroup, Group.actionOnGrid]
    rw [show ((0 : Nat) : Int) = 0 from rfl] at key
    simp only [key, res_bind_error]
  have hn : n.group.parseSubgroup none = none := rfl
  simp only [checkEquivariance, hn, checkShape, hy, res_bind_ok]
  have ht' := ht
  unfold checkShape at ht'
  rw [ht']
  simp only [res_bind_ok, e, res_bind_error]

end GroCo
