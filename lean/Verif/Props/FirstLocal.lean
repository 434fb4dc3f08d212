import Verif.Props.FirstFormat
import Verif.Props.Local
import Verif.Props.TranslateWindows

/-
Properties C56 and C77 for channels_first layers that pad nothing themselves.
-/

namespace GroCo
open Tensor

variable {α : Type}

/-- `f` maps channels_first signals with shapes `s B` to channels_first signals with shapes `s' B`, with `d` spatial axes after the
batch axis and the channel axis, and entry `(b, o, p, …)` of the result depends only on entries `(b, c, q, …)` of the input, of any
channel, for positions `q` that `p` sees. -/
def LocalFirst (d : Nat) (s s' : Nat → List Nat) (sees : List Nat → List Nat → Prop) (f : Tensor α → Res (Tensor α)) : Prop :=
  ∀ (B : Nat) (x x' y y' : Tensor α), x.shape = s B → x'.shape = s B → f x = .ok y → f x' = .ok y' →
    y.shape = s' B ∧ y'.shape = s' B ∧
    ∀ b o p r, p.length = d → Valid (s' B) (b :: o :: p ++ r) →
      (∀ c q t, q.length = d → Valid (s B) (b :: c :: q ++ t) → sees p q →
        x.get (b :: c :: q ++ t) = x'.get (b :: c :: q ++ t)) →
        y.get (b :: o :: p ++ r) = y'.get (b :: o :: p ++ r)

/-- What computes the same up to the data format is local for the same positions. -/
theorem local_moved {d : Nat} {m m' : List Nat} {g : Option Nat} {C F M : Nat} {sees : List Nat → List Nat → Prop}
    {f f' : Tensor α → Res (Tensor α)} (hm : m.length = d) (hs : SameUpToFormat d g C F M f f')
    (h : Local d (fun B => sigShape .channelsLast B m g C) (fun B => sigShape .channelsLast B m' (some M) F) sees f) :
    LocalFirst d (fun B => sigShape .channelsFirst B m g C) (fun B => sigShape .channelsFirst B m' (some M) F) sees f' := by
  intro B x x' y y' hx hx' hy hy'
  obtain ⟨x1, hx1, -, ho⟩ := hs.call hm hx
  obtain ⟨x1', hx1', -, ho'⟩ := hs.call hm hx'
  obtain ⟨y1, out, hy1, m1⟩ := ho y hy
  obtain ⟨y1', out', hy1', m1'⟩ := ho' y' hy'
  obtain ⟨s1, s2, hl⟩ := h B x1 x1' y1 y1' hx1.last hx1'.last hy1 hy1'
  have := m1.shape_eq s1
  subst this
  have := m1'.shape_eq s2
  subst this
  refine ⟨m1.first, m1'.first, fun b o p r hp hv hag => ?_⟩
  simp only [sigShape, List.cons_append, Valid] at hv
  obtain ⟨hb, ho, hpr⟩ := hv
  rw [List.cons_append, List.cons_append, m1.get b (p ++ r) o hb hpr ho, m1'.get b (p ++ r) o hb hpr ho]
  have e : b :: (p ++ r) ++ [o] = b :: p ++ (r ++ [o]) := by simp
  rw [e]
  refine hl b p (r ++ [o]) hp ?_ fun q t hq hvt hsee => ?_
  · have h1 : Valid (out' ++ (some M).toList ++ [F]) (p ++ r ++ [o]) :=
      (valid_append _ _ _ _ hpr.length).2 ⟨hpr, ho, trivial⟩
    simp only [sigShape, List.cons_append]
    refine ⟨hb, ?_⟩
    simpa using h1
  · have hvt' : Valid (B :: (m ++ g.toList) ++ [C]) (b :: q ++ t) := by
      have : sigShape .channelsLast B m g C = B :: (m ++ g.toList) ++ [C] := by simp [sigShape]
      rw [← this]; exact hvt
    have hlen := hvt'.length
    rcases List.eq_nil_or_concat t with rfl | ⟨t, c, rfl⟩
    · simp at hlen
      omega
    · have e2 : ∀ w : List Nat, b :: w ++ t.concat c = b :: (w ++ t) ++ [c] := fun w => by simp
      rw [e2] at hvt' ⊢
      obtain ⟨⟨hb', hqt⟩, hc, -⟩ := (valid_append (B :: (m ++ g.toList)) [C] (b :: (q ++ t)) [c] (by
        simp at hlen ⊢
        omega)).1 hvt'
      rw [← hx1.get b (q ++ t) c hb' hqt hc, ← hx1'.get b (q ++ t) c hb' hqt hc]
      exact hag c q t hq (by simp only [sigShape, List.cons_append]; exact ⟨hb', hc, hqt⟩) hsee

/-- C77 for channels_first convolutions that pad nothing themselves -/
theorem C77_channels_first [Semiring α] {a : ConvArgs α} {bt : Option Nat} {n : List Nat} {g : Option Nat} {C : Nat}
    {k0 b0 : List Nat → α} {H : List Nat} {l : GroupConv α} (hl : BuiltConv a false bt n g C k0 b0 H l)
    (hf : a.dataFormat = .channelsFirst) (hu : Unpadded l.transforms) (opt : PadOption)
    (hopt : formatPaddingOption a.padding = .ok opt) (m : List Nat) (hm : m.length = a.group.dim) :
    ∃ m' : List Nat, m'.length = a.group.dim ∧
      LocalFirst a.group.dim (fun B => sigShape .channelsFirst B m g C)
        (fun B => sigShape .channelsFirst B m' (some H.length) a.filters)
        (SeesAll a.group.dim fun i =>
          let D := dilated (nth a.kernelSize i) (nth a.dilation i)
          ⟨nth a.strides i, -((builtIn opt (nth m i) D (nth a.strides i) / 2 : Nat) : Int), D⟩)
        (fun x => (l.call x).2) := by
  obtain ⟨l1, hl1, -, hsame⟩ := C30_plain hl hf hu opt hopt
  have hs := hsame k0 b0
  rw [assign_self hl, assign_self hl1] at hs
  obtain ⟨before, after, m', hp, hm', hloc⟩ := C77_convolution hl1 rfl opt.plain
    ((accepted_iff _ _ _).2 (plain_accepted opt)).1 m hm
  refine ⟨m', hm', ?_⟩
  have := local_moved hm hs hloc
  intro B x x' y y' hx hx' hy hy'
  obtain ⟨s1, s2, h3⟩ := this B x x' y y' hx hx' hy hy'
  refine ⟨s1, s2, fun b o p r hpl hv hag => h3 b o p r hpl hv fun c q t hq hvt hsee => hag c q t hq hvt ?_⟩
  intro i hi
  have h4 := hsee i hi
  have h5 : nth before i = builtIn opt (nth m i) (dilated (nth a.kernelSize i) (nth a.dilation i)) (nth a.strides i) / 2 :=
    (padsTo_plain (hp i hi)).1
  have h6 : (Reach.mk (nth a.strides i) (-(nth before i : Int)) (dilated (nth a.kernelSize i) (nth a.dilation i))).Sees
    (nth p i) (nth q i) := h4
  rw [h5] at h6
  exact h6

/-- C77 for channels_first pooling layers that pad nothing themselves -/
theorem C77_channels_first_pooling [Field α] [LinearOrder α] {a : PoolArgs} {bt : Option Nat} {n : List Nat} {g C : Nat}
    {H : List Nat} {l : GroupPooling} (hl : BuiltPool a bt n g C H l) (hf : a.dataFormat = .channelsFirst)
    (hu : Unpadded l.transforms) (opt : PadOption) (hopt : formatPaddingOption a.padding = .ok opt) (m : List Nat)
    (hm : m.length = a.group.dim) :
    ∃ m' : List Nat, m'.length = a.group.dim ∧
      LocalFirst a.group.dim (fun B => sigShape .channelsFirst B m (some g) C)
        (fun B => sigShape .channelsFirst B m' (some H.length) C)
        (SeesAll a.group.dim fun i => ⟨nth a.windowStrides i,
          -((builtIn opt (nth m i) (nth a.poolSize i) (nth a.windowStrides i) / 2 : Nat) : Int), nth a.poolSize i⟩)
        (fun x : Tensor α => l.call x) := by
  obtain ⟨l1, hl1, -, hs⟩ := C30_plain_pooling (α := α) hl hf hu opt hopt
  obtain ⟨lo, hi, skip, skip', m', hp, hm', hloc⟩ := C77_pooling (α := α) hl1 rfl opt.plain
    ((accepted_iff _ _ _).2 (plain_accepted opt)).1 m hm
  refine ⟨m', hm', ?_⟩
  have := local_moved hm hs hloc
  intro B x x' y y' hx hx' hy hy'
  obtain ⟨s1, s2, h3⟩ := this B x x' y y' hx hx' hy hy'
  refine ⟨s1, s2, fun b o p r hpl hv hag => h3 b o p r hpl hv fun c q t hq hvt hsee => hag c q t hq hvt ?_⟩
  intro i hi
  obtain ⟨e, he, h1, h2, h3, h4⟩ := hp i hi
  have : e = 0 := by rcases plain_cases opt with h | h <;> rw [h] at he <;> exact he
  subst this
  rw [builtIn_plain] at h3
  simp only [Nat.add_zero] at h3
  have h5 : nth skip i + nth lo i = builtIn opt (nth m i) (nth a.poolSize i) (nth a.windowStrides i) / 2 := by
    have h3 : nth skip i = builtIn opt (nth m i) (nth a.poolSize i) (nth a.windowStrides i) / 2 := h3
    omega
  have h6 : (Reach.mk (nth a.windowStrides i) (-((nth skip i + nth lo i : Nat) : Int)) (nth a.poolSize i)).Sees
    (nth p i) (nth q i) := hsee i hi
  rw [h5] at h6
  exact h6

/-- C56 for channels_first pooling layers that pad nothing themselves: if a signal is moved by `t` strides along each grid axis and
nothing is pushed off the grid then the result at `p + t` is that of the original signal at `p`, provided that the windows at these two
positions have the same offsets inside the grid. -/
theorem C56_channels_first [Field α] [LinearOrder α] {a : PoolArgs} {bt : Option Nat} {n : List Nat}
    {g C : Nat} {H : List Nat} {l : GroupPooling} (hl : BuiltPool a bt n g C H l) (hf : a.dataFormat = .channelsFirst)
    (hu : Unpadded l.transforms) (opt : PadOption) (hopt : formatPaddingOption a.padding = .ok opt) (m : List Nat)
    (hm : m.length = a.group.dim) (before : List Nat)
    (hbefore : before = (List.range a.group.dim).map fun i =>
      builtIn opt (nth m i) (nth a.poolSize i) (nth a.windowStrides i) / 2)
    (x x' : Tensor α) (B : Nat) (hx : x.shape = sigShape .channelsFirst B m (some g) C) (hx' : x'.shape = x.shape)
    (t : List Int) (ht : t.length = a.group.dim)
    (hmove : TranslatedFirst a.group.dim (List.zipWith (fun (s : Nat) (u : Int) => s * u) a.windowStrides t) x x') :
    ((∃ y, l.call x = .ok y) ↔ ∃ y, l.call x' = .ok y) ∧
    ∀ y y', l.call x = .ok y → l.call x' = .ok y' → y'.shape = y.shape ∧
      ∀ b p p' i o, Valid y.shape (b :: o :: p ++ [i]) → Valid y.shape (b :: o :: p' ++ [i]) →
        p'.map Int.ofNat = List.zipWith (· + ·) (p.map Int.ofNat) t →
        (∀ k, Valid a.poolSize k → (InBox m (window before a.windowStrides (List.replicate a.group.dim 1) p k) ↔
          InBox m (window before a.windowStrides (List.replicate a.group.dim 1) p' k))) →
        y'.get (b :: o :: p' ++ [i]) = y.get (b :: o :: p ++ [i]) := by
  obtain ⟨_, _, _, _, _, f, _, hst⟩ := hl.facts_first hf
  have hsl := (f (unpadded_state hst hu)).stridesLen
  obtain ⟨l1, hl1, -, hs⟩ := C30_plain_pooling (α := α) hl hf hu opt hopt
  obtain ⟨lo, hi, skip, skip', hp, hc⟩ := C56_windows (α := α) hl1 rfl opt.plain
    ((accepted_iff _ _ _).2 (plain_accepted opt)).1 m hm
  have hz : ∀ i, i < a.group.dim → nth lo i = 0 ∧ nth hi i = 0 ∧
      nth skip i = builtIn opt (nth m i) (nth a.poolSize i) (nth a.windowStrides i) / 2 := by
    intro i hi
    obtain ⟨e, he, h1, h2, h3, h4⟩ := hp i hi
    have : e = 0 := by rcases plain_cases opt with h | h <;> rw [h] at he <;> exact he
    subst this
    rw [builtIn_plain] at h3
    simp only [Nat.add_zero] at h3
    exact ⟨by omega, by omega, h3⟩
  have hbox : ∀ q, InExtended lo m hi q ↔ InBox m q := by
    intro q
    rw [inBox_iff]
    unfold InExtended
    refine and_congr_right fun _ => forall_congr' fun i => forall_congr' fun him => ?_
    rw [(hz i (hm ▸ him)).1, (hz i (hm ▸ him)).2.1]
    simp
  have hbef : ((List.range a.group.dim).map fun i => nth skip i + nth lo i) = before := by
    rw [hbefore]
    exact List.map_congr_left fun i hi => by
      rw [(hz i (List.mem_range.1 hi)).1, (hz i (List.mem_range.1 hi)).2.2]; rfl
  have hX' := hx'.trans hx
  have m1 := toLast_moved x hx
  have m1' := toLast_moved x' hX'
  have hvl : (List.zipWith (fun (s : Nat) (u : Int) => s * u) a.windowStrides t).length = a.group.dim := by
    simp [hsl, ht]
  obtain ⟨c1, c2⟩ := hc _ _ B m1.last (m1'.last.trans m1.last.symm) t ht (translated_moved hm hvl m1 m1' hmove)
  obtain ⟨r, o1⟩ := hs B m _ x hm m1
  obtain ⟨r', o1'⟩ := hs B m _ x' hm m1'
  refine ⟨r.symm.trans (c1.trans r'), fun y y' hy hy' => ?_⟩
  obtain ⟨z, hz1⟩ := r.2 ⟨y, hy⟩
  obtain ⟨z', hz1'⟩ := r'.2 ⟨y', hy'⟩
  obtain ⟨q, mz⟩ := o1 z y hz1 hy
  obtain ⟨q', mz'⟩ := o1' z' y' hz1' hy'
  obtain ⟨d1, d2⟩ := c2 z z' hz1 hz1'
  have : q' = q := mz'.shape_eq (d1.trans mz.last)
  subst this
  have hyy : y'.shape = y.shape := mz'.first.trans mz.first.symm
  refine ⟨hyy, fun b p p' i o hv hv' hpp hwin => ?_⟩
  obtain ⟨w, e⟩ := mz.entry hv
  obtain ⟨w', e'⟩ := mz'.entry (hyy ▸ hv')
  rw [e, e']
  refine d2 b p p' i o w (d1 ▸ w') hpp fun k hk => ?_
  have h7 := hwin k hk
  rw [← hbox, ← hbox, ← hbef] at h7
  exact h7

/-! ### hypotheses are met -/

set_option maxRecDepth 8000 in
/-- hypotheses of C77_channels_first and C77_channels_first_pooling are met -/
example : (∃ l y, BuiltConv strideConvFirst false none [5, 5] none 3 (fun _ => 1) (fun _ => 0) [0, 2] l ∧ Unpadded l.transforms ∧
      (l.call ⟨sigShape .channelsFirst 1 [7, 5] none 3, fun _ => 1⟩).2 = .ok y) ∧
    ∃ l y, BuiltPool defaultStridesPoolFirst none [4, 6] 2 1 [0, 1] l ∧ Unpadded l.transforms ∧
      l.call (⟨sigShape .channelsFirst 1 [4, 6] (some 2) 1, fun _ => 1⟩ : Tensor ℚ) = .ok y :=
  ⟨⟨_, _, ⟨⟨_, rfl, rfl⟩, rfl, rfl⟩, rfl, rfl⟩, ⟨_, _, ⟨⟨_, rfl, rfl⟩, rfl, rfl⟩, rfl, rfl⟩⟩

/-- one bright pixel of a group-valued 4x6 channels_first image -/
def pixelGroup (u v : Nat) : Tensor ℚ := ⟨[1, 1, 4, 6, 2], fun i => if i = [0, 0, u, v, 0] then 1 else 0⟩

theorem read0_pixelGroup {u v : Nat} (hu : u < 4) (hv : v < 6) (b c : Nat) (q0 q1 : Int) (r : List Int) :
    read0 (pixelGroup u v) ((b : Int) :: (c : Int) :: q0 :: q1 :: r) =
      if b = 0 ∧ c = 0 ∧ q0 = u ∧ q1 = v ∧ r = [0] then 1 else 0 := by
  unfold read0 pixelGroup
  by_cases h : b = 0 ∧ c = 0 ∧ q0 = u ∧ q1 = v ∧ r = [0]
  · rw [if_pos h]
    obtain ⟨rfl, rfl, rfl, rfl, rfl⟩ := h
    rw [if_pos (by simp [InBox]; omega)]
    simp
  · rw [if_neg h]
    split
    · rename_i hb
      refine if_neg ?_
      intro he
      apply h
      match r, hb with
      | [r0], hb =>
        simp [InBox] at hb he ⊢
        omega
    · rfl

/-- hypotheses of C56_channels_first are met: the pixel is moved by one stride down and two strides left, and with 'valid_equiv' all
windows lie inside the image -/
example : (∃ l, BuiltPool defaultStridesPoolFirst none [4, 6] 2 1 [0, 1] l ∧ Unpadded l.transforms) ∧
    TranslatedFirst 2 (List.zipWith (fun (s : Nat) (u : Int) => s * u) [2, 2] [1, -2]) (pixelGroup 1 5) (pixelGroup 3 1) ∧
    ∀ k, Valid [2, 2] k → (InBox [4, 6] (window [0, 0] [2, 2] [1, 1] [0, 2] k) ↔
      InBox [4, 6] (window [0, 0] [2, 2] [1, 1] [1, 0] k)) := by
  refine ⟨⟨_, ⟨⟨_, rfl, rfl⟩, rfl, rfl⟩, rfl⟩, ?_, ?_⟩
  · intro b c q r hq
    match q, hq with
    | [q0, q1], _ =>
      show read0 _ ((b : Int) :: (c : Int) :: (q0 + 2 * 1) :: (q1 + 2 * -2) :: r) = read0 _ ((b : Int) :: (c : Int) :: q0 :: q1 :: r)
      rw [read0_pixelGroup (by decide) (by decide), read0_pixelGroup (by decide) (by decide)]
      congr 1
      apply propext
      constructor <;> rintro ⟨h1, h2, h3, h4, h5⟩ <;> refine ⟨h1, h2, ?_, ?_, h5⟩ <;> push_cast at * <;> omega
  · intro k hk
    have : ∀ k ∈ indices [2, 2], (InBox [4, 6] (window [0, 0] [2, 2] [1, 1] [0, 2] k) ↔
      InBox [4, 6] (window [0, 0] [2, 2] [1, 1] [1, 0] k)) := by decide
    exact this k ((mem_indices _ _).2 hk)

end GroCo
