import Verif.FirstMovedSpec
import Verif.MovedLemmas

/-
Helper lemmas for C30: symmetries of channels_first signals and of the channels_last signals they correspond to.
-/

namespace GroCo
open Tensor

variable {α : Type}

/-- every channels_first signal comes from a channels_last signal -/
theorem exists_last {B : Nat} {n : List Nat} {g : Option Nat} {C : Nat} {x' : Tensor α}
    (h : x'.shape = sigShape .channelsFirst B n g C) : ∃ x, ChannelsMoved B n g C x x' := by
  refine ⟨⟨sigShape .channelsLast B n g C, fun i => x'.get (nth i 0 :: nth i (i.length - 1) :: (i.tail.dropLast))⟩, rfl, h, ?_⟩
  intro b p c _ _ _
  have h1 : nth (b :: p ++ [c]) ((b :: p ++ [c]).length - 1) = c := by
    rw [nth]
    simp
  show _ = x'.get (nth (b :: p ++ [c]) 0 :: nth (b :: p ++ [c]) ((b :: p ++ [c]).length - 1) :: ((b :: p ++ [c]).tail.dropLast))
  rw [h1]
  simp [nth]

/-- every channels_last signal can be turned into a channels_first signal -/
theorem exists_first {B : Nat} {n : List Nat} {g : Option Nat} {C : Nat} {x : Tensor α}
    (h : x.shape = sigShape .channelsLast B n g C) : ∃ x', ChannelsMoved B n g C x x' :=
  ⟨⟨sigShape .channelsFirst B n g C, fun i => x.get (nth i 0 :: i.drop 2 ++ [nth i 1])⟩, h, rfl, fun b p c _ _ _ => by simp [nth]⟩

/-- moving both versions of a signal -/
theorem movedBy_formats {n : GroupName} {h : Nat} {g : Option Nat} {D : List Nat} (hg : ∀ g', g = some g' → g' = D.length) {B : Nat}
    {m : List Nat} {C : Nat} {x x1 z z1 : Tensor α} (hx : ChannelsMoved B m g C x x1) (hz : ChannelsMoved B m g C z z1) :
    MovedBy n h .channelsLast (g.map fun _ => D) B m C x z ↔ MovedBy n h .channelsFirst (g.map fun _ => D) B m C x1 z1 := by
  have hs : z.shape = x.shape ↔ z1.shape = x1.shape := by rw [hx.last, hz.last, hx.first, hz.first]; simp
  cases g with
  | none =>
    refine and_congr hs (forall_congr' fun b => forall_congr' fun c => forall_congr' fun p => forall_congr' fun q => ?_)
    refine forall_congr' fun hb => forall_congr' fun hc => forall_congr' fun hp => forall_congr' fun hq => forall_congr' fun _ => ?_
    have e1 := hx.get b p c hb (by simpa using hp) hc
    have e2 := hz.get b q c hb (by simpa using hq) hc
    simp only [Option.map_none]
    rw [e1, e2]
  | some g' =>
    have := hg g' rfl
    subst this
    refine and_congr hs (forall_congr' fun b => forall_congr' fun c => forall_congr' fun p => forall_congr' fun q => ?_)
    refine forall_congr' fun hb => forall_congr' fun hc => forall_congr' fun hp => forall_congr' fun hq => forall_congr' fun _ => ?_
    simp only [Option.map_some]
    refine forall_congr' fun i => forall_congr' fun j => forall_congr' fun hi => forall_congr' fun hj => forall_congr' fun _ => ?_
    have e1 := hx.get b (p ++ [i]) c hb ((valid_append _ _ _ _ hp.length).2 ⟨hp, by simp [hi]⟩) hc
    have e2 := hz.get b (q ++ [j]) c hb ((valid_append _ _ _ _ hq.length).2 ⟨hq, by simp [hj]⟩) hc
    simp only [List.cons_append, List.append_assoc, List.nil_append] at e1 e2 ⊢
    rw [e1, e2]

/-- Layers that compute the same up to moving the channel axis move their outputs for the same elements. -/
theorem movesOutput_formats {n : GroupName} {dom cod : List Nat} {h : Nat} {f f' : Tensor α → Res (Tensor α)} {m : List Nat}
    {g : Option Nat} (hg : ∀ g', g = some g' → g' = dom.length) {C F : Nat}
    (hff : ∀ B x x', ChannelsMoved B m g C x x' → ((∃ y, f x = .ok y) ↔ ∃ y', f' x' = .ok y') ∧
      ∀ y y', f x = .ok y → f' x' = .ok y' → ∃ out, ChannelsMoved B out (some cod.length) F y y') :
    MovesOutput n dom cod h f m g C F ↔ MovesOutputFirst n dom cod h f' m g C F := by
  have hone : ∀ {B : Nat} {out out' : List Nat} {y y' : Tensor α}, ChannelsMoved B out (some cod.length) F y y' →
      y.shape = sigShape .channelsLast B out' (some cod.length) F → out = out' := fun h1 h2 =>
    sigShape_last_inj (h1.last.symm.trans h2)
  have hone' : ∀ {B : Nat} {out out' : List Nat} {y y' : Tensor α}, ChannelsMoved B out (some cod.length) F y y' →
      y'.shape = sigShape .channelsFirst B out' (some cod.length) F → out = out' := fun h1 h2 => by
    have := h1.first.symm.trans h2
    simpa [sigShape] using this
  have hc : ∀ g', (some cod.length : Option Nat) = some g' → g' = cod.length := fun g' h => by cases h; rfl
  constructor
  · intro hm B x1 z1 y1 hx1 hz1 hy1
    obtain ⟨x, hx⟩ := exists_last hx1
    obtain ⟨z, hz⟩ := exists_last (hz1.1.trans hx1)
    obtain ⟨y, hy⟩ := (hff B x x1 hx).1.2 ⟨y1, hy1⟩
    obtain ⟨out, ho⟩ := (hff B x x1 hx).2 y y1 hy hy1
    obtain ⟨o, w, h1, h2, h3, h4⟩ := hm B x z y hx.last ((movedBy_formats hg hx hz).2 hz1) hy
    have := hone ho h1
    subst this
    obtain ⟨w1, hw1⟩ := (hff B z z1 hz).1.1 ⟨w, h3⟩
    obtain ⟨out', ho'⟩ := (hff B z z1 hz).2 w w1 h3 hw1
    have := hone ho' (h4.1.trans h1)
    subst this
    exact ⟨_, w1, ho.first, h2, hw1, (movedBy_formats (g := some cod.length) hc ho ho').1 h4⟩
  · intro hm B x z y hx1 hz1 hy1
    obtain ⟨x1, hx⟩ := exists_first hx1
    obtain ⟨z1, hz⟩ := exists_first (hz1.1.trans hx1)
    obtain ⟨y1, hy⟩ := (hff B x x1 hx).1.1 ⟨y, hy1⟩
    obtain ⟨out, ho⟩ := (hff B x x1 hx).2 y y1 hy1 hy
    obtain ⟨o, w1, h1, h2, h3, h4⟩ := hm B x1 z1 y1 hx.first ((movedBy_formats hg hx hz).1 hz1) hy
    have := hone' ho h1
    subst this
    obtain ⟨w, hw⟩ := (hff B z z1 hz).1.2 ⟨w1, h3⟩
    obtain ⟨out', ho'⟩ := (hff B z z1 hz).2 w w1 hw h3
    have := hone' ho' (h4.1.trans h1)
    subst this
    exact ⟨_, w, ho.last, h2, hw, (movedBy_formats (g := some cod.length) hc ho ho').2 h4⟩

/-- `conv_moved` for layers that may differ in allow_non_equivariance and padding, as long as Keras gets the same option -/
theorem conv_moved_plain [Semiring α] {a a' : ConvArgs α} {allow : Bool} {padding : String} (hlast : a.dataFormat = .channelsLast)
    (hfirst : a' = { a with dataFormat := .channelsFirst, allowNonEquivariance := allow, padding := padding })
    {A D A' D' : List Nat} (hA : A = A') (hD : D = D') {g : Option Nat} {C : Nat} {k0 b0 : List Nat → α} {l l' : GroupConv α}
    {kp : KerasPadding} (f : ConvFacts a false g C k0 b0 A D l kp) (f' : ConvFacts a' false g C k0 b0 A' D' l' kp)
    (h0 : l.transforms.padState = ⟨false, []⟩) (h0' : l'.transforms.padState = ⟨false, []⟩)
    {x x' : Tensor α} {B : Nat} {m : List Nat} (hm : m.length = a.group.dim) (hx : ChannelsMoved B m g C x x') :
    ((∃ y, (l.call x).2 = .ok y) ↔ ∃ y', (l'.call x').2 = .ok y') ∧
    ∀ y y', (l.call x).2 = .ok y → (l'.call x').2 = .ok y' → ∃ out, ChannelsMoved B out (some A.length) a.filters y y' := by
  subst hfirst hA hD
  obtain ⟨c1, c2⟩ := conv_call_last f hlast hx.last hm
  obtain ⟨d1, d2⟩ := conv_call_first f' rfl h0' hx hm
  rw [h0] at c1 c2
  refine ⟨⟨?_, ?_⟩, ?_⟩
  · rintro ⟨y, hy⟩
    obtain ⟨y', hy', _⟩ := d2 (c1 y hy)
    exact ⟨y', congrArg Prod.snd hy'⟩
  · rintro ⟨y, hy⟩
    obtain ⟨y', hy', _⟩ := c2 (d1 y hy)
    exact ⟨y', congrArg Prod.snd hy'⟩
  · intro y y' hy hy'
    obtain ⟨z, hz, hzs, hzg⟩ := c2 (c1 y hy)
    obtain ⟨z', hz', hzs', hzg'⟩ := d2 (c1 y hy)
    rw [hz] at hy
    rw [hz'] at hy'
    cases hy
    cases hy'
    refine ⟨_, hzs, hzs', ?_⟩
    intro b p c hb hp hc
    obtain ⟨q, r, rfl, hq, hr⟩ := valid_append_split hp
    match r, hr with
    | [i], ⟨hi, _⟩ =>
      have h1 := hzg b q i c hb hq hi hc
      have h2 := hzg' b q i c hb hq hi hc
      rw [List.cons_append, List.cons_append] at h2
      rw [h2, List.cons_append, List.append_assoc]
      exact h1.symm

end GroCo
