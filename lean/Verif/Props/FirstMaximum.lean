import Verif.Props.FirstLocal
import Verif.Props.TranslateMaximum

/-
Property C56 for the maximum of channels_first signals without negative entries.
-/

namespace GroCo
open Tensor

variable {α : Type}

/-- C56 for the maximum of signals without negative entries, for channels_first layers that pad nothing themselves: if a signal is
moved by `t` strides along each axis and nothing is pushed off the grid, the result of the pooling layer is moved by `t`. -/
theorem C56_channels_first_maximum_partial [Field α] [LinearOrder α] {a : PoolArgs} {bt : Option Nat} {n : List Nat}
    {g C : Nat} {H : List Nat} {l : GroupPooling} (hl : BuiltPool a bt n g C H l) (hf : a.dataFormat = .channelsFirst)
    (hu : Unpadded l.transforms) (hmax : a.poolType = .max) (x x' : Tensor α) (B : Nat) (m : List Nat) (hm : m.length = a.group.dim)
    (hx : x.shape = sigShape .channelsFirst B m (some g) C) (hx' : x'.shape = x.shape)
    (hpos : ∀ idx, Valid x.shape idx → 0 ≤ x.get idx) (t : List Int) (ht : t.length = a.group.dim)
    (hmove : TranslatedFirst a.group.dim (List.zipWith (fun (s : Nat) (u : Int) => s * u) a.windowStrides t) x x') :
    ((∃ y, l.call x = .ok y) ↔ ∃ y, l.call x' = .ok y) ∧
    ∀ y y', l.call x = .ok y → l.call x' = .ok y' → y'.shape = y.shape ∧
      ∀ b p p' i o, Valid y.shape (b :: o :: p ++ [i]) → Valid y.shape (b :: o :: p' ++ [i]) →
        p'.map Int.ofNat = List.zipWith (· + ·) (p.map Int.ofNat) t → y'.get (b :: o :: p' ++ [i]) = y.get (b :: o :: p ++ [i]) := by
  obtain ⟨opt, _, _, hopt, _, f, _, hst⟩ := hl.facts_first hf
  have hsl := (f (unpadded_state hst hu)).stridesLen
  obtain ⟨l1, hl1, -, hs⟩ := C30_plain_pooling (α := α) hl hf hu opt hopt
  have hX' := hx'.trans hx
  have m1 := toLast_moved x hx
  have m1' := toLast_moved x' hX'
  have hvl : (List.zipWith (fun (s : Nat) (u : Int) => s * u) a.windowStrides t).length = a.group.dim := by
    simp [hsl, ht]
  have hpos1 : ∀ idx, Valid (toLast x (sigShape .channelsLast B m (some g) C)).shape idx →
      0 ≤ (toLast x (sigShape .channelsLast B m (some g) C)).get idx := by
    intro idx hv
    have hv' : Valid (B :: ((m ++ [g]) ++ [C])) idx := by
      simpa [toLast, sigShape] using hv
    match idx, hv' with
    | b :: r, ⟨hb, hr⟩ =>
      obtain ⟨p, c, rfl, hp, hc⟩ := valid_append_split hr
      match c, hc with
      | [c], hc =>
        have e := m1.get b p c hb (by simpa using hp) hc.1
        rw [List.cons_append] at e
        rw [← e]
        refine hpos _ ?_
        rw [hx]
        exact ⟨hb, hc.1, by simpa using hp⟩
  obtain ⟨c1, c2⟩ := C56_maximum_partial hl1 rfl hmax _ _ B m hm m1.last (m1'.last.trans m1.last.symm) hpos1 t ht
    (translated_moved hm hvl m1 m1' hmove)
  obtain ⟨r, o1⟩ := hs B m _ x hm m1
  obtain ⟨r', o1'⟩ := hs B m _ x' hm m1'
  refine ⟨r.symm.trans (c1.trans r'), fun y y' hy hy' => ?_⟩
  obtain ⟨z, hz1⟩ := r.2 ⟨y, hy⟩
  obtain ⟨z', hz1'⟩ := r'.2 ⟨y', hy'⟩
  obtain ⟨q, mz⟩ := o1 z y hz1 hy
  obtain ⟨q', mz'⟩ := o1' z' y' hz1' hy'
  obtain ⟨d1, d2⟩ := c2 z z' hz1 hz1'
  have : q' = q := mz'.shape_eq (d1.trans mz.last)
  subst this
  have hyy : y'.shape = y.shape := mz'.first.trans mz.first.symm
  refine ⟨hyy, fun b p p' i o hv hv' hpp => ?_⟩
  obtain ⟨w, e⟩ := mz.entry hv
  obtain ⟨w', e'⟩ := mz'.entry (hyy ▸ hv')
  rw [e, e']
  exact d2 b p p' i o w (d1 ▸ w') hpp

/-- `maximumPool` for channels_first -/
def maximumPoolFirst (padding : String) : PoolArgs := { maximumPool padding with dataFormat := .channelsFirst }

set_option maxRecDepth 8000 in
/-- hypotheses are met with padding 'same': when the bright position is moved by two down and four left so is the maximum -/
example : ∃ l y y', BuiltPool (maximumPoolFirst "same") none [4, 6] 2 1 [0, 1] l ∧ Unpadded l.transforms ∧
    l.call (pixelGroup 1 5) = .ok y ∧ l.call (pixelGroup 3 1) = .ok y' ∧ y'.get [0, 0, 3, 1, 0] = y.get [0, 0, 1, 5, 0] := by
  obtain ⟨l, y, y', hl, hu, hy, hy', hs⟩ : ∃ l y y', BuiltPool (maximumPoolFirst "same") none [4, 6] 2 1 [0, 1] l ∧
      Unpadded l.transforms ∧ l.call (pixelGroup 1 5) = .ok y ∧ l.call (pixelGroup 3 1) = .ok y' ∧ y.shape = [1, 1, 4, 6, 2] :=
    ⟨_, _, _, ⟨⟨_, rfl, rfl⟩, rfl, rfl⟩, rfl, rfl, rfl, rfl⟩
  refine ⟨l, y, y', hl, hu, hy, hy', ?_⟩
  refine ((C56_channels_first_maximum_partial hl rfl hu rfl (pixelGroup 1 5) (pixelGroup 3 1) 1 [4, 6] rfl rfl rfl ?_ [2, -4] rfl
    ?_).2 y y' hy hy').2 0 [1, 5] [3, 1] 0 0 (by rw [hs]; decide) (by rw [hs]; decide) rfl
  · intro idx _
    unfold pixelGroup
    simp only
    split <;> decide
  · intro b c q r hq
    match q, hq with
    | [q0, q1], _ =>
      show read0 _ ((b : Int) :: (c : Int) :: (q0 + 1 * 2) :: (q1 + 1 * -4) :: r) = read0 _ ((b : Int) :: (c : Int) :: q0 :: q1 :: r)
      rw [read0_pixelGroup (by decide) (by decide), read0_pixelGroup (by decide) (by decide)]
      congr 1
      apply propext
      constructor <;> rintro ⟨h1, h2, h3, h4, h5⟩ <;> refine ⟨h1, h2, ?_, ?_, h5⟩ <;> push_cast at * <;> omega

end GroCo
