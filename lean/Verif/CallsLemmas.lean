import Verif.GroupedLemmas
import Verif.TransposeLemmas
import Verif.PoolLemmas

/-
Helper lemmas: calls of built layers on signals with another number of group elements.
-/

namespace GroCo
open Tensor

variable {α : Type}

theorem convTransposeLast_error [Semiring α] (kp : KerasPadding) {strides dil K n : List Nat} {B Cx C F : Nat} {x w : Tensor α}
    (hx : x.shape = B :: n ++ [Cx]) (hw : w.shape = K ++ [F, C]) (hn : n.length = strides.length)
    (hK : K.length = strides.length) (hne : Cx ≠ C) : convTransposeLast kp strides dil x w = .error .value := by
  have h4 : nth x.shape (strides.length + 1) = Cx := by
    rw [hx]; exact nth_app0 (a := B :: n) (by simp [hn])
  have h5 : nth w.shape (strides.length + 1) = C := by rw [hw]; lay hK
  unfold convTransposeLast
  rw [if_neg]
  rintro ⟨_, _, h, _⟩
  rw [h4, h5] at h
  exact hne h

/-- Calling a built transposed channels_last layer on a signal with other channels. -/
theorem convT_call_error [Semiring α] {a : ConvArgs α} {g gx : Option Nat} {C Cx : Nat} {k0 b0 : List Nat → α}
    {A D : List Nat} {l : GroupConv α} {kp : KerasPadding} (f : ConvCore a true g C k0 b0 A D l kp)
    (hf : a.dataFormat = .channelsLast) {x : Tensor α} {B : Nat} {n : List Nat} (hgx : gx.isSome = g.isSome)
    (hx : x.shape = sigShape .channelsLast B n gx Cx) (hn : n.length = a.group.dim) (hc : l.checkInput x = .ok ())
    (hne : chanO gx Cx ≠ chanO g C) : (l.call x).2 = .error .value := by
  have f' := f.last hf
  rw [← hgx] at f'
  obtain ⟨y, ey, hy, _⟩ := f'.mergePad x hx hn
  obtain ⟨w, ew, hw, _⟩ := f.transformed
  simp only [if_true] at hw
  obtain ⟨b', hb', hcall⟩ := call_parts f hc ey ew
  have hn1 : (grow n (epads l.transforms.padState a.group.dim)).length = a.strides.length := by
    rw [length_grow (by rw [length_epads, hn]), hn, f.stridesLen]
  have he := convTransposeLast_error (dil := a.dilation) kp hy hw hn1 (by rw [f.kernelLen, f.stridesLen]) hne
  have hsuper : ({ l with kernel := some w, bias := b', filters := a.filters * A.length } : GroupConv α).superCall y =
      .error .value := by
    simp only [GroupConv.superCall, f.transp, if_true, baseConvTransposeCall, f.fmt, hf, convTranspose, f.padding,
      f.strides, f.dilation, he]
    rfl
  rw [hcall, hsuper]
  rfl

/-- selecting elements of an axis does not depend on its size, if they exist -/
theorem takeT_size {x : Tensor α} {I : Tensor Nat} {P R : List Nat} {m m' : Nat} (hx : x.shape = P ++ m :: R) (hm : m' ≤ m)
    (hI : ∀ i ∈ indices I.shape, I.get i < m') :
    takeT x I (P.length : Int) = takeT ⟨P ++ m' :: R, x.get⟩ I (P.length : Int) := by
  have hr : x.rank = P.length + 1 + R.length := by simp [Tensor.rank, hx]; omega
  unfold takeT
  rw [normAxis_nat (by omega), normAxis_nat (by simp [Tensor.rank])]
  simp only [res_bind_ok]
  rw [if_pos (by
    intro i hi
    have := hI i hi
    rw [hx, nth_app0 rfl, nth_cons_zero]; omega), if_pos (by
    intro i hi
    rw [nth_app0 rfl]; exact hI i hi)]
  simp [hx]

/-- selecting an element that does not exist -/
theorem takeT_error {x : Tensor α} {I : Tensor Nat} {P R : List Nat} {m : Nat} (hx : x.shape = P ++ m :: R)
    {i : List Nat} (hi : i ∈ indices I.shape) (hI : m ≤ I.get i) : takeT x I (P.length : Int) = .error .index := by
  have hr : x.rank = P.length + 1 + R.length := by simp [Tensor.rank, hx]; omega
  unfold takeT
  rw [normAxis_nat (by omega)]
  simp only [res_bind_ok]
  rw [if_neg]
  intro h
  have := h i hi
  rw [hx, nth_app0 rfl, nth_cons_zero] at this
  omega

end GroCo
