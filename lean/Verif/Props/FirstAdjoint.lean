import Verif.Props.Adjoint
import Verif.Props.FirstSlice

/-
Property C66 for channels_first layers that pad nothing themselves.
-/

namespace GroCo
open Tensor

variable {α : Type}

/-- inner products do not depend on the data format -/
theorem inner_moved [Semiring α] {B : Nat} {m : List Nat} {g : Option Nat} {C : Nat} {u u' y y' : Tensor α}
    (hu : ChannelsMoved B m g C u u') (hy : ChannelsMoved B m g C y y') : inner u' y' = inner u y := by
  have e1 : u.shape = B :: ((m ++ g.toList) ++ [C]) := by rw [hu.last]; simp [sigShape]
  have e2 : u'.shape = B :: C :: (m ++ g.toList) := by rw [hu.first]; simp [sigShape]
  unfold inner
  rw [e1, e2, sum_indices_cons, sum_indices_cons]
  apply sum_congr
  intro b hb
  rw [List.mem_range] at hb
  rw [sum_indices_cons, sum_indices_append, list_sum_comm]
  apply sum_congr
  intro p hp
  rw [mem_indices] at hp
  rw [sum_indices_cons]
  apply sum_congr
  intro c hc
  rw [List.mem_range] at hc
  simp only [indices, List.map_cons, List.map_nil, List.sum_cons, List.sum_nil, add_zero]
  rw [hu.get b p c hb hp hc, hy.get b p c hb hp hc]
  rfl

/-- C66 for channels_first: every linear transposed channels_first layer that pads nothing itself is the transpose of a channels_first
convolution with the same group, subgroup, kernel size, strides, dilation rates and padding, with filters and channels exchanged. -/
theorem C66_channels_first [CommSemiring α] {a : ConvArgs α} {bt : Option Nat} {n : List Nat} {g C : Nat}
    {k0 b0 : List Nat → α} {H : List Nat} {l : GroupConv α} (hl : BuiltConv a true bt n (some g) C k0 b0 H l)
    (hf : a.dataFormat = .channelsFirst) (hact : a.activation = id) (hb : a.useBias = false) (hu : Unpadded l.transforms) :
    ∃ k1, ∀ (bt' : Option Nat) (n' : List Nat) (b1 : List Nat → α) (l' : GroupConv α),
      BuiltConv { a with filters := C } false bt' n' (some a.group.group.order) a.filters k1 b1 H l' → Unpadded l'.transforms →
      ∀ (B : Nat) (m : List Nat) (x y z : Tensor α), m.length = a.group.dim → 0 ∉ m →
        y.shape = sigShape .channelsFirst B m (some g) C → (l.call y).2 = .ok z → x.shape = z.shape →
        ∃ u, (l'.call x).2 = .ok u ∧ u.shape = y.shape ∧ inner u y = inner x z := by
  obtain ⟨opt, kp, hopt, -⟩ := hl.facts_first hf
  obtain ⟨t, ht, hut, hs⟩ := C30_plain_transposed hl hf hu opt hopt
  have hs := hs k0 b0
  rw [assign_self hl, assign_self ht] at hs
  obtain ⟨k1, h⟩ := C66_transposed_is_adjoint ht rfl hact hb hut
  refine ⟨k1, fun bt' n' b1 l' hl' hu' B m x y z hm hmp hy hz hx => ?_⟩
  obtain ⟨t', ht', hut', hs'⟩ := C30_plain hl' hf hu' opt hopt
  have hs' := hs' k1 b1
  rw [assign_self hl', assign_self ht'] at hs'
  have my := toLast_moved y hy
  obtain ⟨r, o⟩ := hs B m _ y hm my
  obtain ⟨z1, hz1⟩ := r.2 ⟨z, hz⟩
  obtain ⟨out, mz⟩ := o z1 z hz1 hz
  have hlen : out.length = a.group.dim := by
    obtain ⟨_, _, _, _, f, _⟩ := ht.facts_last rfl
    obtain ⟨w, hw, hws, -⟩ := convT_call_last f rfl my.last hm
    cases (show Except.ok w = Except.ok z1 from (congrArg Prod.snd hw).symm.trans hz1)
    have e := congrArg List.length (hws.symm.trans mz.last)
    have hsl : a.strides.length = a.group.dim := f.stridesLen
    simp [sigShape, upSizes, ConvArgs.plainLast, hsl] at e
    omega
  have mx := toLast_moved x (hx.trans mz.first)
  obtain ⟨u1, hu1, hus, hin⟩ := h bt' _ b1 t' ht' hut' B m _ _ z1 hm hmp my.last hz1 (mx.last.trans mz.last.symm)
  obtain ⟨r', o'⟩ := hs' B out _ x hlen mx
  obtain ⟨u, hu⟩ := r'.1 ⟨u1, hu1⟩
  obtain ⟨q, mu⟩ := o' u1 u hu1 hu
  have hg : g = H.length := by
    obtain ⟨_, _, _, _, f, _⟩ := ht.facts_last rfl
    exact f.size g rfl
  subst hg
  have : q = m := (my.shape_eq (hus.symm.trans mu.last)).symm
  subst this
  exact ⟨u, hu, mu.first.trans my.first.symm, by rw [inner_moved mu my, hin, inner_moved mx mz]⟩

/-- C66 for channels_first, the other way round, for layers on the whole group. Missing: proper subgroups, see C66_violation. -/
theorem C66_channels_first_convolution_partial [CommSemiring α] {a : ConvArgs α} {bt : Option Nat} {n : List Nat} {g F : Nat}
    {k1 b1 : List Nat → α} {H : List Nat} {l' : GroupConv α} (hl' : BuiltConv a false bt n (some g) F k1 b1 H l')
    (hH : H = List.range a.group.group.order)
    (hf : a.dataFormat = .channelsFirst) (hact : a.activation = id) (hb : a.useBias = false) (hu' : Unpadded l'.transforms) :
    ∃ k0, ∀ (bt' : Option Nat) (n' : List Nat) (b0 : List Nat → α) (l : GroupConv α),
      BuiltConv { a with filters := F } true bt' n' (some g) a.filters k0 b0 H l → Unpadded l.transforms →
      ∀ (B : Nat) (m : List Nat) (x y z : Tensor α), m.length = a.group.dim → 0 ∉ m →
        y.shape = sigShape .channelsFirst B m (some g) a.filters → (l.call y).2 = .ok z → x.shape = z.shape →
        ∃ u, (l'.call x).2 = .ok u ∧ u.shape = y.shape ∧ inner u y = inner x z := by
  obtain ⟨opt, kp, hopt, -⟩ := hl'.facts_first hf
  obtain ⟨t', ht', hut', hs'⟩ := C30_plain hl' hf hu' opt hopt
  have hs' := hs' k1 b1
  rw [assign_self hl', assign_self ht'] at hs'
  obtain ⟨k0, h⟩ := C66_convolution_is_adjoint_partial ht' hH rfl hact hb hut'
  refine ⟨k0, fun bt' n' b0 l hl hu B m x y z hm hmp hy hz hx => ?_⟩
  obtain ⟨t, ht, hut, hs⟩ := C30_plain_transposed hl hf hu opt hopt
  have hs := hs k0 b0
  rw [assign_self hl, assign_self ht] at hs
  have my := toLast_moved y hy
  obtain ⟨r, o⟩ := hs B m _ y hm my
  obtain ⟨z1, hz1⟩ := r.2 ⟨z, hz⟩
  obtain ⟨out, mz⟩ := o z1 z hz1 hz
  have hg : g = H.length := by
    obtain ⟨_, _, _, _, f, _⟩ := ht.facts_last rfl
    exact f.size g rfl
  have hlen : out.length = a.group.dim := by
    obtain ⟨_, _, _, _, f, _⟩ := ht.facts_last rfl
    obtain ⟨w, hw, hws, -⟩ := convT_call_last f rfl my.last hm
    cases (show Except.ok w = Except.ok z1 from (congrArg Prod.snd hw).symm.trans hz1)
    have e := congrArg List.length (hws.symm.trans mz.last)
    have hsl : a.strides.length = a.group.dim := f.stridesLen
    simp [sigShape, upSizes, ConvArgs.plainLast, hsl] at e
    omega
  have mz' : ChannelsMoved B out (some g) F z1 z := by
    rw [hg, hH, List.length_range]
    exact mz
  have mx := toLast_moved x (hx.trans mz'.first)
  obtain ⟨u1, hu1, hus, hin⟩ := h bt' _ b0 t ht hut B m _ _ z1 hm hmp my.last hz1 (mx.last.trans mz'.last.symm)
  obtain ⟨r', o'⟩ := hs' B out _ x hlen mx
  obtain ⟨u, hu⟩ := r'.1 ⟨u1, hu1⟩
  obtain ⟨q, mu⟩ := o' u1 u hu1 hu
  subst hg
  have : q = m := (my.shape_eq (hus.symm.trans mu.last)).symm
  subst this
  exact ⟨u, hu, mu.first.trans my.first.symm, by rw [inner_moved mu my, hin, inner_moved mx mz']⟩

/-- `linearTranspose` for channels_first -/
def linearTransposeFirst : ConvArgs Int := { linearTranspose with dataFormat := .channelsFirst, allowNonEquivariance := true }

set_option maxRecDepth 16000 in
/-- hypotheses of both theorems are met -/
example : (∃ l l' z, BuiltConv linearTransposeFirst true none [4, 4] (some 2) 3 (fun _ => 1) (fun _ => 0) [0, 2] l ∧
    Unpadded l.transforms ∧
    BuiltConv { linearTransposeFirst with filters := 3 } false none [8, 8] (some 4) 2 (fun _ => 1) (fun _ => 0) [0, 2] l' ∧
    Unpadded l'.transforms ∧ (l.call ⟨sigShape .channelsFirst 1 [4, 4] (some 2) 3, fun _ => 1⟩).2 = .ok z) ∧
    ∃ l l' z, BuiltConv { linearTransposeFirst with subgroup := some "", filters := 3 } false none [8, 8] (some 4) 2 (fun _ => 1)
      (fun _ => 0) [0, 1, 2, 3] l' ∧ Unpadded l'.transforms ∧
    BuiltConv { linearTransposeFirst with subgroup := some "" } true none [4, 4] (some 4) 3 (fun _ => 1) (fun _ => 0) [0, 1, 2, 3] l ∧
    Unpadded l.transforms ∧ (l.call ⟨sigShape .channelsFirst 1 [4, 4] (some 4) 3, fun _ => 1⟩).2 = .ok z :=
  ⟨⟨_, _, _, ⟨⟨_, rfl, rfl⟩, rfl, rfl⟩, rfl, ⟨⟨_, rfl, rfl⟩, rfl, rfl⟩, rfl, rfl⟩,
    ⟨_, _, _, ⟨⟨_, rfl, rfl⟩, rfl, rfl⟩, rfl, ⟨⟨_, rfl, rfl⟩, rfl, rfl⟩, rfl, rfl⟩⟩

end GroCo
