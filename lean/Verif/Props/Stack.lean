import Verif.StackLemmas
import Verif.Props.Check
import Verif.Props.Transpose

/-
Property C37: stacks of layers. `EquivariantLayer`, `EquivariantStack` and `sequential` are in StackSpec.
-/

namespace GroCo
open Tensor

variable {α : Type}

/-- C37: a stack of any number of layers equivariant to a subgroup is equivariant to it. -/
theorem C37_stack_equivariant [Zero α] (n : GroupName) (fmt : DataFormat) (acting : Option String) (A : List Nat)
    (hA : n.group.sub (n.group.parseSubgroup acting) = .ok A) (k k' : SignalKind) (hfits : k'.Fits n)
    (fs : List (Tensor α → Res (Tensor α))) (hs : EquivariantStack n fmt acting A.length k k' fs) :
    EquivariantLayer n fmt acting A.length k k' (sequential fs) := by
  induction hs with
  | nil k => exact EquivariantLayer.id hfits hA
  | cons hf _ ih => exact hf.comp (ih hfits)

/-- C37: followed by global group pooling it is invariant. -/
theorem C37_stack_invariant [Field α] [LinearOrder α] (n : GroupName) (l : GlobalGroupPooling) (hd : l.dimensions = n.dim)
    (acting : Option String) (A D : List Nat) (hA : n.group.sub (n.group.parseSubgroup acting) = .ok A)
    (k k' : SignalKind) (fs : List (Tensor α → Res (Tensor α)))
    (hs : EquivariantStack n l.dataFormat acting A.length k k' fs) (hm : n.Grid k'.grid) (h0 : 0 ∉ k'.grid)
    (hD : n.group.sub (n.group.parseSubgroup k'.on) = .ok D) (hg : k'.g = some D.length) (hAD : ∀ e ∈ A, e ∈ D)
    (x : Tensor α) (B : Nat) (hx : x.shape = k.shape l.dataFormat B) :
    ∃ y gx, sequential (fs ++ [l.call]) x = .ok y ∧
      n.group.action x (spatialAxes l.dataFormat n.dim) 0 (some (groupAxis l.dataFormat n.dim)) acting k.on = .ok gx ∧
      gx.shape = A.length :: x.shape ∧
      ∀ i, i < A.length → ∃ z, sequential (fs ++ [l.call]) (slice gx 0 i) = .ok z ∧ z.Same y := by
  have hfits : k'.Fits n := ⟨hm, by rw [hg]; exact ⟨D, hD, rfl⟩⟩
  have hst : EquivariantLayer n l.dataFormat acting A.length k k' (sequential fs) :=
    C37_stack_equivariant n l.dataFormat acting A hA k k' hfits fs hs
  have happ : ∀ x, sequential (fs ++ [l.call]) x = (sequential fs x >>= l.call) := by
    intro x
    unfold sequential
    rw [List.foldlM_append]
    congr 1
    funext y
    show (l.call y >>= fun z => .ok z) = l.call y
    cases l.call y <;> rfl
  obtain ⟨u, eu, hu, gx, gu, a1, b1, a2, b2, c⟩ := hst.2 x B hx
  have hus : u.shape = sigShape l.dataFormat B k'.grid (some D.length) k'.chan := by rw [hu]; unfold SignalKind.shape; rw [hg]
  obtain ⟨y, gu', ey, a3, _, inv⟩ := C35_invariant l n hd acting k'.on A D hA hD hAD k'.grid hm h0 u B k'.chan hus
  rw [a2] at a3
  cases a3
  refine ⟨y, gx, by rw [happ, eu]; exact ey, a1, b1, ?_⟩
  intro i hi
  obtain ⟨v, ev, hv⟩ := c i hi
  obtain ⟨w, ew, hw⟩ := inv i hi
  have hml : k'.grid.length = l.dimensions := by rw [hd]; exact n.sym.okLen _ hm
  have hD0 : D.length ≠ 0 := by
    obtain ⟨sD, _, hlD⟩ := parse_sub hD
    have := ((C09_all_groups n).2 sD D hlD).2.1
    intro h
    rw [List.length_eq_zero_iff.1 h] at this
    cases this
  have hss : (slice gu 0 i).shape = sigShape l.dataFormat B k'.grid (some D.length) k'.chan := by simp [slice, b2, hus]
  obtain ⟨z, ez, sz, gz⟩ := C35_value l v B k'.chan D.length k'.grid hml (hv.1.trans hss) hD0 h0
  obtain ⟨w', ew', sw, gw⟩ := C35_value l (slice gu 0 i) B k'.chan D.length k'.grid hml hss hD0 h0
  rw [ew] at ew'
  cases ew'
  refine ⟨z, by rw [happ, ev]; exact ez, ?_⟩
  refine Same.trans ⟨sz.trans sw.symm, ?_⟩ hw
  intro idx hidx
  rw [sz] at hidx
  obtain ⟨b, c, hb, hc, rfl⟩ := C35_indices _ _ _ _ _ _ hidx
  rw [gz b c hb hc, gw b c hb hc]
  congr 1
  unfold allEntries
  rw [List.flatMap_def, List.flatMap_def]
  congr 1
  apply List.map_congr_left
  intro p hp
  apply List.map_congr_left
  intro j hj
  rw [mem_indices] at hp
  rw [List.mem_range] at hj
  apply hv.2
  rw [hv.1, hss]
  exact sigIndex_valid hb hp hj hc

/-- C37: a built channels_last convolution is such a layer (under the conditions of C25), also in a stack over a larger group
`n` of which its group is a subgroup: `P` are the elements of its group and `H` those of its subgroup (within its group).
It may be used with any group of elements of its subgroup. -/
theorem C37_convolution_layer [Semiring α] {n : GroupName} {a : ConvArgs α} {bt : Option Nat} {g : Option Nat}
    {C : Nat} {k0 b0 : List Nat → α} {P H A : List Nat} {l : GroupConv α} {m m' : List Nat} {C' : Nat}
    (hl : BuiltConv a false bt m g C k0 b0 H l)
    (hf : a.dataFormat = .channelsLast) (hallow : a.allowNonEquivariance = false)
    (hs : a.group.Grid a.strides) (hd : a.group.Grid a.dilation)
    (hdil : ∀ opt, formatPaddingOption a.padding = .ok opt → ∀ i, i < a.group.dim →
      DilationOk opt (nth a.kernelSize i) (nth a.strides i) (nth a.dilation i))
    (x0 y0 : Tensor α) (B0 : Nat) (hx0 : x0.shape = sigShape .channelsLast B0 m g C) (hy0 : (l.call x0).2 = .ok y0)
    (hys0 : y0.shape = sigShape .channelsLast B0 m' (some H.length) C') (hm : n.Grid m) (hm' : n.Grid m')
    (hP : lookup n.group.subgroup a.group.group.name = .ok P) (acting : Option String)
    (hA : n.group.sub (n.group.parseSubgroup acting) = .ok A) (hAH : ∀ e ∈ A, e ∈ H.map (nth P)) :
    EquivariantLayer n .channelsLast acting A.length ⟨m, g, C, g.map fun _ => a.group.group.name⟩
      ⟨m', some H.length, C', a.group.group.parseSubgroup a.subgroup⟩ (fun x => (l.call x).2) := by
  obtain ⟨opt, kp, hopt, hkp, f, hst⟩ := hl.facts_last hf
  have hmd : m.length = a.group.dim := hl.dims
  have hown : lookup a.group.group.subgroup a.group.group.name = .ok (List.range a.group.group.order) := a.group.sym.tab.own
  have hHr : ∀ e ∈ H, e ∈ List.range a.group.group.order := by
    obtain ⟨sH, _, hlH⟩ := parse_sub hl.elements
    intro e he
    exact List.mem_range.2 (a.group.sym.sub_lt hlH he)
  refine equivariantLayer_up hP (D := List.range a.group.group.order) (T := H) (dx := g.map fun _ => "") (dy := a.subgroup)
    (fun B => C36_layers_batchwise hl hf B m hmd) hx0 hy0 hys0 ?_ rfl hm hm' hl.elements ?_ ⟨rfl, hl.elements⟩ (.inr hHr)
    (.inr fun e he => he) hA hAH ?_
  · cases g <;> rfl
  · cases g with
    | none => rfl
    | some g => exact ⟨f.size g rfl, hown⟩
  · intro x y B hx hy
    exact C25_refused_or_equivariant_partial hl hf hallow hs hd (sub_grid hP hm) hdil x B hx y hy

/-- C37: so is a pooling layer, under the conditions of C34. -/
theorem C37_pooling_layer [Field α] [LinearOrder α] {n : GroupName} {a : PoolArgs} {bt : Option Nat} {g : Nat}
    {C : Nat} {P H A : List Nat} {l : GroupPooling} {m m' : List Nat} {C' : Nat} (hl : BuiltPool a bt m g C H l)
    (hf : a.dataFormat = .channelsLast) (hallow : a.allowNonEquivariance = false) (opt : PadOption)
    (hopt : formatPaddingOption a.padding = .ok opt)
    (hK : a.group.Grid a.poolSize) (hs : a.group.Grid a.windowStrides)
    (hok : ∀ i, i < a.group.dim → PoolOk opt (nth m i) (nth a.poolSize i) (a.strides.map fun s => nth s i))
    (x0 y0 : Tensor α) (B0 : Nat) (hx0 : x0.shape = sigShape .channelsLast B0 m (some g) C) (hy0 : l.call x0 = .ok y0)
    (hys0 : y0.shape = sigShape .channelsLast B0 m' (some H.length) C') (hm : n.Grid m) (hm' : n.Grid m')
    (hP : lookup n.group.subgroup a.group.group.name = .ok P) (acting : Option String)
    (hA : n.group.sub (n.group.parseSubgroup acting) = .ok A) (hAH : ∀ e ∈ A, e ∈ H.map (nth P)) :
    EquivariantLayer n .channelsLast acting A.length ⟨m, some g, C, some a.group.group.name⟩
      ⟨m', some H.length, C', a.group.group.parseSubgroup a.subgroup⟩ (fun x : Tensor α => l.call x) := by
  have hmd : m.length = a.group.dim := hl.dims
  have hown : lookup a.group.group.subgroup a.group.group.name = .ok (List.range a.group.group.order) := a.group.sym.tab.own
  have hHr : ∀ e ∈ H, e ∈ List.range a.group.group.order := by
    obtain ⟨sH, _, hlH⟩ := parse_sub hl.elements
    intro e he
    exact List.mem_range.2 (a.group.sym.sub_lt hlH he)
  obtain ⟨_, _, _, _, _, _, hgo, _⟩ := hl.facts hf
  refine equivariantLayer_up hP (D := List.range a.group.group.order) (T := H) (dx := some "") (dy := a.subgroup)
    (fun B => C36_pooling_batchwise hl hf B m hmd) hx0 hy0 hys0 rfl rfl hm hm' hl.elements ⟨by simpa using hgo, hown⟩
    ⟨rfl, hl.elements⟩ (.inr hHr) (.inr fun e he => he) hA hAH ?_
  intro x y B hx hy
  exact C34_pooling_equivariant_partial hl hf hallow opt hopt (sub_grid hP hm) hK hs hok x B hx y hy

/-- C37: so is a transposed convolution, under the conditions of C31: it takes signals on its subgroup to signals on its
group and commutes with its subgroup. -/
theorem C37_transposed_layer [Semiring α] {n : GroupName} {a : ConvArgs α} {bt : Option Nat} {g : Option Nat}
    {C : Nat} {k0 b0 : List Nat → α} {P H A : List Nat} {l : GroupConv α} {m m' : List Nat} {C' : Nat}
    (hl : BuiltConv a true bt m g C k0 b0 H l)
    (hf : a.dataFormat = .channelsLast) (hallow : a.allowNonEquivariance = false)
    (hs : a.group.Grid a.strides) (hd : a.group.Grid a.dilation)
    (hok : ∀ opt, formatPaddingOption a.padding = .ok opt → ∀ i, i < a.group.dim →
      TransposeOk opt (nth m i) (nth a.kernelSize i) (nth a.strides i) (nth a.dilation i))
    (x0 y0 : Tensor α) (B0 : Nat) (hx0 : x0.shape = sigShape .channelsLast B0 m g C) (hy0 : (l.call x0).2 = .ok y0)
    (hys0 : y0.shape = sigShape .channelsLast B0 m' (some a.group.group.order) C') (hm : n.Grid m) (hm' : n.Grid m')
    (hP : lookup n.group.subgroup a.group.group.name = .ok P) (acting : Option String)
    (hA : n.group.sub (n.group.parseSubgroup acting) = .ok A) (hAH : ∀ e ∈ A, e ∈ H.map (nth P)) :
    EquivariantLayer n .channelsLast acting A.length ⟨m, g, C, g.bind fun _ => a.group.group.parseSubgroup a.subgroup⟩
      ⟨m', some a.group.group.order, C', some a.group.group.name⟩ (fun x => (l.call x).2) := by
  obtain ⟨opt, kp, hopt, hkp, f, hst⟩ := hl.facts_last hf
  have hmd : m.length = a.group.dim := hl.dims
  have hown : lookup a.group.group.subgroup a.group.group.name = .ok (List.range a.group.group.order) := a.group.sym.tab.own
  obtain ⟨sH, hsH, hlH⟩ := parse_sub hl.elements
  have hHr : ∀ e ∈ H, e ∈ List.range a.group.group.order := by
    intro e he
    exact List.mem_range.2 (a.group.sym.sub_lt hlH he)
  have hsub : a.subgroup = some (a.subgroup.getD "") := by
    cases ha : a.subgroup with
    | none => rw [ha] at hsH; cases hsH
    | some s => rfl
  refine equivariantLayer_up hP (D := H) (T := List.range a.group.group.order) (dx := g.map fun _ => a.subgroup.getD "")
    (dy := some "") (fun B => C36_layers_batchwise hl hf B m hmd) hx0 hy0 hys0 ?_ rfl hm hm' hl.elements ?_
    ⟨by simp, hown⟩ (.inr fun e he => he) (.inr hHr) hA hAH ?_
  · cases g with
    | none => rfl
    | some g =>
      show a.group.group.parseSubgroup a.subgroup = a.group.group.parseSubgroup (some (a.subgroup.getD ""))
      rw [← hsub]
  · cases g with
    | none => rfl
    | some g =>
      refine ⟨f.size g rfl, ?_⟩
      show a.group.group.sub (a.group.group.parseSubgroup (some (a.subgroup.getD ""))) = .ok H
      rw [← hsub]
      exact hl.elements
  · intro x y B hx hy
    exact C31_transpose_equivariant_partial hl hf hallow hs hd (sub_grid hP hm) hok x B hx y hy

/-! ### An example: a P4 lifting layer, a P4 layer ending on P2, a pooling layer over P2 -/

def stackLift : ConvArgs ℚ :=
  { group := .P4, subgroup := some "", kernelSize := [3, 3], strides := [1, 1], padding := "same_equiv",
    allowNonEquivariance := false, dataFormat := .channelsLast, filters := 2, dilation := [1, 1], useBias := true,
    activation := fun x => max x 0 }

def stackDown : ConvArgs ℚ := { stackLift with subgroup := some "P2", filters := 1 }

def stackPool : PoolArgs :=
  { group := .P2, subgroup := some "", poolType := .max, poolSize := [2, 2], strides := some [2, 2], padding := "valid_equiv",
    allowNonEquivariance := false, dataFormat := .channelsLast }

set_option maxRecDepth 8000 in
/-- hypotheses of C37 are met: on 4x4 images with three channels the three layers are a stack equivariant to P2 -/
theorem stack_example : ∃ (l1 l2 : GroupConv ℚ) (l3 : GroupPooling),
    EquivariantStack .P4 .channelsLast (some "P2") 2 ⟨[4, 4], none, 3, none⟩ ⟨[2, 2], some 2, 1, some "P2"⟩
      [fun x => (l1.call x).2, fun x => (l2.call x).2, fun x => l3.call x] := by
  have hd : ∀ opt, ∀ i, i < 2 → DilationOk opt (nth [3, 3] i) (nth [1, 1] i) (nth [1, 1] i) := by
    intro opt i hi
    obtain rfl | rfl : i = 0 ∨ i = 1 := by omega
    all_goals exact .inl rfl
  have h1 := C37_convolution_layer (n := .P4) (a := stackLift) (bt := none) (g := none) (C := 3) (k0 := fun _ => 1) (b0 := fun _ => 0)
    (P := [0, 1, 2, 3]) (H := [0, 1, 2, 3]) (A := [0, 2]) (m := [4, 4]) (m' := [4, 4]) (C' := 2) ⟨⟨_, rfl, rfl⟩, rfl, rfl⟩ rfl rfl ⟨rfl, rfl⟩
    ⟨rfl, rfl⟩ (fun opt _ => hd opt) ⟨[1, 4, 4, 3], fun _ => 1⟩ _ 1 rfl rfl rfl ⟨rfl, rfl⟩ ⟨rfl, rfl⟩ rfl (some "P2") rfl (by decide)
  have h2 := C37_convolution_layer (n := .P4) (a := stackDown) (bt := none) (g := some 4) (C := 2) (k0 := fun _ => 1) (b0 := fun _ => 0)
    (P := [0, 1, 2, 3]) (H := [0, 2]) (A := [0, 2]) (m := [4, 4]) (m' := [4, 4]) (C' := 1) ⟨⟨_, rfl, rfl⟩, rfl, rfl⟩ rfl rfl ⟨rfl, rfl⟩
    ⟨rfl, rfl⟩ (fun opt _ => hd opt) ⟨[1, 4, 4, 4, 2], fun _ => 1⟩ _ 1 rfl rfl rfl ⟨rfl, rfl⟩ ⟨rfl, rfl⟩ rfl (some "P2") rfl (by decide)
  have h3 := C37_pooling_layer (α := ℚ) (n := .P4) (a := stackPool) (bt := none) (g := 2) (C := 1)
    (P := [0, 2]) (H := [0, 1]) (A := [0, 2]) (m := [4, 4]) (m' := [2, 2]) (C' := 1) ⟨⟨_, rfl, rfl⟩, rfl, rfl⟩ rfl rfl .validEquiv rfl ⟨rfl, trivial⟩
    ⟨rfl, trivial⟩ (fun i _ h => by cases h) ⟨[1, 4, 4, 2, 1], fun _ => 1⟩ _ 1 rfl rfl rfl ⟨rfl, rfl⟩ ⟨rfl, rfl⟩ rfl (some "P2") rfl (by decide)
  exact ⟨_, _, _, .cons h1 (.cons h2 (.cons h3 (.nil _)))⟩

/-- with global pooling at the end they are invariant: the hypotheses of `C37_stack_invariant` are met as well -/
example : ∃ (l1 l2 : GroupConv ℚ) (l3 : GroupPooling), ∀ x : Tensor ℚ, x.shape = [5, 4, 4, 3] →
    ∃ y gx, sequential [fun x => (l1.call x).2, fun x => (l2.call x).2, fun x => l3.call x,
        (GlobalGroupPooling.mk 2 .max false .channelsLast).call] x = .ok y ∧
      GroupName.P4.group.action x [1, 2] 0 (some 3) (some "P2") none = .ok gx ∧ gx.shape = 2 :: x.shape ∧
      ∀ i, i < 2 → ∃ z, sequential [fun x => (l1.call x).2, fun x => (l2.call x).2, fun x => l3.call x,
        (GlobalGroupPooling.mk 2 .max false .channelsLast).call] (slice gx 0 i) = .ok z ∧ z.Same y := by
  obtain ⟨l1, l2, l3, h⟩ := stack_example
  exact ⟨l1, l2, l3, fun x hx => C37_stack_invariant .P4 (GlobalGroupPooling.mk 2 .max false .channelsLast) rfl (some "P2")
    [0, 2] [0, 2] rfl _ _ _ h ⟨rfl, rfl⟩ (by decide) rfl rfl (by decide) x 5 hx⟩

def stackUp : ConvArgs ℚ := { stackLift with subgroup := some "P2", kernelSize := [2, 2], strides := [2, 2], padding := "valid" }

set_option maxRecDepth 8000 in
/-- and for the transposed layer, from signals on P2 to signals on P4 -/
example : ∃ l : GroupConv ℚ, EquivariantLayer .P4 .channelsLast (some "P2") 2 ⟨[4, 4], some 2, 1, some "P2"⟩
    ⟨[8, 8], some 4, 2, some "P4"⟩ (fun x => (l.call x).2) := by
  have hb : ∃ l y, BuiltConv stackUp true none [4, 4] (some 2) 1 (fun _ => 1) (fun _ => 0) [0, 2] l ∧
      (l.call ⟨[1, 4, 4, 2, 1], fun _ => 1⟩).2 = .ok y ∧ y.shape = [1, 8, 8, 4, 2] :=
    ⟨_, _, ⟨⟨_, rfl, rfl⟩, rfl, rfl⟩, rfl, rfl⟩
  obtain ⟨l, y, hl, hy, hs⟩ := hb
  refine ⟨l, C37_transposed_layer (n := .P4) (P := [0, 1, 2, 3]) (A := [0, 2]) (m' := [8, 8]) (C' := 2) hl rfl rfl ⟨rfl, rfl⟩ ⟨rfl, rfl⟩ ?_
    ⟨[1, 4, 4, 2, 1], fun _ => 1⟩ y 1 rfl hy hs ⟨rfl, rfl⟩ ⟨rfl, rfl⟩ rfl (some "P2") rfl (by decide)⟩
  intro opt h i hi
  obtain rfl : PadOption.valid = opt := by cases h; rfl
  obtain rfl | rfl : i = 0 ∨ i = 1 := by { change i < 2 at hi; omega }
  all_goals exact ⟨by decide, .inl rfl, .inl rfl⟩

end GroCo
