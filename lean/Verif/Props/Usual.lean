import Verif.Props.Stack
import Verif.Props.Build
import Verif.Props.Conv
import Verif.Props.Transpose
import Verif.Props.Pooling
import Verif.Props.Check

/-
Property C74: layers in the usual configurations are accepted, keep or divide the sizes of the grid and are equivariant, from the
arguments alone; so is the model of tests/test_model.py.
-/

namespace GroCo
open Tensor

variable {α : Type}

/-- sizes after a layer with kernel or pool sizes `K`, strides `s` and `own` zeros -/
def sampledSizes (opt : PadOption) (m K s : List Nat) : List Nat :=
  (List.range m.length).map fun i => (nth m i + builtIn opt (nth m i) (nth K i) (nth s i) - nth K i) / nth s i + 1

/-- The windows fit, and sample every axis symmetrically without further zeros. -/
def SampledOk (opt : PadOption) (m K s : List Nat) : Prop :=
  ∀ i, i < m.length → Symmetric (nth m i) (nth K i) (nth s i) (builtIn opt (nth m i) (nth K i) (nth s i)) ∧
    nth K i ≤ nth m i + builtIn opt (nth m i) (nth K i) (nth s i)

theorem sampled_grid (n : GroupName) (opt : PadOption) {m K s : List Nat} (hm : n.Grid m) (hK : n.Grid K) (hs : n.Grid s) :
    n.Grid (sampledSizes opt m K s) := by
  have hl := n.sym.okLen m hm
  refine grid_of_sizes n hm hK hs hs (by simp [sampledSizes, hl]) (fun m k s _ => (m + builtIn opt m k s - k) / s + 1) ?_
  intro i hi
  rw [← hl] at hi
  simp [sampledSizes, nth, hi]

theorem ones_grid (n : GroupName) : n.Grid (List.replicate n.dim 1) := by
  apply n.grid_of (by simp)
  intro i j hi hj _
  simp [nth, hi, hj]

/-- C74: a convolution layer whose windows sample the grid symmetrically is accepted, returns for every signal, and is
equivariant. -/
theorem C74_convolution [Semiring α] (n : GroupName) (a : ConvArgs α) (opt : PadOption) (kp : KerasPadding)
    (hpad : Accepted a.padding opt kp) (hz : SizesOk a) (hf : a.dataFormat = .channelsLast) (hallow : a.allowNonEquivariance = false)
    (hdil : a.dilation = List.replicate a.group.dim 1) (hK : n.Grid a.kernelSize) (hs : n.Grid a.strides) (m : List Nat) (hm : n.Grid m)
    (hok : SampledOk opt m a.kernelSize a.strides) (g : Option Nat) (hg : g = none ∨ g = some a.group.group.order) (C : Nat)
    (P H A : List Nat) (hP : lookup n.group.subgroup a.group.group.name = .ok P)
    (hH : a.group.group.sub (a.group.group.parseSubgroup a.subgroup) = .ok H) (acting : Option String)
    (hA : n.group.sub (n.group.parseSubgroup acting) = .ok A) (hAH : ∀ e ∈ A, e ∈ H.map (nth P)) (k0 b0 : List Nat → α) :
    ∃ l, BuiltConv a false none m g C k0 b0 H l ∧
      EquivariantLayer n .channelsLast acting A.length ⟨m, g, C, g.map fun _ => a.group.group.name⟩
        ⟨sampledSizes opt m a.kernelSize a.strides, some H.length, a.filters, a.group.group.parseSubgroup a.subgroup⟩
        (fun x => (l.call x).2) := by
  have hopt := ((accepted_iff _ _ _).2 hpad).1
  have hkp := ((accepted_iff _ _ _).2 hpad).2
  have hmd : m.length = a.group.dim := a.group.sym.okLen m (sub_grid hP hm)
  have hd1 : ∀ i, i < a.group.dim → nth a.dilation i = 1 := by
    intro i hi
    rw [hdil]
    simp [nth, hi]
  have hdk : ∀ i, i < a.group.dim → dilated (nth a.kernelSize i) (nth a.dilation i) = nth a.kernelSize i := by
    intro i hi
    have : nth a.kernelSize i ≠ 0 := fun h => hz.kernels.2 (h ▸ nth_mem _ _ (by rw [hz.kernels.1]; exact hi))
    rw [hd1 i hi, dilated]
    omega
  obtain ⟨l, hl⟩ := (C44_convolution a hf none m g C k0 b0 H hmd hH).2 ⟨opt, kp, hpad, hz, hg, sub_grid hP hK, by
    intro i hi
    have := (hok i (hmd ▸ hi)).1
    cases opt <;> first | exact .inr this | exact ⟨_, this⟩, by
    intro hv i hi
    have h2 := (hok i (hmd ▸ hi)).2
    have : builtIn opt (nth m i) (nth a.kernelSize i) (nth a.strides i) = 0 := by
      have := padding_agree hopt hkp
      cases opt <;> simp_all [builtIn, kerasOf]
    rw [hdk i hi]
    omega⟩
  refine ⟨l, hl, ?_⟩
  have hcall : ∀ (x : Tensor α) (B : Nat), x.shape = sigShape .channelsLast B m g C → ∃ y, (l.call x).2 = .ok y ∧
      y.shape = sigShape .channelsLast B (sampledSizes opt m a.kernelSize a.strides) (some H.length) a.filters := by
    intro x B hx
    obtain ⟨before, after, src, h1, -, h2, h3⟩ := C22_group_convolution hl hf opt hopt x B m hmd hx
    have hb : ∀ i, i < a.group.dim → nth before i + nth m i + nth after i =
        nth m i + builtIn opt (nth m i) (nth a.kernelSize i) (nth a.strides i) := by
      intro i hi
      obtain ⟨e, he, e1, e2⟩ := h1 i hi
      have he0 : e = 0 := by
        have := (hok i (hmd ▸ hi)).1
        cases opt <;> simp only at he
        · exact he
        · exact he
        · have := he.2 0 (by simpa using this)
          omega
        · have := he.2 0 (by simpa using this)
          omega
      subst he0
      rw [hdk i hi] at e2
      simp only [Nat.add_zero, Nat.zero_add] at e2
      omega
    obtain ⟨y, hy⟩ := h2.2 fun i hi => by
      rw [hb i hi, hdk i hi]
      exact (hok i (hmd ▸ hi)).2
    refine ⟨y, hy, ?_⟩
    rw [(h3 y hy).1]
    congr 1
    unfold sampledSizes
    rw [hmd]
    apply List.map_congr_left
    intro i hi
    rw [hb i (List.mem_range.1 hi), hdk i (List.mem_range.1 hi)]
  obtain ⟨y, hy, hys⟩ := hcall ⟨sigShape .channelsLast 1 m g C, fun _ => 0⟩ 1 rfl
  exact C37_convolution_layer hl hf hallow (sub_grid hP hs) (hdil ▸ ones_grid _) (fun _ _ i hi => .inl (hd1 i hi)) _ y 1 rfl hy hys hm
    (sampled_grid n opt hm hK hs) hP acting hA hAH

/-- C74: a pooling layer whose windows fit and sample the grid symmetrically is accepted, returns for every signal, and is
equivariant. -/
theorem C74_pooling [Field α] [LinearOrder α] (n : GroupName) (a : PoolArgs) (opt : PadOption) (kp : KerasPadding)
    (hpad : Accepted a.padding opt kp) (hf : a.dataFormat = .channelsLast) (hallow : a.allowNonEquivariance = false)
    (hK : n.Grid a.poolSize) (h0 : 0 ∉ a.poolSize) (hs : ∀ s, a.strides = some s → n.Grid s ∧ 0 ∉ s) (m : List Nat) (hm : n.Grid m)
    (hok : ∀ i, i < m.length → Symmetric (nth m i) (nth a.poolSize i) (nth a.paddingStrides i)
        (builtIn opt (nth m i) (nth a.poolSize i) (nth a.paddingStrides i)) ∧
      PoolOk opt (nth m i) (nth a.poolSize i) (a.strides.map fun s => nth s i) ∧
      nth a.poolSize i ≤ nth m i + builtIn opt (nth m i) (nth a.poolSize i) (nth a.windowStrides i)) (C : Nat)
    (P H A : List Nat) (hP : lookup n.group.subgroup a.group.group.name = .ok P)
    (hH : a.group.group.sub (a.group.group.parseSubgroup a.subgroup) = .ok H) (acting : Option String)
    (hA : n.group.sub (n.group.parseSubgroup acting) = .ok A) (hAH : ∀ e ∈ A, e ∈ H.map (nth P)) :
    ∃ l, BuiltPool a none m a.group.group.order C H l ∧
      EquivariantLayer n .channelsLast acting A.length ⟨m, some a.group.group.order, C, some a.group.group.name⟩
        ⟨sampledSizes opt m a.poolSize a.windowStrides, some H.length, C, a.group.group.parseSubgroup a.subgroup⟩
        (fun x : Tensor α => l.call x) := by
  have hopt := ((accepted_iff _ _ _).2 hpad).1
  have hmd : m.length = a.group.dim := a.group.sym.okLen m (sub_grid hP hm)
  have hw : n.Grid a.windowStrides := by
    unfold PoolArgs.windowStrides
    cases h : a.strides with
    | none => exact hK
    | some s => exact (hs s h).1
  obtain ⟨l, hl⟩ := (C44_pooling a hf none m a.group.group.order C H hmd hH).2 ⟨opt, kp, hpad,
    ⟨a.group.sym.okLen _ (sub_grid hP hK), h0⟩, fun s h => ⟨a.group.sym.okLen _ (sub_grid hP (hs s h).1), (hs s h).2⟩, rfl, by
    intro i hi
    have := (hok i (hmd ▸ hi)).1
    cases opt <;> first | exact .inr this | exact ⟨_, this⟩⟩
  refine ⟨l, hl, ?_⟩
  have hcall : ∀ (x : Tensor α) (B : Nat), x.shape = sigShape .channelsLast B m (some a.group.group.order) C → ∃ y, l.call x = .ok y ∧
      y.shape = sigShape .channelsLast B (sampledSizes opt m a.poolSize a.windowStrides) (some H.length) C := by
    intro x B hx
    obtain ⟨cos, lo, hi', skip, skip', -, h1, h2⟩ := C33_uniform (α := α) hl hf opt hopt m hmd
    obtain ⟨h2, h3⟩ := h2 x B hx
    have hb : ∀ i, i < a.group.dim → nth skip i + (nth lo i + nth m i + nth hi' i) + nth skip' i =
        nth m i + builtIn opt (nth m i) (nth a.poolSize i) (nth a.windowStrides i) := by
      intro i hi
      obtain ⟨e, he, e1, e2, e3, e4⟩ := h1 i hi
      have he0 : e = 0 := by
        have := (hok i (hmd ▸ hi)).1
        cases opt <;> simp only at he
        · exact he
        · exact he
        · have := he.2 0 (by simpa using this)
          omega
        · have := he.2 0 (by simpa using this)
          omega
      subst he0
      simp only [Nat.add_zero] at e4
      omega
    obtain ⟨y, hy⟩ := h2.2 fun i hi => by
      rw [hb i hi]
      exact (hok i (hmd ▸ hi)).2.2
    refine ⟨y, hy, ?_⟩
    rw [(h3 y hy).1]
    congr 1
    unfold sampledSizes
    rw [hmd]
    apply List.map_congr_left
    intro i hi
    rw [hb i (List.mem_range.1 hi)]
  obtain ⟨y, hy, hys⟩ := hcall ⟨sigShape .channelsLast 1 m (some a.group.group.order) C, fun _ => 0⟩ 1 rfl
  exact C37_pooling_layer hl hf hallow opt hopt (sub_grid hP hK) (sub_grid hP hw) (fun i hi => (hok i (hmd ▸ hi)).2.1) _ y 1 rfl hy hys
    hm (sampled_grid n opt hm hK hw) hP acting hA hAH

/-- sizes after a transposed convolution with kernel sizes `K` and strides `s` -/
def upsampledSizes (opt : PadOption) (m K s : List Nat) : List Nat :=
  (List.range m.length).map fun i => nth m i * nth s i + match opt with
    | .valid | .validEquiv => nth K i - nth s i
    | .same | .sameEquiv => 0

theorem upsampled_grid (n : GroupName) (opt : PadOption) {m K s : List Nat} (hm : n.Grid m) (hK : n.Grid K) (hs : n.Grid s) :
    n.Grid (upsampledSizes opt m K s) := by
  have hl := n.sym.okLen m hm
  refine grid_of_sizes n hm hK hs hs (by simp [upsampledSizes, hl]) (fun m k s _ => m * s + match opt with
    | .valid | .validEquiv => k - s
    | .same | .sameEquiv => 0) ?_
  intro i hi
  rw [← hl] at hi
  simp [upsampledSizes, nth, hi]

/-- C74: a transposed convolution layer that needs no padding and crops symmetrically is accepted, returns for every signal, and
is equivariant. -/
theorem C74_transposed [Semiring α] (n : GroupName) (a : ConvArgs α) (opt : PadOption) (kp : KerasPadding)
    (hpad : Accepted a.padding opt kp) (hz : SizesOk a) (hf : a.dataFormat = .channelsLast) (hallow : a.allowNonEquivariance = false)
    (hdil : a.dilation = List.replicate a.group.dim 1) (hK : n.Grid a.kernelSize) (hs : n.Grid a.strides) (m : List Nat) (hm : n.Grid m)
    (hok : ∀ i, i < m.length → Symmetric (nth m i) (nth a.kernelSize i) (nth a.strides i)
        (builtIn opt (nth m i) (nth a.kernelSize i) (nth a.strides i)) ∧
      TransposeOk opt (nth m i) (nth a.kernelSize i) (nth a.strides i) 1 ∧ NeverPads opt (nth a.kernelSize i) (nth a.strides i))
    (P H A : List Nat) (hP : lookup n.group.subgroup a.group.group.name = .ok P)
    (hH : a.group.group.sub (a.group.group.parseSubgroup a.subgroup) = .ok H) (g : Option Nat) (hg : g = none ∨ g = some H.length)
    (C : Nat) (acting : Option String) (hA : n.group.sub (n.group.parseSubgroup acting) = .ok A)
    (hAH : ∀ e ∈ A, e ∈ H.map (nth P)) (k0 b0 : List Nat → α) :
    ∃ l, BuiltConv a true none m g C k0 b0 H l ∧
      EquivariantLayer n .channelsLast acting A.length ⟨m, g, C, g.bind fun _ => a.group.group.parseSubgroup a.subgroup⟩
        ⟨upsampledSizes opt m a.kernelSize a.strides, some a.group.group.order, a.filters, some a.group.group.name⟩
        (fun x => (l.call x).2) := by
  have hopt := ((accepted_iff _ _ _).2 hpad).1
  have hkp := ((accepted_iff _ _ _).2 hpad).2
  have hmd : m.length = a.group.dim := a.group.sym.okLen m (sub_grid hP hm)
  have hd1 : ∀ i, i < a.group.dim → nth a.dilation i = 1 := by
    intro i hi
    rw [hdil]
    simp [nth, hi]
  have hdk : ∀ i, i < a.group.dim → dilated (nth a.kernelSize i) (nth a.dilation i) = nth a.kernelSize i := by
    intro i hi
    have : nth a.kernelSize i ≠ 0 := fun h => hz.kernels.2 (h ▸ nth_mem _ _ (by rw [hz.kernels.1]; exact hi))
    rw [hd1 i hi, dilated]
    omega
  obtain ⟨l, hl⟩ := (C44_transposed a hf none m g C k0 b0 H hmd hH).2 ⟨opt, kp, hpad, hz, hg, sub_grid hP hK, by
    intro i hi
    obtain ⟨h1, h2, -⟩ := hok i (hmd ▸ hi)
    have hag := padding_agree hopt hkp
    have h3 : nth a.strides i - nth a.kernelSize i = 0 := Nat.sub_eq_zero_of_le h2.1
    cases opt <;> simp only [kerasOf] at hag <;> subst hag
    · exact .inr (by simpa [builtIn] using h1)
    · exact .inr (by simpa [builtIn, h3] using h1)
    · exact ⟨_, h1⟩
    · exact ⟨_, h1⟩⟩
  refine ⟨l, hl, ?_⟩
  have hcall : ∀ (x : Tensor α) (B : Nat), x.shape = sigShape .channelsLast B m g C → ∃ y, (l.call x).2 = .ok y ∧
      y.shape = sigShape .channelsLast B (upsampledSizes opt m a.kernelSize a.strides) (some a.group.group.order) a.filters := by
    intro x B hx
    obtain ⟨opt', before, after, crop, kernel, w, y, ho, -, -, hpad', -, hy, hys, -⟩ := C41_transposed_convolution hl hf x B m hmd hx
    rw [hopt] at ho
    cases ho
    obtain ⟨opt', kp', e1, e2, f, hst⟩ := hl.facts_last hf
    rw [hopt] at e1
    cases e1
    have hno : l.transforms.padState = ⟨false, []⟩ := never_pads f.kernelLen f.kernelPos
      (fun i hi => (hok i (hmd ▸ hi)).2.2) hst
    refine ⟨y, hy, ?_⟩
    rw [hys]
    refine congrArg (fun z => sigShape .channelsLast B z (some a.group.group.order) a.filters) ?_
    unfold upsampledSizes
    rw [hmd]
    apply List.map_congr_left
    intro i hi
    have hi := List.mem_range.1 hi
    have := hpad' i hi
    rw [hno] at this
    have h1 := congrArg Prod.fst this
    have h2 := congrArg Prod.snd this
    have hz0 : (PadState.mk false []).amount (i + 1) = (0, 0) := rfl
    rw [hz0] at h1 h2
    simp only at h1 h2
    rw [hdk i hi, show nth before i = 0 by omega, show nth after i = 0 by omega, Nat.zero_add, Nat.add_zero]
    cases opt <;> rfl
  obtain ⟨y, hy, hys⟩ := hcall ⟨sigShape .channelsLast 1 m g C, fun _ => 0⟩ 1 rfl
  refine C37_transposed_layer hl hf hallow (sub_grid hP hs) (hdil ▸ ones_grid _) ?_ _ y 1 rfl hy hys hm
    (upsampled_grid n opt hm hK hs) hP acting hA hAH
  intro opt' ho i hi
  rw [hopt] at ho
  cases ho
  rw [hd1 i hi]
  exact (hok i (hmd ▸ hi)).2.1

/-! ### the layers of tests/test_model.py -/

/-- `GroupConv2D(group, kernel_size=k, filters=F, padding="same_equiv")` and the same for the other layers: all other arguments at
their defaults -/
def usualConv (n : GroupName) (k F : Nat) (act : α → α) : ConvArgs α :=
  { group := n, subgroup := some "", kernelSize := List.replicate n.dim k, strides := List.replicate n.dim 1, padding := "same_equiv",
    allowNonEquivariance := false, dataFormat := .channelsLast, filters := F, dilation := List.replicate n.dim 1, useBias := true,
    activation := act }

/-- `GroupMaxPooling2D(group, pool_size=k)` and the same for the other pooling layers: all other arguments at their defaults -/
def usualPool (n : GroupName) (t : PoolType) (k : Nat) : PoolArgs :=
  { group := n, subgroup := some "", poolType := t, poolSize := List.replicate n.dim k, strides := none, padding := "valid",
    allowNonEquivariance := false, dataFormat := .channelsLast }

theorem const_grid (n : GroupName) (k : Nat) : n.Grid (List.replicate n.dim k) := by
  apply n.grid_of (by simp)
  intro i j hi hj _
  simp [nth, hi, hj]

theorem nth_const {d k i : Nat} (h : i < d) : nth (List.replicate d k) i = k := by simp [nth, h]

theorem nth_tabulate {d i : Nat} {f : Nat → Nat} (h : i < d) : nth ((List.range d).map f) i = f i := by simp [nth, h]

theorem own_sub (n : GroupName) : n.group.sub (n.group.parseSubgroup (some "")) = .ok (List.range n.group.order) := n.sym.tab.own

theorem own_sub' (n : GroupName) : n.group.parseSubgroup (some n.group.name) = some n.group.name := by
  cases n <;> rfl

theorem own_map (d : Nat) : ∀ e ∈ List.range d, e ∈ (List.range d).map (nth (List.range d)) := by
  intro e he
  have := List.mem_range.1 he
  exact List.mem_map.2 ⟨e, he, by simp [nth, this]⟩

theorem usual_sizes (n : GroupName) {k F : Nat} (hk : k % 2 = 1) (hF : 0 < F) (act : α → α) : SizesOk (usualConv n k F act) := by
  refine ⟨⟨by simp [usualConv], ?_⟩, ⟨by simp [usualConv], ?_⟩, ⟨by simp [usualConv], ?_⟩, hF, .inr ?_⟩
  · intro h
    have := List.eq_of_mem_replicate h
    omega
  · intro h
    have := List.eq_of_mem_replicate h
    omega
  · intro h
    have := List.eq_of_mem_replicate h
    omega
  · intro r h
    exact List.eq_of_mem_replicate h

theorem list_eq_nth {l l' : List Nat} (hl : l.length = l'.length) (h : ∀ i, i < l.length → nth l i = nth l' i) : l = l' := by
  apply List.ext_getElem hl
  intro i h1 h2
  have := h i h1
  rwa [nth_eq_getElem _ _ h1, nth_eq_getElem _ _ h2] at this

/-- C74: with odd kernels, 'same_equiv' and everything else at its default, a convolution layer is accepted on every grid the group
acts on, keeps its sizes and is equivariant, for all weights. -/
theorem C74_usual_convolution [Semiring α] (n : GroupName) (k F : Nat) (hk : k % 2 = 1) (hF : 0 < F) (act : α → α) (m : List Nat)
    (hm : n.Grid m) (h0 : 0 ∉ m) (g : Option Nat) (hg : g = none ∨ g = some n.group.order) (C : Nat) (k0 b0 : List Nat → α) :
    ∃ l, BuiltConv (usualConv n k F act) false none m g C k0 b0 (List.range n.group.order) l ∧
      EquivariantLayer n .channelsLast (some "") n.group.order ⟨m, g, C, g.map fun _ => n.group.name⟩
        ⟨m, some n.group.order, F, some n.group.name⟩ (fun x => (l.call x).2) := by
  have hml := n.sym.okLen m hm
  have hz := usual_sizes n hk hF act
  have hpos : ∀ i, i < m.length → 0 < nth m i := fun i hi => Nat.pos_of_ne_zero fun h => h0 (h ▸ nth_mem _ _ hi)
  have hst : ∀ i, i < m.length → sameTotal (nth m i) k 1 = k - 1 := by
    intro i hi
    simp [sameTotal, Nat.mod_one]
  have hout : sampledSizes .sameEquiv m (usualConv n k F act).kernelSize (usualConv n k F act).strides = m := by
    apply list_eq_nth (by simp [sampledSizes])
    intro i hi
    have hi : i < m.length := by simpa [sampledSizes] using hi
    have := hpos i hi
    have hk1 : nth (usualConv n k F act).kernelSize i = k := nth_const (by omega)
    have hs1 : nth (usualConv n k F act).strides i = 1 := nth_const (by omega)
    rw [sampledSizes, nth_tabulate hi, hk1, hs1]
    simp only [builtIn, hst i hi, Nat.div_one]
    omega
  have h := C74_convolution n (usualConv n k F act) .sameEquiv .same
    (C39_documented_names ("same_equiv", .sameEquiv, .same) (by decide)) hz rfl rfl rfl (const_grid n k) (const_grid n 1) m hm (by
      intro i hi
      have hk1 : nth (usualConv n k F act).kernelSize i = k := nth_const (by omega)
      have hs1 : nth (usualConv n k F act).strides i = 1 := nth_const (by omega)
      have := hpos i hi
      rw [hk1, hs1]
      simp only [builtIn, hst i hi]
      exact ⟨⟨by omega, Int.emod_one _⟩, by omega⟩) g hg C (List.range n.group.order) (List.range n.group.order)
    (List.range n.group.order) n.sym.tab.own (own_sub n) (some "") (own_sub n) (own_map _) k0 b0
  rw [hout, List.length_range] at h
  exact h

/-- C74: with a pool size dividing the sizes of the grid and everything else at its default, a pooling layer is accepted, divides the
sizes by the pool size and is equivariant. -/
theorem C74_usual_pooling [Field α] [LinearOrder α] (n : GroupName) (t : PoolType) (k : Nat) (hk : 0 < k) (q : List Nat)
    (hq : n.Grid q) (h0 : 0 ∉ q) (C : Nat) :
    ∃ l, BuiltPool (usualPool n t k) none (q.map fun i => i * k) n.group.order C (List.range n.group.order) l ∧
      EquivariantLayer n .channelsLast (some "") n.group.order ⟨q.map fun i => i * k, some n.group.order, C, some n.group.name⟩
        ⟨q, some n.group.order, C, some n.group.name⟩ (fun x : Tensor α => l.call x) := by
  have hql := n.sym.okLen q hq
  have hmi : ∀ i, i < q.length → nth (q.map fun i => i * k) i = nth q i * k := by
    intro i hi
    simp [nth, hi]
  have hm : n.Grid (q.map fun i => i * k) := grid_of_sizes n hq hq hq hq (by simpa using hql) (fun m _ _ _ => m * k)
    fun i hi => hmi i (by omega)
  have hle : ∀ i, i < q.length → k ≤ nth q i * k := fun i hi =>
    Nat.le_mul_of_pos_left k (Nat.pos_of_ne_zero fun h => h0 (h ▸ nth_mem _ _ hi))
  have hws : (usualPool n t k).windowStrides = List.replicate n.dim k := rfl
  have hout : sampledSizes .valid (q.map fun i => i * k) (usualPool n t k).poolSize (usualPool n t k).windowStrides = q := by
    apply list_eq_nth (by simp [sampledSizes])
    intro i hi
    have hi : i < q.length := by simpa [sampledSizes] using hi
    have hk1 : nth (usualPool n t k).poolSize i = k := nth_const (by omega)
    have hs1 : nth (usualPool n t k).windowStrides i = k := nth_const (by omega)
    have hpos : 0 < nth q i := Nat.pos_of_ne_zero fun h => h0 (h ▸ nth_mem _ _ hi)
    rw [sampledSizes, nth_tabulate (by simpa using hi), hk1, hs1, hmi i hi]
    simp only [builtIn, Nat.add_zero]
    rw [show nth q i * k - k = (nth q i - 1) * k by rw [Nat.sub_mul, Nat.one_mul], Nat.mul_div_cancel _ hk]
    omega
  have h := C74_pooling (α := α) n (usualPool n t k) .valid .valid
    (C39_documented_names ("valid", .valid, .valid) (by decide)) rfl rfl (const_grid n k)
    (fun h => by have := List.eq_of_mem_replicate h; omega) (fun s hs => absurd hs (by simp [usualPool])) _ hm (by
      intro i hi
      have hi : i < q.length := by simpa using hi
      have hk1 : nth (usualPool n t k).poolSize i = k := nth_const (by omega)
      have hs1 : nth (usualPool n t k).paddingStrides i = 1 := nth_const (by show i < n.dim; omega)
      rw [hk1, hs1, hmi i hi]
      refine ⟨⟨rfl, Int.emod_one _⟩, ?_, ?_⟩
      · show nth q i * k % k = 0
        exact Nat.mul_mod_left _ _
      · simpa only [builtIn, Nat.add_zero] using hle i hi) C (List.range n.group.order) (List.range n.group.order)
    (List.range n.group.order) n.sym.tab.own (own_sub n) (some "") (own_sub n) (own_map _)
  rw [hout, List.length_range] at h
  exact h

/-- C74: with odd kernels, 'same_equiv' and everything else at its default, a transposed convolution layer is accepted on every grid
the group acts on, keeps its sizes and is equivariant, for all weights. -/
theorem C74_usual_transposed [Semiring α] (n : GroupName) (k F : Nat) (hk : k % 2 = 1) (hF : 0 < F) (act : α → α) (m : List Nat)
    (hm : n.Grid m) (g : Option Nat) (hg : g = none ∨ g = some n.group.order) (C : Nat) (k0 b0 : List Nat → α) :
    ∃ l, BuiltConv (usualConv n k F act) true none m g C k0 b0 (List.range n.group.order) l ∧
      EquivariantLayer n .channelsLast (some "") n.group.order ⟨m, g, C, g.map fun _ => n.group.name⟩
        ⟨m, some n.group.order, F, some n.group.name⟩ (fun x => (l.call x).2) := by
  have hml := n.sym.okLen m hm
  have hz := usual_sizes n hk hF act
  have hst : ∀ i, i < m.length → sameTotal (nth m i) k 1 = k - 1 := by
    intro i hi
    simp [sameTotal, Nat.mod_one]
  have hout : upsampledSizes .sameEquiv m (usualConv n k F act).kernelSize (usualConv n k F act).strides = m := by
    apply list_eq_nth (by simp [upsampledSizes])
    intro i hi
    have hi : i < m.length := by simpa [upsampledSizes] using hi
    have hs1 : nth (usualConv n k F act).strides i = 1 := nth_const (by omega)
    rw [upsampledSizes, nth_tabulate hi, hs1]
    simp
  have h := C74_transposed n (usualConv n k F act) .sameEquiv .same
    (C39_documented_names ("same_equiv", .sameEquiv, .same) (by decide)) hz rfl rfl rfl (const_grid n k) (const_grid n 1) m hm (by
      intro i hi
      have hk1 : nth (usualConv n k F act).kernelSize i = k := nth_const (by omega)
      have hs1 : nth (usualConv n k F act).strides i = 1 := nth_const (by omega)
      rw [hk1, hs1]
      have hb : builtIn .sameEquiv (nth m i) k 1 = k - 1 := hst i hi
      rw [hb]
      exact ⟨⟨by omega, Int.emod_one _⟩, ⟨by omega, .inl rfl, .inr (.inr ⟨by omega, by rw [hst i hi]; omega⟩)⟩,
        .inr (.inr ⟨rfl, .inr hk⟩)⟩)
    (List.range n.group.order) (List.range n.group.order) (List.range n.group.order) n.sym.tab.own (own_sub n) g
    (by simpa using hg) C (some "") (own_sub n) (own_map _) k0 b0
  rw [hout, List.length_range] at h
  have hon : (g.bind fun _ => (usualConv n k F act).group.group.parseSubgroup (usualConv n k F act).subgroup) =
      g.map fun _ => n.group.name := by cases g <;> rfl
  rw [hon] at h
  exact h

/-- C74: the model of tests/test_model.py (convolution, pooling, convolution, pooling, transposed convolution), for every group, every
grid whose sizes are multiples of the pool sizes, all odd kernel sizes, numbers of channels, batch sizes, weights and activations:
the model is accepted and returns signals with sizes divided by the pool sizes, and check_equivariance returns zero. -/
theorem C74_test_model [Field α] [LinearOrder α] [IsStrictOrderedRing α] (n : GroupName) (q : List Nat) (hq : n.Grid q) (h0 : 0 ∉ q)
    (p1 p2 k1 k2 k3 F1 F2 F3 : Nat) (hp1 : 0 < p1) (hp2 : 0 < p2) (hk1 : k1 % 2 = 1) (hk2 : k2 % 2 = 1) (hk3 : k3 % 2 = 1) (hF1 : 0 < F1)
    (hF2 : 0 < F2) (hF3 : 0 < F3) (t1 t2 : PoolType) (act1 act2 act3 : α → α) (w1 w2 w3 b1 b2 b3 : List Nat → α) (g : Option Nat)
    (hg : g = none ∨ g = some n.group.order) (C : Nat) :
    ∃ l1 l2 l3 l4 l5,
      BuiltConv (usualConv n k1 F1 act1) false none (q.map fun i => i * p2 * p1) g C w1 b1 (List.range n.group.order) l1 ∧
      BuiltPool (usualPool n t1 p1) none (q.map fun i => i * p2 * p1) n.group.order F1 (List.range n.group.order) l2 ∧
      BuiltConv (usualConv n k2 F2 act2) false none (q.map fun i => i * p2) (some n.group.order) F1 w2 b2 (List.range n.group.order) l3 ∧
      BuiltPool (usualPool n t2 p2) none (q.map fun i => i * p2) n.group.order F2 (List.range n.group.order) l4 ∧
      BuiltConv (usualConv n k3 F3 act3) true none q (some n.group.order) F2 w3 b3 (List.range n.group.order) l5 ∧
      ∀ (x : Tensor α) (B : Nat), 0 < B → x.shape = sigShape .channelsLast B (q.map fun i => i * p2 * p1) g C →
        let model := sequential [fun x => (l1.call x).2, fun x => l2.call x, fun x => (l3.call x).2, fun x => l4.call x,
          fun x => (l5.call x).2]
        (∃ y, model x = .ok y ∧ y.shape = sigShape .channelsLast B q (some n.group.order) F3) ∧
        checkEquivariance model x n.group (spatialAxes .channelsLast n.dim) (some (groupAxis .channelsLast n.dim)) (some "")
          (g.map fun _ => "") (some "") = .ok 0 := by
  have hql := n.sym.okLen q hq
  have hG : ∀ {q : List Nat}, n.Grid q → ∀ p, n.Grid (q.map fun i => i * p) := by
    intro q hq p
    have hql := n.sym.okLen q hq
    exact grid_of_sizes n hq hq hq hq (by simpa using hql) (fun m _ _ _ => m * p) fun i hi => by
      simp [nth, show i < q.length by omega]
  have hne : ∀ {q : List Nat}, 0 ∉ q → ∀ p, 0 < p → 0 ∉ q.map fun i => i * p := by
    intro q h0 p hp h
    obtain ⟨i, hi, h⟩ := List.mem_map.1 h
    rcases Nat.mul_eq_zero.1 h with h | h
    · exact h0 (h ▸ hi)
    · omega
  have hmm : (q.map fun i => i * p2 * p1) = (q.map fun i => i * p2).map fun i => i * p1 := by rw [List.map_map]; rfl
  have hq2 := hG hq p2
  have h02 := hne h0 p2 hp2
  rw [hmm]
  obtain ⟨l1, e1, f1⟩ := C74_usual_convolution n k1 F1 hk1 hF1 act1 _ (hG hq2 p1) (hne h02 p1 hp1) g hg C w1 b1
  obtain ⟨l2, e2, f2⟩ := C74_usual_pooling (α := α) n t1 p1 hp1 _ hq2 h02 F1
  obtain ⟨l3, e3, f3⟩ := C74_usual_convolution n k2 F2 hk2 hF2 act2 _ hq2 h02 (some n.group.order) (.inr rfl) F1 w2 b2
  obtain ⟨l4, e4, f4⟩ := C74_usual_pooling (α := α) n t2 p2 hp2 _ hq h0 F2
  obtain ⟨l5, e5, f5⟩ := C74_usual_transposed n k3 F3 hk3 hF3 act3 _ hq (some n.group.order) (.inr rfl) F2 w3 b3
  refine ⟨l1, l2, l3, l4, l5, e1, e2, e3, e4, e5, ?_⟩
  intro x B hB hx model
  have hown : SignalOn n.group (some n.group.order) (some n.group.name) :=
    ⟨List.range n.group.order, by rw [own_sub' n]; exact n.sym.tab.own, by simp⟩
  have hst : EquivariantLayer n .channelsLast (some "") (List.range n.group.order).length
      ⟨(q.map fun i => i * p2).map fun i => i * p1, g, C, g.map fun _ => n.group.name⟩
      ⟨q, some n.group.order, F3, some n.group.name⟩ model := by
    refine C37_stack_equivariant n .channelsLast (some "") _ (own_sub n) _ _ ⟨hq, hown⟩ _ ?_
    rw [List.length_range]
    exact .cons f1 (.cons f2 (.cons f3 (.cons f4 (.cons f5 (.nil _)))))
  obtain ⟨y, hy, hys, hc⟩ := hst.2 x B hx
  refine ⟨⟨y, hy, hys⟩, ?_⟩
  have hD : SignalOn n.group g (g.map fun _ => n.group.name) := by
    rcases hg with rfl | rfl
    · rfl
    · exact hown
  obtain ⟨r, hr, -, hr0⟩ := C36_sound_and_complete n .channelsLast B _ g C x y (hst.1 B) hx (hG hq2 p1) hy q (some n.group.order) F3 hys
    hq (by
      rw [hys]
      have hno : n.group.order ≠ 0 := by cases n <;> decide
      intro h
      have h : 0 ∈ B :: q ++ [n.group.order, F3] := h
      simp only [List.cons_append, List.mem_cons, List.mem_append, List.not_mem_nil, or_false] at h
      rcases h with h | h | h | h
      · omega
      · exact h0 h
      · omega
      · omega) (some "") _ (some n.group.name) (List.range n.group.order) (own_sub n) hD hown
  rw [← hr0.2 hc, ← hr]
  have hsame : ∀ d d', n.group.parseSubgroup d = n.group.parseSubgroup d' → ∀ t t', n.group.parseSubgroup t = n.group.parseSubgroup t' →
      checkEquivariance model x n.group (spatialAxes .channelsLast n.dim) (some (groupAxis .channelsLast n.dim)) (some "") d t =
      checkEquivariance model x n.group (spatialAxes .channelsLast n.dim) (some (groupAxis .channelsLast n.dim)) (some "") d' t' := by
    intro d d' h t t' h'
    unfold checkEquivariance
    rw [h, h']
  refine hsame _ _ ?_ _ _ (own_sub' n).symm
  cases g
  · rfl
  · exact (own_sub' n).symm

/-- C74: the two tests of tests/test_model.py as they are called, with the default arguments of check_equivariance, for every group
in two dimensions and every input that is a signal on the group. -/
theorem C74_test_calls [Field α] [LinearOrder α] [IsStrictOrderedRing α] (n : GroupName) (hn : n.dim = 2) (h w : Nat) (hq : n.Grid [h, w])
    (hh : 0 < h) (hw : 0 < w) (w1 w2 w3 : List Nat → α) (C : Nat) :
    ∃ l1 l2 l3 l4 l5,
      BuiltConv (usualConv n 3 3 (id : α → α)) false none [h * 2 * 2, w * 2 * 2] (some n.group.order) C w1 (fun _ => 0)
        (List.range n.group.order) l1 ∧
      BuiltPool (usualPool n .max 2) none [h * 2 * 2, w * 2 * 2] n.group.order 3 (List.range n.group.order) l2 ∧
      BuiltConv (usualConv n 3 3 (id : α → α)) false none [h * 2, w * 2] (some n.group.order) 3 w2 (fun _ => 0)
        (List.range n.group.order) l3 ∧
      BuiltPool (usualPool n .max 2) none [h * 2, w * 2] n.group.order 3 (List.range n.group.order) l4 ∧
      BuiltConv (usualConv n 3 3 (id : α → α)) true none [h, w] (some n.group.order) 3 w3 (fun _ => 0) (List.range n.group.order) l5 ∧
      ∀ (x : Tensor α) (B : Nat), 0 < B → x.shape = [B, h * 2 * 2, w * 2 * 2, n.group.order, C] →
        let model := sequential [fun x => (l1.call x).2, fun x => l2.call x, fun x => (l3.call x).2, fun x => l4.call x,
          fun x => (l5.call x).2]
        (∃ y, model x = .ok y ∧ y.shape = [B, h, w, n.group.order, 3]) ∧
        checkEquivariance model x n.group (groupAxis := some 3) = .ok 0 := by
  obtain ⟨l1, l2, l3, l4, l5, e1, e2, e3, e4, e5, h⟩ := C74_test_model n [h, w] hq (by simp; omega) 2 2 3 3 3 3 3 3 (by decide) (by decide)
    (by decide) (by decide) (by decide) (by decide) (by decide) (by decide) .max .max (id : α → α) id id w1 w2 w3 (fun _ => 0)
    (fun _ => 0) (fun _ => 0) (some n.group.order) (.inr rfl) C
  refine ⟨l1, l2, l3, l4, l5, e1, e2, e3, e4, e5, fun x B hB hx => ?_⟩
  have := h x B hB hx
  rw [hn] at this
  exact this

/-- the input of tests/test_model.py: one signal of size 8 x 8 on P4 with three channels -/
example (w1 w2 w3 b1 b2 b3 : List Nat → ℚ) := C74_test_model .P4 [2, 2] ⟨rfl, rfl⟩ (by decide) 2 2 3 3 3 3 3 3 (by decide) (by decide)
  (by decide) (by decide) (by decide) (by decide) (by decide) (by decide) .max .max id id id w1 w2 w3 b1 b2 b3 (some 4) (.inr rfl) 3

example (w1 w2 w3 : List Nat → ℚ) := C74_test_calls .P4 rfl 2 2 ⟨rfl, rfl⟩ (by decide) (by decide) w1 w2 w3 3

/-- a strided layer to the subgroup P2 on a 7 x 7 grid gives a 4 x 4 grid -/
example (k0 b0 : List Nat → ℚ) : ∃ l, BuiltConv { usualConv .P4 3 2 (id : ℚ → ℚ) with strides := [2, 2], subgroup := some "P2" } false none
      [7, 7] none 3 k0 b0 [0, 2] l ∧
    EquivariantLayer .P4 .channelsLast (some "P2") 2 ⟨[7, 7], none, 3, none⟩ ⟨[4, 4], some 2, 2, some "P2"⟩ (fun x => (l.call x).2) := by
  refine C74_convolution .P4 { usualConv .P4 3 2 (id : ℚ → ℚ) with strides := [2, 2], subgroup := some "P2" } .sameEquiv .same
    (C39_documented_names ("same_equiv", .sameEquiv, .same) (by decide)) ⟨by decide, by decide, by decide, by decide, by decide⟩ rfl rfl rfl
    ⟨rfl, rfl⟩ ⟨rfl, rfl⟩ [7, 7] ⟨rfl, rfl⟩ ?_ none (.inl rfl) 3 [0, 1, 2, 3] [0, 2] [0, 2] rfl rfl (some "P2") rfl (by decide) k0 b0
  intro i hi
  obtain rfl | rfl : i = 0 ∨ i = 1 := by
    have : i < 2 := hi
    omega
  all_goals exact ⟨⟨by decide, by decide⟩, by decide⟩

/-- average pooling with strides from P4 to P2 on a 7 x 7 grid gives a 3 x 3 grid -/
example : ∃ l, BuiltPool { usualPool .P4 .average 3 with strides := some [2, 2], subgroup := some "P2" } none [7, 7] 4 3 [0, 2] l ∧
    EquivariantLayer .P4 .channelsLast (some "P2") 2 ⟨[7, 7], some 4, 3, some "P4"⟩ ⟨[3, 3], some 2, 3, some "P2"⟩
      (fun x : Tensor ℚ => l.call x) := by
  refine C74_pooling (α := ℚ) .P4 { usualPool .P4 .average 3 with strides := some [2, 2], subgroup := some "P2" } .valid .valid
    (C39_documented_names ("valid", .valid, .valid) (by decide)) rfl rfl ⟨rfl, rfl⟩ (by decide) ?_ [7, 7] ⟨rfl, rfl⟩ ?_ 3
    [0, 1, 2, 3] [0, 2] [0, 2] rfl rfl (some "P2") rfl (by decide)
  · rintro s h
    cases h
    exact ⟨⟨rfl, rfl⟩, by decide⟩
  · intro i hi
    obtain rfl | rfl : i = 0 ∨ i = 1 := by
      have : i < 2 := hi
      omega
    all_goals
      refine ⟨⟨by decide, by decide⟩, ?_, by decide⟩
      show PadOption.valid = .sameEquiv → _
      intro h
      cases h

def doubling : ConvArgs ℚ := { usualConv .P4 2 2 (id : ℚ → ℚ) with strides := [2, 2], subgroup := some "P2", padding := "valid" }

/-- a transposed layer from P2 to P4 with kernel size 2 and stride 2 doubles the sizes -/
example (k0 b0 : List Nat → ℚ) : ∃ l, BuiltConv doubling true none [4, 4] (some 2) 3 k0 b0 [0, 2] l ∧
    EquivariantLayer .P4 .channelsLast (some "P2") 2 ⟨[4, 4], some 2, 3, some "P2"⟩ ⟨[8, 8], some 4, 2, some "P4"⟩
      (fun x => (l.call x).2) := by
  refine C74_transposed .P4 doubling .valid .valid
    (C39_documented_names ("valid", .valid, .valid) (by decide)) ⟨by decide, by decide, by decide, by decide, by decide⟩ rfl rfl rfl
    ⟨rfl, rfl⟩ ⟨rfl, rfl⟩ [4, 4] ⟨rfl, rfl⟩ ?_ [0, 1, 2, 3] [0, 2] [0, 2] rfl rfl (some 2) (.inr rfl) 3 (some "P2") rfl (by decide) k0 b0
  intro i hi
  obtain rfl | rfl : i = 0 ∨ i = 1 := by
    have : i < 2 := hi
    omega
  all_goals exact ⟨⟨by decide, by decide⟩, ⟨by decide, .inl rfl, .inl rfl⟩, .inr (.inl rfl)⟩

end GroCo
