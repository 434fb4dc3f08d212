import Verif.KernelLemmas
import Verif.GridErrors

/-
Helper lemmas: what `GroupTransforms` computes for kernels, biases and outputs.
-/

namespace GroCo
open Tensor

variable {α : Type}

/-- exchanging the last two axes -/
theorem swapaxes_last (x : Tensor α) {K : List Nat} {a b : Nat} (hx : x.shape = K ++ [a, b]) :
    ∃ y, swapaxes x (-1) (-2) = .ok y ∧ y.shape = K ++ [b, a] ∧
      ∀ k i j, k.length = K.length → y.get (k ++ [i, j]) = x.get (k ++ [j, i]) := by
  have hr : x.rank = K.length + 2 := by simp [Tensor.rank, hx]
  obtain ⟨y, e, hs, hg⟩ := transpose_swap (y := x) (h := K.length + 1) (w := K.length) (by omega) (by omega)
  refine ⟨y, ?_, ?_, ?_⟩
  · simp only [swapaxes, normAxis_of (r := x.rank) (ax := -1) (k := K.length + 1) (by omega) (by omega),
      normAxis_of (r := x.rank) (ax := -2) (k := K.length) (by omega) (by omega), res_bind_ok, e]
  · rw [hs, hx]; unfold swapList; lay (rfl : K.length = K.length)
  · intro k i j hk
    rw [hg _ (by simp [hk, hr])]
    unfold swapList; lay hk

/-- channels of the merged input -/
def chan (gv : Bool) (D : List Nat) (C : Nat) : Nat := if gv then D.length * C else C

/-- The stored weight used for element `g`, offset `k`, merged channel `c'`, filter `o`. -/
def wIdx (G : GroupData) (els : List SPerm) (gv : Bool) (D K : List Nat) (C F g : Nat) (k : List Nat) (c' o : Nat) : Nat :=
  if gv then groupIdx G els D K C F g k c' o else liftIdx els K C F g k c' o

/-- grid action on a kernel succeeds only if the kernel is a grid of the group -/
theorem grid_of_lift {n : GroupName} {x y : Tensor Nat} {K r : List Nat} {s : String}
    (hx : x.shape = K ++ r) (hl : K.length = n.dim)
    (h : n.group.action x ((List.range n.dim).map Int.ofNat) n.dim none (some s) none = .ok y) : n.Grid K := by
  by_contra hg
  have hr : x.rank = n.dim + r.length := by simp [Tensor.rank, hx, hl]
  have := n.act_error x (axs := spAxes 0 n.dim) (a := n.dim) (axesOk_spAxes (by omega)) (by omega) (by
    rw [hx]
    have := coords_spAxes (a := []) (p := K) (r := r) (m := 0) rfl hl
    unfold coords at this
    rw [List.nil_append] at this
    rwa [this])
  simp only [Group.action, GroupData.parseSubgroup, Group.actionOnGrid, range_eq_spAxes, this, res_bind_error] at h
  exact absurd h (by simp)

theorem grid_of_group {n : GroupName} {x y : Tensor Nat} {K r : List Nat} {s t : String} {D A : List Nat}
    (hx : x.shape = K ++ D.length :: r) (hl : K.length = n.dim) (hD : lookup n.group.subgroup t = .ok D)
    (hA : lookup n.group.subgroup s = .ok A)
    (h : n.group.action x ((List.range n.dim).map Int.ofNat) n.dim (some (n.dim : Int)) (some s) (some t) = .ok y) :
    n.Grid K := by
  by_contra hg
  have hr : x.rank = n.dim + 1 + r.length := by simp [Tensor.rank, hx, hl]; omega
  have key : ∀ (z : Tensor Nat) (m : Nat), z.shape = K ++ m :: r →
      n.group.act Nat z ((List.range n.dim).map Int.ofNat) n.dim = .error .value := by
    intro z m hz
    have hr : z.rank = n.dim + 1 + r.length := by simp [Tensor.rank, hz, hl]; omega
    have := n.act_error z (axs := spAxes 0 n.dim) (a := n.dim) (axesOk_spAxes (by omega)) (by omega) (by
      rw [hz]
      have := coords_spAxes (a := []) (p := K) (r := m :: r) (m := 0) rfl hl
      unfold coords at this
      rw [List.nil_append] at this
      rwa [this])
    rw [range_eq_spAxes]; exact this
  have hne := (n.sym.tab.parse hD).2
  have hact : n.group.action x ((List.range n.dim).map Int.ofNat) n.dim (some (n.dim : Int)) (some s) (some t) =
      n.group.actionOnGroup x n.dim ((List.range n.dim).map Int.ofNat) (some s) n.dim (some t) := by
    simp only [Group.action, (n.sym.tab.parse hA).1, (n.sym.tab.parse hD).1]
  rw [hact] at h
  simp only [Group.actionOnGroup, sub_of_lookup hA, sub_of_lookup hD, res_bind_ok] at h
  by_cases hlt : D.length < n.group.order
  · obtain ⟨z, ez, hz, _⟩ := upsample_ok hD (n.sym.tab.subs _ (lookup_mem hD)).2.1 n.sym.tab.pos x (ga := n.dim)
      (by omega) (by rw [hx]; lay hl)
    simp only [if_pos hlt, ez, res_bind_ok, Group.actionOnGrid, key z n.group.order (by rw [hz, hx]; lay hl), res_bind_error] at h
    exact absurd h (by simp)
  · simp only [if_neg hlt, res_bind_ok, Group.actionOnGrid, key x _ hx, res_bind_error] at h
    exact absurd h (by simp)


/-- What `build` and the constructor guarantee about a transforms object, for the lemmas below: `n` its group, `A` the
elements acting on the kernel, `D` the elements the input is defined on. -/
structure GroupTransforms.Good (t : GroupTransforms) (n : GroupName) (A D : List Nat) : Prop where
  group : t.group = n
  dim : t.dimensions = n.dim
  acting : lookup n.group.subgroup t.actingGroup = .ok A
  domain : (t.groupValuedInput = false ∧ t.domainGroup = none) ∨
    (t.groupValuedInput = true ∧ ∃ s, t.domainGroup = some s ∧ lookup n.group.subgroup s = .ok D)

section
variable {t : GroupTransforms} {n : GroupName} {A D : List Nat}

theorem GroupTransforms.Good.orderA (h : t.Good n A D) : t.orderOf (some t.actingGroup) = .ok A.length := by
  rw [orderOf, h.group, sub_of_lookup h.acting]; rfl

/-- `computeTransformedKernelIndices` without the exchange of axes for transposed layers -/
def GroupTransforms.coreIndices (t : GroupTransforms) (x : Tensor Nat) : Res (Tensor Nat) :=
  if ¬ t.groupValuedInput then do
    let y ← t.group.group.action x ((List.range t.dimensions).map Int.ofNat) t.dimensions none (some t.actingGroup)
      t.domainGroup
    mergeAxes y (-3) (-1)
  else do
    let factor ← t.orderOf t.domainGroup
    let y ← splitAxes x factor (-2)
    let y ← t.group.group.action y ((List.range t.dimensions).map Int.ofNat) t.dimensions (some (t.dimensions : Int))
        (some t.actingGroup) t.domainGroup
    let y ← mergeAxes y (-3) (-2)
    mergeAxes y (-3) (-1)

theorem res_bind_id {β : Type} (r : Res β) : (r >>= fun x => Except.ok x) = r := by cases r <;> rfl
theorem res_bind_assoc {β γ δ : Type} (r : Res β) (f : β → Res γ) (g : γ → Res δ) :
    (r >>= f) >>= g = r >>= fun x => f x >>= g := by cases r <;> rfl

theorem core_direct (t : GroupTransforms) (ht : t.transpose = false) (kernel : Tensor α) :
    t.computeTransformedKernelIndices kernel = t.coreIndices (getIndexTensor kernel) := by
  unfold GroupTransforms.computeTransformedKernelIndices GroupTransforms.coreIndices
  simp only [ht, Bool.false_eq_true, if_false, res_bind_ok]
  split <;> simp only [res_bind_id, res_bind_assoc]

theorem core_transpose (t : GroupTransforms) (ht : t.transpose = true) (kernel : Tensor α) :
    t.computeTransformedKernelIndices kernel = (do
      let kernel ← swapaxes kernel (-1) (-2)
      let I ← t.coreIndices (getIndexTensor kernel)
      swapaxes I (-1) (-2)) := by
  unfold GroupTransforms.computeTransformedKernelIndices GroupTransforms.coreIndices
  simp only [ht, if_true]
  split <;> simp only [res_bind_assoc]

theorem coreIndices_ok (h : t.Good n A D) {x : Tensor Nat} {K : List Nat}
    {C F : Nat} (hl : K.length = n.dim) (hk : x.shape = K ++ [chan t.groupValuedInput D C, F])
    (hxg : ∀ idx, x.get idx = ravel x.shape idx) :
    (∀ I, t.coreIndices x = .ok I → n.Grid K) ∧
    (n.Grid K → ∃ I, t.coreIndices x = .ok I ∧
      I.shape = K ++ [chan t.groupValuedInput D C, A.length * F] ∧
      ∀ k c i o, Valid K k → c < chan t.groupValuedInput D C → i < A.length → o < F →
        I.get (k ++ [c, i * F + o]) =
          wIdx n.group.toGroupData n.els t.groupValuedInput D K C F (nth A i) k c o) := by
  unfold GroupTransforms.coreIndices
  simp only [h.group, h.dim]
  rcases h.domain with ⟨hg, hd⟩ | ⟨hg, s, hd, hD⟩
  · simp only [hg, hd, Bool.false_eq_true, not_false_eq_true, if_true, chan, if_false] at hk ⊢
    constructor
    · intro I hI
      cases hy : n.group.action x ((List.range n.dim).map Int.ofNat) n.dim none
          (some t.actingGroup) none with
      | error e => rw [hy] at hI; exact absurd hI (by simp)
      | ok y => exact grid_of_lift hk hl hy
    · intro hK
      obtain ⟨z, e, hz, hzg⟩ := n.sym.liftIndices hK h.acting x (C := C) (F := F) hk hxg
      refine ⟨z, e, hz, fun k c i o hk hc hi ho => ?_⟩
      rw [hzg k c i o hk hc hi ho]; rfl
  · simp only [hg, hd, not_true, if_true, chan, if_false] at hk ⊢
    have hDo : t.orderOf (some s) = .ok D.length := by
      rw [GroupTransforms.orderOf, h.group, sub_of_lookup hD]; rfl
    simp only [hDo, res_bind_ok]
    constructor
    · intro I hI
      have hr : x.rank = n.dim + 2 := by simp [Tensor.rank, hk, hl]
      obtain ⟨y1, e1, s1, g1⟩ := splitAxes_ok x (ax := -2) (k := n.dim) (left := D.length) (q := C)
        (normAxis_of (by omega) (by omega)) (sub_pos n.sym.tab hD) (by rw [hk]; lay hl)
      have s1' : y1.shape = K ++ [D.length, C, F] := by rw [s1, hk]; lay hl
      cases hy : n.group.action y1 ((List.range n.dim).map Int.ofNat) n.dim (some (n.dim : Int))
          (some t.actingGroup) (some s) with
      | error e => simp only [e1, res_bind_ok] at hI; rw [hy] at hI; exact absurd hI (by simp)
      | ok y => exact grid_of_group s1' hl hD h.acting hy
    · intro hK
      obtain ⟨z, e, hz, hzg⟩ := n.sym.groupIndices hK h.acting hD x (C := C) (F := F) hk hxg
      refine ⟨z, e, hz, fun k c i o hk hc hi ho => ?_⟩
      rw [hzg k c i o hk hc hi ho]; rfl

/-- every gathered position is a position of the stored kernel -/
theorem wIdx_lt {gv : Bool} (hD : gv = true → ∃ s, lookup n.group.subgroup s = .ok D) {K : List Nat} (hK : n.Grid K)
    {C F g c o : Nat} {k : List Nat} (hg : g < n.group.order) (hk : Valid K k) (hc : c < chan gv D C) (ho : o < F) :
    wIdx n.group.toGroupData n.els gv D K C F g k c o < prod (K ++ [chan gv D C, F]) := by
  have hb := n.sym.valid_back hK hg hk
  cases gv
  · exact ravel_lt (valid_two.2 ⟨hb, hc, ho⟩)
  · simp only [chan, if_true, wIdx, groupIdx] at hc ⊢
    obtain ⟨h1, h2, h3⟩ := split_lt hc
    split
    · rename_i hm
      exact ravel_lt (valid_two.2 ⟨hb, mul_add_lt (List.idxOf_lt_length_iff.2 hm) h2, ho⟩)
    · exact Nat.lt_of_le_of_lt (Nat.zero_le _) (ravel_lt (valid_two.2 ⟨hb, hc, ho⟩))

/-- gathering from a flattened tensor -/
theorem gather_ok (x : Tensor α) (I : Tensor Nat) (hI : ∀ idx, Valid I.shape idx → I.get idx < prod x.shape) :
    ∃ y, (do
      let flat ← reshape x [-1]
      takeT flat I 0) = .ok y ∧ y.shape = I.shape ∧
      ∀ idx, Valid I.shape idx → y.get idx = x.get (unravel x.shape (I.get idx)) := by
  have e1 : reshape x [-1] = .ok ⟨[prod x.shape], fun idx => x.get (unravel x.shape (ravel [prod x.shape] idx))⟩ := by
    simp [reshape, resolveShape, reshapeN, prod, Nat.mod_one]
  refine ⟨⟨I.shape, fun idx => x.get (unravel x.shape (I.get (idx.take I.rank)))⟩, ?_, rfl, ?_⟩
  · rw [e1, res_bind_ok]
    have h0 : normAxis 1 0 = .ok 0 := rfl
    simp only [takeT, Tensor.rank, List.length_cons, List.length_nil, h0, res_bind_ok]
    rw [if_pos (fun i hi => by simpa using hI i ((mem_indices _ _).1 hi))]
    simp [ravel, prod]
  · intro idx hv
    have : idx.take I.rank = idx := by
      rw [List.take_of_length_le]; rw [hv.length]
    simp only [this]

/-- the transformed kernel of a direct convolution -/
theorem transformKernel_direct (h : t.Good n A D) (ht : t.transpose = false) {kernel : Tensor α} {K : List Nat}
    {C F : Nat} (hl : K.length = n.dim) (hk : kernel.shape = K ++ [chan t.groupValuedInput D C, F]) {I : Tensor Nat}
    (hI : t.computeTransformedKernelIndices kernel = .ok I) {u : GroupTransforms}
    (hu : u.transformedKernelIndices = some I) :
    n.Grid K ∧ ∃ w, u.transformKernel kernel = .ok w ∧ w.shape = K ++ [chan t.groupValuedInput D C, A.length * F] ∧
      ∀ k c i o, Valid K k → c < chan t.groupValuedInput D C → i < A.length → o < F →
        w.get (k ++ [c, i * F + o]) = kernel.get (unravel kernel.shape
          (wIdx n.group.toGroupData n.els t.groupValuedInput D K C F (nth A i) k c o)) := by
  rw [core_direct t ht] at hI
  have hc := coreIndices_ok h (x := getIndexTensor kernel) (C := C) (F := F) hl hk (fun _ => rfl)
  have hK := hc.1 I hI
  obtain ⟨I', e, hs, hg⟩ := hc.2 hK
  rw [e] at hI
  cases hI
  refine ⟨hK, ?_⟩
  have hD : t.groupValuedInput = true → ∃ s, lookup n.group.subgroup s = .ok D := by
    intro hgv
    rcases h.domain with ⟨hg, _⟩ | ⟨_, s, _, hD⟩
    · rw [hgv] at hg; exact absurd hg (by simp)
    · exact ⟨s, hD⟩
  obtain ⟨w, ew, hw, hwg⟩ := gather_ok kernel I (by
    intro idx hv
    rw [hs] at hv
    obtain ⟨k, c, v, rfl, hk', hc, hv⟩ := two_of_valid hv
    obtain ⟨h1, h2, h3⟩ := split_lt hv
    rw [h3, hg k c _ _ hk' hc h1 h2, hk]
    exact wIdx_lt hD hK ((n.sym.tab.subs _ (lookup_mem h.acting)).2.2.2.1 _ (nth_mem _ _ h1)) hk' hc h2)
  refine ⟨w, by rw [GroupTransforms.transformKernel, hu]; exact ew, by rw [hw, hs], ?_⟩
  intro k c i o hk' hc hi ho
  rw [hwg _ (by rw [hs]; exact valid_two.2 ⟨hk', hc, mul_add_lt hi ho⟩), hg k c i o hk' hc hi ho]

/-- the transformed kernel of a transposed convolution -/
theorem transformKernel_transpose (h : t.Good n A D) (ht : t.transpose = true) {kernel : Tensor α} {K : List Nat}
    {C F : Nat} (hl : K.length = n.dim) (hk : kernel.shape = K ++ [F, chan t.groupValuedInput D C]) {I : Tensor Nat}
    (hI : t.computeTransformedKernelIndices kernel = .ok I) {u : GroupTransforms}
    (hu : u.transformedKernelIndices = some I) :
    n.Grid K ∧ ∃ w, u.transformKernel kernel = .ok w ∧ w.shape = K ++ [A.length * F, chan t.groupValuedInput D C] ∧
      ∀ k c i o, Valid K k → c < chan t.groupValuedInput D C → i < A.length → o < F →
        w.get (k ++ [i * F + o, c]) = kernel.get (unravel kernel.shape
          (wIdx n.group.toGroupData n.els t.groupValuedInput D K C F (nth A i) k c o)) := by
  rw [core_transpose t ht] at hI
  obtain ⟨sw, esw, hsw, _⟩ := swapaxes_last kernel hk
  rw [esw, res_bind_ok] at hI
  have hc := coreIndices_ok h (x := getIndexTensor sw) (C := C) (F := F) hl hsw (fun _ => rfl)
  cases hI1 : t.coreIndices (getIndexTensor sw) with
  | error e => rw [hI1] at hI; exact absurd hI (by simp)
  | ok I1 =>
    have hK := hc.1 I1 hI1
    obtain ⟨I', e, hs, hg⟩ := hc.2 hK
    rw [e] at hI1
    cases hI1
    rw [e, res_bind_ok] at hI
    obtain ⟨J, eJ, hJ, hJg⟩ := swapaxes_last I1 hs
    rw [eJ] at hI
    cases hI
    refine ⟨hK, ?_⟩
    have hD : t.groupValuedInput = true → ∃ s, lookup n.group.subgroup s = .ok D := by
      intro hgv
      rcases h.domain with ⟨hg, _⟩ | ⟨_, s, _, hD⟩
      · rw [hgv] at hg; exact absurd hg (by simp)
      · exact ⟨s, hD⟩
    have hpr : prod kernel.shape = prod (K ++ [chan t.groupValuedInput D C, F]) := by
      rw [hk, prod_append, prod_append]; simp [Nat.mul_comm]
    obtain ⟨w, ew, hw, hwg⟩ := gather_ok kernel I (by
      intro idx hv
      rw [hJ] at hv
      obtain ⟨k, v, c, rfl, hk', hv, hc⟩ := two_of_valid hv
      obtain ⟨h1, h2, h3⟩ := split_lt hv
      rw [hJg _ _ _ hk'.length, h3, hg k c _ _ hk' hc h1 h2, hpr]
      exact wIdx_lt hD hK ((n.sym.tab.subs _ (lookup_mem h.acting)).2.2.2.1 _ (nth_mem _ _ h1)) hk' hc h2)
    refine ⟨w, by rw [GroupTransforms.transformKernel, hu]; exact ew, by rw [hw, hJ], ?_⟩
    intro k c i o hk' hc hi ho
    rw [hwg _ (by rw [hJ]; exact valid_two.2 ⟨hk', mul_add_lt hi ho, hc⟩), hJg _ _ _ hk'.length, hg k c i o hk' hc hi ho]

theorem concatGet_replicate (u : Tensor Nat) {F : Nat} (hu : u.shape = [F]) (hug : ∀ v, u.get [v] = v) (m i o : Nat)
    (hi : i ≤ m) (ho : o < F) : concatGet 0 u (List.replicate m u) [i * F + o] = o := by
  induction m generalizing i with
  | zero =>
    have : i = 0 := by omega
    subst this
    simp [concatGet, hug]
  | succ m ih =>
    rw [List.replicate_succ, concatGet]
    simp only [nth_cons_zero, hu]
    cases i with
    | zero => rw [if_pos (by omega), hug]; omega
    | succ i =>
      rw [if_neg (by rw [Nat.succ_mul]; omega)]
      have : [(i + 1) * F + o].set 0 ((i + 1) * F + o - F) = [i * F + o] := by
        simp only [List.set_cons_zero, List.cons.injEq, and_true]
        rw [Nat.succ_mul]; omega
      rw [this, ih i (by omega)]

/-- the repeated bias -/
theorem repeatBias_ok (h : t.Good n A D) {bias : Tensor α} {F : Nat} (hb : bias.shape = [F]) :
    ∃ J, t.computeRepeatedBiasIndices bias = .ok J ∧ ∀ u : GroupTransforms, u.repeatedBiasIndices = some J →
      ∃ w, u.repeatBias bias = .ok w ∧ w.shape = [A.length * F] ∧
        ∀ i o, i < A.length → o < F → w.get [i * F + o] = bias.get [o] := by
  have hA := sub_pos n.sym.tab h.acting
  obtain ⟨m, hm⟩ : ∃ m, A.length = m + 1 := ⟨A.length - 1, by omega⟩
  have hu : (getIndexTensor bias).shape = [F] := hb
  have hug : ∀ v, (getIndexTensor bias).get [v] = v := fun v => by
    simp [getIndexTensor, hb, ravel]
  have e := concatenate_ok (getIndexTensor bias) (List.replicate m (getIndexTensor bias)) (a := 0)
    (by simp [Tensor.rank, hu]) (by
      intro u hu'
      rw [List.eq_of_mem_replicate hu']; simp)
  have hsum : ((getIndexTensor bias :: List.replicate m (getIndexTensor bias)).map fun u => nth u.shape 0).sum =
      A.length * F := by
    rw [← List.replicate_succ, List.map_replicate, List.sum_replicate, hm, hu]; simp
  rw [hsum, hu] at e
  refine ⟨_, by
    simp only [GroupTransforms.computeRepeatedBiasIndices, h.orderA, res_bind_ok, hm, List.replicate_succ]
    exact e, ?_⟩
  intro u hu'
  have hg : ∀ i o, i < A.length → o < F →
      concatGet 0 (getIndexTensor bias) (List.replicate m (getIndexTensor bias)) [i * F + o] = o :=
    fun i o hi ho => concatGet_replicate _ hu hug m i o (by omega) ho
  refine ⟨⟨[A.length * F], fun idx => bias.get ([concatGet 0 (getIndexTensor bias)
    (List.replicate m (getIndexTensor bias)) (idx.take 1)] ++ idx.drop 1)⟩, ?_, rfl, ?_⟩
  · have h0 : normAxis 1 0 = .ok 0 := rfl
    simp only [GroupTransforms.repeatBias, hu', takeT, Tensor.rank, hb, List.length_cons, List.length_nil, h0, res_bind_ok]
    rw [if_pos (by
      intro idx hidx
      rw [mem_indices] at hidx
      simp only [List.set_cons_zero] at hidx
      match idx, hidx with
      | [v], hidx =>
        simp only [valid_cons, valid_nil, and_true] at hidx
        obtain ⟨h1, h2, h3⟩ := split_lt hidx
        rw [h3, hg _ _ h1 h2]; simpa using h2)]
    simp
  · intro i o hi ho
    simp [hg i o hi ho]

end

end GroCo
