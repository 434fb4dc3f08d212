import Verif.Props.Build

/-
Helper lemmas for C75: with which exception the building of a layer fails.
-/

namespace GroCo
open Tensor

variable {α : Type}

theorem mapM_raises {β γ : Type} {f : β → Res γ} {l : List β} {e : Err} (h : l.mapM f = .error e) : ∃ b ∈ l, f b = .error e := by
  induction l with
  | nil => exact absurd h (by simp [pure, Except.pure])
  | cons a l ih =>
    rw [List.mapM_cons] at h
    cases ha : f a with
    | error e' =>
      rw [ha, res_bind_error] at h
      cases h
      exact ⟨a, by simp, ha⟩
    | ok c =>
      rw [ha, res_bind_ok] at h
      cases hl : l.mapM f with
      | error e' =>
        rw [hl, res_bind_error] at h
        cases h
        obtain ⟨b, hb, hf⟩ := ih hl
        exact ⟨b, by simp [hb], hf⟩
      | ok cs =>
        rw [hl, res_bind_ok] at h
        exact absurd h (by simp)

theorem convOutputShape_error {fmt : DataFormat} {kp : KerasPadding} {K strides dil : List Nat} {filters : Nat}
    {shape : List (Option Nat)} {e : Err} (h : convOutputShape fmt kp K strides dil filters shape = .error e) : e = .value := by
  unfold convOutputShape at h
  simp only at h
  split at h
  · cases h; rfl
  · cases hm : (List.range strides.length).mapM fun i =>
        convOutSize kp ((spatialShapeOf fmt strides.length shape).getD i none) (nth K i) (nth strides i) (nth dil i) with
    | error e' =>
      rw [hm, res_bind_error] at h
      cases h
      obtain ⟨i, _, hi⟩ := mapM_raises hm
      unfold convOutSize at hi
      split at hi
      · cases hi
      · split at hi
        · simp only at hi
          split at hi
          · cases hi; rfl
          · cases hi
        · cases hi
    | ok os =>
      rw [hm, res_bind_ok] at h
      split at h <;> exact absurd h (by simp)

/-- the action on a kernel that is no grid of the group -/
theorem lift_value {n : GroupName} {x : Tensor Nat} {K r : List Nat} {s : String}
    (hx : x.shape = K ++ r) (hl : K.length = n.dim) (hg : ¬ n.Grid K) :
    n.group.action x ((List.range n.dim).map Int.ofNat) n.dim none (some s) none = .error .value := by
  have hr : x.rank = n.dim + r.length := by simp [Tensor.rank, hx, hl]
  have := n.act_error x (axs := spAxes 0 n.dim) (a := n.dim) (axesOk_spAxes (by omega)) (by omega) (by
    rw [hx]
    have := coords_spAxes (a := []) (p := K) (r := r) (m := 0) rfl hl
    unfold coords at this
    rw [List.nil_append] at this
    rwa [this])
  simp only [Group.action, GroupData.parseSubgroup, Group.actionOnGrid, range_eq_spAxes, this, res_bind_error]

theorem group_value {n : GroupName} {x : Tensor Nat} {K r : List Nat} {s t : String} {D A : List Nat}
    (hx : x.shape = K ++ D.length :: r) (hl : K.length = n.dim) (hD : lookup n.group.subgroup t = .ok D)
    (hA : lookup n.group.subgroup s = .ok A) (hg : ¬ n.Grid K) :
    n.group.action x ((List.range n.dim).map Int.ofNat) n.dim (some (n.dim : Int)) (some s) (some t) = .error .value := by
  have hr : x.rank = n.dim + 1 + r.length := by simp [Tensor.rank, hx, hl]; omega
  have key : ∀ (z : Tensor Nat) (m : Nat), z.shape = K ++ m :: r →
      n.group.act Nat z ((List.range n.dim).map Int.ofNat) n.dim = .error .value := by
    intro z m hz
    have hr : z.rank = n.dim + 1 + r.length := by simp [Tensor.rank, hz, hl]; omega
    have := n.act_error z (axs := spAxes 0 n.dim) (a := n.dim) (axesOk_spAxes (by omega)) (by omega) (by
      rw [hz]
      have := coords_spAxes (a := []) (p := K) (r := m :: r) (m := 0) rfl hl
      unfold coords at this
      rw [List.nil_append] at this
      rwa [this])
    rw [range_eq_spAxes]; exact this
  have hact : n.group.action x ((List.range n.dim).map Int.ofNat) n.dim (some (n.dim : Int)) (some s) (some t) =
      n.group.actionOnGroup x n.dim ((List.range n.dim).map Int.ofNat) (some s) n.dim (some t) := by
    have hne := (n.sym.tab.parse hD).2
    simp only [Group.action, (n.sym.tab.parse hA).1, (n.sym.tab.parse hD).1]
  rw [hact]
  simp only [Group.actionOnGroup, sub_of_lookup hA, sub_of_lookup hD, res_bind_ok]
  by_cases hlt : D.length < n.group.order
  · obtain ⟨z, ez, hz, _⟩ := upsample_ok hD (n.sym.tab.subs _ (lookup_mem hD)).2.1 n.sym.tab.pos x (ga := n.dim)
      (by omega) (by rw [hx]; lay hl)
    simp only [if_pos hlt, ez, res_bind_ok, Group.actionOnGrid, key z n.group.order (by rw [hz, hx]; lay hl), res_bind_error]
  · simp only [if_neg hlt, res_bind_ok, Group.actionOnGrid, key x _ hx, res_bind_error]

theorem coreIndices_value {t : GroupTransforms} {n : GroupName} {A D : List Nat} (h : t.Good n A D) {x : Tensor Nat} {K : List Nat}
    {C F : Nat} (hl : K.length = n.dim) (hk : x.shape = K ++ [chan t.groupValuedInput D C, F]) (hg : ¬ n.Grid K) :
    t.coreIndices x = .error .value := by
  unfold GroupTransforms.coreIndices
  simp only [h.group, h.dim]
  rcases h.domain with ⟨hgv, hd⟩ | ⟨hgv, s, hd, hD⟩
  · simp only [hgv, hd, Bool.false_eq_true, not_false_eq_true, if_true, chan, if_false] at hk ⊢
    rw [lift_value hk hl hg]
    rfl
  · simp only [hgv, hd, not_true, if_true, chan, if_false] at hk ⊢
    have hDo : t.orderOf (some s) = .ok D.length := by
      rw [GroupTransforms.orderOf, h.group, sub_of_lookup hD]; rfl
    simp only [hDo, res_bind_ok]
    have hr : x.rank = n.dim + 2 := by simp [Tensor.rank, hk, hl]
    obtain ⟨y1, e1, s1, g1⟩ := splitAxes_ok x (ax := -2) (k := n.dim) (left := D.length) (q := C)
      (normAxis_of (by omega) (by omega)) (sub_pos n.sym.tab hD) (by rw [hk]; lay hl)
    have s1' : y1.shape = K ++ [D.length, C, F] := by rw [s1, hk]; lay hl
    rw [e1, res_bind_ok, group_value s1' hl hD h.acting hg]
    rfl

theorem kernelIndices_error' {t : GroupTransforms} {n : GroupName} {A D : List Nat} (h : t.Good n A D) {K : List Nat} {C F : Nat}
    {k0 : List Nat → α} (hl : K.length = n.dim) {e : Err}
    (he : t.computeTransformedKernelIndices (⟨K ++ (if t.transpose then [F, chan t.groupValuedInput D C]
      else [chan t.groupValuedInput D C, F]), k0⟩ : Tensor α) = .error e) : e = .value := by
  cases htr : t.transpose with
  | false =>
    rw [core_direct t htr] at he
    by_cases hg : n.Grid K
    · obtain ⟨I, hI, -⟩ := (coreIndices_ok h (x := getIndexTensor (⟨K ++ (if t.transpose then [F, chan t.groupValuedInput D C]
        else [chan t.groupValuedInput D C, F]), k0⟩ : Tensor α)) (K := K) (C := C) (F := F) hl (by rw [htr]; rfl) (fun _ => rfl)).2 hg
      rw [hI] at he
      cases he
    · rw [coreIndices_value h (K := K) (C := C) (F := F) hl (by rw [htr]; rfl) hg] at he
      cases he
      rfl
  | true =>
    rw [core_transpose t htr] at he
    obtain ⟨sw, esw, hsw, -⟩ := swapaxes_last (⟨K ++ (if t.transpose then [F, chan t.groupValuedInput D C]
        else [chan t.groupValuedInput D C, F]), k0⟩ : Tensor α) (by rw [htr]; rfl)
    rw [esw, res_bind_ok] at he
    by_cases hg : n.Grid K
    · obtain ⟨I, hI, hIs, -⟩ := (coreIndices_ok h (x := getIndexTensor sw) (K := K) (C := C) (F := F) hl hsw (fun _ => rfl)).2 hg
      obtain ⟨J, eJ, -⟩ := swapaxes_last I hIs
      rw [hI, res_bind_ok, eJ] at he
      cases he
    · rw [coreIndices_value h (K := K) (C := C) (F := F) hl hsw hg] at he
      cases he
      rfl

theorem kernelIndices_error {t : GroupTransforms} {n : GroupName} {A D : List Nat} (h : t.Good n A D) {K : List Nat} {C F c : Nat}
    {k0 : List Nat → α} (hl : K.length = n.dim) {tr : Bool} (htr : t.transpose = tr) (hc : chan t.groupValuedInput D C = c) {e : Err}
    (he : t.computeTransformedKernelIndices (⟨K ++ (if tr then [F, c] else [c, F]), k0⟩ : Tensor α) = .error e) : e = .value := by
  subst htr hc
  exact kernelIndices_error' h hl he

/-- an exception of the padding layer is passed on -/
theorem transforms_build_last_error {a : GroupArgs} {m : GroupName} {opt : PadOption} {d : Nat} {tr : Bool}
    (hf : a.dataFormat = .channelsLast) {b : Option Nat} {n : List Nat} {g : Option Nat} {C : Nat} (hn : n.length = d)
    {e : Err}
    (hst : (initTransforms a m opt d tr).equivariantPadding.build (signalShape true b (some (chanO g C)) n) = .error e)
    (hord : ∀ g', g = some g' → (initTransforms a m opt d tr).orderOf (initTransforms a m opt d tr).domainGroup = .ok g') :
    (initTransforms a m opt d tr).build (inputShape .channelsLast b n g C) = .error e := by
  rw [transforms_build_eq]
  have hdim : (initTransforms a m opt d tr).dimensions = d := rfl
  have hfmt : (initTransforms a m opt d tr).dataFormat = .channelsLast := hf
  have hca : (initTransforms a m opt d tr).channelsAxis = d + 1 := by simp [initTransforms, hf]
  have hga : (initTransforms a m opt d tr).groupAxis = d + 1 := by simp [initTransforms, hf]
  cases g with
  | none =>
    have hlen : (inputShape .channelsLast b n none C).length = d + 2 := by simp [inputShape, hn]
    unfold reshapedOf
    simp only [hdim, hlen, show ¬ (d + 2 = d + 3) by omega, if_false, res_bind_ok]
    have : inputShape .channelsLast b n none C = signalShape true b (some (chanO none C)) n := rfl
    rw [this, hst]
    rfl
  | some g =>
    have hlen : (inputShape .channelsLast b n (some g) C).length = d + 3 := by simp [inputShape, hn]
    unfold reshapedOf
    simp only [hdim, hlen, if_true, hfmt, true_and, hca, hga]
    have ho := hord g rfl
    unfold GroupTransforms.orderOf at ho
    obtain ⟨D, hD, ho⟩ := bind_eq_ok ho
    have hDg : D.length = g := by cases ho; rfl
    rw [hD, res_bind_ok, getIdx_ok _ (i := d + 1) (by omega), res_bind_ok]
    have hsz : (inputShape .channelsLast b n (some g) C)[d + 1]'(by omega) = some g := by
      simp [inputShape, ← hn]
    rw [if_pos (by rw [hsz, hDg])]
    have hm : mergeShapes (inputShape .channelsLast b n (some g) C) ((d + 1 : Nat) : Int) ((d + 1 + 1 : Nat) : Int) =
        .ok (signalShape true b (some (g * C)) n) := by
      unfold mergeShapes
      rw [pyIndex_eq_norm (normAxis_nat (by omega)), pyIndex_eq_norm (normAxis_nat (by omega))]
      have e1 : (inputShape .channelsLast b n (some g) C)[d + 1 + 1]? = some (some C) := by
        simp [inputShape, ← hn]
      have e2 : (inputShape .channelsLast b n (some g) C)[d + 1]? = some (some g) := by
        simp [inputShape, ← hn]
      simp only [res_bind_ok, e1, e2, res_pure]
      congr 1
      have : inputShape .channelsLast b n (some g) C = (b :: n.map some) ++ [some g, some C] := rfl
      rw [this, List.set_append_right _ _ (by simp; omega), List.eraseIdx_append_of_length_le (by simp; omega)]
      have : d + 1 + 1 - (b :: n.map some).length = 1 := by simp; omega
      rw [this, show d + 1 - (b :: n.map some).length = 0 by simp; omega]
      simp [signalShape, Nat.mul_comm]
    rw [show (initTransforms a m opt d tr).group.group.sub _ = _ from hD] at *
    rw [hm, res_bind_ok]
    change (_ >>= _) = _
    rw [show signalShape true b (some (g * C)) n = signalShape true b (some (chanO (some g) C)) n from rfl, hst]
    rfl

/-- the exception of the padding layer -/
theorem padBuild_error (p : EquivariantPadding) (b c : Option Nat) {sp : List Nat} (hf : p.Fits sp) {e : Err}
    (h : p.build (signalShape p.channelsLast b c sp) = .error e) : e = if p.paddingOption = .sameEquiv then .attribute else .value := by
  rw [p.build_eq b c hf] at h
  split at h
  · cases h
  split at h
  · cases h
  split at h
  · rename_i ho
    cases h
    rcases ho with ho | ho <;> rw [ho] <;> rfl
  split at h
  · cases h; rfl
  · cases h

end GroCo
