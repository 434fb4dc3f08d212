import Verif.Grouped
import Verif.ConvLemmas

/-
Helper lemmas: layers constructed with the Keras argument `groups`.
-/

namespace GroCo
open Tensor

variable {α : Type}

theorem initGroups_inv {a : ConvArgs α} {q d : Nat} {l : GroupConv α} (h : GroupConv.initGroups a q d = .ok l) :
    GroupConv.init a d false = .ok l ∧ 0 < q ∧ a.filters % q = 0 := by
  unfold GroupConv.initGroups at h
  obtain ⟨l', h1, h⟩ := bind_eq_ok h
  split at h
  · exact absurd h (by simp)
  · rename_i hq
    simp only [not_or, not_not] at hq
    cases h
    exact ⟨h1, Nat.pos_of_ne_zero hq.1, hq.2⟩

/-- splitting the group axis off the channels of a kernel -/
theorem kernel_divides {t : GroupTransforms} {kernel : Tensor α} {I : Tensor Nat} {K : List Nat} {g m F : Nat}
    (htr : t.transpose = false) (hgv : t.groupValuedInput = true) (ho : t.orderOf t.domainGroup = .ok g) (hg : 0 < g)
    (hk : kernel.shape = K ++ [m, F]) (hK : 0 ∉ K) (hF : 0 < F) (h : t.computeTransformedKernelIndices kernel = .ok I) :
    g ∣ m := by
  unfold GroupTransforms.computeTransformedKernelIndices at h
  simp only [htr, Bool.false_eq_true, if_false, res_bind_ok, hgv, not_true_eq_false, ho] at h
  obtain ⟨J, hJ, _⟩ := bind_eq_ok h
  by_contra hm
  have hs : (getIndexTensor kernel).shape = K ++ [m, F] := hk
  have hr : (getIndexTensor kernel).rank = K.length + 2 := by rw [Tensor.rank, hs]; simp
  have := splitAxes_error (getIndexTensor kernel) (ax := -2) (k := K.length) (left := g)
    (by rw [hr]; exact normAxis_of (by omega) (by omega)) hg (by
      rw [hs]
      have : nth (K ++ [m, F]) K.length = m := nth_app0 rfl
      rw [this]; exact hm) (by
      intro i hi hne
      rw [hs]
      rw [hr] at hi
      rcases Nat.lt_or_ge i K.length with h1 | h1
      · rw [nth_append, if_pos h1]
        exact Nat.pos_of_ne_zero fun h0 => hK (h0 ▸ nth_mem _ _ h1)
      · have : i = K.length + 1 := by omega
        subst this
        rw [nth_append, if_neg (by omega)]
        simpa using hF)
  rw [this] at hJ
  exact absurd hJ (by simp)

theorem BuiltGrouped.facts_last {a : ConvArgs α} {q : Nat} {b : Option Nat} {n : List Nat} {g : Option Nat} {C : Nat}
    {k0 b0 : List Nat → α} {H : List Nat} {l : GroupConv α} (hl : BuiltGrouped a q b n g C k0 b0 H l)
    (hf : a.dataFormat = .channelsLast) :
    0 < q ∧ a.filters % q = 0 ∧ 0 < a.filters ∧ C % q = 0 ∧
    ∃ opt kp, formatPaddingOption a.padding = .ok opt ∧ standardizePadding (builtInPaddingOption a.padding) = .ok kp ∧
      ConvCore a false g (C / q) k0 b0 H (List.range a.group.group.order) l kp ∧
      l.inputSpec = some (a.group.dim + 2, some C) ∧
      EquivariantPadding.build ⟨opt, a.allowNonEquivariance, a.group.dim, a.strides, a.kernelSize, true, false⟩
        (signalShape true b (some (chanO g C)) n) = .ok l.transforms.padState := by
  obtain ⟨l0, h0, h1⟩ := hl.built
  obtain ⟨h0, hq, hF⟩ := initGroups_inv h0
  obtain ⟨s', hs', hH⟩ := parse_sub hl.elements
  have hF0 : 0 < a.filters := by
    unfold GroupConv.init at h0
    obtain ⟨t, _, h0⟩ := bind_eq_ok h0
    obtain ⟨kp, _, h0⟩ := bind_eq_ok h0
    split at h0
    · exact absurd h0 (by simp)
    · rename_i h
      simp only [not_or] at h
      exact Nat.pos_of_ne_zero h.2.2.2.2.2.1
  obtain ⟨s, m, opt, kp, e1, e2, e3, e4, e5, e6, e7, e8, e9, rfl⟩ := conv_init_inv h0
  rw [e1] at hs'
  cases hs'
  have hm := groupDict_name e2
  rw [← hm] at hH
  unfold GroupConv.buildGroups at h1
  rw [hf] at h1
  obtain ⟨t, ht, h1⟩ := bind_eq_ok h1
  obtain ⟨st, hst, hord, ht⟩ := transforms_build_last (a := a.toGroupArgs) hf hl.dims ht
  have hca : t.channelsAxis = a.group.dim + 1 + (if g.isSome then 1 else 0) := by rw [ht]
  have hre : t.reshapedInput = signalShape true b (some (chanO g C)) n := by rw [ht]
  have hgv : t.groupValuedInput = g.isSome := by rw [ht]
  have htr : t.transpose = false := by rw [ht]; rfl
  have hd : t.dimensions = a.group.dim := by rw [ht]; rfl
  have hch : channelsOf .channelsLast (signalShape true b (some (chanO g C)) n) = .ok (chanO g C) := by
    unfold channelsOf channelAxis signalShape
    simp
  simp only [hre, hch, res_bind_ok] at h1
  split at h1
  · exact absurd h1 (by simp)
  · rename_i hdiv
    rw [not_not] at hdiv
    obtain ⟨os, hos, h1⟩ := bind_eq_ok h1
    obtain ⟨t2, ht2, h1⟩ := bind_eq_ok h1
    have hCq : C % q = 0 := by
      cases g with
      | none => exact hdiv
      | some g =>
        obtain ⟨J, I, hJ, hI, _⟩ := buildConv_inv ht2
        have ho : t.orderOf t.domainGroup = .ok g := by rw [ht]; exact hord g rfl
        have hg : 0 < g := by
          have := hord g rfl
          unfold GroupTransforms.orderOf at this
          obtain ⟨D, hD, this⟩ := bind_eq_ok this
          cases this
          have hD' : a.group.group.sub (some a.group.group.name) = .ok D := hD
          simp only [GroupData.sub, a.group.sym.tab.own] at hD'
          cases hD'
          exact sub_pos a.group.sym.tab a.group.sym.tab.own
        have hdvd := kernel_divides htr (by rw [hgv]; rfl) ho hg (K := a.kernelSize) (m := chanO (some g) C / q)
          (F := a.filters) rfl e8 hF0 hI
        obtain ⟨c, hc⟩ := hdvd
        have h5 : g * C = q * (g * c) := by
          have := Nat.div_add_mod (chanO (some g) C) q
          rw [hdiv, hc] at this
          simp only [chanO] at this
          omega
        have h6 : C = q * c := Nat.eq_of_mul_eq_mul_left hg (by rw [h5]; ring)
        rw [h6]; exact Nat.mul_mod_right q c
    have hcq : chanO g C / q = chanO g (C / q) := by
      cases g with
      | none => rfl
      | some g => exact Nat.mul_div_assoc g (Nat.dvd_of_mod_eq_zero hCq)
    have hks : a.kernelSize ++ [chanO g C / q, a.filters] = kShape a false g (C / q) := by rw [hcq]; rfl
    rw [hks] at h1 ht2
    have key := fun spec => conv_build_parts (C := C / q) (k0 := k0) (b0 := b0) (kp := kp) (spec := spec) (tr := false)
      hH e5 e6 e7 e8 e9 hst hord (by rw [ht, hf]; simp) ht2 rfl
    refine ⟨hq, hF, hF0, hCq, opt, kp, e3, e4, ?_⟩
    obtain ⟨J, I, hJ, hI, rfl⟩ := buildConv_inv ht2
    rw [hf] at key
    cases h1
    refine ⟨(key _).1, ?_, ?_⟩
    · cases g with
      | none => simp [hgv, hd, chanO]
      | some g =>
        simp only [hgv, hd, hca]
        unfold inputShape
        simp [← hl.dims]
    · rw [(key _).2]
      exact hst

theorem check_sig {l : GroupConv α} {d C : Nat} (hs : l.inputSpec = some (d + 2, some C)) (hf : l.dataFormat = .channelsLast)
    {x : Tensor α} {B : Nat} {n : List Nat} {g : Option Nat} (hx : x.shape = sigShape .channelsLast B n g C)
    (hn : n.length = d) : l.checkInput x = .ok () := by
  unfold GroupConv.checkInput
  rw [hs, hf]
  cases g with
  | none =>
    have hr : x.rank = d + 2 := by simp [Tensor.rank, hx, hn, sigShape]
    simp only [hr, Nat.lt_irrefl, if_false, channelAxis, hx, sigShape]
    rw [if_pos]
    exact nth_app0 (a := B :: n) (by simp [hn])
  | some g =>
    have hr : x.rank = d + 3 := by simp [Tensor.rank, hx, hn, sigShape]
    simp only [hr, channelAxis, hx, sigShape]
    rw [if_neg (by omega), if_pos]
    exact nth_app (a := B :: n) (m := d + 1) (by simp [hn]) 1

theorem build_transpose {t t' : GroupTransforms} {shape : List (Option Nat)} (h : t.build shape = .ok t') :
    t'.transpose = t.transpose := by
  unfold GroupTransforms.build at h
  dsimp only at h
  split at h
  · obtain ⟨o, ho, h⟩ := bind_eq_ok h
    obtain ⟨sz, hsz, h⟩ := bind_eq_ok h
    split at h
    · obtain ⟨r, hr, h⟩ := bind_eq_ok h
      obtain ⟨st, hst, h⟩ := bind_eq_ok h
      cases h
      rfl
    · exact absurd h (by simp)
  · obtain ⟨r, hr, h⟩ := bind_eq_ok h
    obtain ⟨st, hst, h⟩ := bind_eq_ok h
    cases h
    rfl

theorem chanO_quot {g : Option Nat} {C q : Nat} (hg : ∀ g', g = some g' → 0 < g') (hq : 0 < q) (hC : C % q = 0)
    (h : 0 < C) : 0 < chanO g (C / q) ∧ chanO g C = q * chanO g (C / q) := by
  obtain ⟨c, rfl⟩ := Nat.dvd_of_mod_eq_zero hC
  rw [Nat.mul_div_cancel_left _ hq]
  have hc : 0 < c := Nat.pos_of_mul_pos_left h
  cases g with
  | none => exact ⟨hc, rfl⟩
  | some g => exact ⟨Nat.mul_pos (hg g rfl) hc, by simp only [chanO]; ring⟩

theorem grouped_div {g : Option Nat} {C q m F : Nat} (hg : ∀ g', g = some g' → 0 < g') (hq : 0 < q) (hC : C % q = 0)
    (hF : F % q = 0) : chanO g C = chanO g (C / q) ∨ 0 < chanO g (C / q) ∧ chanO g C % chanO g (C / q) = 0 ∧
      m * F % (chanO g C / chanO g (C / q)) = 0 ∧ 0 < chanO g C := by
  rcases Nat.eq_zero_or_pos C with rfl | h
  · left; rw [Nat.zero_div]
  · right
    obtain ⟨h1, h2⟩ := chanO_quot hg hq hC h
    refine ⟨h1, by rw [h2]; simp, ?_, by rw [h2]; exact Nat.mul_pos hq h1⟩
    rw [h2, Nat.mul_div_cancel _ h1, Nat.mul_mod, hF]
    simp

theorem grouped_start {g : Option Nat} {C q N f : Nat} (hg : ∀ g', g = some g' → 0 < g') (hq : 0 < q) (hC : C % q = 0)
    (h : 0 < C) : groupStart (chanO g C) (chanO g (C / q)) N f = f / (N / q) * chanO g (C / q) := by
  obtain ⟨h1, h2⟩ := chanO_quot hg hq hC h
  unfold groupStart
  rw [h2, Nat.mul_div_cancel _ h1]

end GroCo
