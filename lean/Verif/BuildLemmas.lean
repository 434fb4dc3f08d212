import Verif.TransformLemmas
import Verif.SignalLemmas
import Verif.PaddingLemmas
import Verif.LayerSpec

/-
Helper lemmas: what a successful construction and build of a convolution layer says about its attributes.
-/

namespace GroCo
open Tensor

variable {α : Type}

/-- inversion of a bind -/
theorem bind_eq_ok {β γ : Type} {r : Res β} {f : β → Res γ} {c : γ} (h : r >>= f = .ok c) :
    ∃ b, r = .ok b ∧ f b = .ok c := by
  cases r with
  | error e => exact absurd h (by simp)
  | ok b => exact ⟨b, rfl, h⟩

theorem groupDict_name {s : String} {m : GroupName} (h : groupDict s = .ok m) : m.group.name = s := by
  have := lookup_mem h
  simp only [List.mem_cons, List.not_mem_nil, or_false, Prod.mk.injEq] at this
  rcases this with ⟨rfl, rfl⟩ | ⟨rfl, rfl⟩ | ⟨rfl, rfl⟩ | ⟨rfl, rfl⟩ | ⟨rfl, rfl⟩ | ⟨rfl, rfl⟩ | ⟨rfl, rfl⟩ |
    ⟨rfl, rfl⟩ | ⟨rfl, rfl⟩ | ⟨rfl, rfl⟩ | ⟨rfl, rfl⟩ <;> rfl

/-- the transforms object of a constructed layer -/
def initTransforms (a : GroupArgs) (m : GroupName) (opt : PadOption) (d : Nat) (tr : Bool) : GroupTransforms :=
  { dimensions := d
    transpose := tr
    group := a.group
    subgroup := m
    domainGroup := some (if tr then m.group.name else a.group.group.name)
    actingGroup := if tr then a.group.group.name else m.group.name
    equivariantPadding := ⟨opt, a.allowNonEquivariance, d, a.strides, a.kernelSize, true, tr⟩
    builtInPaddingOption := GroCo.builtInPaddingOption a.padding
    dataFormat := a.dataFormat
    channelsAxis := if a.dataFormat = .channelsFirst then 1 else d + 1
    groupAxis := d + 1 + (if a.dataFormat = .channelsFirst then 1 else 0) }

theorem transforms_init_inv {a : GroupArgs} {d : Nat} {tr : Bool} {t : GroupTransforms}
    (h : GroupTransforms.init a d tr = .ok t) :
    ∃ s m opt, a.group.group.parseSubgroup a.subgroup = some s ∧ groupDict s = .ok m ∧
      formatPaddingOption a.padding = .ok opt ∧ t = initTransforms a m opt d tr := by
  unfold GroupTransforms.init at h
  cases hs : a.group.group.parseSubgroup a.subgroup with
  | none => rw [hs] at h; exact absurd h (by simp)
  | some s =>
    rw [hs] at h
    obtain ⟨m, hm, h⟩ := bind_eq_ok h
    obtain ⟨opt, ho, h⟩ := bind_eq_ok h
    exact ⟨s, m, opt, rfl, hm, ho, by cases h; rfl⟩

theorem conv_init_inv {a : ConvArgs α} {d : Nat} {tr : Bool} {l : GroupConv α} (h : GroupConv.init a d tr = .ok l) :
    ∃ s m opt kp, a.group.group.parseSubgroup a.subgroup = some s ∧ groupDict s = .ok m ∧
      formatPaddingOption a.padding = .ok opt ∧ standardizePadding (builtInPaddingOption a.padding) = .ok kp ∧
      a.kernelSize.length = d ∧ a.strides.length = d ∧ a.dilation.length = d ∧ 0 ∉ a.kernelSize ∧ 0 ∉ a.strides ∧
      l = { transforms := initTransforms a.toGroupArgs m opt d tr
            kernelSize := a.kernelSize
            strides := a.strides
            dilation := a.dilation
            padding := kp
            dataFormat := a.dataFormat
            useBias := a.useBias
            activation := a.activation
            filters := a.filters } := by
  unfold GroupConv.init at h
  obtain ⟨t, ht, h⟩ := bind_eq_ok h
  obtain ⟨s, m, opt, h1, h2, h3, rfl⟩ := transforms_init_inv ht
  obtain ⟨kp, hk, h⟩ := bind_eq_ok h
  split at h
  · exact absurd h (by simp)
  · rename_i hc
    simp only [not_or, not_not] at hc
    exact ⟨s, m, opt, kp, h1, h2, h3, hk, hc.1, hc.2.1, hc.2.2.1, hc.2.2.2.1, hc.2.2.2.2.1, by cases h; rfl⟩

theorem conv_init_checks {a : ConvArgs α} {d : Nat} {tr : Bool} {l : GroupConv α} (h : GroupConv.init a d tr = .ok l) :
    a.filters ≠ 0 ∧ 0 ∉ a.dilation ∧ ¬ ((∃ s ∈ a.strides, 1 < s) ∧ ∃ r ∈ a.dilation, 1 < r) := by
  unfold GroupConv.init at h
  obtain ⟨t, ht, h⟩ := bind_eq_ok h
  obtain ⟨kp, hk, h⟩ := bind_eq_ok h
  split at h
  · exact absurd h (by simp)
  · rename_i hc
    rw [not_or, not_or, not_or, not_or, not_or, not_or, not_or] at hc
    exact hc.2.2.2.2.2

/-- Keras's part of a padding option -/
def kerasOf : PadOption → KerasPadding
  | .same | .sameEquiv => .same
  | .valid | .validEquiv => .valid

/-- the option handed to Keras agrees with the option of the padding layer -/
theorem padding_agree {s : String} {opt : PadOption} {kp : KerasPadding} (h1 : formatPaddingOption s = .ok opt)
    (h2 : standardizePadding (builtInPaddingOption s) = .ok kp) :
    kp = kerasOf opt := by
  have hu : ∀ {t : String}, pyUpper s = t → s.toList.length = t.toList.length := by
    intro t h; rw [← h]; simp [pyUpper]
  have hl : ∀ {u t : String}, pyLower u = t → u.toList.length = t.toList.length := by
    intro u t h; rw [← h]; simp [pyLower]
  have hb : (builtInPaddingOption s).toList.length = s.toList.length ∨
      (builtInPaddingOption s).toList.length + 6 = s.toList.length := by
    unfold builtInPaddingOption
    simp only
    split
    · rename_i hs
      have := hs.length_le
      simp at this
      right; simp; omega
    · left; rfl
  have hk : (kp = .same ∧ (builtInPaddingOption s).toList.length = 4) ∨
      (kp = .valid ∧ (builtInPaddingOption s).toList.length = 5) := by
    unfold standardizePadding at h2
    split at h2
    · rename_i h; left; exact ⟨by cases h2; rfl, hl h⟩
    · split at h2
      · rename_i h; right; exact ⟨by cases h2; rfl, hl h⟩
      · exact absurd h2 (by simp)
  unfold formatPaddingOption at h1
  split at h1
  · rename_i h; cases h1
    have := hu h
    simp at this
    simp only [kerasOf]
    rcases hk with ⟨e, _⟩ | ⟨_, e⟩
    · exact e
    · omega
  · split at h1
    · rename_i h; cases h1
      have := hu h
      simp at this
      simp only [kerasOf]
      rcases hk with ⟨_, e⟩ | ⟨e, _⟩
      · omega
      · exact e
    · split at h1
      · rename_i h; cases h1
        have := hu h
        simp at this
        simp only [kerasOf]
        rcases hk with ⟨e, _⟩ | ⟨_, e⟩
        · exact e
        · omega
      · split at h1
        · rename_i h; cases h1
          have := hu h
          simp at this
          simp only [kerasOf]
          rcases hk with ⟨_, e⟩ | ⟨e, _⟩
          · omega
          · exact e
        · exact absurd h1 (by simp)

/-- channels after merging the group axis -/
def chanO (g : Option Nat) (C : Nat) : Nat :=
  match g with
  | none => C
  | some g => g * C

theorem transforms_build_last {a : GroupArgs} {m : GroupName} {opt : PadOption} {d : Nat} {tr : Bool}
    (hf : a.dataFormat = .channelsLast) {b : Option Nat} {n : List Nat} {g : Option Nat} {C : Nat} (hn : n.length = d)
    {t : GroupTransforms} (h : (initTransforms a m opt d tr).build (inputShape .channelsLast b n g C) = .ok t) :
    ∃ st, (initTransforms a m opt d tr).equivariantPadding.build (signalShape true b (some (chanO g C)) n) = .ok st ∧
      (∀ g', g = some g' → (initTransforms a m opt d tr).orderOf (initTransforms a m opt d tr).domainGroup = .ok g') ∧
      t = { initTransforms a m opt d tr with
        groupValuedInput := g.isSome
        domainGroup := if g.isSome then (initTransforms a m opt d tr).domainGroup else none
        channelsAxis := d + 1 + (if g.isSome then 1 else 0)
        reshapedInput := signalShape true b (some (chanO g C)) n
        padState := st } := by
  unfold GroupTransforms.build at h
  have hdim : (initTransforms a m opt d tr).dimensions = d := rfl
  have hfmt : (initTransforms a m opt d tr).dataFormat = .channelsLast := hf
  have hca : (initTransforms a m opt d tr).channelsAxis = d + 1 := by simp [initTransforms, hf]
  have hga : (initTransforms a m opt d tr).groupAxis = d + 1 := by simp [initTransforms, hf]
  cases g with
  | none =>
    have hlen : (inputShape .channelsLast b n none C).length = d + 2 := by simp [inputShape, hn]
    simp only [hdim, hlen, show ¬ (d + 2 = d + 3) by omega, decide_false, Bool.false_eq_true, if_false, and_false,
      res_bind_ok, hca] at h
    obtain ⟨st, hst, h⟩ := bind_eq_ok h
    cases h
    exact ⟨st, hst, by simp, rfl⟩
  | some g =>
    have hlen : (inputShape .channelsLast b n (some g) C).length = d + 3 := by simp [inputShape, hn]
    simp only [hdim, hlen, decide_true, if_true, hfmt, and_self, hca, hga] at h
    obtain ⟨o, ho, h⟩ := bind_eq_ok h
    obtain ⟨sz, hsz, h⟩ := bind_eq_ok h
    have hsz' : sz = some g := by
      rw [getIdx_ok _ (i := d + 1) (by omega)] at hsz
      cases hsz
      simp [inputShape, ← hn]
    subst hsz'
    by_cases hog : g = o
    · subst hog
      simp only [if_true] at h
      have hm : mergeShapes (inputShape .channelsLast b n (some g) C) ((d + 1 : Nat) : Int) ((d + 1 + 1 : Nat) : Int) =
          .ok (signalShape true b (some (g * C)) n) := by
        unfold mergeShapes
        rw [pyIndex_eq_norm (normAxis_nat (by omega)), pyIndex_eq_norm (normAxis_nat (by omega))]
        have e1 : (inputShape .channelsLast b n (some g) C)[d + 1 + 1]? = some (some C) := by
          simp [inputShape, ← hn]
        have e2 : (inputShape .channelsLast b n (some g) C)[d + 1]? = some (some g) := by
          simp [inputShape, ← hn]
        simp only [res_bind_ok, e1, e2, res_pure]
        congr 1
        have : inputShape .channelsLast b n (some g) C = (b :: n.map some) ++ [some g, some C] := rfl
        rw [this, List.set_append_right _ _ (by simp; omega), List.eraseIdx_append_of_length_le (by simp; omega)]
        have : d + 1 + 1 - (b :: n.map some).length = 1 := by simp; omega
        rw [this, show d + 1 - (b :: n.map some).length = 0 by simp; omega]
        simp [signalShape, Nat.mul_comm]
      obtain ⟨r, hr, h⟩ := bind_eq_ok h
      have hr2 : mergeShapes (inputShape .channelsLast b n (some g) C) ((d + 1 : Nat) : Int) ((d + 1 + 1 : Nat) : Int) =
          .ok r := hr
      rw [hm] at hr2
      cases hr2
      obtain ⟨st, hst, h⟩ := bind_eq_ok h
      cases h
      exact ⟨st, hst, by simpa using ho, by simp [initTransforms, hf, chanO]⟩
    · simp only [Option.some.injEq, hog, if_false] at h
      exact absurd h (by simp)

theorem transforms_build_first {a : GroupArgs} {m : GroupName} {opt : PadOption} {d : Nat} {tr : Bool}
    (hf : a.dataFormat = .channelsFirst) {b : Option Nat} {n : List Nat} {g : Option Nat} {C : Nat} (hn : n.length = d)
    {t : GroupTransforms} (h : (initTransforms a m opt d tr).build (inputShape .channelsFirst b n g C) = .ok t) :
    ∃ st, (initTransforms a m opt d tr).equivariantPadding.build (signalShape false b (some (chanO g C)) n) = .ok st ∧
      (∀ g', g = some g' → (initTransforms a m opt d tr).orderOf (initTransforms a m opt d tr).domainGroup = .ok g') ∧
      t = { initTransforms a m opt d tr with
        groupValuedInput := g.isSome
        domainGroup := if g.isSome then (initTransforms a m opt d tr).domainGroup else none
        channelsAxis := 1
        reshapedInput := signalShape false b (some (chanO g C)) n
        padState := st } := by
  unfold GroupTransforms.build at h
  have hdim : (initTransforms a m opt d tr).dimensions = d := rfl
  have hfmt : (initTransforms a m opt d tr).dataFormat = .channelsFirst := hf
  have hca : (initTransforms a m opt d tr).channelsAxis = 1 := by simp [initTransforms, hf]
  have hga : (initTransforms a m opt d tr).groupAxis = d + 1 + 1 := by simp [initTransforms, hf]
  cases g with
  | none =>
    have hlen : (inputShape .channelsFirst b n none C).length = d + 2 := by simp [inputShape, hn]
    simp only [hdim, hlen, show ¬ (d + 2 = d + 3) by omega, decide_false, Bool.false_eq_true, if_false, and_false,
      res_bind_ok, hca] at h
    obtain ⟨st, hst, h⟩ := bind_eq_ok h
    cases h
    refine ⟨st, ?_, by simp, ?_⟩
    · rw [← hst]; simp [inputShape, signalShape, chanO]
    · simp [initTransforms, hf, chanO, inputShape, signalShape]
  | some g =>
    have hlen : (inputShape .channelsFirst b n (some g) C).length = d + 3 := by simp [inputShape, hn]
    simp only [hdim, hlen, decide_true, if_true, hfmt, reduceCtorEq, false_and, if_false, hca, hga] at h
    obtain ⟨o, ho, h⟩ := bind_eq_ok h
    obtain ⟨sz, hsz, h⟩ := bind_eq_ok h
    have hsz' : sz = some g := by
      rw [getIdx_ok _ (i := d + 1 + 1) (by omega)] at hsz
      cases hsz
      simp [inputShape, ← hn]
    subst hsz'
    by_cases hog : g = o
    · subst hog
      simp only [if_true] at h
      have hm : mergeShapes (inputShape .channelsFirst b n (some g) C) ((d + 1 + 1 : Nat) : Int) ((1 : Nat) : Int) =
          .ok (signalShape false b (some (g * C)) n) := by
        unfold mergeShapes
        rw [pyIndex_eq_norm (normAxis_nat (by omega)), pyIndex_eq_norm (normAxis_nat (by omega))]
        have e1 : (inputShape .channelsFirst b n (some g) C)[1]? = some (some C) := by
          simp [inputShape]
        have e2 : (inputShape .channelsFirst b n (some g) C)[d + 1 + 1]? = some (some g) := by
          simp [inputShape, ← hn]
        simp only [res_bind_ok, e1, e2, res_pure]
        congr 1
        have : inputShape .channelsFirst b n (some g) C = b :: some C :: (n.map some ++ [some g]) := rfl
        rw [this]
        simp only [List.set_cons_succ, List.set_cons_zero, List.eraseIdx_cons_succ]
        rw [List.eraseIdx_append_of_length_le (by simp; omega)]
        simp [signalShape, Nat.mul_comm, hn]
      obtain ⟨r, hr, h⟩ := bind_eq_ok h
      have hr2 : mergeShapes (inputShape .channelsFirst b n (some g) C) ((d + 1 + 1 : Nat) : Int) ((1 : Nat) : Int) =
          .ok r := hr
      rw [hm] at hr2
      cases hr2
      obtain ⟨st, hst, h⟩ := bind_eq_ok h
      cases h
      exact ⟨st, hst, by simpa using ho, by simp [initTransforms, hf, chanO]⟩
    · simp only [Option.some.injEq, hog, if_false] at h
      exact absurd h (by simp)

end GroCo
