import Verif.Props.Equivariance
import Verif.TracedLemmas

/-
Property C29: calling a layer does not change it. `l.calls xs` calls a layer on the inputs `xs` one after the other, carrying its
attributes along; exceptions are caught by the caller.
-/

namespace GroCo
open Tensor

variable {α : Type}

/-- C29 as stated: after any sequence of calls the layer is what it was, and each call gave what a single call would have. -/
def CallsPure : Prop :=
  ∀ (a : ConvArgs Int) (tr : Bool) (bt : Option Nat) (n : List Nat) (g : Option Nat) (C : Nat) (k0 b0 : List Nat → Int)
    (H : List Nat) (l : GroupConv Int), BuiltConv a tr bt n g C k0 b0 H l →
  ∀ xs : List (Tensor Int), (l.calls xs).1 = l ∧ (l.calls xs).2 = xs.map fun x => (l.call x).2

theorem call_state [Semiring α] (l : GroupConv α) (x : Tensor α) {y : Tensor α} (h : (l.call x).2 = .ok y) : (l.call x).1 = l := by
  unfold GroupConv.call backupAndRestore GroupConv.body at *
  cases hc : l.checkInput x with
  | error e => simp [hc] at h
  | ok u =>
    rw [hc] at h
    simp only at h ⊢
    cases hk : l.kernel with
    | none => simp [hk] at h
    | some k =>
      rw [hk] at h
      simp only at h ⊢
      cases hp : l.transforms.prepareCall k l.bias l.filters x with
      | error e => simp [hp] at h
      | ok r =>
        obtain ⟨k', b', f', x'⟩ := r
        rw [hp] at h
        simp only at h ⊢
        cases hs : (({ l with kernel := some k', bias := b', filters := f' } : GroupConv α).superCall x' >>=
            fun y => l.transforms.restoreGroupAxis y) with
        | error e => rw [hs] at h; exact absurd h (by simp)
        | ok z => simp only; rw [← hk]

/-- C29 for calls that return, and calls that raise before the kernel is transformed: whatever its state, a layer is unchanged
after any sequence of such calls, and each call gave what a single call would have given. -/
theorem C29_calls_pure_partial [Semiring α] (l : GroupConv α) (xs : List (Tensor α))
    (h : ∀ x ∈ xs, (∃ y, (l.call x).2 = .ok y) ∨ (∃ e, l.checkInput x = .error e) ∨
      ∃ e, l.transforms.mergeGroupAxisAndPad x = .error e) :
    (l.calls xs).1 = l ∧ (l.calls xs).2 = xs.map fun x => (l.call x).2 := by
  induction xs with
  | nil => exact ⟨rfl, rfl⟩
  | cons x xs ih =>
    have h1 : (l.call x).1 = l := by
      rcases h x (by simp) with ⟨y, hy⟩ | ⟨e, he⟩ | ⟨e, he⟩
      · exact call_state l x hy
      · unfold GroupConv.call
        rw [he]
      · unfold GroupConv.call backupAndRestore GroupConv.body GroupTransforms.prepareCall
        rw [he]
        cases l.checkInput x with
        | error e => rfl
        | ok u =>
          simp only
          cases l.kernel <;> rfl
    obtain ⟨h2, h3⟩ := ih fun x hx => h x (List.mem_cons_of_mem _ hx)
    simp only [GroupConv.calls, h1, h2, h3, List.map_cons, and_self]

/-- C29, exactly when it fails: a built layer that acts with more than one element is unchanged by a call if and only if the call
returns or raises before the kernel is transformed. After any other call the layer has the transformed kernel, and as many filters as
its output has channels and group elements. -/
theorem C29_exact [Semiring α] {a : ConvArgs α} {tr : Bool} {bt : Option Nat} {n : List Nat} {g : Option Nat} {C : Nat}
    {k0 b0 : List Nat → α} {H : List Nat} {l : GroupConv α} (hl : BuiltConv a tr bt n g C k0 b0 H l)
    (hone : 1 < if tr then a.group.group.order else H.length) (x : Tensor α) :
    ((l.call x).1 = l ↔ (∃ y, (l.call x).2 = .ok y) ∨ (∃ e, l.checkInput x = .error e) ∨
      ∃ e, l.transforms.mergeGroupAxisAndPad x = .error e) ∧
    ((l.call x).1 ≠ l → (l.call x).1.filters = a.filters * (if tr then a.group.group.order else H.length) ∧
      ∃ k w, l.kernel = some k ∧ l.transforms.transformKernel k = .ok w ∧ (l.call x).1.kernel = some w) := by
  have hF := BuiltConv.filters_pos hl
  obtain ⟨kp, f⟩ : ∃ kp, ConvFacts a tr g C k0 b0 (actingOf a.group tr H) (domainOf a.group tr H) l kp := by
    cases hf : a.dataFormat with
    | channelsLast => obtain ⟨_, kp, _, _, f, _⟩ := hl.facts_last hf; exact ⟨kp, f⟩
    | channelsFirst => obtain ⟨_, kp, _, _, f, _⟩ := hl.facts_first hf; exact ⟨kp, f⟩
  have hA : (actingOf a.group tr H).length = if tr then a.group.group.order else H.length := by
    unfold actingOf
    split
    · exact List.length_range
    · rfl
  by_cases hq : (∃ y, (l.call x).2 = .ok y) ∨ (∃ e, l.checkInput x = .error e) ∨ ∃ e, l.transforms.mergeGroupAxisAndPad x = .error e
  · have h : (l.call x).1 = l := (C29_calls_pure_partial l [x] (by simpa using hq)).1
    exact ⟨iff_of_true h hq, fun h' => absurd h h'⟩
  · simp only [not_or, not_exists] at hq
    obtain ⟨q1, q2, q3⟩ := hq
    obtain ⟨u, hc⟩ : ∃ u, l.checkInput x = .ok u := by
      cases h : l.checkInput x with
      | error e => exact absurd h (q2 e)
      | ok u => exact ⟨u, rfl⟩
    obtain ⟨y, hy⟩ : ∃ y, l.transforms.mergeGroupAxisAndPad x = .ok y := by
      cases h : l.transforms.mergeGroupAxisAndPad x with
      | error e => exact absurd h (q3 e)
      | ok y => exact ⟨y, rfl⟩
    obtain ⟨w, hw, -⟩ := f.transformed
    obtain ⟨b', -, hcall⟩ := call_parts f.toConvCore hc hy hw
    split at hcall
    next z _ => exact absurd (by rw [hcall]) (q1 z)
    next e _ =>
      have hne : (l.call x).1 ≠ l := by
        intro h
        have := congrArg GroupConv.filters h
        rw [hcall, f.filters, hA] at this
        simp only at this
        have h2 : a.filters * 1 < a.filters * (if tr then a.group.group.order else H.length) := Nat.mul_lt_mul_of_pos_left hone hF
        omega
      refine ⟨iff_of_false hne ?_, fun _ => ⟨by rw [hcall, ← hA], _, w, f.kernel, hw, by rw [hcall]⟩⟩
      rintro (⟨y, h⟩ | ⟨e, h⟩ | ⟨e, h⟩)
      · exact q1 y h
      · exact q2 e h
      · exact q3 e h

/-- a P4 lifting layer without bias -/
def smallConv : ConvArgs Int :=
  { group := .P4, subgroup := some "", kernelSize := [3, 3], strides := [1, 1], padding := "valid",
    allowNonEquivariance := false, dataFormat := .channelsLast, filters := 1, dilation := [1, 1], useBias := false,
    activation := id }

/-- hypotheses of the theorem are met, by a sequence with calls that return and calls that raise -/
example : ∃ l, BuiltConv smallConv false none [3, 3] none 1 (fun _ => 1) (fun _ => 0) [0, 1, 2, 3] l ∧
    ∀ x ∈ ([⟨[1, 3, 3, 1], fun _ => 1⟩, ⟨[1, 3, 3, 2], fun _ => 1⟩, ⟨[1, 5, 7, 1], fun _ => 1⟩] : List (Tensor Int)),
      (∃ y, (l.call x).2 = .ok y) ∨ (∃ e, l.checkInput x = .error e) ∨
        ∃ e, l.transforms.mergeGroupAxisAndPad x = .error e := by
  refine ⟨_, ⟨⟨_, rfl, rfl⟩, rfl, rfl⟩, ?_⟩
  intro x hx
  simp only [List.mem_cons, List.not_mem_nil, or_false] at hx
  rcases hx with rfl | rfl | rfl
  · exact Or.inl ⟨_, rfl⟩
  · exact Or.inr (Or.inl ⟨_, rfl⟩)
  · exact Or.inl ⟨_, rfl⟩

/-- hypotheses of `C29_exact` are met by that layer, which has four filters after a call with an image smaller than its kernel -/
example : ∃ l, BuiltConv smallConv false none [3, 3] none 1 (fun _ => 1) (fun _ => 0) [0, 1, 2, 3] l ∧
    (1 < if false = true then smallConv.group.group.order else [0, 1, 2, 3].length) ∧
    (l.call ⟨[1, 1, 1, 1], fun _ => 1⟩).1.filters = 4 ∧ (l.call ⟨[1, 1, 1, 1], fun _ => 1⟩).2 = .error .value :=
  ⟨_, ⟨⟨_, rfl, rfl⟩, rfl, rfl⟩, by decide, rfl, rfl⟩

/-- entry of the `i`-th result, if it is a tensor -/
def resultAt (rs : List (Res (Tensor Int))) (i : Nat) (idx : List Nat) : Option Int :=
  match rs[i]? with
  | some (.ok y) => some (y.get idx)
  | _ => none

/-- C29 fails: when Keras raises because an image is smaller than the kernel, the transformed kernel stays in place, so that
the next call silently computes something else than it did before. -/
theorem C29_violation : ¬ CallsPure := by
  intro h
  obtain ⟨_, h⟩ := h smallConv false none [3, 3] none 1 (fun i => nth i 0 + 3 * nth i 1) (fun _ => 0) [0, 1, 2, 3] _
    ⟨⟨_, rfl, rfl⟩, rfl, rfl⟩
    [⟨[1, 1, 1, 1], fun _ => 1⟩, ⟨[1, 3, 3, 1], fun i => if i = [0, 0, 0, 0] then 1 else 0⟩]
  have := congrArg (fun rs => resultAt rs 1 [0, 0, 0, 1, 0]) h
  revert this
  decide +kernel

/-- The two results in `C29_violation`: the call returned 6 before the failed call and returns 8 after it. -/
theorem C29_violation_silent : ∃ l, BuiltConv smallConv false none [3, 3] none 1 (fun i => nth i 0 + 3 * nth i 1) (fun _ => 0)
      [0, 1, 2, 3] l ∧
    resultAt (l.calls [⟨[1, 3, 3, 1], fun i => if i = [0, 0, 0, 0] then 1 else 0⟩, ⟨[1, 1, 1, 1], fun _ => 1⟩,
      ⟨[1, 3, 3, 1], fun i => if i = [0, 0, 0, 0] then 1 else 0⟩]).2 0 [0, 0, 0, 1, 0] = some 6 ∧
    resultAt (l.calls [⟨[1, 3, 3, 1], fun i => if i = [0, 0, 0, 0] then 1 else 0⟩, ⟨[1, 1, 1, 1], fun _ => 1⟩,
      ⟨[1, 3, 3, 1], fun i => if i = [0, 0, 0, 0] then 1 else 0⟩]).2 2 [0, 0, 0, 1, 0] = some 8 := by
  refine ⟨_, ⟨⟨_, rfl, rfl⟩, rfl, rfl⟩, ?_, ?_⟩ <;> decide +kernel

end GroCo
