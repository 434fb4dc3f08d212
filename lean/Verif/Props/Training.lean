import Verif.Training
import Verif.Props.State
import Verif.Props.Equivariance

/-
Property C53: a layer in use behaves like one newly built with the weights it has at that moment.
-/

namespace GroCo
open Tensor

variable {α : Type}

theorem swapaxes_shape {x x' y : Tensor α} {i j : Int} (hx : x.shape = x'.shape) (h : swapaxes x i j = .ok y) :
    ∃ y', swapaxes x' i j = .ok y' ∧ y.shape = y'.shape := by
  have hr : x.rank = x'.rank := by unfold Tensor.rank; rw [hx]
  unfold swapaxes at *
  obtain ⟨a, ha, h⟩ := bind_eq_ok h
  obtain ⟨b, hb, h⟩ := bind_eq_ok h
  rw [hr] at ha hb
  rw [ha, hb, res_bind_ok, res_bind_ok]
  unfold transpose at *
  rw [hr] at h
  split at h
  · rename_i hc
    rw [if_pos hc]
    cases h
    exact ⟨_, rfl, by simp only [hx]⟩
  · cases h

/-- the indices computed when a layer is built depend on the shapes of the weights only -/
theorem buildConv_shape {t t2 : GroupTransforms} {k k' : Tensor α} {b b' : Option (Tensor α)} (hk : k.shape = k'.shape)
    (hb : b.map Tensor.shape = b'.map Tensor.shape) (h : t.buildConv k b = .ok t2) : t.buildConv k' b' = .ok t2 := by
  have hK : ∀ I, t.computeTransformedKernelIndices k = .ok I → t.computeTransformedKernelIndices k' = .ok I := by
    intro I hI
    unfold GroupTransforms.computeTransformedKernelIndices at *
    cases ht : t.transpose with
    | false =>
      simp only [ht, Bool.false_eq_true, if_false, res_bind_ok] at hI ⊢
      simpa only [getIndexTensor, ← hk] using hI
    | true =>
      simp only [ht, if_true] at hI ⊢
      obtain ⟨y, hy, hI⟩ := bind_eq_ok hI
      obtain ⟨y', hy', hs⟩ := swapaxes_shape hk hy
      rw [hy', res_bind_ok]
      simpa only [getIndexTensor, ← hs] using hI
  unfold GroupTransforms.buildConv at *
  cases b with
  | none =>
    cases b' with
    | some _ => simp at hb
    | none =>
      obtain ⟨J, hJ, h⟩ := bind_eq_ok h
      obtain ⟨I, hI, h⟩ := bind_eq_ok h
      simp only [hJ, res_bind_ok, hK I hI]
      exact h
  | some b =>
    cases b' with
    | none => simp at hb
    | some b' =>
      simp only [Option.map_some, Option.some.injEq] at hb
      have hB : t.computeRepeatedBiasIndices b' = t.computeRepeatedBiasIndices b := by
        unfold GroupTransforms.computeRepeatedBiasIndices getIndexTensor
        rw [hb]
      obtain ⟨J, hJ, h⟩ := bind_eq_ok h
      obtain ⟨I, hI, h⟩ := bind_eq_ok h
      simp only [hB, hJ, res_bind_ok, hK I hI]
      exact h

/-- C53, one update: giving new entries to the weights of a built layer yields the layer that building with these entries
would have given. -/
theorem C53_assign {a : ConvArgs α} {tr : Bool} {bt : Option Nat} {n : List Nat} {g : Option Nat} {C : Nat}
    {k0 b0 k1 b1 : List Nat → α} {H : List Nat} {l : GroupConv α} (hl : BuiltConv a tr bt n g C k0 b0 H l) :
    BuiltConv a tr bt n g C k1 b1 H (l.assign k1 b1) := by
  obtain ⟨⟨l0, h0, h1⟩, hn, hH⟩ := hl
  refine ⟨⟨l0, h0, ?_⟩, hn, hH⟩
  unfold GroupConv.build at *
  obtain ⟨t, ht, h1⟩ := bind_eq_ok h1
  rw [ht, res_bind_ok]
  simp only at h1 ⊢
  obtain ⟨ch, hch, h1⟩ := bind_eq_ok h1
  obtain ⟨os, hos, h1⟩ := bind_eq_ok h1
  obtain ⟨t2, ht2, h1⟩ := bind_eq_ok h1
  have ht3 : t.buildConv ⟨l0.kernelSize ++ if t.transpose then [l0.filters, ch] else [ch, l0.filters], k1⟩
      (if l0.useBias then some ⟨[l0.filters], b1⟩ else none) = .ok t2 := by
    refine buildConv_shape ?_ ?_ ht2
    · rfl
    · cases l0.useBias <;> rfl
  rw [hch, res_bind_ok, hos, res_bind_ok, ht3, res_bind_ok]
  cases h1
  unfold GroupConv.assign
  cases l0.useBias <;> rfl

/-- the weights of a layer after a history -/
def weightsAfter (k0 b0 : List Nat → α) : List (Event α) → (List Nat → α) × (List Nat → α)
  | [] => (k0, b0)
  | .call _ :: es => weightsAfter k0 b0 es
  | .assign k b :: es => weightsAfter k b es

theorem built_unique {a : ConvArgs α} {tr : Bool} {bt : Option Nat} {n : List Nat} {g : Option Nat} {C : Nat}
    {k0 b0 : List Nat → α} {H : List Nat} {l l' : GroupConv α} (hl : BuiltConv a tr bt n g C k0 b0 H l)
    (hl' : BuiltConv a tr bt n g C k0 b0 H l') : l = l' := by
  obtain ⟨l0, h0, h1⟩ := hl.built
  obtain ⟨l0', h0', h1'⟩ := hl'.built
  rw [h0] at h0'
  cases h0'
  rw [h1] at h1'
  cases h1'
  rfl

/-- C53: after any history of calls, none of which raised, and updates of the weights, the layer is the one that would have
been built with the weights it has now; so it commutes with the group under the same conditions as a new one (C23 to C31). -/
theorem C53_history [Semiring α] {a : ConvArgs α} {tr : Bool} {bt : Option Nat} {n : List Nat} {g : Option Nat} {C : Nat}
    {k0 b0 : List Nat → α} {H : List Nat} {l : GroupConv α} (hl : BuiltConv a tr bt n g C k0 b0 H l) (es : List (Event α))
    (hok : ∀ r ∈ (l.run es).2, ∃ y, r = .ok y) :
    BuiltConv a tr bt n g C (weightsAfter k0 b0 es).1 (weightsAfter k0 b0 es).2 H (l.run es).1 ∧
      ∀ l', BuiltConv a tr bt n g C (weightsAfter k0 b0 es).1 (weightsAfter k0 b0 es).2 H l' →
        ∀ x, (l.run es).1.call x = l'.call x := by
  have key : BuiltConv a tr bt n g C (weightsAfter k0 b0 es).1 (weightsAfter k0 b0 es).2 H (l.run es).1 := by
    induction es generalizing k0 b0 l with
    | nil => exact hl
    | cons e es ih =>
      cases e with
      | call x =>
        obtain ⟨y, hy⟩ := hok (l.call x).2 List.mem_cons_self
        have hs := call_state l x hy
        have := ih hl fun r hr => hok r (List.mem_cons_of_mem _ (by simpa only [hs] using hr))
        simpa only [GroupConv.run, hs, weightsAfter] using this
      | assign k b => exact ih (C53_assign hl) hok
  exact ⟨key, fun l' hl' x => by rw [built_unique key hl']⟩

/-- C53 for the results of the calls along the way: each is what a layer newly built with the weights of that moment
returns. -/
theorem C53_results [Semiring α] {a : ConvArgs α} {tr : Bool} {bt : Option Nat} {n : List Nat} {g : Option Nat} {C : Nat}
    {k0 b0 : List Nat → α} {H : List Nat} {l : GroupConv α} (hl : BuiltConv a tr bt n g C k0 b0 H l)
    (es es' : List (Event α)) (x : Tensor α) (hok : ∀ r ∈ (l.run (es ++ .call x :: es')).2, ∃ y, r = .ok y)
    (l' : GroupConv α) (hl' : BuiltConv a tr bt n g C (weightsAfter k0 b0 es).1 (weightsAfter k0 b0 es).2 H l') :
    (l.run (es ++ .call x :: es')).2[(l.run es).2.length]? = some (l'.call x).2 := by
  have hrun : ∀ (l : GroupConv α) es es', l.run (es ++ es') =
      (((l.run es).1.run es').1, (l.run es).2 ++ ((l.run es).1.run es').2) := by
    intro l es es'
    induction es generalizing l with
    | nil => rfl
    | cons e es ih =>
      cases e with
      | call x => simp only [List.cons_append, GroupConv.run, ih]
      | assign k b => exact ih _
  rw [hrun] at hok ⊢
  rw [← (C53_history hl es fun r hr => hok r (List.mem_append_left _ hr)).2 l' hl' x]
  simp [GroupConv.run]

/-- a history of a built layer in which no call raises and the weights change -/
example : ∃ l, BuiltConv smallConv false none [3, 3] none 1 (fun i => nth i 0 + 3 * nth i 1) (fun _ => 0) [0, 1, 2, 3] l ∧
    (∀ r ∈ (l.run [.call ⟨[1, 3, 3, 1], fun _ => 1⟩, .assign (fun _ => 2) (fun _ => 0), .call ⟨[1, 3, 3, 1], fun _ => 1⟩]).2,
      ∃ y, r = .ok y) ∧
    resultAt (l.run [.call ⟨[1, 3, 3, 1], fun _ => 1⟩, .assign (fun _ => 2) (fun _ => 0), .call ⟨[1, 3, 3, 1], fun _ => 1⟩]).2
      1 [0, 0, 0, 1, 0] = some 18 := by
  refine ⟨_, ⟨⟨_, rfl, rfl⟩, rfl, rfl⟩, ?_, by decide +kernel⟩
  intro r hr
  rcases List.mem_cons.1 hr with rfl | hr
  · exact ⟨_, rfl⟩
  · rcases List.mem_cons.1 hr with rfl | hr
    · exact ⟨_, rfl⟩
    · cases hr

end GroCo
