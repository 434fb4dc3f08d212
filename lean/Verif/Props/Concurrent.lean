import Verif.Concurrent
import Verif.Props.State

/-
Property C76: calls that overlap in time.
-/

namespace GroCo
open Tensor

variable {α : Type}

/-- C76 as stated: whatever the order in which the threads take their turns, every call that is finished returned what it
returns when made alone, and when all calls are finished the layers are what they were. -/
def CallsOverlap : Prop :=
  ∀ (layers : Nat → GroupConv Int) (jobs : Nat → Job Int),
    (∀ i, ∃ a tr bt n g C k0 b0 H, BuiltConv a tr bt n g C k0 b0 H (layers i)) →
    (∀ j, ∃ y, ((layers (jobs j).layer).call (jobs j).input).2 = .ok y) →
  ∀ schedule : List Nat,
    (∀ j r, (World.run layers jobs schedule).calls j = .done r → r = ((layers (jobs j).layer).call (jobs j).input).2) ∧
    ((∀ j, ¬ ((World.run layers jobs schedule).calls j).Active) →
      ∀ i, (World.run layers jobs schedule).attrs i = (layers i).attrs)

/-- `n` steps of a call `l(x)` made alone -/
def solo [Semiring α] (l : GroupConv α) (x : Tensor α) : Nat → CallState α × Attrs α
  | 0 => (.start, l.attrs)
  | n + 1 => (solo l x n).1.step l x (solo l x n).2

theorem solo_succ [Semiring α] (l : GroupConv α) (x : Tensor α) {n : Nat} {s : CallState α} {a : Attrs α}
    (h : solo l x n = (s, a)) : solo l x (n + 1) = s.step l x a := by
  show (solo l x n).1.step l x (solo l x n).2 = _
  rw [h]

theorem solo_done [Semiring α] (l : GroupConv α) (x : Tensor α) {n m : Nat} {r : Res (Tensor α)} (h : (solo l x n).1 = .done r)
    (hm : n ≤ m) : solo l x m = solo l x n := by
  obtain ⟨k, rfl⟩ := Nat.exists_eq_add_of_le hm
  clear hm
  induction k with
  | zero => rfl
  | succ k ih =>
    show (solo l x (n + k)).1.step l x (solo l x (n + k)).2 = _
    rw [ih, h]
    exact Prod.ext h.symm rfl

/-- eighteen steps of a call made alone are the call in the model of Verif/Layers.lean -/
theorem solo_call [Semiring α] (l : GroupConv α) (x : Tensor α) :
    solo l x 18 = (.done (l.call x).2, (l.call x).1.attrs) := by
  unfold GroupConv.call
  cases hc : l.checkInput x with
  | error e =>
    have h1 : solo l x 1 = (.done (.error e), l.attrs) := by
      show CallState.step l x .start l.attrs = _
      simp only [CallState.step, hc]
    rw [solo_done l x (n := 1) (by rw [h1]) (by omega), h1]
  | ok u =>
    have h1 : solo l x 1 = (.checked, l.attrs) := by
      show CallState.step l x .start l.attrs = _
      simp only [CallState.step, hc]
    have h7 : solo l x 7 = (.read l.attrs l.attrs, l.attrs) := by
      simp only [solo] at h1 ⊢
      rw [h1]
      rfl
    unfold backupAndRestore GroupConv.body
    cases hk : l.kernel with
    | none =>
      have h8 : solo l x 8 = (.done (.error .attribute), l.attrs) := by
        show (solo l x 7).1.step l x (solo l x 7).2 = _
        rw [h7]
        simp only [CallState.step, GroupConv.attrs, hk]
      rw [solo_done l x (n := 8) (by rw [h8]) (by omega), h8]
    | some k =>
      cases hp : l.transforms.prepareCall k l.bias l.filters x with
      | error e =>
        have h8 : solo l x 8 = (.done (.error e), l.attrs) := by
          show (solo l x 7).1.step l x (solo l x 7).2 = _
          rw [h7]
          simp only [CallState.step, GroupConv.attrs, hk, hp]
        rw [solo_done l x (n := 8) (by rw [h8]) (by omega), h8]
        simp only [hp]
      | ok q =>
        obtain ⟨k', b', f', x'⟩ := q
        have h8 : solo l x 8 = (.prepared l.attrs ⟨some k', b', f'⟩ x', l.attrs) := by
          show (solo l x 7).1.step l x (solo l x 7).2 = _
          rw [h7]
          simp only [CallState.step, GroupConv.attrs, hk, hp]
        have h14 : solo l x 14 = (.inside3 l.attrs x' ⟨some k', b', f'⟩, ⟨some k', b', f'⟩) :=
          solo_succ l x (solo_succ l x (solo_succ l x (solo_succ l x (solo_succ l x (solo_succ l x h8)))))
        simp only [hp]
        cases hr : (({ l with kernel := some k', bias := b', filters := f' } : GroupConv α).superCall x' >>=
            fun y => l.transforms.restoreGroupAxis y) with
        | error e =>
          have h15 : solo l x 15 = (.done (.error e), ⟨some k', b', f'⟩) := by
            show (solo l x 14).1.step l x (solo l x 14).2 = _
            rw [h14]
            simp only [CallState.step, GroupConv.withAttrs, hr]
          rw [solo_done l x (n := 15) (by rw [h15]) (by omega), h15]
          rfl
        | ok y =>
          have h15 : solo l x 15 = (.returned l.attrs y, ⟨some k', b', f'⟩) := by
            show (solo l x 14).1.step l x (solo l x 14).2 = _
            rw [h14]
            simp only [CallState.step, GroupConv.withAttrs, hr]
          refine (solo_succ l x (solo_succ l x (solo_succ l x h15))).trans ?_
          simp only [CallState.step, GroupConv.attrs, hk]

/-- what is known of a finished call made alone -/
theorem solo_finished [Semiring α] (l : GroupConv α) (x : Tensor α) {n : Nat} {r : Res (Tensor α)}
    (h : (solo l x n).1 = .done r) : r = (l.call x).2 ∧ (solo l x n).2 = (l.call x).1.attrs := by
  have h1 := solo_done l x h (Nat.le_max_left n 18)
  have h2 := solo_done l x (n := 18) (by rw [solo_call]) (Nat.le_max_right n 18)
  rw [h1, solo_call] at h2
  rw [h2] at h ⊢
  exact ⟨by cases h; rfl, rfl⟩

/-- No two calls of the same layer are in progress at the same time, at any time. -/
def Exclusive [Semiring α] (layers : Nat → GroupConv α) (jobs : Nat → Job α) (schedule : List Nat) : Prop :=
  ∀ before after, schedule = before ++ after → ∀ j k, j ≠ k → ((World.run layers jobs before).calls j).Active →
    ((World.run layers jobs before).calls k).Active → (jobs j).layer ≠ (jobs k).layer

/-- A call that leaves the layer as it was, by C29: one that returns, or raises before the kernel is transformed. -/
def LeavesLayer [Semiring α] (l : GroupConv α) (x : Tensor α) : Prop :=
  (∃ y, (l.call x).2 = .ok y) ∨ (∃ e, l.checkInput x = .error e) ∨ ∃ e, l.transforms.mergeGroupAxisAndPad x = .error e

theorem LeavesLayer.state [Semiring α] {l : GroupConv α} {x : Tensor α} (h : LeavesLayer l x) : (l.call x).1 = l :=
  (C29_calls_pure_partial l [x] (by simpa [LeavesLayer] using h)).1

/-- the first step does not touch the attributes -/
theorem step_start [Semiring α] (l : GroupConv α) (x : Tensor α) (a : Attrs α) :
    CallState.step l x .start a = ((solo l x 1).1, a) := by
  show _ = ((CallState.step l x .start l.attrs).1, a)
  simp only [CallState.step]
  cases l.checkInput x <;> rfl

theorem step_ne_start [Semiring α] (l : GroupConv α) (x : Tensor α) (s : CallState α) (a : Attrs α) :
    (s.step l x a).1 ≠ .start := by
  cases s <;> simp only [CallState.step, ne_eq, reduceCtorEq, not_false_eq_true]
  · cases l.checkInput x <;> simp
  · split
    · simp
    · split <;> simp
  · split <;> simp

/-- a call that is not in progress does not change the attributes -/
theorem step_idle [Semiring α] (l : GroupConv α) (x : Tensor α) (s : CallState α) (a : Attrs α) (h : ¬ s.Active) :
    (s.step l x a).2 = a := by
  cases s with
  | start => rw [step_start]
  | done r => rfl
  | _ => exact absurd trivial h

theorem run_append [Semiring α] (layers : Nat → GroupConv α) (jobs : Nat → Job α) (s : List Nat) (j : Nat) :
    World.run layers jobs (s ++ [j]) = World.step layers jobs (World.run layers jobs s) j := by
  unfold World.run
  rw [List.foldl_append]
  rfl

/-- the invariant: every call has done its steps as if it were alone, and layers that are not in use are unchanged -/
theorem exclusive_invariant [Semiring α] (layers : Nat → GroupConv α) (jobs : Nat → Job α)
    (hq : ∀ j, LeavesLayer (layers (jobs j).layer) (jobs j).input) (schedule : List Nat)
    (hex : Exclusive layers jobs schedule) :
    (∀ j, (World.run layers jobs schedule).calls j =
      (solo (layers (jobs j).layer) (jobs j).input (schedule.count j)).1) ∧
    (∀ j, ((World.run layers jobs schedule).calls j).Active → (World.run layers jobs schedule).attrs (jobs j).layer =
      (solo (layers (jobs j).layer) (jobs j).input (schedule.count j)).2) ∧
    ∀ i, (∀ j, (jobs j).layer = i → ¬ ((World.run layers jobs schedule).calls j).Active) →
      (World.run layers jobs schedule).attrs i = (layers i).attrs := by
  induction schedule using List.reverseRecOn with
  | nil =>
    exact ⟨fun j => rfl, fun j h => absurd h id, fun i _ => rfl⟩
  | append_singleton s j ih =>
    obtain ⟨i1, i2, i3⟩ := ih fun b a hba => hex b (a ++ [j]) (by rw [hba, List.append_assoc])
    have hend := hex (s ++ [j]) [] (by simp)
    have hbefore := hex s [j] rfl
    rw [run_append] at hend ⊢
    set w := World.run layers jobs s with hw
    set l := layers (jobs j).layer with hl
    set x := (jobs j).input with hx
    have hcj : (World.step layers jobs w j).calls j = ((w.calls j).step l x (w.attrs (jobs j).layer)).1 := by
      simp [World.step, hl, hx]
    have hck : ∀ k, k ≠ j → (World.step layers jobs w j).calls k = w.calls k := by
      intro k hk
      simp [World.step, hk]
    have haj : (World.step layers jobs w j).attrs (jobs j).layer = ((w.calls j).step l x (w.attrs (jobs j).layer)).2 := by
      simp [World.step, hl, hx]
    have hak : ∀ i, i ≠ (jobs j).layer → (World.step layers jobs w j).attrs i = w.attrs i := by
      intro i hi
      simp [World.step, hi]
    have hcount : ∀ k, (s ++ [j]).count k = s.count k + if k = j then 1 else 0 := by
      intro k
      rw [List.count_append]
      by_cases h : k = j
      · subst h; simp
      · simp [h, List.count_cons, Ne.symm h]
    -- the step of call `j`: either it is the first, or it continues, or the call was finished
    have key : ((World.step layers jobs w j).calls j = (solo l x (s.count j + 1)).1) ∧
        (((World.step layers jobs w j).calls j).Active →
          (World.step layers jobs w j).attrs (jobs j).layer = (solo l x (s.count j + 1)).2) ∧
        ((∀ k, (jobs k).layer = (jobs j).layer → ¬ ((World.step layers jobs w j).calls k).Active) →
          (World.step layers jobs w j).attrs (jobs j).layer = l.attrs) := by
      have hj := i1 j
      rw [← hl, ← hx] at hj
      by_cases hact : (w.calls j).Active
      · -- in progress
        have hat := i2 j hact
        rw [← hl, ← hx] at hat
        have hst : (w.calls j).step l x (w.attrs (jobs j).layer) = solo l x (s.count j + 1) := by
          rw [hat, hj]
          rfl
        refine ⟨by rw [hcj, hst], fun _ => by rw [haj, hst], fun hno => ?_⟩
        have hn := hno j rfl
        rw [hcj, hst] at hn
        rw [haj, hst]
        cases hs : (solo l x (s.count j + 1)).1 with
        | done r =>
          rw [(solo_finished l x hs).2, (hq j).state]
        | start => exact absurd hs (step_ne_start _ _ _ _)
        | _ => rw [hs] at hn; exact absurd trivial hn
      · cases hs : w.calls j with
        | start =>
          have hst : (w.calls j).step l x (w.attrs (jobs j).layer) = ((solo l x 1).1, w.attrs (jobs j).layer) := by
            rw [hs, step_start]
          have h0 : s.count j = 0 := by
            by_contra h
            obtain ⟨m, hm⟩ := Nat.exists_eq_succ_of_ne_zero h
            rw [hs, hm] at hj
            exact step_ne_start _ _ _ _ hj.symm
          have hidle : (∀ k, k ≠ j → (jobs k).layer = (jobs j).layer → ¬ (w.calls k).Active) →
              w.attrs (jobs j).layer = l.attrs := by
            intro h
            refine i3 _ fun k hk => ?_
            by_cases hkj : k = j
            · rw [hkj]; exact hact
            · exact h k hkj hk
          rw [h0]
          refine ⟨by rw [hcj, hst], fun ha => ?_, fun hno => ?_⟩
          · rw [haj, hst, hidle fun k hkj hk hka => hend k j hkj (by rw [hck k hkj]; exact hka) ha hk]
            have := step_start l x l.attrs
            exact (congrArg Prod.snd this).symm
          · rw [haj, hst, hidle fun k hkj hk => by have := hno k hk; rwa [hck k hkj] at this]
        | done r =>
          have hst : (w.calls j).step l x (w.attrs (jobs j).layer) = (.done r, w.attrs (jobs j).layer) := by
            rw [hs]; rfl
          rw [hs] at hj
          have hsame := solo_done l x hj.symm (Nat.le_succ (s.count j))
          refine ⟨by rw [hcj, hst, Nat.succ_eq_add_one] at *; rw [hsame]; exact hj, fun ha => ?_, fun hno => ?_⟩
          · rw [hcj, hst] at ha
            exact absurd ha id
          · rw [haj, hst]
            refine i3 _ fun k hk => ?_
            by_cases hkj : k = j
            · rw [hkj, hs]; exact id
            · have := hno k hk
              rwa [hck k hkj] at this
        | _ => rw [hs] at hact; exact absurd trivial hact
    refine ⟨fun k => ?_, fun k hk => ?_, fun i hi => ?_⟩
    · rw [hcount]
      by_cases h : k = j
      · subst h
        rw [if_pos rfl]
        exact key.1
      · rw [if_neg h, hck k h]
        exact i1 k
    · rw [hcount]
      by_cases h : k = j
      · subst h
        rw [if_pos rfl]
        exact key.2.1 hk
      · rw [if_neg h]
        rw [hck k h] at hk
        by_cases hlay : (jobs k).layer = (jobs j).layer
        · have hidle : ¬ (w.calls j).Active := fun ha => hbefore k j h hk ha hlay
          rw [hlay, haj, step_idle _ _ _ _ hidle, ← hlay]
          exact i2 k hk
        · rw [hak _ hlay]
          exact i2 k hk
    · by_cases hlay : i = (jobs j).layer
      · subst hlay
        exact key.2.2 hi
      · rw [hak _ hlay]
        refine i3 i fun k hk => ?_
        have hkj : k ≠ j := fun h => hlay (by rw [← hk, h])
        have := hi k hk
        rwa [hck k hkj] at this

/-- C76 where it holds: if no two calls of the same layer overlap, then whatever the order in which the threads take their turns,
every call that has been given its eighteen steps is finished, every finished call returned (or raised) what it does when made
alone, and every layer that is not in use is what it was. For calls that return or raise before the kernel is transformed. -/
theorem C76_exclusive_partial [Semiring α] (layers : Nat → GroupConv α) (jobs : Nat → Job α)
    (hq : ∀ j, LeavesLayer (layers (jobs j).layer) (jobs j).input) (schedule : List Nat)
    (hex : Exclusive layers jobs schedule) :
    (∀ j r, (World.run layers jobs schedule).calls j = .done r → r = ((layers (jobs j).layer).call (jobs j).input).2) ∧
    (∀ j, 18 ≤ schedule.count j →
      (World.run layers jobs schedule).calls j = .done ((layers (jobs j).layer).call (jobs j).input).2) ∧
    ∀ i, (∀ j, (jobs j).layer = i → ¬ ((World.run layers jobs schedule).calls j).Active) →
      (World.run layers jobs schedule).attrs i = (layers i).attrs := by
  obtain ⟨h1, -, h3⟩ := exclusive_invariant layers jobs hq schedule hex
  refine ⟨fun j r hr => ?_, fun j hj => ?_, h3⟩
  · rw [h1] at hr
    exact (solo_finished _ _ hr).1
  · rw [h1, solo_done _ _ (n := 18) (by rw [solo_call]) hj, solo_call]

/-- C76: calls of different layers may overlap in any way. -/
theorem C76_different_layers [Semiring α] (layers : Nat → GroupConv α) (jobs : Nat → Job α)
    (hq : ∀ j, LeavesLayer (layers (jobs j).layer) (jobs j).input) (hd : ∀ j k, (jobs j).layer = (jobs k).layer → j = k)
    (schedule : List Nat) :
    (∀ j r, (World.run layers jobs schedule).calls j = .done r → r = ((layers (jobs j).layer).call (jobs j).input).2) ∧
    (∀ j, 18 ≤ schedule.count j →
      (World.run layers jobs schedule).calls j = .done ((layers (jobs j).layer).call (jobs j).input).2) ∧
    ∀ i, (∀ j, (jobs j).layer = i → ¬ ((World.run layers jobs schedule).calls j).Active) →
      (World.run layers jobs schedule).attrs i = (layers i).attrs :=
  C76_exclusive_partial layers jobs hq schedule fun _ _ _ j k hjk _ _ h => hjk (hd j k h)

/-- C76: a call made alone is the call of the model of the layers, also if it raises: result and attributes agree. -/
theorem C76_alone [Semiring α] (layers : Nat → GroupConv α) (jobs : Nat → Job α) (j n : Nat) (hn : 18 ≤ n) :
    (World.run layers jobs (List.replicate n j)).calls j = .done ((layers (jobs j).layer).call (jobs j).input).2 ∧
    (World.run layers jobs (List.replicate n j)).attrs (jobs j).layer =
      ((layers (jobs j).layer).call (jobs j).input).1.attrs := by
  have h : ∀ n, (World.run layers jobs (List.replicate n j)).calls j = (solo (layers (jobs j).layer) (jobs j).input n).1 ∧
      (World.run layers jobs (List.replicate n j)).attrs (jobs j).layer =
        (solo (layers (jobs j).layer) (jobs j).input n).2 := by
    intro n
    induction n with
    | zero => exact ⟨rfl, rfl⟩
    | succ n ih =>
      rw [List.replicate_succ', run_append]
      simp only [World.step, if_true, ih.1, ih.2]
      exact ⟨rfl, rfl⟩
  obtain ⟨h1, h2⟩ := h n
  rw [h1, h2, solo_done _ _ (n := 18) (by rw [solo_call]) hn, solo_call]
  exact ⟨rfl, rfl⟩

/-- how many steps a call still needs at most -/
def CallState.remaining : CallState α → Nat
  | .start => 18 | .checked => 17 | .saving1 .. => 16 | .saving2 .. => 15 | .saved .. => 14 | .reading1 .. => 13
  | .reading2 .. => 12 | .read .. => 11 | .prepared .. => 10 | .writing1 .. => 9 | .writing2 .. => 8 | .written .. => 7
  | .inside1 .. => 6 | .inside2 .. => 5 | .inside3 .. => 4 | .returned .. => 3 | .restoring1 .. => 2 | .restoring2 .. => 1
  | .done _ => 0

theorem step_remaining [Semiring α] (l : GroupConv α) (x : Tensor α) (s : CallState α) (a : Attrs α) :
    (s.step l x a).1.remaining ≤ s.remaining - 1 := by
  cases s <;> simp only [CallState.step]
  case start => cases l.checkInput x <;> simp [CallState.remaining]
  case read =>
    split
    · simp [CallState.remaining]
    · split <;> simp [CallState.remaining]
  case inside3 => split <;> simp [CallState.remaining]
  all_goals simp [CallState.remaining]

theorem run_remaining [Semiring α] (layers : Nat → GroupConv α) (jobs : Nat → Job α) (schedule : List Nat) (j : Nat) :
    ((World.run layers jobs schedule).calls j).remaining ≤ 18 - schedule.count j := by
  induction schedule using List.reverseRecOn with
  | nil => exact Nat.le_refl _
  | append_singleton s k ih =>
    rw [run_append, List.count_append]
    by_cases h : j = k
    · subst h
      have := step_remaining (layers (jobs j).layer) (jobs j).input ((World.run layers jobs s).calls j)
        ((World.run layers jobs s).attrs (jobs j).layer)
      simp only [World.step, if_true, List.count_singleton_self]
      omega
    · have h0 : [k].count j = 0 := List.count_eq_zero.2 (by simpa using h)
      simp only [World.step, if_neg h, h0]
      omega

/-- C76: no call waits for another: in any order of the turns, overlapping or not, a call that has been given eighteen steps is
finished. -/
theorem C76_finishes [Semiring α] (layers : Nat → GroupConv α) (jobs : Nat → Job α) (schedule : List Nat) (j : Nat)
    (hj : 18 ≤ schedule.count j) : ∃ r, (World.run layers jobs schedule).calls j = .done r := by
  have h := run_remaining layers jobs schedule j
  rw [Nat.sub_eq_zero_of_le hj] at h
  cases hs : (World.run layers jobs schedule).calls j with
  | done r => exact ⟨r, rfl⟩
  | _ => rw [hs] at h; simp [CallState.remaining] at h

theorem run_unused [Semiring α] (layers : Nat → GroupConv α) (jobs : Nat → Job α) (schedule : List Nat) (j : Nat)
    (hj : j ∉ schedule) : (World.run layers jobs schedule).calls j = .start := by
  induction schedule using List.reverseRecOn with
  | nil => rfl
  | append_singleton s k ih =>
    simp only [List.mem_append, List.mem_singleton, not_or] at hj
    rw [run_append]
    simp only [World.step, if_neg hj.2, ih hj.1]

/-- in a sequence of turns of eighteen steps each, only one call has begun its turn and not finished it -/
theorem turns_prefix (js : List Nat) : ∀ before after, js.flatMap (List.replicate 18) = before ++ after →
    ∀ j k, j ≠ k → j ∈ before → k ∈ before → 18 ≤ before.count j ∨ 18 ≤ before.count k := by
  induction js with
  | nil =>
    intro b a h j k _ hj _
    rw [List.flatMap_nil] at h
    rw [(List.append_eq_nil_iff.1 h.symm).1] at hj
    exact absurd hj (by simp)
  | cons c cs ih =>
    intro b a h j k hjk hj hk
    rw [List.flatMap_cons] at h
    obtain ⟨t, ht, ha⟩ | ⟨t, ht, ha⟩ := List.append_eq_append_iff.1 h
    · have hcc : 18 ≤ b.count c := by rw [ht, List.count_append, List.count_replicate_self]; omega
      by_cases h1 : j = c
      · exact Or.inl (h1 ▸ hcc)
      by_cases h2 : k = c
      · exact Or.inr (h2 ▸ hcc)
      rw [ht, List.mem_append] at hj hk
      have hj' := hj.resolve_left fun h => h1 (List.eq_of_mem_replicate h)
      have hk' := hk.resolve_left fun h => h2 (List.eq_of_mem_replicate h)
      rw [ht, List.count_append, List.count_append]
      have := ih t a ha j k hjk hj' hk'
      omega
    · have hm : ∀ i ∈ b, i = c := fun i hi => by
        refine List.eq_of_mem_replicate (n := 18) ?_
        rw [ht]
        exact List.mem_append_left _ hi
      exact absurd ((hm j hj).trans (hm k hk).symm) hjk

theorem sequential_exclusive [Semiring α] (layers : Nat → GroupConv α) (jobs : Nat → Job α) (js : List Nat) :
    Exclusive layers jobs (js.flatMap (List.replicate 18)) := by
  intro b a h j k hjk hj hk
  exfalso
  have key : ∀ i, ((World.run layers jobs b).calls i).Active → i ∈ b ∧ ¬ 18 ≤ b.count i := by
    refine fun i hi => ⟨by_contra fun hn => ?_, fun hn => ?_⟩
    · rw [run_unused _ _ _ _ hn] at hi
      exact hi
    · obtain ⟨r, hr⟩ := C76_finishes layers jobs b i hn
      rw [hr] at hi
      exact hi
  exact (turns_prefix js b a h j k hjk (key j hj).1 (key k hk).1).elim (key j hj).2 (key k hk).2

/-- C76: calls made one after the other, by whatever threads and in whatever order, return what they do alone, and leave the
layers as they were. -/
theorem C76_sequential [Semiring α] (layers : Nat → GroupConv α) (jobs : Nat → Job α)
    (hq : ∀ j, LeavesLayer (layers (jobs j).layer) (jobs j).input) (js : List Nat) :
    (∀ j ∈ js, (World.run layers jobs (js.flatMap (List.replicate 18))).calls j =
      .done ((layers (jobs j).layer).call (jobs j).input).2) ∧
    ∀ i, (World.run layers jobs (js.flatMap (List.replicate 18))).attrs i = (layers i).attrs := by
  obtain ⟨-, h2, h3⟩ := C76_exclusive_partial layers jobs hq _ (sequential_exclusive layers jobs js)
  have hc : ∀ j ∈ js, 18 ≤ (js.flatMap (List.replicate 18)).count j := by
    intro j hj
    rw [List.count_flatMap]
    refine le_trans ?_ (List.single_le_sum (fun _ _ => Nat.zero_le _) _ (List.mem_map.2 ⟨j, hj, rfl⟩))
    simp
  refine ⟨fun j hj => h2 j (hc j hj), fun i => h3 i fun j _ hact => ?_⟩
  by_cases hj : j ∈ js
  · rw [h2 j (hc j hj)] at hact
    exact hact
  · rw [run_unused _ _ _ _ fun h => by
      obtain ⟨c, hc, hjc⟩ := List.mem_flatMap.1 h
      exact hj (List.eq_of_mem_replicate hjc ▸ hc)] at hact
    exact hact

/-- an entry of the result of a call, if it has returned -/
def CallState.entry (s : CallState Int) (idx : List Nat) : Option Int :=
  match s with
  | .done (.ok y) => some (y.get idx)
  | _ => none

/-- an image with one pixel switched on -/
def onePixel : Tensor Int := ⟨[1, 3, 3, 1], fun i => if i = [0, 0, 0, 0] then 1 else 0⟩

/-- two calls of a layer on the same image: the second begins when the first has assigned the transformed kernel, which it
transforms again -/
def overlapping : List Nat := List.replicate 11 0 ++ List.replicate 18 1 ++ List.replicate 7 0

/-- two calls of a layer on the same image, and a third one when they are finished: the second has saved the attributes while the
transformed kernel was in place, and reads them again when the first is finished -/
def saving : List Nat := List.replicate 11 0 ++ List.replicate 4 1 ++ List.replicate 7 0 ++ List.replicate 14 1 ++ List.replicate 18 2

/-- C76 fails: two calls of the same layer that overlap both return, the second with a wrong result. -/
theorem C76_violation : ¬ CallsOverlap := by
  intro h
  obtain ⟨l, hl, hr, hw⟩ : ∃ l, BuiltConv smallConv false none [3, 3] none 1 (fun i => nth i 0 + 3 * nth i 1) (fun _ => 0)
      [0, 1, 2, 3] l ∧ (∃ y, (l.call onePixel).2 = .ok y ∧ y.get [0, 0, 0, 1, 0] = 6) ∧
      ((World.run (fun _ => l) (fun _ => ⟨0, onePixel⟩) overlapping).calls 1).entry [0, 0, 0, 1, 0] = some 8 :=
    ⟨_, ⟨⟨_, rfl, rfl⟩, rfl, rfl⟩, ⟨_, rfl, by decide +kernel⟩, by decide +kernel⟩
  obtain ⟨y, hy, hv⟩ := hr
  have := (h (fun _ => l) (fun _ => ⟨0, onePixel⟩) (fun _ => ⟨_, _, _, _, _, _, _, _, _, hl⟩) (fun _ => ⟨y, hy⟩) overlapping).1 1
  cases hc : (World.run (fun _ => l) (fun _ => ⟨0, onePixel⟩) overlapping).calls 1 with
  | done r =>
    have hr := this r hc
    rw [hc, hr, hy] at hw
    simp only [CallState.entry, hv] at hw
    exact absurd hw (by decide)
  | _ => rw [hc] at hw; exact absurd hw (by simp [CallState.entry])

/-- C76 fails in a lasting way: two calls that overlap both return the right result, but the layer keeps the transformed kernel,
and a call made when both are finished returns a wrong result. -/
theorem C76_violation_lasting : ∃ l, BuiltConv smallConv false none [3, 3] none 1 (fun i => nth i 0 + 3 * nth i 1) (fun _ => 0)
      [0, 1, 2, 3] l ∧
    ((World.run (fun _ => l) (fun _ => ⟨0, onePixel⟩) saving).calls 0).entry [0, 0, 0, 1, 0] = some 6 ∧
    ((World.run (fun _ => l) (fun _ => ⟨0, onePixel⟩) saving).calls 1).entry [0, 0, 0, 1, 0] = some 6 ∧
    ((World.run (fun _ => l) (fun _ => ⟨0, onePixel⟩) saving).calls 2).entry [0, 0, 0, 1, 0] = some 8 ∧
    l.kernel.map (·.shape) = some [3, 3, 1, 1] ∧
    ((World.run (fun _ => l) (fun _ => ⟨0, onePixel⟩) saving).attrs 0).kernel.map (·.shape) = some [3, 3, 1, 4] := by
  refine ⟨_, ⟨⟨_, rfl, rfl⟩, rfl, rfl⟩, ?_, ?_, ?_, ?_, ?_⟩ <;> decide +kernel

/-- hypotheses of C76_different_layers are met: as many copies of a built layer as there are calls -/
example : ∃ l, BuiltConv smallConv false none [3, 3] none 1 (fun i => nth i 0 + 3 * nth i 1) (fun _ => 0) [0, 1, 2, 3] l ∧
    LeavesLayer l onePixel ∧
    ((World.run (fun _ => l) (fun j => ⟨j, onePixel⟩) overlapping).calls 1).entry [0, 0, 0, 1, 0] = some 6 :=
  ⟨_, ⟨⟨_, rfl, rfl⟩, rfl, rfl⟩, Or.inl ⟨_, rfl⟩, by decide +kernel⟩

/-- and so is that of C76_exclusive_partial, by two calls of one layer made one after the other -/
example (l : GroupConv Int) (x : Tensor Int) :
    Exclusive (fun _ => l) (fun _ => ⟨0, x⟩) (List.replicate 18 0 ++ List.replicate 18 1) := by
  have := sequential_exclusive (fun _ => l) (fun _ => ⟨0, x⟩) [0, 1]
  simpa using this

end GroCo
