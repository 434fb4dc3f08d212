import Verif.OptionLemmas
import Verif.LayerSpec
import Verif.PoolSpec

/-
Property C39: padding options and names of subgroups.
-/

namespace GroCo
open Tensor

variable {α : Type}

/-- `s` is the name `t` in any mixture of upper and lower case. -/
def AnyCase (s t : String) : Prop := s.toList.map Char.toLower = t.toList

/-- The names of the options in the documentation. -/
def paddingNames : List (String × PadOption × KerasPadding) :=
  [("same", .same, .same), ("valid", .valid, .valid), ("same_equiv", .sameEquiv, .same), ("valid_equiv", .validEquiv, .valid)]

/-! ### padding options -/

/-- C39 as stated, for padding options: a layer that can be constructed with padding 'valid' can be constructed with padding
`s` iff `s` is one of the four names in any case. -/
def OptionsAnyCase : Prop :=
  ∀ (a : ConvArgs Int) (d : Nat) (tr : Bool) (l : GroupConv Int), a.padding = "valid" → GroupConv.init a d tr = .ok l →
  ∀ s, (∃ l', GroupConv.init { a with padding := s } d tr = .ok l') ↔ ∃ e ∈ paddingNames, AnyCase s e.1

/-- a layer that can be constructed -/
def optionArgs : ConvArgs Int :=
  { group := .P4, subgroup := some "", kernelSize := [3, 3], strides := [1, 1], padding := "valid",
    allowNonEquivariance := false, dataFormat := .channelsLast, filters := 1, dilation := [1, 1], useBias := false,
    activation := id }

/-- C39 fails: the name SAME_EQUIV is accepted by the padding layer and handed to Keras unchanged, which raises ValueError. -/
theorem C39_violation_upper_case : ¬ OptionsAnyCase := by
  intro h
  obtain ⟨l, hl⟩ : ∃ l, GroupConv.init optionArgs 2 false = .ok l := ⟨_, rfl⟩
  obtain ⟨l', hl'⟩ := (h optionArgs 2 false l rfl hl "SAME_EQUIV").2 ⟨_, List.mem_cons_of_mem _ (List.mem_cons_of_mem _
    List.mem_cons_self), rfl⟩
  have : GroupConv.init { optionArgs with padding := "SAME_EQUIV" } 2 false = .error .value := rfl
  rw [this] at hl'
  cases hl'

/-- The strings a layer accepts, with the option and the Keras padding they stand for: 'same' and 'valid' in any case,
optionally followed by '_equiv' in lower case. -/
def Accepted (s : String) (opt : PadOption) (kp : KerasPadding) : Prop :=
  (AnyCase s "same" ∧ opt = .same ∧ kp = .same) ∨ (AnyCase s "valid" ∧ opt = .valid ∧ kp = .valid) ∨
    ∃ t, s = t ++ "_equiv" ∧ ((AnyCase t "same" ∧ opt = .sameEquiv ∧ kp = .same) ∨
      (AnyCase t "valid" ∧ opt = .validEquiv ∧ kp = .valid))

theorem accepted_iff (s : String) (opt : PadOption) (kp : KerasPadding) :
    (formatPaddingOption s = .ok opt ∧ standardizePadding (builtInPaddingOption s) = .ok kp) ↔ Accepted s opt kp := by
  have hsame : ∀ t, AnyCase t "same" ↔ pyLower t = "same" := fun t => lower_iff.symm
  have hvalid : ∀ t, AnyCase t "valid" ↔ pyLower t = "valid" := fun t => lower_iff.symm
  have us : ∀ {t : String}, pyLower t = "same" → pyUpper t = "SAME" ∧ pyUpper (t ++ "_equiv") = "SAME_EQUIV" := by
    intro t h
    have h0 := upper_of_pyLower h (by decide) (by decide) ""
    rw [String.append_empty] at h0
    exact ⟨h0, upper_of_pyLower h (by decide) (by decide) "_equiv"⟩
  have uv : ∀ {t : String}, pyLower t = "valid" → pyUpper t = "VALID" ∧ pyUpper (t ++ "_equiv") = "VALID_EQUIV" := by
    intro t h
    have h0 := upper_of_pyLower h (by decide) (by decide) ""
    rw [String.append_empty] at h0
    exact ⟨h0, upper_of_pyLower h (by decide) (by decide) "_equiv"⟩
  have fwd : ∀ {o k}, Accepted s o k → formatPaddingOption s = .ok o ∧
      standardizePadding (builtInPaddingOption s) = .ok k := by
    intro o k h
    unfold formatPaddingOption standardizePadding
    rcases h with ⟨h, rfl, rfl⟩ | ⟨h, rfl, rfl⟩ | ⟨t, rfl, ⟨h, rfl, rfl⟩ | ⟨h, rfl, rfl⟩⟩
    · have h := (hsame s).1 h
      rw [builtIn_short s (by rw [lower_length h]; decide), h, (us h).1]
      exact ⟨rfl, rfl⟩
    · have h := (hvalid s).1 h
      rw [builtIn_short s (by rw [lower_length h]; decide), h, (uv h).1]
      exact ⟨rfl, rfl⟩
    · have h := (hsame t).1 h
      rw [builtIn_suffix, h, (us h).2]
      exact ⟨rfl, rfl⟩
    · have h := (hvalid t).1 h
      rw [builtIn_suffix, h, (uv h).2]
      exact ⟨rfl, rfl⟩
  refine ⟨fun ⟨h1, h2⟩ => ?_, fwd⟩
  have hex : ∃ o k, Accepted s o k := by
    have h3 : pyLower (builtInPaddingOption s) = "same" ∨ pyLower (builtInPaddingOption s) = "valid" := by
      unfold standardizePadding at h2
      split at h2
      · left; assumption
      · split at h2
        · right; assumption
        · exact absurd h2 (by simp)
    rcases builtIn_cases s with e | e <;> rcases h3 with h3 | h3
    · exact ⟨_, _, Or.inl ⟨(hsame s).2 (by rw [e]; exact h3), rfl, rfl⟩⟩
    · exact ⟨_, _, Or.inr (Or.inl ⟨(hvalid s).2 (by rw [e]; exact h3), rfl, rfl⟩)⟩
    · exact ⟨_, _, Or.inr (Or.inr ⟨_, e, Or.inl ⟨(hsame _).2 h3, rfl, rfl⟩⟩)⟩
    · exact ⟨_, _, Or.inr (Or.inr ⟨_, e, Or.inr ⟨(hvalid _).2 h3, rfl, rfl⟩⟩)⟩
  obtain ⟨o, k, h⟩ := hex
  obtain ⟨g1, g2⟩ := fwd h
  rw [h1] at g1
  rw [h2] at g2
  cases g1
  cases g2
  exact h

/-- C39 for padding options, with the strings that are really accepted: a layer that can be constructed with one padding
can be constructed with padding `s` iff `s` is 'same' or 'valid' in any case, or one of these followed by '_equiv' in lower
case. The padding layer then has the option of that name and Keras is given the name without the suffix. All other
strings are refused with TypeError or ValueError. -/
theorem C39_options_partial (a : ConvArgs α) (d : Nat) (tr : Bool) (l : GroupConv α) (ha : GroupConv.init a d tr = .ok l)
    (s : String) :
    (∀ opt kp, (∃ l', GroupConv.init { a with padding := s } d tr = .ok l' ∧
        l'.transforms.equivariantPadding.paddingOption = opt ∧ l'.padding = kp) ↔ Accepted s opt kp) ∧
      ((¬ ∃ opt kp, Accepted s opt kp) → GroupConv.init { a with padding := s } d tr = .error .typ ∨
        GroupConv.init { a with padding := s } d tr = .error .value) := by
  obtain ⟨g, m, opt0, kp0, hg, hm, -, -, h1, h2, h3, h4, h5, -⟩ := conv_init_inv ha
  obtain ⟨h6, h7, h8⟩ := conv_init_checks ha
  have hinit : GroupConv.init { a with padding := s } d tr = (formatPaddingOption s >>= fun opt =>
      standardizePadding (builtInPaddingOption s) >>= fun kp =>
        .ok { transforms := initTransforms { a.toGroupArgs with padding := s } m opt d tr
              kernelSize := a.kernelSize
              strides := a.strides
              dilation := a.dilation
              padding := kp
              dataFormat := a.dataFormat
              useBias := a.useBias
              activation := a.activation
              filters := a.filters }) := by
    unfold GroupConv.init GroupTransforms.init
    simp only [hg, hm, res_bind_ok]
    cases formatPaddingOption s with
    | error e => rfl
    | ok opt =>
      simp only [res_bind_ok, res_pure]
      cases hk : standardizePadding (builtInPaddingOption s) with
      | error e => rfl
      | ok kp =>
        simp only [res_bind_ok]
        rw [if_neg (by simp only [h1, h2, h3, h4, h5, h6, h7, h8]; simp)]
        rfl
  refine ⟨fun opt kp => ⟨?_, ?_⟩, ?_⟩
  · rintro ⟨l', hl, rfl, rfl⟩
    rw [hinit] at hl
    obtain ⟨opt, ho, hl⟩ := bind_eq_ok hl
    obtain ⟨kp, hk, hl⟩ := bind_eq_ok hl
    cases hl
    exact (accepted_iff s opt kp).1 ⟨ho, hk⟩
  · intro h
    obtain ⟨ho, hk⟩ := (accepted_iff s opt kp).2 h
    rw [hinit, ho, hk]
    exact ⟨_, rfl, rfl, rfl⟩
  · intro h
    rw [hinit]
    have e1 : (∃ o, formatPaddingOption s = .ok o) ∨ formatPaddingOption s = .error .typ := by
      unfold formatPaddingOption
      split_ifs <;> simp
    have e2 : (∃ k, standardizePadding (builtInPaddingOption s) = .ok k) ∨
        standardizePadding (builtInPaddingOption s) = .error .value := by
      unfold standardizePadding
      split_ifs <;> simp
    rcases e1 with ⟨o, e1⟩ | e1
    · rcases e2 with ⟨k, e2⟩ | e2
      · exact absurd ⟨o, k, (accepted_iff s o k).1 ⟨e1, e2⟩⟩ h
      · right; rw [e1, e2]; rfl
    · left; rw [e1]; rfl

/-- `s` is the name `t` in any mixture of upper and lower case, also with a long s for an s and a dotless i for an i, which have the
same upper case. -/
def Spelled (s t : String) : Prop :=
  List.Forall₂ (fun c x => c.toLower = x ∨ (c = 'ſ' ∧ x = 's') ∨ (c = 'ı' ∧ x = 'i')) s.toList t.toList

theorem spelled_iff (s t : String) (ht : ∀ x ∈ t.toList, x ∈ "samevlidqu_".toList) :
    Spelled s t ↔ pyUpper s = String.ofList (t.toList.map Char.toUpper) := by
  have key : ∀ l x : List Char, (∀ c ∈ x, c ∈ "samevlidqu_".toList) →
      (List.Forall₂ (fun c x => c.toLower = x ∨ (c = 'ſ' ∧ x = 's') ∨ (c = 'ı' ∧ x = 'i')) l x ↔
        l.map upperChar = x.map Char.toUpper) := by
    intro l
    induction l with
    | nil => intro x _; cases x <;> simp
    | cons c l ih =>
      intro x hx
      cases x with
      | nil => simp
      | cons y x =>
        simp only [List.forall₂_cons, List.map_cons, List.cons.injEq]
        rw [ih x fun c hc => hx c (List.mem_cons_of_mem _ hc)]
        have hy := hx y List.mem_cons_self
        refine and_congr_left fun _ => ⟨?_, lower_of_upper hy⟩
        rintro (h | ⟨rfl, rfl⟩ | ⟨rfl, rfl⟩)
        · refine upper_of_lower h ?_ ?_
          · rintro rfl; exact absurd hy (by decide)
          · rintro rfl; exact absurd hy (by decide)
        · decide
        · decide
  unfold Spelled pyUpper
  rw [key _ _ ht]
  constructor
  · intro h; rw [h]
  · intro h
    have := congrArg String.toList h
    simpa using this

/-- C39 for the padding layer alone: which strings it accepts and as which option; all others are refused with TypeError. -/
theorem C39_padding_layer (s : String) :
    (∀ opt, formatPaddingOption s = .ok opt ↔ ∃ e ∈ paddingNames, Spelled s e.1 ∧ e.2.1 = opt) ∧
      ((¬ ∃ e ∈ paddingNames, Spelled s e.1) → formatPaddingOption s = .error .typ) := by
  have h1 : Spelled s "same" ↔ pyUpper s = "SAME" := spelled_iff s "same" (by decide)
  have h2 : Spelled s "valid" ↔ pyUpper s = "VALID" := spelled_iff s "valid" (by decide)
  have h3 : Spelled s "same_equiv" ↔ pyUpper s = "SAME_EQUIV" := spelled_iff s "same_equiv" (by decide)
  have h4 : Spelled s "valid_equiv" ↔ pyUpper s = "VALID_EQUIV" := spelled_iff s "valid_equiv" (by decide)
  simp only [paddingNames, List.mem_cons, List.not_mem_nil, or_false, exists_eq_or_imp, exists_eq_left, h1, h2, h3, h4]
  unfold formatPaddingOption
  generalize pyUpper s = u
  constructor
  · intro opt
    split_ifs with a b c d
    · subst a; simp
    · subst b; simp
    · subst c; simp
    · subst d; simp
    · simp [a, b, c, d]
  · intro h
    simp only [not_or] at h
    simp [h.1, h.2.1, h.2.2.1, h.2.2.2]

/-- C39 fails for the padding layer alone: it also accepts other strings than the four names in any case. -/
theorem C39_violation_dotless : ∃ s opt, formatPaddingOption s = .ok opt ∧ ¬ ∃ e ∈ paddingNames, AnyCase s e.1 := by
  refine ⟨"valıd", .valid, rfl, ?_⟩
  unfold AnyCase
  decide

example : formatPaddingOption "Same_Equiv" = .ok .sameEquiv ∧ Spelled "Same_Equiv" "same_equiv" ∧
    ¬ ∃ e ∈ paddingNames, Spelled "full" e.1 := by
  refine ⟨rfl, (spelled_iff _ _ (by decide)).2 rfl, fun h => ?_⟩
  obtain ⟨e, he, h⟩ := h
  have := ((C39_padding_layer "full").1 e.2.1).2 ⟨e, he, h, rfl⟩
  rw [show formatPaddingOption "full" = .error .typ from rfl] at this
  cases this

/-- the documented names, spelled as documented, are accepted with the meaning documented -/
theorem C39_documented_names (e : String × PadOption × KerasPadding) (he : e ∈ paddingNames) : Accepted e.1 e.2.1 e.2.2 := by
  simp only [paddingNames, List.mem_cons, List.not_mem_nil, or_false] at he
  rcases he with rfl | rfl | rfl | rfl
  · exact Or.inl ⟨rfl, rfl, rfl⟩
  · exact Or.inr (Or.inl ⟨rfl, rfl, rfl⟩)
  · exact Or.inr (Or.inr ⟨"same", rfl, Or.inl ⟨rfl, rfl, rfl⟩⟩)
  · exact Or.inr (Or.inr ⟨"valid", rfl, Or.inr ⟨rfl, rfl, rfl⟩⟩)

/-- the hypotheses can be met, also for mixed case -/
example : Accepted "Valid_equiv" .validEquiv .valid ∧ ¬ ∃ opt kp, Accepted "full" opt kp := by
  refine ⟨Or.inr (Or.inr ⟨"Valid", rfl, Or.inr ⟨rfl, rfl, rfl⟩⟩), ?_⟩
  rintro ⟨o, k, h⟩
  have := (accepted_iff _ _ _).2 h
  have h2 : formatPaddingOption "full" = .error .typ := rfl
  rw [h2] at this
  cases this.1

example : ∃ l, GroupConv.init optionArgs 2 false = .ok l := ⟨_, rfl⟩

/-! ### names of subgroups -/

/-- C39 as stated, for the documented default: None means the whole group. -/
def NoneMeansWholeGroup : Prop :=
  ∀ (a : ConvArgs Int) (d : Nat) (tr : Bool) (l : GroupConv Int), a.subgroup = some "" → GroupConv.init a d tr = .ok l →
    GroupConv.init { a with subgroup := none } d tr = .ok l

/-- C39 fails for every layer: None is refused with KeyError. -/
theorem C39_violation_none (a : ConvArgs α) (p : PoolArgs) (d : Nat) (tr : Bool) :
    GroupConv.init { a with subgroup := none } d tr = .error .key ∧
      GroupPooling.init { p with subgroup := none } d = .error .key := ⟨rfl, rfl⟩

theorem C39_violation_none_documented : ¬ NoneMeansWholeGroup := by
  intro h
  obtain ⟨l, hl⟩ : ∃ l, GroupConv.init optionArgs 2 false = .ok l := ⟨_, rfl⟩
  have := h optionArgs 2 false l rfl hl
  rw [(C39_violation_none optionArgs ⟨.P4, none, .max, [], none, "", false, .channelsLast⟩ 2 false).1] at this
  cases this

theorem name_ne (n : GroupName) : n.group.name ≠ "" := n.sym.own_ne

/-- The empty string means the whole group: it is the same as its name. -/
theorem C39_empty_is_whole (a : ConvArgs α) (p : PoolArgs) (d : Nat) (tr : Bool) :
    GroupConv.init { a with subgroup := some "" } d tr = GroupConv.init { a with subgroup := some a.group.group.name } d tr ∧
      GroupPooling.init { p with subgroup := some "" } d =
        GroupPooling.init { p with subgroup := some p.group.group.name } d := by
  constructor
  · unfold GroupConv.init GroupTransforms.init
    simp only [parse_own _ (name_ne a.group)]
  · unfold GroupPooling.init GroupTransforms.init
    simp only [parse_own _ (name_ne p.group)]

/-- A name that is not one of the eleven groups is refused with KeyError. -/
theorem C39_unknown_subgroup (a : ConvArgs α) (p : PoolArgs) (d : Nat) (tr : Bool) (s : String) (h0 : s ≠ "")
    (h : ∀ n : GroupName, n.group.name ≠ s) :
    GroupConv.init { a with subgroup := some s } d tr = .error .key ∧
      GroupPooling.init { p with subgroup := some s } d = .error .key := by
  have hk : groupDict s = .error .key := by
    cases hg : groupDict s with
    | ok m => exact absurd (groupDict_name hg) (h m)
    | error e =>
      unfold groupDict lookup at hg
      split at hg
      · cases hg
      · cases hg; rfl
  constructor
  · unfold GroupConv.init GroupTransforms.init
    simp only [parse_nonempty _ h0, hk]
    rfl
  · unfold GroupPooling.init GroupTransforms.init
    simp only [parse_nonempty _ h0, hk]
    rfl

example : "P6" ≠ "" ∧ ∀ n : GroupName, n.group.name ≠ "P6" := ⟨by decide, fun n => by cases n <;> decide⟩

/-- C39 for names of groups that are not subgroups of this one: a layer with such a name is never built; in other
words, the subgroup of a layer that is built is one of the listed subgroups of its group. This holds for pooling and
convolution layers, and for transposed convolutions on inputs with a group axis. -/
theorem C39_subgroup_listed_partial (a : ConvArgs α) (d : Nat) (tr : Bool) (l0 l : GroupConv α) (s : List (Option Nat))
    (k0 b0 : List Nat → α) (hi : GroupConv.init a d tr = .ok l0) (h : l0.build s k0 b0 = .ok l)
    (ht : tr = false ∨ s.length = d + 3) :
    ∃ H, a.group.group.sub (a.group.group.parseSubgroup a.subgroup) = .ok H := by
  obtain ⟨g, m, opt, kp, hg, hm, -, -, -, -, -, -, -, rfl⟩ := conv_init_inv hi
  have hname := groupDict_name hm
  rw [hg]
  rcases Bool.eq_false_or_eq_true tr with rfl | rfl
  · have ht : s.length = d + 3 := by simpa using ht
    unfold GroupConv.build at h
    obtain ⟨t, h, -⟩ := bind_eq_ok h
    rw [transforms_build_eq] at h
    obtain ⟨r, h, -⟩ := bind_eq_ok h
    unfold reshapedOf at h
    simp only [initTransforms, if_pos ht] at h
    obtain ⟨H, hH, -⟩ := bind_eq_ok h
    exact ⟨H, by rw [← hname]; exact hH⟩
  · unfold GroupConv.build at h
    obtain ⟨t, htb, h⟩ := bind_eq_ok h
    obtain ⟨_, -, h⟩ := bind_eq_ok h
    obtain ⟨_, -, h⟩ := bind_eq_ok h
    obtain ⟨t', hc, -⟩ := bind_eq_ok h
    obtain ⟨r, st, rfl⟩ := transforms_build_inv htb
    unfold GroupTransforms.buildConv at hc
    dsimp only at hc
    split at hc
    all_goals
      obtain ⟨_, -, hc⟩ := bind_eq_ok hc
      obtain ⟨_, hc, -⟩ := bind_eq_ok hc
      obtain ⟨H, hH⟩ := kernelIndices_sub hc
      refine ⟨H, ?_⟩
      have e : a.group.group.parseSubgroup (some m.group.name) = some g := by
        rw [parse_nonempty _ (name_ne m), hname]
      rw [← e]
      exact hH

theorem C39_subgroup_listed_pooling (a : PoolArgs) (d : Nat) (l0 l : GroupPooling) (s : List (Option Nat))
    (hi : GroupPooling.init a d = .ok l0) (h : l0.build s = .ok l) :
    ∃ H, a.group.group.sub (a.group.group.parseSubgroup a.subgroup) = .ok H := by
  obtain ⟨g, m, opt, kp, hg, hm, -, -, -, -, -, -, rfl⟩ := pool_init_inv hi
  have hname := groupDict_name hm
  rw [hg]
  unfold GroupPooling.build at h
  obtain ⟨t, ht, h⟩ := bind_eq_ok h
  obtain ⟨t', hp, -⟩ := bind_eq_ok h
  obtain ⟨r, st, rfl⟩ := transforms_build_inv ht
  unfold GroupTransforms.buildPool at hp
  obtain ⟨_, -, hp⟩ := bind_eq_ok hp
  obtain ⟨_, -, hp⟩ := bind_eq_ok hp
  obtain ⟨H, hH, -⟩ := bind_eq_ok hp
  exact ⟨H, by rw [← hname]; exact hH⟩

/-- The remaining case fails: a transposed convolution on inputs without a group axis accepts the name of any group, here a
reflection as a subgroup of the rotations. -/
theorem C39_violation_transposed : ∃ l, (GroupConv.init { optionArgs with subgroup := some "PMh" } 2 true >>= fun l0 =>
      l0.build [none, some 3, some 3, some 1] (fun _ => 1) (fun _ => 0)) = .ok l ∧
    GroupName.P4.group.sub (some "PMh") = .error .key := ⟨_, rfl, rfl⟩

/-- the hypotheses can be met -/
example : ∃ l, (GroupConv.init { optionArgs with subgroup := some "P2" } 2 false >>= fun l0 =>
    l0.build [none, some 3, some 3, some 4, some 1] (fun _ => 1) (fun _ => 0)) = .ok l := ⟨_, rfl⟩

example : ∃ l, (GroupConv.init { optionArgs with subgroup := some "P2" } 2 true >>= fun l0 =>
    l0.build [none, some 3, some 3, some 2, some 1] (fun _ => 1) (fun _ => 0)) = .ok l := ⟨_, rfl⟩

end GroCo
