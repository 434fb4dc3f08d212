import Verif.BindingLemmas
import Verif.Config

/-!
C82: the arguments of a call reach the part of the layer they are meant for.
-/

namespace GroCo

/-- names of the arguments of the group convolution classes that Keras does not have -/
def addedNames : List String := ["group", "allow_non_equivariance", "subgroup"]

/-- The padding argument is one of the four options, or left out. -/
def PaddingGiven (kw : Keywords) : Prop :=
  kw.lookup "padding" = none ∨ ∃ s opt, kw.lookup "padding" = some (.str s) ∧ formatPaddingOption s = .ok opt

theorem paddingGiven_iff (kw : Keywords) :
    PaddingGiven kw ↔ ∃ o, paddingOf ((kw.lookup "padding").getD (.str "valid_equiv")) = .ok o := by
  unfold PaddingGiven
  cases h : kw.lookup "padding" with
  | none => exact ⟨fun _ => ⟨.str "valid", rfl⟩, fun _ => Or.inl rfl⟩
  | some v =>
    simp only [Option.getD_some, Option.some.injEq]
    constructor
    · rintro (h2 | ⟨s, opt, rfl, h2⟩)
      · cases h2
      · refine ⟨.str (builtInPaddingOption s), ?_⟩
        show (formatPaddingOption s >>= fun _ => _) = _
        rw [h2]; rfl
    · rintro ⟨o, h⟩
      right
      cases v with
      | str s =>
        obtain ⟨opt, h1, -⟩ := bind_eq_ok (show (formatPaddingOption s >>= fun _ => _) = _ from h)
        exact ⟨s, opt, rfl, h1⟩
      | _ => cases h

/-- **C82**, convolution layers called by keywords: which calls are accepted. A call is refused if the group, the kernel size or
the number of filters is missing, if the padding is not an option, or if there is an argument of a name that is neither an
argument of the Keras layer nor one of the three added here; in particular the internal arguments `dimensions`, `transpose`,
`separable` and `pooling` are refused. -/
theorem C82_accepted (d : Nat) (tr : Bool) (kw : Keywords) :
    (∃ r, callConv d tr [] kw = .ok r) ↔
      "group" ∈ kw.map Prod.fst ∧ "kernel_size" ∈ kw.map Prod.fst ∧ "filters" ∈ kw.map Prod.fst ∧ PaddingGiven kw ∧
      ∀ e ∈ kw, e.1 ∈ addedNames ∨ e.1 ∈ (if tr then transposeNames else convNames) := by
  have hm : ∀ n, n ∈ kw.map Prod.fst ↔ kw.lookup n ≠ none := by
    intro n
    rw [← has_iff]
    constructor
    · intro h h2
      exact has_false.2 h2 h
    · intro h
      by_contra h2
      exact h (has_false.1 h2)
  rw [hm, hm, hm, paddingGiven_iff]
  constructor
  · rintro ⟨r, h⟩
    obtain ⟨h1, h2, h3, h4, o, h5, -⟩ := callConv_ok.1 h
    exact ⟨h1, h2, h3, ⟨o, h5⟩, fun e he => List.mem_append.1 (h4 e he)⟩
  · rintro ⟨h1, h2, h3, ⟨o, h5⟩, h4⟩
    exact ⟨_, callConv_ok.2 ⟨h1, h2, h3, fun e he => List.mem_append.2 (h4 e he), o, h5, rfl⟩⟩

/-- **C82**, convolution layers called by keywords: where the arguments arrive. Keras gets every argument of its own with the
value given, except that the padding has lost its `_equiv`; the group operations get group, subgroup, kernel size and
data format; the padding layer gets kernel size, strides, padding and the permission to break equivariance. -/
theorem C82_received (d : Nat) (tr : Bool) (kw : Keywords) (r : Received) (h : callConv d tr [] kw = .ok r) :
    (∀ n, n ∉ addedNames → n ≠ "padding" → r.layer.lookup n = kw.lookup n) ∧
    (∀ n ∈ addedNames, r.layer.lookup n = none) ∧
    (∀ s, kw.lookup "padding" = some (.str s) → r.layer.lookup "padding" = some (.str (builtInPaddingOption s))) ∧
    (kw.lookup "padding" = none → r.layer.lookup "padding" = some (.str "valid")) ∧
    (∀ n ∈ ["group", "kernel_size"], r.transforms.lookup n = kw.lookup n) ∧
    r.transforms.lookup "subgroup" = some ((kw.lookup "subgroup").getD (.str "")) ∧
    r.transforms.lookup "data_format" = some ((kw.lookup "data_format").getD (.str "channels_last")) ∧
    r.transforms.lookup "dimensions" = some (.int d) ∧ r.transforms.lookup "transpose" = some (.bool tr) ∧
    r.padding.lookup "kernel_size" = kw.lookup "kernel_size" ∧
    r.padding.lookup "strides" = some ((kw.lookup "strides").getD (.int 1)) ∧
    r.padding.lookup "padding" = some ((kw.lookup "padding").getD (.str "valid_equiv")) ∧
    r.padding.lookup "allow_non_equivariance" = some ((kw.lookup "allow_non_equivariance").getD (.bool false)) ∧
    r.padding.lookup "dimensions" = some (.int d) ∧ r.padding.lookup "transpose" = some (.bool tr) := by
  obtain ⟨h1, h2, h3, h4, o, h5, rfl⟩ := callConv_ok.1 h
  have hT : ∀ n, n ∉ ["allow_non_equivariance", "kernel_size", "dimensions", "group", "subgroup", "transpose"] →
      (convTransforms d tr kw).lookup n = kw.lookup n := by
    intro n hn
    simp only [List.mem_cons, List.not_mem_nil, or_false, not_or] at hn
    obtain ⟨m1, m2, m3, m4, m5, m6⟩ := hn
    have q : ∀ {m : String}, n ≠ m → (n == m) = false := fun h => by simpa using h
    unfold convTransforms
    rw [lookup_append, lookup_convRest, if_neg (by simp [convParams, m1, m2, m4, m5])]
    simp only [List.lookup_cons, q m1, q m2, q m3, q m4, q m5, q m6, List.lookup_nil]
    rfl
  have hget : ∀ n, kw.lookup n ≠ none → some ((kw.lookup n).getD .none) = kw.lookup n := by
    intro n hn
    cases hl : kw.lookup n with
    | none => exact absurd hl hn
    | some v => rfl
  have hL : ∀ n, (convKeras kw o).lookup n = if n = "kernel_size" then some ((kw.lookup "kernel_size").getD .none)
      else if n = "padding" then some o else (convRest kw).lookup n := by
    intro n
    unfold convKeras
    rw [List.lookup_cons, lookup_set]
    by_cases hn : n = "kernel_size"
    · simp [hn]
    · rw [show (n == "kernel_size") = false by simpa using hn, if_neg hn]
  refine ⟨?_, ?_, ?_, ?_, ?_, ?_, ?_, rfl, rfl, ?_, ?_, ?_, ?_, rfl, rfl⟩
  · intro n hn hp
    simp only [addedNames, List.mem_cons, List.not_mem_nil, or_false, not_or] at hn
    show (convKeras kw o).lookup n = _
    rw [hL]
    by_cases hk : n = "kernel_size"
    · rw [if_pos hk, hk]; exact hget _ h2
    · rw [if_neg hk, if_neg hp, lookup_convRest, if_neg]
      simp [convParams, hn, hk]
  · intro n hn
    show (convKeras kw o).lookup n = _
    rw [hL]
    simp only [addedNames, List.mem_cons, List.not_mem_nil, or_false] at hn
    rcases hn with rfl | rfl | rfl <;> simp [lookup_convRest, convParams]
  · intro s hs
    show (convKeras kw o).lookup "padding" = _
    rw [hL, if_neg (by decide), if_pos rfl]
    rw [hs] at h5
    obtain ⟨opt, -, h6⟩ := bind_eq_ok (show (formatPaddingOption s >>= fun _ => _) = _ from h5)
    injection h6 with h6
    rw [h6]
  · intro hs
    show (convKeras kw o).lookup "padding" = _
    rw [hL, if_neg (by decide), if_pos rfl]
    rw [hs] at h5
    have : (Except.ok (.str "valid") : Res PyVal) = .ok o := h5
    injection this with h6
    rw [h6]
  · intro n hn
    simp only [List.mem_cons, List.not_mem_nil, or_false] at hn
    rcases hn with rfl | rfl
    · exact hget _ h1
    · exact hget _ h2
  · rfl
  · show some (((convTransforms d tr kw).lookup "data_format").getD _) = _
    rw [hT _ (by decide)]
    rfl
  · exact hget _ h2
  · show some (((convTransforms d tr kw).lookup "strides").getD _) = _
    rw [hT _ (by decide)]
  · show some (((convTransforms d tr kw).lookup "padding").getD _) = _
    rw [hT _ (by decide)]
  · rfl

/-- a call that is accepted -/
def exampleCall : Keywords :=
  [("filters", .int 8), ("group", .group .P4), ("kernel_size", .int 3), ("padding", .str "same_equiv"), ("strides", .int 2),
    ("data_format", .str "channels_first"), ("use_bias", .bool false), ("name", .str "first")]

example : ∃ r, callConv 2 false [] exampleCall = .ok r :=
  (C82_accepted 2 false exampleCall).2 ⟨by decide, by decide, by decide,
    Or.inr ⟨"same_equiv", .sameEquiv, rfl, rfl⟩, by decide⟩

example : ("name", PyVal.str "first") ∈ exampleCall ∧
    (callConv 2 false [] exampleCall).map (fun r => r.layer.lookup "name") = .ok (some (.str "first")) ∧
    (callConv 2 false [] exampleCall).map (fun r => r.layer.lookup "padding") = .ok (some (.str "same")) := by
  refine ⟨by decide, ?_, ?_⟩ <;> rfl

/-- **C82**, internal arguments: `dimensions` and `transpose`, which the classes set themselves, are refused with a TypeError in
every call. -/
theorem C82_internal (d : Nat) (tr : Bool) (pos : List PyVal) (kw : Keywords)
    (h : "dimensions" ∈ kw.map Prod.fst ∨ "transpose" ∈ kw.map Prod.fst) : callConv d tr pos kw = .error .typ := by
  unfold callConv
  cases hb : convParams.bind pos kw with
  | error e => rw [bind_error hb]; rfl
  | ok own =>
    have hr : own.2 = convRest kw := by
      unfold Params.bind at hb
      split at hb
      · cases hb
      split at hb
      · cases hb
      split at hb
      · cases hb
      · injection hb with hb
        rw [← hb]; rfl
    simp only [res_bind_ok]
    cases hc : callWith [("allow_non_equivariance", Keywords.arg own.1 "allow_non_equivariance"),
      ("kernel_size", Keywords.arg own.1 "kernel_size"), ("dimensions", .int d), ("group", Keywords.arg own.1 "group"),
      ("subgroup", Keywords.arg own.1 "subgroup"), ("transpose", .bool tr)] own.2 with
    | error e => rw [callWith_error hc]; rfl
    | ok a =>
      exfalso
      obtain ⟨h1, -⟩ := callWith_ok.1 hc
      rw [hr] at h1
      rw [← has_iff, ← has_iff] at h
      rcases h with h | h
      · have h2 : (convRest kw).lookup "dimensions" = none := h1 ("dimensions", .int d) (by simp)
        rw [lookup_convRest, if_neg (by decide)] at h2
        exact has_false.2 h2 h
      · have h2 : (convRest kw).lookup "transpose" = none := h1 ("transpose", .bool tr) (by simp)
        rw [lookup_convRest, if_neg (by decide)] at h2
        exact has_false.2 h2 h

example : "transpose" ∈ (("transpose", PyVal.bool true) :: exampleCall).map Prod.fst := by decide

/-- The same for pooling layers, which set `dimensions` and `pool_type` themselves. -/
theorem C82_internal_pooling (d : Nat) (pt : String) (pos : List PyVal) (kw : Keywords)
    (h : "dimensions" ∈ kw.map Prod.fst ∨ "pool_type" ∈ kw.map Prod.fst) :
    callPool d pt pos kw = .error .typ ∧ callGlobal d pt pos kw = .error .typ := by
  have hc : ∀ own, Params.bind [] pos kw = .ok own →
      callWith [("pool_type", .str pt), ("dimensions", .int d)] own.2 = .error .typ := by
    intro own hb
    have hr : own.2 = kw := by
      unfold Params.bind at hb
      split at hb
      · cases hb
      split at hb
      · cases hb
      split at hb
      · cases hb
      · injection hb with hb
        rw [← hb]
        exact filter_all kw
    rw [hr]
    unfold callWith
    rw [if_pos]
    rcases h with h | h
    · exact ⟨("dimensions", .int d), by simp, (has_iff _ _).2 h⟩
    · exact ⟨("pool_type", .str pt), by simp, (has_iff _ _).2 h⟩
  unfold callPool callGlobal
  cases hb : Params.bind [] pos kw with
  | error e => rw [bind_error hb]; exact ⟨rfl, rfl⟩
  | ok own =>
    simp only [res_bind_ok, hc own hb]
    exact ⟨rfl, rfl⟩

/-- **C38 is violated** beyond the missing attributes: whatever the attributes of the padding layer were, its configuration has the key
`dimensions`, so that no convolution or pooling layer can be constructed from a configuration that contains it. -/
theorem C38_violation_dimensions (get : String → Res ConfigValue) (c : Config) (hc : dictOf get paddingConfig = .ok c)
    (kw : Keywords) (hkw : ∀ e ∈ c, e.1 ∈ kw.map Prod.fst) (d : Nat) (tr : Bool) (pt : String) :
    callConv d tr [] kw = .error .typ ∧ callPool d pt [] kw = .error .typ := by
  have hkeys : ∀ (l : List (String × String)) (c : Config), dictOf get l = .ok c → c.map Prod.fst = l.map Prod.fst := by
    intro l
    induction l with
    | nil => intro c h; injection h with h; rw [← h]; rfl
    | cons p l ih =>
      intro c h
      obtain ⟨key, attr⟩ := p
      obtain ⟨v, -, h⟩ := bind_eq_ok (show (get attr >>= fun v => dictOf get l >>= fun c => pure ((key, v) :: c)) = _ from h)
      obtain ⟨c', h1, h⟩ := bind_eq_ok h
      injection h with h
      rw [← h, List.map_cons, List.map_cons, ih c' h1]
  have hd : "dimensions" ∈ kw.map Prod.fst := by
    have : "dimensions" ∈ c.map Prod.fst := by rw [hkeys _ _ hc]; decide
    obtain ⟨e, he, h⟩ := List.mem_map.1 this
    rw [← h]
    exact hkw e he
  exact ⟨C82_internal d tr [] kw (Or.inl hd), (C82_internal_pooling d pt [] kw (Or.inl hd)).1⟩

example : ∃ c, dictOf (fun _ => .ok .other) paddingConfig = .ok c ∧
    ∀ e ∈ c, e.1 ∈ (("dimensions", PyVal.int 2) :: ("allow_non_equivariance", .bool false) :: exampleCall).map Prod.fst :=
  ⟨_, rfl, by decide⟩

/-- **C82**, order: what a convolution layer gets depends on the names and values only, not on the order in which they are
written. -/
theorem C82_order (d : Nat) (tr : Bool) (kw kw' : Keywords) (hn : (kw.map Prod.fst).Nodup) (hp : kw.Perm kw') (r : Received)
    (h : callConv d tr [] kw = .ok r) :
    ∃ r', callConv d tr [] kw' = .ok r' ∧ r'.transforms = r.transforms ∧ r'.padding = r.padding ∧
      ∀ n, r'.layer.lookup n = r.layer.lookup n := by
  have hl : ∀ n, kw'.lookup n = kw.lookup n := by
    intro n
    have hn' : (kw'.map Prod.fst).Nodup := (hp.map _).nodup_iff.1 hn
    have key : ∀ {l l' : Keywords}, (l'.map Prod.fst).Nodup → (∀ e ∈ l, e ∈ l') → ∀ v, l.lookup n = some v → l'.lookup n = some v := by
      intro l l' hd hs v hv
      have hmem : (n, v) ∈ l := by
        obtain ⟨l1, l2, h1, -⟩ := List.lookup_eq_some_iff.1 hv
        rw [h1]; simp
      have hm := hs _ hmem
      clear hv hmem hs
      induction l' with
      | nil => cases hm
      | cons e l' ih =>
        obtain ⟨m, w⟩ := e
        rw [List.lookup_cons]
        rcases List.mem_cons.1 hm with h1 | h1
        · injection h1 with h1 h2
          subst h1 h2
          simp
        · have hne : n ≠ m := by
            intro h2
            subst h2
            rw [List.map_cons, List.nodup_cons] at hd
            exact hd.1 (List.mem_map.2 ⟨_, h1, rfl⟩)
          rw [show (n == m) = false by simpa using hne]
          rw [List.map_cons, List.nodup_cons] at hd
          exact ih hd.2 h1
    cases h1 : kw.lookup n with
    | some v => exact key hn' (fun e he => hp.mem_iff.1 he) v h1
    | none =>
      cases h2 : kw'.lookup n with
      | none => rfl
      | some v =>
        have := key hn (fun e he => hp.mem_iff.2 he) v h2
        rw [h1] at this
        cases this
  obtain ⟨h1, h2, h3, h4, o, h5, rfl⟩ := callConv_ok.1 h
  refine ⟨⟨transformsArgs (convTransforms d tr kw'), paddingArgs (convTransforms d tr kw'), convKeras kw' o, []⟩,
    callConv_ok.2 ⟨by rwa [hl], by rwa [hl], by rwa [hl], fun e he => h4 e (hp.mem_iff.2 he), o, by rwa [hl], rfl⟩, ?_, ?_, ?_⟩
  · have ht : ∀ n, (convTransforms d tr kw').lookup n = (convTransforms d tr kw).lookup n := by
      intro n
      unfold convTransforms
      simp only [lookup_append, lookup_convRest, hl]
    simp only [transformsArgs, ht]
  · have ht : ∀ n, (convTransforms d tr kw').lookup n = (convTransforms d tr kw).lookup n := by
      intro n
      unfold convTransforms
      simp only [lookup_append, lookup_convRest, hl]
    simp only [paddingArgs, ht]
  · intro n
    simp only [convKeras, List.lookup_cons, lookup_set, lookup_convRest, hl]

example : (exampleCall.map Prod.fst).Nodup ∧ exampleCall.Perm exampleCall.reverse ∧ exampleCall ≠ exampleCall.reverse :=
  ⟨by decide, (List.reverse_perm _).symm, by decide⟩

/-- **C82**, positional arguments: up to four are taken for group, kernel size, `allow_non_equivariance` and subgroup, in this
order; more, or any of them also given by keyword, is a TypeError. -/
theorem C82_positional (d : Nat) (tr : Bool) (pos : List PyVal) (kw : Keywords) :
    callConv d tr pos kw =
      if pos.length ≤ 4 ∧ ∀ n ∈ ["group", "kernel_size", "allow_non_equivariance", "subgroup"].take pos.length,
        n ∉ kw.map Prod.fst
      then callConv d tr [] (["group", "kernel_size", "allow_non_equivariance", "subgroup"].zip pos ++ kw)
      else .error .typ := by
  have hnames : ∀ e ∈ convParams.positional pos, e.1 ∈ convParams.map Prod.fst := by
    intro e he
    exact (List.of_mem_zip (a := e.1) (b := e.2) he).1
  have hfst : (convParams.positional pos).map Prod.fst =
      ["group", "kernel_size", "allow_non_equivariance", "subgroup"].take pos.length := by
    unfold Params.positional
    rcases pos with _ | ⟨a, _ | ⟨b, _ | ⟨c, _ | ⟨e, t⟩⟩⟩⟩ <;> simp [convParams]
  have hc : (["group", "kernel_size", "allow_non_equivariance", "subgroup"].zip pos : Keywords) = convParams.positional pos := rfl
  split
  · rename_i hok
    obtain ⟨h4, h5⟩ := hok
    rw [hc]
    have : convParams.bind pos kw = convParams.bind [] (convParams.positional pos ++ kw) := by
      rw [bind_nil]
      unfold Params.bind
      rw [if_neg (by simpa [convParams] using h4), if_neg (by
        rintro ⟨e, he, h6⟩
        refine h5 e.1 ?_ ((has_iff _ _).1 h6)
        rw [← hfst]
        exact List.mem_map.2 ⟨e, he, rfl⟩)]
      simp only [List.filter_append]
      have hz : (convParams.positional pos).filter (fun e => decide (e.1 ∉ convParams.map Prod.fst)) = [] := by
        rw [List.filter_eq_nil_iff]
        intro e he
        simpa using hnames e he
      rw [hz, List.nil_append]
    unfold callConv
    rw [this]
  · rename_i hok
    have : convParams.bind pos kw = .error .typ := by
      unfold Params.bind
      by_cases h4 : pos.length ≤ 4
      · rw [if_neg (by simpa [convParams] using h4), if_pos]
        by_contra h6
        refine hok ⟨h4, fun n hn hk => h6 ?_⟩
        rw [← hfst] at hn
        obtain ⟨e, he, rfl⟩ := List.mem_map.1 hn
        exact ⟨e, he, (has_iff _ _).2 hk⟩
      · rw [if_pos (by simpa [convParams] using h4)]
    unfold callConv
    rw [this]
    rfl

/-- C82 as a user of Keras expects: the first two positional arguments are the number of filters and the kernel size. -/
def PositionsLikeKeras : Prop :=
  ∀ (d : Nat) (tr : Bool) (f k : PyVal) (kw : Keywords), (∃ r, callConv d tr [] (("filters", f) :: ("kernel_size", k) :: kw) = .ok r) →
    ∃ r, callConv d tr [f, k] kw = .ok r

/-- **C82 is violated**: `GroupConv2D(8, 3, group="P4")` is a TypeError, whatever else is given. -/
theorem C82_violation_positional : ¬ PositionsLikeKeras ∧
    ∀ (d : Nat) (tr : Bool) (f : PyVal) (pos : List PyVal) (kw : Keywords), "group" ∈ kw.map Prod.fst →
      callConv d tr (f :: pos) kw = .error .typ := by
  have h0 : ∀ (d : Nat) (tr : Bool) (f : PyVal) (pos : List PyVal) (kw : Keywords), "group" ∈ kw.map Prod.fst →
      callConv d tr (f :: pos) kw = .error .typ := by
    intro d tr f pos kw h
    rw [C82_positional, if_neg]
    rintro ⟨-, h2⟩
    exact h2 "group" (by simp) h
  refine ⟨fun h => ?_, h0⟩
  obtain ⟨r, hr⟩ := h 2 false (.int 8) (.int 3) [("group", .group .P4)]
    ((C82_accepted 2 false _).2 ⟨by decide, by decide, by decide, Or.inl rfl, by decide⟩)
  rw [h0 2 false (.int 8) [.int 3] _ (by decide)] at hr
  cases hr

/-- **C82**, the named layers (`P4Conv2D`, `OhConv3D`, ...) called by keywords without a group are the layers of their group. -/
theorem C82_named (g : GroupName) (d : Nat) (kw : Keywords) (h : "group" ∉ kw.map Prod.fst) :
    callNamed g d [] kw = callConv d false [] (("group", .group g) :: kw) ∧
      ∀ r, callNamed g d [] kw = .ok r → r.transforms.lookup "group" = some (.group g) := by
  have h1 : callNamed g d [] kw = callConv d false [] (("group", .group g) :: kw) := by
    unfold callNamed
    rw [if_neg]
    rwa [has_iff]
  refine ⟨h1, fun r hr => ?_⟩
  rw [h1] at hr
  exact (C82_received d false _ r hr).2.2.2.2.1 "group" (by simp)

example : ∃ r, callNamed .P4 2 [] [("filters", .int 8), ("kernel_size", .int 3)] = .ok r := by
  rw [(C82_named .P4 2 _ (by decide)).1]
  exact (C82_accepted 2 false _).2 ⟨by decide, by decide, by decide, Or.inl rfl, by decide⟩

/-- C82 for the named layers: a layer that is built is a layer of the group in its name. -/
def NamedGroups : Prop :=
  ∀ (g : GroupName) (d : Nat) (pos : List PyVal) (kw : Keywords) (r : Received), callNamed g d pos kw = .ok r →
    r.transforms.lookup "group" = some (.group g)

/-- **C82 is violated** for the named layers: a group given by keyword replaces the one in the name, so that
`P4Conv2D(group=P2, ...)` is a layer on P2; and every positional argument is a TypeError, so that they can be called
by keywords only. -/
theorem C82_violation_named : ¬ NamedGroups ∧
    ∀ (g : GroupName) (d : Nat) (v : PyVal) (pos : List PyVal) (kw : Keywords), callNamed g d (v :: pos) kw = .error .typ := by
  refine ⟨fun h => ?_, ?_⟩
  · obtain ⟨r, hr⟩ := (C82_accepted 2 false [("group", .group .P2), ("filters", .int 8), ("kernel_size", .int 3)]).2
      ⟨by decide, by decide, by decide, Or.inl rfl, by decide⟩
    have h1 := h .P4 2 [] [("group", .group .P2), ("filters", .int 8), ("kernel_size", .int 3)] r hr
    have h2 := (C82_received 2 false _ r hr).2.2.2.2.1 "group" (by simp)
    rw [h1] at h2
    revert h2
    decide
  · intro g d v pos kw
    unfold callNamed
    refine C82_violation_positional.2 d false v pos _ ?_
    split
    · rename_i h
      exact (has_iff _ _).1 h
    · simp

/-- **C82**, pooling layers called by keywords: a call is accepted if the group is given, the padding is an option and all names
are arguments of the Keras layer or added here. The pooling layer inside gets every argument of its own with the value
given, except that the padding has lost its `_equiv` and the pool size is 2 if left out. -/
theorem C82_pooling (d : Nat) (pt : String) (kw : Keywords) :
    ((∃ r, callPool d pt [] kw = .ok r) ↔ "group" ∈ kw.map Prod.fst ∧ PaddingGiven kw ∧
      ∀ e ∈ kw, e.1 ∈ addedNames ∨ e.1 ∈ poolNames) ∧
    ∀ r, callPool d pt [] kw = .ok r →
      (∀ n, n ∉ addedNames → n ≠ "padding" → n ≠ "pool_size" → r.inner.lookup n = kw.lookup n) ∧
      r.inner.lookup "pool_size" = some ((kw.lookup "pool_size").getD (.int 2)) ∧
      (∀ s, kw.lookup "padding" = some (.str s) → r.inner.lookup "padding" = some (.str (builtInPaddingOption s))) ∧
      (kw.lookup "padding" = none → r.inner.lookup "padding" = some (.str "valid")) ∧
      r.transforms.lookup "group" = kw.lookup "group" ∧
      r.transforms.lookup "subgroup" = some ((kw.lookup "subgroup").getD (.str "")) ∧
      r.transforms.lookup "data_format" = some ((kw.lookup "data_format").getD (.str "channels_last")) ∧
      r.transforms.lookup "transpose" = some (.bool false) ∧
      r.padding.lookup "kernel_size" = some ((kw.lookup "pool_size").getD (.int 2)) ∧
      r.padding.lookup "strides" = some ((kw.lookup "strides").getD (.int 1)) ∧
      r.padding.lookup "padding" = some ((kw.lookup "padding").getD (.str "valid_equiv")) ∧
      r.padding.lookup "allow_non_equivariance" = some ((kw.lookup "allow_non_equivariance").getD (.bool false)) := by
  have hm : ∀ n, n ∈ kw.map Prod.fst ↔ kw.lookup n ≠ none := by
    intro n
    rw [← has_iff]
    constructor
    · intro h h2
      exact has_false.2 h2 h
    · intro h
      by_contra h2
      exact h (has_false.1 h2)
  refine ⟨?_, ?_⟩
  · rw [hm, paddingGiven_iff]
    constructor
    · rintro ⟨r, h⟩
      obtain ⟨h1, h4, o, h5, -⟩ := callPool_ok.1 h
      exact ⟨h1, ⟨o, h5⟩, fun e he => List.mem_append.1 (h4 e he)⟩
    · rintro ⟨h1, ⟨o, h5⟩, h4⟩
      exact ⟨_, callPool_ok.2 ⟨h1, fun e he => List.mem_append.2 (h4 e he), o, h5, rfl⟩⟩
  · intro r h
    obtain ⟨h1, h4, o, h5, rfl⟩ := callPool_ok.1 h
    have hd : ∀ n, n ∉ addedNames ++ poolNames → kw.lookup n = none := by
      intro n hn
      rw [← has_false, has_iff]
      intro h
      obtain ⟨e, he, rfl⟩ := List.mem_map.1 h
      exact hn (h4 e he)
    have hT : ∀ n, n ∉ ["allow_non_equivariance", "kernel_size", "dimensions", "group", "subgroup", "pooling", "pool_type", "pool_size"] →
        (poolTransforms d kw).lookup n = kw.lookup n := by
      intro n hn
      simp only [List.mem_cons, List.not_mem_nil, or_false, not_or] at hn
      obtain ⟨m1, m2, m3, m4, m5, m6, m7, m8⟩ := hn
      have q : ∀ {m : String}, n ≠ m → (n == m) = false := fun h => by simpa using h
      unfold poolTransforms
      rw [lookup_append, lookup_poolRest, if_neg (by simp [poolParams, m1, m3, m4, m5, m7, m8])]
      simp only [List.lookup_cons, q m1, q m2, q m3, q m4, q m5, q m6, List.lookup_nil]
      rfl
    have hL : ∀ n, (poolKeras kw o).lookup n = if n = "pool_size" then some ((kw.lookup "pool_size").getD (.int 2))
        else if n = "padding" then some o else (poolRest kw).lookup n := by
      intro n
      unfold poolKeras
      rw [List.lookup_cons, lookup_set]
      by_cases hn : n = "pool_size"
      · simp [hn]
      · rw [show (n == "pool_size") = false by simpa using hn, if_neg hn]
    refine ⟨?_, rfl, ?_, ?_, ?_, rfl, ?_, ?_, rfl, ?_, ?_, rfl⟩
    · intro n hn hp hs
      show (poolKeras kw o).lookup n = _
      rw [hL, if_neg hs, if_neg hp, lookup_poolRest]
      split
      · rename_i hmem
        refine (hd n ?_).symm
        simp only [poolParams, List.map, List.mem_cons, List.not_mem_nil, or_false] at hmem
        rcases hmem with rfl | rfl | rfl | rfl | rfl | rfl
        · exact absurd (by decide) hn
        · decide
        · decide
        · exact absurd (by decide) hn
        · exact absurd (by decide) hn
        · exact absurd rfl hs
      · rfl
    · intro s hs
      show (poolKeras kw o).lookup "padding" = _
      rw [hL, if_neg (by decide), if_pos rfl]
      rw [hs] at h5
      obtain ⟨opt, -, h6⟩ := bind_eq_ok (show (formatPaddingOption s >>= fun _ => _) = _ from h5)
      injection h6 with h6
      rw [h6]
    · intro hs
      show (poolKeras kw o).lookup "padding" = _
      rw [hL, if_neg (by decide), if_pos rfl]
      rw [hs] at h5
      have : (Except.ok (.str "valid") : Res PyVal) = .ok o := h5
      injection this with h6
      rw [h6]
    · show some ((kw.lookup "group").getD .none) = _
      cases hl : kw.lookup "group" with
      | none => exact absurd hl h1
      | some v => rfl
    · show some (((poolTransforms d kw).lookup "data_format").getD _) = _
      rw [hT _ (by decide)]
      rfl
    · show some (((poolTransforms d kw).lookup "transpose").getD _) = _
      rw [hT _ (by decide), hd "transpose" (by decide)]
      rfl
    · show some (((poolTransforms d kw).lookup "strides").getD _) = _
      rw [hT _ (by decide)]
    · show some (((poolTransforms d kw).lookup "padding").getD _) = _
      rw [hT _ (by decide)]

/-- a pooling layer with a name -/
def namedPool : Keywords := [("group", .group .P4), ("name", .str "pool")]

example : ∃ r, callPool 2 "max" [] namedPool = .ok r :=
  (C82_pooling 2 "max" namedPool).1.2 ⟨by decide, Or.inl rfl, by decide⟩

/-- **C82**, global pooling layers called by keywords: accepted with arguments of the Keras layer, which is given all of them. -/
theorem C82_global (d : Nat) (pt : String) (kw : Keywords) :
    ((∃ r, callGlobal d pt [] kw = .ok r) ↔ ∀ e ∈ kw, e.1 ∈ globalNames) ∧
    ∀ r, callGlobal d pt [] kw = .ok r → r.inner = kw := by
  refine ⟨⟨fun ⟨r, h⟩ => (callGlobal_ok.1 h).1, fun h => ⟨_, callGlobal_ok.2 ⟨h, rfl⟩⟩⟩, fun r h => ?_⟩
  rw [(callGlobal_ok.1 h).2]

example : ∃ r, callGlobal 2 "max" [] [("keepdims", .bool true)] = .ok r :=
  (C82_global 2 "max" _).1.2 (by decide)

/-- C82 for the arguments every Keras layer has: the layer itself gets them. -/
def LayerArguments : Prop :=
  (∀ d pt kw r, callPool d pt [] kw = .ok r → ∀ n ∈ layerNames, r.layer.lookup n = kw.lookup n) ∧
  ∀ d pt kw r, callGlobal d pt [] kw = .ok r → ∀ n ∈ layerNames, r.layer.lookup n = kw.lookup n

/-- **C82 is violated** for the pooling layers: name, data type and the other arguments of every Keras layer are accepted but go to the
layer inside; the group pooling layer itself gets none of them, so that `GroupMaxPooling2D(group="P4", name="pool")` is not
called "pool". They do not take positional arguments either. -/
theorem C82_violation_pooling : ¬ LayerArguments ∧
    (∀ d pt kw r n, callPool d pt [] kw = .ok r → r.layer.lookup n = none) ∧
    (∀ d pt kw r n, callGlobal d pt [] kw = .ok r → r.layer.lookup n = none) ∧
    (∀ d pt v pos kw, callPool d pt (v :: pos) kw = .error .typ) ∧
    ∀ d pt v pos kw, callGlobal d pt (v :: pos) kw = .error .typ := by
  have h1 : ∀ d pt kw r n, callPool d pt [] kw = .ok r → r.layer.lookup n = none := by
    intro d pt kw r n h
    obtain ⟨-, -, o, -, rfl⟩ := callPool_ok.1 h
    rfl
  have h2 : ∀ d pt kw r n, callGlobal d pt [] kw = .ok r → r.layer.lookup n = none := by
    intro d pt kw r n h
    rw [(callGlobal_ok.1 h).2]
    rfl
  have h3 : ∀ (v : PyVal) (pos : List PyVal) (kw : Keywords), Params.bind [] (v :: pos) kw = .error .typ := by
    intro v pos kw
    unfold Params.bind
    rw [if_pos (by simp)]
  refine ⟨fun h => ?_, h1, h2, fun d pt v pos kw => ?_, fun d pt v pos kw => ?_⟩
  · obtain ⟨r, hr⟩ := (C82_pooling 2 "max" namedPool).1.2 ⟨by decide, Or.inl rfl, by decide⟩
    have h4 := h.1 2 "max" namedPool r hr "name" (by decide)
    rw [h1 2 "max" namedPool r "name" hr] at h4
    revert h4
    decide
  · unfold callPool
    rw [h3]; rfl
  · unfold callGlobal
    rw [h3]; rfl

/-- For convolution layers the layer itself gets them. -/
theorem C82_layer_arguments_partial (d : Nat) (tr : Bool) (kw : Keywords) (r : Received) (h : callConv d tr [] kw = .ok r) :
    ∀ n ∈ layerNames, r.layer.lookup n = kw.lookup n := by
  intro n hn
  refine (C82_received d tr kw r h).1 n ?_ ?_
  · intro h2
    revert hn
    simp only [addedNames, List.mem_cons, List.not_mem_nil, or_false] at h2
    rcases h2 with rfl | rfl | rfl <;> decide
  · rintro rfl
    revert hn
    decide

/-- **C82**, the data format: it is never given to the padding layer inside, which always uses its default. This is the cause of
the violations of C21, C25 and C30 with channels_first. -/
theorem C82_data_format (d : Nat) (tr : Bool) (pt : String) (kw : Keywords) :
    (∀ r, callConv d tr [] kw = .ok r → r.padding.lookup "data_format" = some (.str "channels_last")) ∧
    ∀ r, callPool d pt [] kw = .ok r → r.padding.lookup "data_format" = some (.str "channels_last") := by
  constructor
  · intro r h
    obtain ⟨-, -, -, -, o, -, rfl⟩ := callConv_ok.1 h
    rfl
  · intro r h
    obtain ⟨-, -, o, -, rfl⟩ := callPool_ok.1 h
    rfl

example : (callConv 2 false [] exampleCall).map (fun r => (r.transforms.lookup "data_format", r.padding.lookup "data_format")) =
    .ok (some (.str "channels_first"), some (.str "channels_last")) := rfl

/-! The arguments of Raw.lean as keyword arguments. -/

def SizeArg.py : SizeArg → PyVal
  | .int n => .int n
  | .tuple l => .tuple l
  | .list l => .list l

def GroupArg.py : GroupArg → PyVal
  | .name s => .str s
  | .object g => .group g

def DataFormat.py : DataFormat → PyVal
  | .channelsLast => .str "channels_last"
  | .channelsFirst => .str "channels_first"

/-- a string or `None` -/
def pyString : Option String → PyVal
  | none => .none
  | some s => .str s

/-- an argument that may be left out -/
def given (n : String) (v : Option PyVal) : Keywords := v.toList.map fun v => (n, v)

/-- the call with the arguments of a record -/
def RawConv.keywords {α : Type} (r : RawConv α) : Keywords :=
  [("group", r.group.py), ("kernel_size", r.kernelSize.py), ("filters", .int r.filters)] ++
    given "subgroup" (r.subgroup.map pyString) ++ given "strides" (r.strides.map SizeArg.py) ++
    given "padding" (r.padding.map .str) ++ given "allow_non_equivariance" (r.allowNonEquivariance.map .bool) ++
    given "data_format" (r.dataFormat.map DataFormat.py) ++ given "dilation_rate" (r.dilation.map SizeArg.py) ++
    given "use_bias" (r.useBias.map .bool) ++ given "activation" (r.activation.map fun _ => .other 0)

theorem lookup_given (n m : String) (v : Option PyVal) : (given n v).lookup m = if m = n then v else none := by
  unfold given
  cases v with
  | none => simp
  | some v =>
    simp only [Option.toList, List.map, List.lookup_cons, List.lookup_nil]
    by_cases h : m = n
    · simp [h]
    · rw [show (m == n) = false by simpa using h, if_neg h]

/-- **C82**, defaults: calling a convolution layer with any of its arguments left out, each part of the layer gets the values that
the model of the layer (`RawConv.init`) uses; the exceptional one is the data format, for which Keras and the group
operations have defaults of their own. -/
theorem C82_defaults {α : Type} (r : RawConv α) (d : Nat) (tr : Bool) :
    ((∃ q, callConv d tr [] r.keywords = .ok q) ↔ ∃ opt, formatPaddingOption (r.padding.getD "valid_equiv") = .ok opt) ∧
    ∀ q, callConv d tr [] r.keywords = .ok q →
      q.transforms.lookup "group" = some r.group.py ∧
      q.transforms.lookup "subgroup" = some (pyString (r.subgroup.getD (some ""))) ∧
      q.transforms.lookup "data_format" = some (r.dataFormat.getD .channelsLast).py ∧
      q.padding.lookup "kernel_size" = some r.kernelSize.py ∧
      q.padding.lookup "strides" = some (r.strides.getD (.int 1)).py ∧
      q.padding.lookup "padding" = some (.str (r.padding.getD "valid_equiv")) ∧
      q.padding.lookup "allow_non_equivariance" = some (.bool (r.allowNonEquivariance.getD false)) ∧
      q.layer.lookup "kernel_size" = some r.kernelSize.py ∧ q.layer.lookup "filters" = some (.int r.filters) ∧
      q.layer.lookup "strides" = r.strides.map SizeArg.py ∧
      q.layer.lookup "padding" = some (.str (builtInPaddingOption (r.padding.getD "valid_equiv"))) ∧
      q.layer.lookup "data_format" = r.dataFormat.map DataFormat.py ∧
      q.layer.lookup "dilation_rate" = r.dilation.map SizeArg.py ∧ q.layer.lookup "use_bias" = r.useBias.map .bool := by
  have hg : r.keywords.lookup "group" = some r.group.py := rfl
  have hk : r.keywords.lookup "kernel_size" = some r.kernelSize.py := rfl
  have hf : r.keywords.lookup "filters" = some (.int r.filters) := rfl
  have hsub : r.keywords.lookup "subgroup" = r.subgroup.map pyString := by
    unfold RawConv.keywords
    simp [-List.lookup_eq_none_iff, lookup_append, lookup_given, List.lookup_cons]
  have hst : r.keywords.lookup "strides" = r.strides.map SizeArg.py := by
    unfold RawConv.keywords
    simp [-List.lookup_eq_none_iff, lookup_append, lookup_given, List.lookup_cons]
  have hpad : r.keywords.lookup "padding" = r.padding.map .str := by
    unfold RawConv.keywords
    simp [-List.lookup_eq_none_iff, lookup_append, lookup_given, List.lookup_cons]
  have hall : r.keywords.lookup "allow_non_equivariance" = r.allowNonEquivariance.map .bool := by
    unfold RawConv.keywords
    simp [-List.lookup_eq_none_iff, lookup_append, lookup_given, List.lookup_cons]
  have hdf : r.keywords.lookup "data_format" = r.dataFormat.map DataFormat.py := by
    unfold RawConv.keywords
    simp [-List.lookup_eq_none_iff, lookup_append, lookup_given, List.lookup_cons]
  have hdil : r.keywords.lookup "dilation_rate" = r.dilation.map SizeArg.py := by
    unfold RawConv.keywords
    simp [-List.lookup_eq_none_iff, lookup_append, lookup_given, List.lookup_cons]
  have hub : r.keywords.lookup "use_bias" = r.useBias.map .bool := by
    unfold RawConv.keywords
    simp [-List.lookup_eq_none_iff, lookup_append, lookup_given, List.lookup_cons]
  have hnames : ∀ e ∈ r.keywords, e.1 ∈ addedNames ∨ e.1 ∈ (if tr then transposeNames else convNames) := by
    have hmem : ∀ (n : String) (v : Option PyVal) (e : String × PyVal), e ∈ given n v → e.1 = n := by
      intro n v e he
      cases v with
      | none => cases he
      | some v =>
        have : e = (n, v) := by simpa [given] using he
        rw [this]
    intro e he
    unfold RawConv.keywords at he
    simp only [List.mem_append, List.mem_cons, List.not_mem_nil, or_false] at he
    have : e.1 ∈ ["group", "kernel_size", "filters", "subgroup", "strides", "padding", "allow_non_equivariance", "data_format",
        "dilation_rate", "use_bias", "activation"] := by
      rcases he with ((((((((rfl | rfl | rfl) | h) | h) | h) | h) | h) | h) | h) | h
      · exact List.mem_of_elem_eq_true rfl
      · exact List.mem_of_elem_eq_true rfl
      · exact List.mem_of_elem_eq_true rfl
      all_goals rw [hmem _ _ e h]; decide
    revert this
    generalize e.1 = n
    cases tr <;> revert n <;> decide
  constructor
  · rw [C82_accepted]
    have hb : PaddingGiven r.keywords ↔ ∃ opt, formatPaddingOption (r.padding.getD "valid_equiv") = .ok opt := by
      unfold PaddingGiven
      rw [hpad]
      cases r.padding with
      | none => exact ⟨fun _ => ⟨.validEquiv, rfl⟩, fun _ => Or.inl rfl⟩
      | some s =>
        constructor
        · rintro (h | ⟨s', opt, h, h2⟩)
          · cases h
          · injection h with h
            injection h with h
            rw [← h] at h2
            exact ⟨opt, h2⟩
        · rintro ⟨opt, h⟩
          exact Or.inr ⟨s, opt, rfl, h⟩
    rw [hb]
    refine ⟨fun h => h.2.2.2.1, fun h => ⟨?_, ?_, ?_, h, hnames⟩⟩
    · rw [← has_iff]; unfold Keywords.has; rw [hg]; rfl
    · rw [← has_iff]; unfold Keywords.has; rw [hk]; rfl
    · rw [← has_iff]; unfold Keywords.has; rw [hf]; rfl
  · intro q h
    obtain ⟨a1, a2, a3, a4, a5, a6, a7, a8, a9, a10, a11, a12, a13, a14, a15⟩ := C82_received d tr _ q h
    refine ⟨?_, ?_, ?_, ?_, ?_, ?_, ?_, ?_, ?_, ?_, ?_, ?_, ?_, ?_⟩
    · rw [a5 "group" (by simp), hg]
    · rw [a6, hsub]
      cases r.subgroup <;> rfl
    · rw [a7, hdf]
      cases r.dataFormat <;> rfl
    · rw [a10, hk]
    · rw [a11, hst]
      cases r.strides <;> rfl
    · rw [a12, hpad]
      cases r.padding <;> rfl
    · rw [a13, hall]
      cases r.allowNonEquivariance <;> rfl
    · rw [a1 _ (by decide) (by decide), hk]
    · rw [a1 _ (by decide) (by decide), hf]
    · rw [a1 _ (by decide) (by decide), hst]
    · cases hp : r.padding with
      | none =>
        rw [a4 (by rw [hpad, hp]; rfl)]
        rfl
      | some s => exact a3 s (by rw [hpad, hp]; rfl)
    · rw [a1 _ (by decide) (by decide), hdf]
    · rw [a1 _ (by decide) (by decide), hdil]
    · rw [a1 _ (by decide) (by decide), hub]

example : ∃ q, callConv 2 false [] (RawConv.keywords (α := Nat) { group := .name "P4", kernelSize := .int 3, filters := 2 }) =
    .ok q := (C82_defaults _ 2 false).1.2 ⟨.validEquiv, rfl⟩

end GroCo
