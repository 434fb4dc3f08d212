import Verif.Binding
import Verif.BuildLemmas

/-!
Lemmas about the binding of arguments.
-/

namespace GroCo

theorem lookup_filter_not (kw : Keywords) (ns : List String) (n : String) :
    (kw.filter fun e => e.1 ∉ ns).lookup n = if n ∈ ns then none else kw.lookup n := by
  induction kw with
  | nil => simp
  | cons e kw ih =>
    obtain ⟨m, v⟩ := e
    by_cases hm : m ∈ ns
    · rw [List.filter_cons_of_neg (by simpa using hm), ih]
      by_cases hn : n ∈ ns
      · simp [hn]
      · have : n ≠ m := fun h => hn (h ▸ hm)
        have h2 : (n == m) = false := by simpa using this
        simp [hn, List.lookup_cons, h2]
    · rw [List.filter_cons_of_pos (by simpa using hm), List.lookup_cons, ih, List.lookup_cons]
      by_cases hn : n = m
      · subst hn; simp [hm]
      · have h2 : (n == m) = false := by simpa using hn
        rw [h2]

theorem lookup_set (kw : Keywords) (m : String) (v : PyVal) (n : String) :
    (Keywords.set kw m v).lookup n = if n = m then some v else kw.lookup n := by
  unfold Keywords.set
  have h := lookup_filter_not kw [m] n
  simp only [List.mem_singleton] at h
  rw [List.lookup_cons]
  by_cases hn : n = m
  · simp [hn]
  · have : (n == m) = false := by simpa using hn
    rw [this]
    simp only [hn, if_false] at h ⊢
    rw [← h]

theorem lookup_append (a b : Keywords) (n : String) : (a ++ b).lookup n = (a.lookup n <|> b.lookup n) := by
  induction a with
  | nil => simp
  | cons e a ih =>
    obtain ⟨m, v⟩ := e
    rw [List.cons_append, List.lookup_cons, List.lookup_cons, ih]
    by_cases hn : n = m
    · simp [hn]
    · have h2 : (n == m) = false := by simpa using hn
      rw [h2]

theorem has_iff (kw : Keywords) (n : String) : kw.has n = true ↔ n ∈ kw.map Prod.fst := by
  unfold Keywords.has
  induction kw with
  | nil => simp
  | cons e kw ih =>
    obtain ⟨m, v⟩ := e
    rw [List.lookup_cons]
    by_cases hn : n = m
    · simp [hn]
    · have : (n == m) = false := by simpa using hn
      rw [this]
      simpa [hn] using ih

theorem has_false {kw : Keywords} {n : String} : ¬ kw.has n = true ↔ kw.lookup n = none := by
  unfold Keywords.has
  cases kw.lookup n <;> simp

theorem callWith_ok {given kw r : Keywords} :
    callWith given kw = .ok r ↔ (∀ e ∈ given, kw.lookup e.1 = none) ∧ r = given ++ kw := by
  unfold callWith
  split
  · rename_i h
    obtain ⟨e, he, h⟩ := h
    refine ⟨fun h => (nomatch h), fun h2 => ?_⟩
    exact absurd h (has_false.2 (h2.1 e he))
  · rename_i h
    refine ⟨fun h2 => ⟨fun e he => has_false.1 fun h3 => h ⟨e, he, h3⟩, ?_⟩, fun h2 => by rw [h2.2]⟩
    injection h2 with h2
    exact h2.symm

theorem callWith_error {given kw : Keywords} {e : Err} (h : callWith given kw = .error e) : e = .typ := by
  unfold callWith at h
  split at h
  · injection h with h; exact h.symm
  · cases h

theorem bind_nil (f : Params) (kw : Keywords) :
    f.bind [] kw = if ∃ p ∈ f, kw.lookup p.1 = none ∧ p.2 = none then .error .typ
      else .ok (f.map fun p => (p.1, (kw.lookup p.1).getD (p.2.getD .none)), kw.filter fun e => e.1 ∉ f.map Prod.fst) := by
  have h0 : f.positional [] = [] := by simp [Params.positional]
  unfold Params.bind
  rw [h0, if_neg (by simp), if_neg (by simp)]
  simp only [List.nil_append]

/-- Binding of keyword arguments. -/
theorem bind_ok {f : Params} {kw : Keywords} {r : Keywords × Keywords} :
    f.bind [] kw = .ok r ↔ (∀ p ∈ f, p.2 = none → kw.lookup p.1 ≠ none) ∧
      r = (f.map fun p => (p.1, (kw.lookup p.1).getD (p.2.getD .none)), kw.filter fun e => e.1 ∉ f.map Prod.fst) := by
  have h0 : f.positional [] = [] := by simp [Params.positional]
  unfold Params.bind
  rw [h0, if_neg (by simp), if_neg (by simp)]
  simp only [List.nil_append]
  split
  · rename_i h
    obtain ⟨p, hp, h1, h2⟩ := h
    exact ⟨fun h => (nomatch h), fun h => absurd h1 (h.1 p hp h2)⟩
  · rename_i h
    refine ⟨fun h2 => ⟨fun p hp h3 h4 => h ⟨p, hp, h4, h3⟩, ?_⟩, fun h2 => by rw [h2.2]⟩
    injection h2 with h2
    exact h2.symm

theorem bind_error {f : Params} {pos : List PyVal} {kw : Keywords} {e : Err} (h : f.bind pos kw = .error e) : e = .typ := by
  unfold Params.bind at h
  split at h
  · injection h with h; exact h.symm
  split at h
  · injection h with h; exact h.symm
  split at h
  · injection h with h; exact h.symm
  · cases h

theorem kerasInit_ok {required known : List String} {kw r : Keywords} :
    kerasInit required known kw = .ok r ↔
      (∀ n ∈ required, kw.lookup n ≠ none) ∧ (∀ e ∈ kw, e.1 ∈ known) ∧ r = kw := by
  unfold kerasInit
  split
  · rename_i h
    obtain ⟨n, hn, h⟩ := h
    exact ⟨fun h => (nomatch h), fun h2 => absurd (has_false.1 h) (h2.1 n hn)⟩
  split
  · rename_i h
    obtain ⟨n, hn, h⟩ := h
    exact ⟨fun h => (nomatch h), fun h2 => absurd (h2.2.1 n hn) h⟩
  · rename_i h1 h2
    refine ⟨fun h3 => ⟨fun n hn h4 => h1 ⟨n, hn, has_false.2 h4⟩, fun e he => ?_, ?_⟩, fun h => by rw [h.2.2]⟩
    · by_contra h4
      exact h2 ⟨e, he, h4⟩
    · injection h3 with h3
      exact h3.symm

/-- The values that reach `GroupTransforms`. -/
def transformsArgs (kw : Keywords) : Keywords :=
  transformsParams.map fun p => (p.1, (kw.lookup p.1).getD (p.2.getD .none))

/-- The values that reach `EquivariantPadding`. -/
def paddingArgs (kw : Keywords) : Keywords :=
  [("kernel_size", (kw.lookup "kernel_size").getD .none), ("dimensions", (kw.lookup "dimensions").getD .none),
    ("strides", (kw.lookup "strides").getD (.int 1)), ("padding", (kw.lookup "padding").getD (.str "valid_equiv")),
    ("allow_non_equivariance", (kw.lookup "allow_non_equivariance").getD (.bool false)),
    ("data_format", .str "channels_last"), ("transpose", (kw.lookup "transpose").getD (.bool false))]

theorem transformsCall_ok {kw : Keywords} {r : Keywords × Keywords × PyVal} :
    transformsCall kw = .ok r ↔ kw.lookup "group" ≠ none ∧ kw.lookup "kernel_size" ≠ none ∧ kw.lookup "dimensions" ≠ none ∧
      r.1 = transformsArgs kw ∧ r.2.1 = paddingArgs kw ∧
      paddingOf ((kw.lookup "padding").getD (.str "valid_equiv")) = .ok r.2.2 := by
  have hf : ∀ n, (kw.filter fun e => e.1 ∉ transformsParams.map Prod.fst).lookup n =
      if n ∈ transformsParams.map Prod.fst then none else kw.lookup n := lookup_filter_not kw _
  unfold transformsCall
  constructor
  · intro h
    obtain ⟨t, ht, h⟩ := bind_eq_ok h
    obtain ⟨a, ha, h⟩ := bind_eq_ok h
    obtain ⟨p, hp, h⟩ := bind_eq_ok h
    obtain ⟨o, ho, h⟩ := bind_eq_ok h
    obtain ⟨h1, rfl⟩ := bind_ok.1 ht
    obtain ⟨h2, rfl⟩ := callWith_ok.1 ha
    obtain ⟨h3, rfl⟩ := bind_ok.1 hp
    injection h with h
    subst h
    refine ⟨h1 ("group", none) (by decide) rfl, h1 ("kernel_size", none) (by decide) rfl,
      h1 ("dimensions", none) (by decide) rfl, rfl, ?_, ?_⟩
    · simp only [paddingParams, paddingArgs, List.map, lookup_append, hf]
      rfl
    · rw [← ho]
      simp only [paddingParams, List.map, lookup_append, hf]
      rfl
  · rintro ⟨h1, h2, h3, h4, h5, h6⟩
    have e1 : transformsParams.bind [] kw = .ok (transformsArgs kw, _) :=
      bind_ok.2 ⟨by simp [-List.lookup_eq_none_iff, transformsParams, h1, h2, h3], rfl⟩
    rw [e1]
    simp only [res_bind_ok]
    rw [callWith_ok.2 ⟨by
      intro e he
      rw [hf]
      simp only [List.mem_cons, List.not_mem_nil, or_false] at he
      rcases he with rfl | rfl | rfl | rfl <;> rfl, rfl⟩]
    simp only [res_bind_ok]
    rw [bind_ok.2 ⟨by simp [paddingParams, List.lookup_cons, lookup_append], rfl⟩]
    simp only [res_bind_ok]
    obtain ⟨r1, r2, r3⟩ := r
    simp only at h4 h5 h6
    subst h4 h5
    have e2 : (paddingParams.map fun p => (p.1, (([("allow_non_equivariance", Keywords.arg (transformsArgs kw) "allow_non_equivariance"),
        ("kernel_size", Keywords.arg (transformsArgs kw) "kernel_size"), ("dimensions", Keywords.arg (transformsArgs kw) "dimensions"),
        ("transpose", Keywords.arg (transformsArgs kw) "transpose")] ++
          kw.filter fun e => e.1 ∉ transformsParams.map Prod.fst).lookup p.1).getD (p.2.getD .none))) = paddingArgs kw := by
      simp only [paddingParams, paddingArgs, List.map, lookup_append, hf]
      rfl
    rw [e2]
    have e3 : Keywords.arg (paddingArgs kw) "padding" = (kw.lookup "padding").getD (.str "valid_equiv") := rfl
    rw [e3, h6]
    rfl

/-- names known to Keras -/
def kerasNames (tr : Bool) : List String := if tr then transposeNames else convNames

/-- The `kwargs` of a convolution layer. -/
def convRest (kw : Keywords) : Keywords := kw.filter fun e => e.1 ∉ convParams.map Prod.fst

theorem lookup_convRest (kw : Keywords) (n : String) :
    (convRest kw).lookup n = if n ∈ convParams.map Prod.fst then none else kw.lookup n := lookup_filter_not kw _ n

/-- The arguments a convolution layer gives to `GroupTransforms`. -/
def convTransforms (d : Nat) (tr : Bool) (kw : Keywords) : Keywords :=
  [("allow_non_equivariance", (kw.lookup "allow_non_equivariance").getD (.bool false)),
    ("kernel_size", (kw.lookup "kernel_size").getD .none), ("dimensions", .int d), ("group", (kw.lookup "group").getD .none),
    ("subgroup", (kw.lookup "subgroup").getD (.str "")), ("transpose", .bool tr)] ++ convRest kw

/-- The arguments a convolution layer gives to Keras. -/
def convKeras (kw : Keywords) (o : PyVal) : Keywords :=
  ("kernel_size", (kw.lookup "kernel_size").getD .none) :: Keywords.set (convRest kw) "padding" o

theorem conv_known (kw : Keywords) (tr : Bool) (o : PyVal) :
    (∀ e ∈ convKeras kw o, e.1 ∈ kerasNames tr) ↔
      ∀ e ∈ kw, e.1 ∈ ["group", "allow_non_equivariance", "subgroup"] ++ kerasNames tr := by
  have hk : "kernel_size" ∈ kerasNames tr := by cases tr <;> decide
  have hp : "padding" ∈ kerasNames tr := by cases tr <;> decide
  have hc : convParams.map Prod.fst = ["group", "kernel_size", "allow_non_equivariance", "subgroup"] := rfl
  unfold convKeras Keywords.set convRest
  rw [hc]
  constructor
  · intro h e he
    by_cases h1 : e.1 ∈ ["group", "kernel_size", "allow_non_equivariance", "subgroup"]
    · simp only [List.mem_cons, List.not_mem_nil, or_false] at h1
      rcases h1 with h1 | h1 | h1 | h1 <;> rw [h1] <;> simp [hk]
    · by_cases h2 : e.1 = "padding"
      · rw [h2]; exact List.mem_append_right _ hp
      · refine List.mem_append_right _ (h e ?_)
        refine List.mem_cons_of_mem _ (List.mem_cons_of_mem _ ?_)
        rw [List.mem_filter, List.mem_filter]
        exact ⟨⟨he, by simpa using h1⟩, by simpa using h2⟩
  · intro h e he
    rw [List.mem_cons, List.mem_cons, List.mem_filter, List.mem_filter] at he
    rcases he with rfl | rfl | ⟨⟨he, h1⟩, -⟩
    · exact hk
    · exact hp
    · rcases List.mem_append.1 (h e he) with h2 | h2
      · exfalso
        simp only [List.mem_cons, List.not_mem_nil, or_false] at h2
        rcases h2 with h2 | h2 | h2 <;> rw [h2] at h1 <;> simp at h1
      · exact h2

theorem callConv_ok {d : Nat} {tr : Bool} {kw : Keywords} {r : Received} :
    callConv d tr [] kw = .ok r ↔ kw.lookup "group" ≠ none ∧ kw.lookup "kernel_size" ≠ none ∧ kw.lookup "filters" ≠ none ∧
      (∀ e ∈ kw, e.1 ∈ ["group", "allow_non_equivariance", "subgroup"] ++ kerasNames tr) ∧
      ∃ o, paddingOf ((kw.lookup "padding").getD (.str "valid_equiv")) = .ok o ∧
        r = ⟨transformsArgs (convTransforms d tr kw), paddingArgs (convTransforms d tr kw), convKeras kw o, []⟩ := by
  have hf : ∀ o, (convKeras kw o).lookup "filters" = kw.lookup "filters" := by
    intro o
    unfold convKeras
    rw [List.lookup_cons, show ("filters" == "kernel_size") = false from by decide, lookup_set, lookup_convRest]
    rfl
  have hpad : (convTransforms d tr kw).lookup "padding" = kw.lookup "padding" := by
    unfold convTransforms
    rw [lookup_append, lookup_convRest]
    rfl
  have hr : (if tr then transposeNames else convNames) = kerasNames tr := rfl
  unfold callConv
  constructor
  · intro h
    obtain ⟨own, ho, h⟩ := bind_eq_ok h
    obtain ⟨a, ha, h⟩ := bind_eq_ok h
    obtain ⟨t, ht, h⟩ := bind_eq_ok h
    obtain ⟨k, hk, h⟩ := bind_eq_ok h
    obtain ⟨l, hl, h⟩ := bind_eq_ok h
    obtain ⟨h1, rfl⟩ := bind_ok.1 ho
    obtain ⟨h2, rfl⟩ := callWith_ok.1 ha
    replace ht : transformsCall (convTransforms d tr kw) = .ok t := ht
    obtain ⟨h3, h4, h5, h6, h7, h8⟩ := transformsCall_ok.1 ht
    obtain ⟨h9, rfl⟩ := callWith_ok.1 hk
    replace hl : kerasInit ["filters", "kernel_size"] (kerasNames tr) (convKeras kw t.2.2) = .ok l := hl
    obtain ⟨h10, h11, rfl⟩ := kerasInit_ok.1 hl
    injection h with h
    subst h
    refine ⟨h1 ("group", none) (by decide) rfl, h1 ("kernel_size", none) (by decide) rfl, ?_, (conv_known kw tr _).1 h11,
      t.2.2, ?_, ?_⟩
    · rw [← hf t.2.2]
      exact h10 "filters" (by decide)
    · rw [hpad] at h8
      exact h8
    · rw [h6, h7]
  · rintro ⟨h1, h2, h3, h4, o, h5, rfl⟩
    have hd : ∀ n, n ∉ ["group", "allow_non_equivariance", "subgroup"] ++ kerasNames tr → kw.lookup n = none := by
      intro n hn
      rw [← has_false, has_iff]
      intro h
      obtain ⟨e, he, rfl⟩ := List.mem_map.1 h
      exact hn (h4 e he)
    have hdim := hd "dimensions" (by cases tr <;> decide)
    have htr := hd "transpose" (by cases tr <;> decide)
    rw [bind_ok.2 ⟨by simp [-List.lookup_eq_none_iff, convParams, h1, h2], rfl⟩]
    simp only [res_bind_ok]
    rw [callWith_ok.2 ⟨by
      intro e he
      show (convRest kw).lookup e.1 = none
      rw [lookup_convRest]
      simp only [List.mem_cons, List.not_mem_nil, or_false] at he
      rcases he with rfl | rfl | rfl | rfl | rfl | rfl
      · rfl
      · rfl
      · exact hdim
      · rfl
      · rfl
      · exact htr, rfl⟩]
    simp only [res_bind_ok]
    have ht : transformsCall (convTransforms d tr kw) =
        .ok (transformsArgs (convTransforms d tr kw), paddingArgs (convTransforms d tr kw), o) := by
      refine transformsCall_ok.2 ⟨Option.some_ne_none _, Option.some_ne_none _, Option.some_ne_none _, rfl, rfl, ?_⟩
      rw [hpad]
      exact h5
    erw [ht]
    simp only [res_bind_ok]
    rw [callWith_ok.2 ⟨by
      intro e he
      show (Keywords.set (convRest kw) "padding" o).lookup e.1 = none
      rw [lookup_set, lookup_convRest]
      simp only [List.mem_cons, List.not_mem_nil, or_false] at he
      rcases he with rfl
      rfl, rfl⟩]
    simp only [res_bind_ok]
    have hl : kerasInit ["filters", "kernel_size"] (kerasNames tr) (convKeras kw o) = .ok (convKeras kw o) := by
      refine kerasInit_ok.2 ⟨?_, (conv_known kw tr o).2 h4, rfl⟩
      intro n hn
      simp only [List.mem_cons, List.not_mem_nil, or_false] at hn
      rcases hn with rfl | rfl
      · rw [hf]; exact h3
      · exact Option.some_ne_none _
    erw [hl]
    rfl

/-- The `kwargs` of a pooling layer. -/
def poolRest (kw : Keywords) : Keywords := kw.filter fun e => e.1 ∉ poolParams.map Prod.fst

theorem lookup_poolRest (kw : Keywords) (n : String) :
    (poolRest kw).lookup n = if n ∈ poolParams.map Prod.fst then none else kw.lookup n := lookup_filter_not kw _ n

/-- The arguments a pooling layer gives to `GroupTransforms`. -/
def poolTransforms (d : Nat) (kw : Keywords) : Keywords :=
  [("allow_non_equivariance", (kw.lookup "allow_non_equivariance").getD (.bool false)),
    ("kernel_size", (kw.lookup "pool_size").getD (.int 2)), ("dimensions", .int d), ("group", (kw.lookup "group").getD .none),
    ("subgroup", (kw.lookup "subgroup").getD (.str "")), ("pooling", .bool true)] ++ poolRest kw

/-- The arguments a pooling layer gives to the Keras layer inside. -/
def poolKeras (kw : Keywords) (o : PyVal) : Keywords :=
  ("pool_size", (kw.lookup "pool_size").getD (.int 2)) :: Keywords.set (poolRest kw) "padding" o

theorem pool_known (kw : Keywords) (o : PyVal) (h1 : kw.lookup "dimensions" = none) (h2 : kw.lookup "pool_type" = none) :
    (∀ e ∈ poolKeras kw o, e.1 ∈ poolNames) ↔
      ∀ e ∈ kw, e.1 ∈ ["group", "allow_non_equivariance", "subgroup"] ++ poolNames := by
  have hc : poolParams.map Prod.fst =
      ["group", "dimensions", "pool_type", "allow_non_equivariance", "subgroup", "pool_size"] := rfl
  have hne : ∀ n, kw.lookup n = none → ∀ e ∈ kw, e.1 ≠ n := by
    intro n hn e he h
    rw [← has_false, has_iff] at hn
    exact hn (List.mem_map.2 ⟨e, he, h⟩)
  have hsize : "pool_size" ∈ poolNames := by decide
  unfold poolKeras Keywords.set poolRest
  rw [hc]
  constructor
  · intro h e he
    by_cases h3 : e.1 ∈ ["group", "dimensions", "pool_type", "allow_non_equivariance", "subgroup", "pool_size"]
    · simp only [List.mem_cons, List.not_mem_nil, or_false] at h3
      rcases h3 with h3 | h3 | h3 | h3 | h3 | h3
      · rw [h3]; decide
      · exact absurd h3 (hne _ h1 e he)
      · exact absurd h3 (hne _ h2 e he)
      · rw [h3]; decide
      · rw [h3]; decide
      · rw [h3]; decide
    · by_cases h4 : e.1 = "padding"
      · rw [h4]; decide
      · refine List.mem_append_right _ (h e ?_)
        refine List.mem_cons_of_mem _ (List.mem_cons_of_mem _ ?_)
        rw [List.mem_filter, List.mem_filter]
        exact ⟨⟨he, by simpa using h3⟩, by simpa using h4⟩
  · intro h e he
    rw [List.mem_cons, List.mem_cons, List.mem_filter, List.mem_filter] at he
    rcases he with rfl | rfl | ⟨⟨he, h3⟩, -⟩
    · exact hsize
    · exact (show "padding" ∈ poolNames by decide)
    · rcases List.mem_append.1 (h e he) with h4 | h4
      · exfalso
        simp only [List.mem_cons, List.not_mem_nil, or_false] at h4
        rcases h4 with h4 | h4 | h4 <;> rw [h4] at h3 <;> simp at h3
      · exact h4

theorem filter_all (kw : Keywords) : (kw.filter fun e => e.1 ∉ ([] : Params).map Prod.fst) = kw := by
  simp

theorem callPool_ok {d : Nat} {pt : String} {kw : Keywords} {r : Received} :
    callPool d pt [] kw = .ok r ↔ kw.lookup "group" ≠ none ∧
      (∀ e ∈ kw, e.1 ∈ ["group", "allow_non_equivariance", "subgroup"] ++ poolNames) ∧
      ∃ o, paddingOf ((kw.lookup "padding").getD (.str "valid_equiv")) = .ok o ∧
        r = ⟨transformsArgs (poolTransforms d kw), paddingArgs (poolTransforms d kw), [], poolKeras kw o⟩ := by
  have hpad : (poolTransforms d kw).lookup "padding" = kw.lookup "padding" := by
    unfold poolTransforms
    rw [lookup_append, lookup_poolRest]
    rfl
  unfold callPool
  rw [bind_ok.2 ⟨by simp, rfl⟩]
  simp only [res_bind_ok]
  rw [filter_all]
  constructor
  · intro h
    obtain ⟨b, hb, h⟩ := bind_eq_ok h
    obtain ⟨own, ho, h⟩ := bind_eq_ok h
    obtain ⟨a, ha, h⟩ := bind_eq_ok h
    obtain ⟨t, ht, h⟩ := bind_eq_ok h
    obtain ⟨k, hk, h⟩ := bind_eq_ok h
    obtain ⟨l, hl, h⟩ := bind_eq_ok h
    obtain ⟨h0, rfl⟩ := callWith_ok.1 hb
    have hpt : kw.lookup "pool_type" = none := h0 ("pool_type", .str pt) (by simp)
    have hdim : kw.lookup "dimensions" = none := h0 ("dimensions", .int d) (by simp)
    obtain ⟨h1, rfl⟩ := bind_ok.1 ho
    obtain ⟨h2, rfl⟩ := callWith_ok.1 ha
    replace ht : transformsCall (poolTransforms d kw) = .ok t := ht
    obtain ⟨h3, h4, h5, h6, h7, h8⟩ := transformsCall_ok.1 ht
    obtain ⟨h9, rfl⟩ := callWith_ok.1 hk
    replace hl : kerasInit [] poolNames (poolKeras kw t.2.2) = .ok l := hl
    obtain ⟨h10, h11, rfl⟩ := kerasInit_ok.1 hl
    injection h with h
    subst h
    refine ⟨h1 ("group", none) (by decide) rfl, (pool_known kw _ hdim hpt).1 h11, t.2.2, ?_, ?_⟩
    · rw [hpad] at h8
      exact h8
    · rw [h6, h7]
  · rintro ⟨h1, h4, o, h5, rfl⟩
    have hd : ∀ n, n ∉ ["group", "allow_non_equivariance", "subgroup"] ++ poolNames → kw.lookup n = none := by
      intro n hn
      rw [← has_false, has_iff]
      intro h
      obtain ⟨e, he, rfl⟩ := List.mem_map.1 h
      exact hn (h4 e he)
    have hdim := hd "dimensions" (by decide)
    have hpt := hd "pool_type" (by decide)
    have hks := hd "kernel_size" (by decide)
    have hpl := hd "pooling" (by decide)
    have htr := hd "transpose" (by decide)
    rw [callWith_ok.2 ⟨by
      intro e he
      simp only [List.mem_cons, List.not_mem_nil, or_false] at he
      rcases he with rfl | rfl
      · exact hpt
      · exact hdim, rfl⟩]
    simp only [res_bind_ok]
    rw [bind_ok.2 ⟨by
      intro p hp hn
      simp only [poolParams, List.mem_cons, List.not_mem_nil, or_false] at hp
      rcases hp with rfl | rfl | rfl | rfl | rfl | rfl
      · exact h1
      · exact Option.some_ne_none _
      · exact Option.some_ne_none _
      · exact absurd hn (by decide)
      · exact absurd hn (by decide)
      · exact absurd hn (by decide), rfl⟩]
    simp only [res_bind_ok]
    rw [callWith_ok.2 ⟨by
      intro e he
      show (poolRest kw).lookup e.1 = none
      rw [lookup_poolRest]
      simp only [List.mem_cons, List.not_mem_nil, or_false] at he
      rcases he with rfl | rfl | rfl | rfl | rfl | rfl
      · rfl
      · exact hks
      · rfl
      · rfl
      · rfl
      · exact hpl, rfl⟩]
    simp only [res_bind_ok]
    have ht : transformsCall (poolTransforms d kw) =
        .ok (transformsArgs (poolTransforms d kw), paddingArgs (poolTransforms d kw), o) := by
      refine transformsCall_ok.2 ⟨Option.some_ne_none _, Option.some_ne_none _, Option.some_ne_none _, rfl, rfl, ?_⟩
      rw [hpad]
      exact h5
    erw [ht]
    simp only [res_bind_ok]
    rw [callWith_ok.2 ⟨by
      intro e he
      show (Keywords.set (poolRest kw) "padding" o).lookup e.1 = none
      rw [lookup_set, lookup_poolRest]
      simp only [List.mem_cons, List.not_mem_nil, or_false] at he
      rcases he with rfl
      rfl, rfl⟩]
    simp only [res_bind_ok]
    have hl : kerasInit [] poolNames (poolKeras kw o) = .ok (poolKeras kw o) :=
      kerasInit_ok.2 ⟨by simp, (pool_known kw o hdim hpt).2 h4, rfl⟩
    erw [hl]
    rfl

theorem callGlobal_ok {d : Nat} {pt : String} {kw : Keywords} {r : Received} :
    callGlobal d pt [] kw = .ok r ↔ (∀ e ∈ kw, e.1 ∈ globalNames) ∧ r = ⟨[], [], [], kw⟩ := by
  unfold callGlobal
  rw [bind_ok.2 ⟨by simp, rfl⟩]
  simp only [res_bind_ok]
  rw [filter_all]
  have hrest : kw.lookup "pool_type" = none → kw.lookup "dimensions" = none →
      (kw.filter fun e => e.1 ∉ globalParams.map Prod.fst) = kw := by
    intro h1 h2
    rw [List.filter_eq_self]
    intro e he
    have hne : ∀ n, kw.lookup n = none → e.1 ≠ n := by
      intro n hn h
      rw [← has_false, has_iff] at hn
      exact hn (List.mem_map.2 ⟨e, he, h⟩)
    simp [globalParams, hne _ h1, hne _ h2]
  constructor
  · intro h
    obtain ⟨b, hb, h⟩ := bind_eq_ok h
    obtain ⟨own, ho, h⟩ := bind_eq_ok h
    obtain ⟨l, hl, hz⟩ := bind_eq_ok h
    obtain ⟨h0, rfl⟩ := callWith_ok.1 hb
    have hpt : kw.lookup "pool_type" = none := h0 ("pool_type", .str pt) (by simp)
    have hdim : kw.lookup "dimensions" = none := h0 ("dimensions", .int d) (by simp)
    obtain ⟨h1, rfl⟩ := bind_ok.1 ho
    replace hl : kerasInit [] globalNames (kw.filter fun e => e.1 ∉ globalParams.map Prod.fst) = .ok l := hl
    rw [hrest hpt hdim] at hl
    obtain ⟨h10, h11, rfl⟩ := kerasInit_ok.1 hl
    injection hz with hz
    subst hz
    exact ⟨h11, rfl⟩
  · rintro ⟨h4, rfl⟩
    have hd : ∀ n, n ∉ globalNames → kw.lookup n = none := by
      intro n hn
      rw [← has_false, has_iff]
      intro h
      obtain ⟨e, he, rfl⟩ := List.mem_map.1 h
      exact hn (h4 e he)
    have hdim := hd "dimensions" (by decide)
    have hpt := hd "pool_type" (by decide)
    rw [callWith_ok.2 ⟨by
      intro e he
      simp only [List.mem_cons, List.not_mem_nil, or_false] at he
      rcases he with rfl | rfl
      · exact hpt
      · exact hdim, rfl⟩]
    simp only [res_bind_ok]
    rw [bind_ok.2 ⟨by
      intro p hp hn
      simp only [globalParams, List.mem_cons, List.not_mem_nil, or_false] at hp
      rcases hp with rfl | rfl
      · exact Option.some_ne_none _
      · exact Option.some_ne_none _, rfl⟩]
    simp only [res_bind_ok]
    have hl : kerasInit [] globalNames (kw.filter fun e => e.1 ∉ globalParams.map Prod.fst) = .ok kw := by
      rw [hrest hpt hdim]
      exact kerasInit_ok.2 ⟨by simp, h4, rfl⟩
    erw [hl]
    rfl

end GroCo
