import Verif.Props.Options
import Verif.Props.Build
import Verif.Props.Groups
import Verif.Props.Actions
import Verif.Props.Dictionary
import Verif.Props.Manips
import Verif.Props.Check

/-
Property C75: misuse is refused, always with the same kind of exception.
-/

namespace GroCo
open Tensor

variable {α : Type}

/-! ### constructors of the layers -/

/-- `s` names a subgroup that the constructor accepts: one of the eleven groups, or "" for the whole group. -/
def KnownSubgroup (s : Option String) : Prop := s = some "" ∨ ∃ n : GroupName, s = some n.group.name

/-- sizes that Keras accepts for a convolution in `d` dimensions -/
structure ConvSizes (a : ConvArgs α) (d : Nat) : Prop where
  kernels : a.kernelSize.length = d ∧ 0 ∉ a.kernelSize
  strides : a.strides.length = d ∧ 0 ∉ a.strides
  dilation : a.dilation.length = d ∧ 0 ∉ a.dilation
  filters : 0 < a.filters
  notBoth : ¬ ((∃ s ∈ a.strides, 1 < s) ∧ ∃ r ∈ a.dilation, 1 < r)

/-- sizes that Keras accepts for pooling in `d` dimensions; the strides may be left out -/
structure PoolSizes (a : PoolArgs) (d : Nat) : Prop where
  pool : a.poolSize.length = d ∧ 0 ∉ a.poolSize
  strides : ∀ s, a.strides = some s → s.length = d ∧ 0 ∉ s

theorem known_iff (n : GroupName) (s : Option String) :
    (KnownSubgroup s → ∃ t m, n.group.parseSubgroup s = some t ∧ groupDict t = .ok m) ∧
    (¬ KnownSubgroup s → n.group.parseSubgroup s = none ∨ ∃ t, n.group.parseSubgroup s = some t ∧ groupDict t = .error .key) := by
  have hd : ∀ m : GroupName, groupDict m.group.name = .ok m := fun m =>
    ((C51_group_dict _).1 m).2 (((C51_group_dict _).2.1 m).2 rfl)
  constructor
  · rintro (rfl | ⟨m, rfl⟩)
    · exact ⟨_, n, rfl, hd n⟩
    · refine ⟨m.group.name, m, ?_, hd m⟩
      have := name_ne m
      unfold GroupData.parseSubgroup
      split <;> simp_all
  · intro h
    cases s with
    | none => exact .inl rfl
    | some t =>
      have h0 : t ≠ "" := fun e => h (.inl (by rw [e]))
      refine .inr ⟨t, ?_, (C51_group_dict t).2.2 fun m hm => h (.inr ⟨m, by rw [hm]⟩)⟩
      unfold GroupData.parseSubgroup
      split <;> simp_all

/-- what the constructor of the transforms does -/
theorem transforms_init_cases (a : GroupArgs) (d : Nat) (tr : Bool) :
    (¬ KnownSubgroup a.subgroup → GroupTransforms.init a d tr = .error .key) ∧
    (KnownSubgroup a.subgroup → (¬ ∃ e ∈ paddingNames, Spelled a.padding e.1) → GroupTransforms.init a d tr = .error .typ) ∧
    (KnownSubgroup a.subgroup → (∃ e ∈ paddingNames, Spelled a.padding e.1) →
      ∃ t, GroupTransforms.init a d tr = .ok t ∧ t.builtInPaddingOption = builtInPaddingOption a.padding) := by
  refine ⟨fun h => ?_, fun h hp => ?_, fun h hp => ?_⟩
  · rcases (known_iff a.group a.subgroup).2 h with e | ⟨t, e, ht⟩
    · unfold GroupTransforms.init; rw [e]; rfl
    · unfold GroupTransforms.init; rw [e]; simp only [ht, res_bind_error]
  · obtain ⟨t, m, e, ht⟩ := (known_iff a.group a.subgroup).1 h
    unfold GroupTransforms.init
    rw [e]
    simp only [ht, res_bind_ok, (C39_padding_layer a.padding).2 hp, res_bind_error]
  · obtain ⟨t, m, e, ht⟩ := (known_iff a.group a.subgroup).1 h
    obtain ⟨e', he', hsp⟩ := hp
    have ho := ((C39_padding_layer a.padding).1 e'.2.1).2 ⟨e', he', hsp, rfl⟩
    unfold GroupTransforms.init
    rw [e]
    simp only [ht, res_bind_ok, ho]
    exact ⟨_, rfl, rfl⟩

theorem standardize_cases (s : String) : (∃ kp, standardizePadding s = .ok kp) ∨ standardizePadding s = .error .value := by
  unfold standardizePadding
  split_ifs
  · exact .inl ⟨_, rfl⟩
  · exact .inl ⟨_, rfl⟩
  · exact .inr rfl

/-- C75, the constructor of a convolution layer: an unknown subgroup (also `None`) is a KeyError; otherwise a string that the
padding layer does not know is a TypeError; otherwise a string that Keras does not know, or sizes it does not accept, are a
ValueError; everything else is accepted. -/
theorem C75_constructor (a : ConvArgs α) (d : Nat) (tr : Bool) :
    (¬ KnownSubgroup a.subgroup → GroupConv.init a d tr = .error .key) ∧
    (KnownSubgroup a.subgroup → (¬ ∃ e ∈ paddingNames, Spelled a.padding e.1) → GroupConv.init a d tr = .error .typ) ∧
    (KnownSubgroup a.subgroup → (∃ e ∈ paddingNames, Spelled a.padding e.1) →
      (¬ ∃ opt kp, Accepted a.padding opt kp) ∨ ¬ ConvSizes a d → GroupConv.init a d tr = .error .value) ∧
    (KnownSubgroup a.subgroup → (∃ opt kp, Accepted a.padding opt kp) → ConvSizes a d → ∃ l, GroupConv.init a d tr = .ok l) := by
  obtain ⟨t1, t2, t3⟩ := transforms_init_cases a.toGroupArgs d tr
  refine ⟨fun h => ?_, fun h hp => ?_, fun h hp hbad => ?_, fun h hp hs => ?_⟩
  · unfold GroupConv.init; rw [t1 h]; rfl
  · unfold GroupConv.init; rw [t2 h hp]; rfl
  · obtain ⟨t, ht, hb⟩ := t3 h hp
    unfold GroupConv.init
    rw [ht, res_bind_ok, hb]
    rcases standardize_cases (builtInPaddingOption a.padding) with ⟨kp, hk⟩ | hk
    · rw [hk, res_bind_ok]
      rcases hbad with hbad | hbad
      · obtain ⟨e, he, hsp⟩ := hp
        have ho := ((C39_padding_layer a.padding).1 e.2.1).2 ⟨e, he, hsp, rfl⟩
        exact absurd ⟨_, _, (accepted_iff a.padding e.2.1 kp).1 ⟨ho, hk⟩⟩ hbad
      · rw [if_pos]
        by_contra hc
        simp only [not_or, not_not] at hc
        exact hbad ⟨⟨hc.1, hc.2.2.2.1⟩, ⟨hc.2.1, hc.2.2.2.2.1⟩, ⟨hc.2.2.1, hc.2.2.2.2.2.2.1⟩, by omega, hc.2.2.2.2.2.2.2⟩
    · rw [hk]; rfl
  · obtain ⟨opt, kp, hacc⟩ := hp
    obtain ⟨ho, hk⟩ := (accepted_iff a.padding opt kp).2 hacc
    obtain ⟨e, he, hsp, -⟩ := ((C39_padding_layer a.padding).1 opt).1 ho
    obtain ⟨t, ht, hb⟩ := t3 h ⟨e, he, hsp⟩
    unfold GroupConv.init
    rw [ht, res_bind_ok, hb, hk, res_bind_ok, if_neg]
    · exact ⟨_, rfl⟩
    · simp only [not_or, not_not]
      exact ⟨hs.kernels.1, hs.strides.1, hs.dilation.1, hs.kernels.2, hs.strides.2, by have := hs.filters; omega, hs.dilation.2,
        hs.notBoth⟩

/-- C75, the constructor of a pooling layer -/
theorem C75_pool_constructor (a : PoolArgs) (d : Nat) :
    (¬ KnownSubgroup a.subgroup → GroupPooling.init a d = .error .key) ∧
    (KnownSubgroup a.subgroup → (¬ ∃ e ∈ paddingNames, Spelled a.padding e.1) → GroupPooling.init a d = .error .typ) ∧
    (KnownSubgroup a.subgroup → (∃ e ∈ paddingNames, Spelled a.padding e.1) →
      (¬ ∃ opt kp, Accepted a.padding opt kp) ∨ ¬ PoolSizes a d → GroupPooling.init a d = .error .value) ∧
    (KnownSubgroup a.subgroup → (∃ opt kp, Accepted a.padding opt kp) → PoolSizes a d → ∃ l, GroupPooling.init a d = .ok l) := by
  obtain ⟨t1, t2, t3⟩ := transforms_init_cases ⟨a.group, a.subgroup, a.poolSize, a.strides.getD (List.replicate d 1), a.padding,
    a.allowNonEquivariance, a.dataFormat⟩ d false
  refine ⟨fun h => ?_, fun h hp => ?_, fun h hp hbad => ?_, fun h hp hs => ?_⟩
  · unfold GroupPooling.init; rw [t1 h]; rfl
  · unfold GroupPooling.init; rw [t2 h hp]; rfl
  · obtain ⟨t, ht, hb⟩ := t3 h hp
    unfold GroupPooling.init
    rw [ht, res_bind_ok, hb]
    rcases standardize_cases (builtInPaddingOption a.padding) with ⟨kp, hk⟩ | hk
    · simp only [hk, res_bind_ok]
      rcases hbad with hbad | hbad
      · obtain ⟨e, he, hsp⟩ := hp
        have ho := ((C39_padding_layer a.padding).1 e.2.1).2 ⟨e, he, hsp, rfl⟩
        exact absurd ⟨_, _, (accepted_iff a.padding e.2.1 kp).1 ⟨ho, hk⟩⟩ hbad
      · rw [if_pos]
        by_contra hc
        simp only [not_or, not_not] at hc
        refine hbad ⟨⟨hc.1, hc.2.2.1⟩, fun s hs => ?_⟩
        rw [hs] at hc
        exact ⟨hc.2.1, hc.2.2.2⟩
    · simp only [hk, res_bind_error]
  · obtain ⟨opt, kp, hacc⟩ := hp
    obtain ⟨ho, hk⟩ := (accepted_iff a.padding opt kp).2 hacc
    obtain ⟨e, he, hsp, -⟩ := ((C39_padding_layer a.padding).1 opt).1 ho
    obtain ⟨t, ht, hb⟩ := t3 h ⟨e, he, hsp⟩
    unfold GroupPooling.init
    rw [ht, res_bind_ok, hb]
    simp only [hk, res_bind_ok]
    rw [if_neg]
    · exact ⟨_, rfl⟩
    · simp only [not_or, not_not]
      have hp := hs.pool
      have hst := hs.strides
      cases hstr : a.strides with
      | none => exact ⟨hp.1, hp.1, hp.2, hp.2⟩
      | some s => exact ⟨hp.1, (hst s hstr).1, hp.2, (hst s hstr).2⟩

/-- arguments of each of the four kinds -/
example : ¬ KnownSubgroup (some "P3") ∧ KnownSubgroup (some "P2") ∧ KnownSubgroup (some "") ∧ ConvSizes optionArgs 2 ∧
    ¬ ConvSizes optionArgs 3 ∧ (∃ opt kp, Accepted optionArgs.padding opt kp) ∧
    (∃ e ∈ paddingNames, Spelled "SAME_EQUIV" e.1) ∧ ¬ ∃ opt kp, Accepted "SAME_EQUIV" opt kp := by
  refine ⟨?_, .inr ⟨.P2, rfl⟩, .inl rfl, ⟨⟨rfl, by decide⟩, ⟨rfl, by decide⟩, ⟨rfl, by decide⟩, by decide, by decide⟩, fun h => ?_,
    ⟨_, _, C39_documented_names ("valid", .valid, .valid) (by decide)⟩, ?_, ?_⟩
  · rintro (h | ⟨n, h⟩)
    · exact absurd h (by decide)
    · revert h; cases n <;> decide
  · exact absurd h.kernels.1 (by decide)
  · obtain ⟨e, he, h, -⟩ := ((C39_padding_layer "SAME_EQUIV").1 .sameEquiv).1 rfl
    exact ⟨e, he, h⟩
  · rintro ⟨opt, kp, h⟩
    have := ((accepted_iff _ _ _).2 h).2
    rw [show standardizePadding (builtInPaddingOption "SAME_EQUIV") = .error .value from rfl] at this
    cases this

/-! ### the constructor of groups -/

/-- C75, the constructor of groups: without a parent the composition, the subgroups and the cosets must be given, otherwise it
raises AttributeError. -/
theorem C75_group_missing (name : String) (order : Nat) (inverses : Option (List Nat)) (composition : Option (List (List Nat)))
    (subgroup cosets : Option (List (String × List Nat))) (action : Option ActionFn) :
    (composition = none → Group.init name order inverses composition subgroup cosets action none = .error .attribute) ∧
    ((∃ c, composition = some c) → (∃ i, inverses = some i) → subgroup = none ∨ cosets = none →
      Group.init name order inverses composition subgroup cosets action none = .error .attribute) ∧
    ((∃ c, composition = some c) → (∃ i, inverses = some i) → (∃ s, subgroup = some s) → (∃ c, cosets = some c) →
      ∃ G, Group.init name order inverses composition subgroup cosets action none = .ok G) := by
  refine ⟨?_, ?_, ?_⟩
  · rintro rfl; rfl
  · rintro ⟨c, rfl⟩ ⟨i, rfl⟩ h
    cases subgroup with
    | none => rfl
    | some s =>
      rcases h with h | rfl
      · cases h
      · rfl
  · rintro ⟨c, rfl⟩ ⟨i, rfl⟩ ⟨s, rfl⟩ ⟨t, rfl⟩
    exact ⟨_, rfl⟩

/-- C75: a parent that has no subgroup of that name is a KeyError if the composition is not given. -/
theorem C75_group_not_in_parent (name : String) (order : Nat) (inverses : Option (List Nat))
    (subgroup cosets : Option (List (String × List Nat))) (action : Option ActionFn) (p : Group)
    (h : ∀ e ∈ p.subgroup, e.1 ≠ name) : Group.init name order inverses none subgroup cosets action (some p) = .error .key := by
  have hl : lookup p.subgroup name = .error .key := by
    unfold lookup
    rw [List.find?_eq_none.2 fun e he => by simpa using h e he]
  have : computeComposition name order none (some p.toGroupData) = .error .key := by
    show (lookup p.subgroup name >>= _) = _
    rw [hl]; rfl
  unfold Group.init initData
  simp only [Option.map, this, res_bind_error]

/-- C75: if the inverses are to be computed and an element has none, the constructor raises IndexError. -/
theorem C75_group_no_inverse (name : String) (order : Nat) (c : List (List Nat)) (subgroup cosets : Option (List (String × List Nat)))
    (action : Option ActionFn) (parent : Option Group) (hc : c.length = order) (hr : ∀ row ∈ c, row.length = order)
    (r : Nat) (hlt : r < order) (h : ∀ i, i < order → nth (c.getD r []) i ≠ 0) :
    Group.init name order none (some c) subgroup cosets action parent = .error .index := by
  have key : ∀ (f : Nat → Res Nat) (l : List Nat), (∀ x ∈ l, (∃ y, f x = .ok y) ∨ f x = .error .index) →
      (∃ x ∈ l, f x = .error .index) → l.mapM f = .error .index := by
    intro f l
    induction l with
    | nil => intro _ h; obtain ⟨x, hx, -⟩ := h; cases hx
    | cons a l ih =>
      intro hall hex
      rw [List.mapM_cons]
      rcases hall a List.mem_cons_self with ⟨y, hy⟩ | he
      · rw [hy, res_bind_ok, ih (fun x hx => hall x (List.mem_cons_of_mem _ hx)) ?_]
        · rfl
        · obtain ⟨x, hx, hxe⟩ := hex
          rcases List.mem_cons.1 hx with rfl | hx
          · rw [hy] at hxe; cases hxe
          · exact ⟨x, hx, hxe⟩
      · rw [he]; rfl
  have hrow : ∀ q, q < order → ∃ row, getIdx c q = .ok row ∧ row.length = order ∧ c.getD q [] = row := by
    intro q hq
    have hq' : q < c.length := hc ▸ hq
    refine ⟨c[q], ?_, hr _ (List.getElem_mem hq'), ?_⟩
    · unfold getIdx
      rw [List.getElem?_eq_getElem hq']
    · rw [List.getD_eq_getElem?_getD, List.getElem?_eq_getElem hq']; rfl
  have hent : ∀ row : List Nat, row.length = order →
      ((List.range order).mapM fun k => (do let v ← getIdx row k; return (k, v) : Res (Nat × Nat))) =
        .ok ((List.range order).map fun k => (k, nth row k)) := by
    intro row hlen
    have : ∀ l : List Nat, (∀ k ∈ l, k < order) →
        (l.mapM fun k => (do let v ← getIdx row k; return (k, v) : Res (Nat × Nat))) = .ok (l.map fun k => (k, nth row k)) := by
      intro l
      induction l with
      | nil => intro _; rfl
      | cons a l ih =>
        intro hl
        have ha : a < row.length := hlen ▸ hl a List.mem_cons_self
        have hg : getIdx row a = .ok (nth row a) := by
          unfold getIdx nth
          rw [List.getElem?_eq_getElem ha, List.getD_eq_getElem?_getD, List.getElem?_eq_getElem ha]; rfl
        rw [List.mapM_cons, ih fun k hk => hl k (List.mem_cons_of_mem _ hk), hg]
        rfl
    exact this _ fun k hk => List.mem_range.1 hk
  have hinv : computeInverses order c none = .error .index := by
    unfold computeInverses
    refine key _ _ (fun q hq => ?_) ⟨r, List.mem_range.2 hlt, ?_⟩
    · obtain ⟨row, e1, e2, -⟩ := hrow q (List.mem_range.1 hq)
      simp only [e1, res_bind_ok, hent row e2]
      split
      · exact .inl ⟨_, rfl⟩
      · exact .inr rfl
    · obtain ⟨row, e1, e2, e3⟩ := hrow r hlt
      simp only [e1, res_bind_ok, hent row e2]
      rw [e3] at h
      rw [List.find?_eq_none.2]
      intro e he
      obtain ⟨k, hk, rfl⟩ := List.mem_map.1 he
      simpa using h k (List.mem_range.1 hk)
  unfold Group.init initData
  have : computeComposition name order (some c) (parent.map Group.toGroupData) = .ok c := by
    unfold computeComposition; rfl
  simp only [this, res_bind_ok, hinv, res_bind_error]

theorem mapM_error {β γ : Type} (e : Err) (f : β → Res γ) (l : List β) (hall : ∀ x ∈ l, (∃ y, f x = .ok y) ∨ f x = .error e)
    (hex : ∃ x ∈ l, f x = .error e) : l.mapM f = .error e := by
  induction l with
  | nil => obtain ⟨x, hx, -⟩ := hex; cases hx
  | cons a l ih =>
    rw [List.mapM_cons]
    rcases hall a List.mem_cons_self with ⟨y, hy⟩ | he
    · rw [hy, res_bind_ok, ih (fun x hx => hall x (List.mem_cons_of_mem _ hx)) ?_]
      · rfl
      · obtain ⟨x, hx, hxe⟩ := hex
        rcases List.mem_cons.1 hx with rfl | hx
        · rw [hy] at hxe; cases hxe
        · exact ⟨x, hx, hxe⟩
    · rw [he]; rfl

/-- a name that is not among the first `order` elements of the subgroup is not found -/
theorem externalToInternal_error (H : List Nat) (order : Nat) (es : List Nat) (e : Nat) (he : e ∈ es) (hn : e ∉ H.take order) :
    externalToInternal H order es = .error .key := by
  unfold externalToInternal
  refine mapM_error .key _ _ (fun x _ => ?_) ⟨e, he, ?_⟩
  · split
    · exact Or.inl ⟨_, rfl⟩
    · exact Or.inr rfl
  · rw [List.find?_eq_none.2]
    intro q hq
    rw [List.mem_reverse] at hq
    obtain ⟨i, hi, rfl⟩ := List.mem_iff_getElem.1 hq
    simp only [List.length_zip, List.length_range, lt_min_iff] at hi
    simp only [List.getElem_zip, beq_iff_eq]
    rintro rfl
    exact hn (List.mem_take_iff_getElem.2 ⟨i, by omega, rfl⟩)

theorem externalToInternal_kinds (H : List Nat) (order : Nat) (es : List Nat) :
    (∃ y, externalToInternal H order es = .ok y) ∨ externalToInternal H order es = .error .key := by
  unfold externalToInternal
  induction es with
  | nil => exact Or.inl ⟨_, rfl⟩
  | cons a es ih =>
    rw [List.mapM_cons]
    split
    · rw [res_bind_ok]
      rcases ih with ⟨y, hy⟩ | h
      · rw [hy]; exact Or.inl ⟨_, rfl⟩
      · rw [h]; exact Or.inr rfl
    · exact Or.inr rfl

theorem computeComposition_parent (name : String) (order : Nat) (P : GroupData) (H : List Nat) (hl : lookup P.subgroup name = .ok H)
    (hc : P.composition.length = P.order) (hr : ∀ row ∈ P.composition, row.length = P.order) (hlt : ∀ h ∈ H, h < P.order) :
    computeComposition name order none (some P) = (List.range order).mapM fun r =>
      (getIdx (H.map fun a => H.map fun c => P.comp a c) r >>= externalToInternal H order) := by
  simp only [computeComposition, hl, res_bind_ok]
  have e1 : H.mapM (getIdx P.composition) = .ok (H.map fun r => P.composition.getD r []) := by
    apply mapM_eq_ok
    intro r hr'
    have : r < P.composition.length := by rw [hc]; exact hlt r hr'
    rw [getIdx_ok _ this, getD_lt this]
  have e2 : (H.map fun r => P.composition.getD r []).mapM (fun row => H.mapM (getIdx row)) =
      .ok ((H.map fun r => P.composition.getD r []).map fun row => H.map fun c => nth row c) := by
    apply mapM_eq_ok
    intro row hrow
    apply mapM_eq_ok
    intro c hc'
    obtain ⟨r, hr', rfl⟩ := List.mem_map.1 hrow
    have hrl : r < P.composition.length := by rw [hc]; exact hlt r hr'
    apply getIdx_nat
    rw [hr _ (getD_mem hrl)]
    exact hlt c hc'
  rw [e1, res_bind_ok, e2, res_bind_ok, List.map_map]
  rfl

/-- C75: a set of elements of the parent that is not closed under composition is refused with KeyError. -/
theorem C75_group_not_closed (name : String) (inverses : Option (List Nat)) (subgroup cosets : Option (List (String × List Nat)))
    (action : Option ActionFn) (p : Group) (H : List Nat) (hl : lookup p.subgroup name = .ok H)
    (hc : p.composition.length = p.order) (hr : ∀ row ∈ p.composition, row.length = p.order) (hlt : ∀ h ∈ H, h < p.order)
    (a b : Nat) (ha : a ∈ H) (hb : b ∈ H) (h : p.comp a b ∉ H) :
    Group.init name H.length inverses none subgroup cosets action (some p) = .error .key := by
  have : computeComposition name H.length none (some p.toGroupData) = .error .key := by
    rw [computeComposition_parent name H.length p.toGroupData H hl hc hr hlt]
    obtain ⟨i, hi, rfl⟩ := List.mem_iff_getElem.1 ha
    refine mapM_error .key _ _ (fun r hr' => ?_) ⟨i, List.mem_range.2 hi, ?_⟩
    · rw [getIdx_ok _ (by simpa using hr'), res_bind_ok]
      exact externalToInternal_kinds _ _ _
    · rw [getIdx_ok _ (by simpa using hi), res_bind_ok]
      refine externalToInternal_error _ _ _ (p.comp H[i] b) ?_ (fun hm => h (List.mem_of_mem_take hm))
      rw [List.getElem_map]
      exact List.mem_map.2 ⟨b, hb, rfl⟩
  unfold Group.init initData
  simp only [Option.map, this, res_bind_error]

/-- C75: a wrong order is refused: an order that is too small with KeyError, one that is too large with IndexError. -/
theorem C75_group_wrong_order (name : String) (order : Nat) (inverses : Option (List Nat))
    (subgroup cosets : Option (List (String × List Nat))) (action : Option ActionFn) (p : Group) (H : List Nat)
    (hl : lookup p.subgroup name = .ok H) (hc : p.composition.length = p.order) (hr : ∀ row ∈ p.composition, row.length = p.order)
    (hlt : ∀ h ∈ H, h < p.order) (hnd : H.Nodup) (hid : ∀ c ∈ H, p.comp (nth H 0) c = c)
    (hcl : ∀ a ∈ H, ∀ b ∈ H, p.comp a b ∈ H) :
    (0 < order → order < H.length →
      Group.init name order inverses none subgroup cosets action (some p) = .error .key) ∧
    (H.length < order → Group.init name order inverses none subgroup cosets action (some p) = .error .index) := by
  have red : ∀ e, computeComposition name order none (some p.toGroupData) = .error e →
      Group.init name order inverses none subgroup cosets action (some p) = .error e := by
    intro e h
    unfold Group.init initData
    simp only [Option.map, h, res_bind_error]
  refine ⟨fun h0 h1 => red _ ?_, fun h1 => red _ ?_⟩ <;>
    rw [computeComposition_parent name order p.toGroupData H hl hc hr hlt]
  · refine mapM_error .key _ _ (fun r hr' => ?_) ⟨0, List.mem_range.2 h0, ?_⟩
    · have := List.mem_range.1 hr'
      rw [getIdx_ok _ (by simp; omega), res_bind_ok]
      exact externalToInternal_kinds _ _ _
    · rw [getIdx_ok _ (by simp; omega), res_bind_ok]
      refine externalToInternal_error _ _ _ H[order] ?_ fun hm => ?_
      · rw [List.getElem_map]
        refine List.mem_map.2 ⟨H[order], List.getElem_mem h1, ?_⟩
        have := hid H[order] (List.getElem_mem h1)
        rwa [nth_eq_getElem _ _ (by omega)] at this
      · obtain ⟨i, hi, he⟩ := List.mem_take_iff_getElem.1 hm
        have := (List.Nodup.getElem_inj_iff hnd).1 he
        omega
  · refine mapM_error .index _ _ (fun r _ => ?_) ⟨H.length, List.mem_range.2 h1, ?_⟩
    · by_cases h : r < H.length
      · rw [getIdx_ok _ (by simpa using h), res_bind_ok]
        left
        rw [List.getElem_map]
        refine ⟨(H.map fun c => p.comp H[r] c).map H.idxOf, ?_⟩
        have hz : H.zip (List.range order) = H.zip (List.range H.length) := by
          apply List.ext_getElem
          · simp; omega
          · intro i _ _
            simp
        have := externalToInternal_ok hnd (es := H.map fun c => p.comp H[r] c) (by
          intro e he
          obtain ⟨c, hc', rfl⟩ := List.mem_map.1 he
          exact hcl _ (List.getElem_mem h) _ hc')
        unfold externalToInternal at this ⊢
        rw [hz]
        exact this
      · right
        unfold getIdx
        rw [List.getElem?_eq_none (by simpa using h)]
        rfl
    · unfold getIdx
      rw [List.getElem?_eq_none (by simp)]
      rfl

/-- the rotations by 0 and 90 degrees are not closed, and the hypotheses on the order are met by the half turn -/
example : (∃ G : Group, Group.init "P4'" 4 none (some GroupName.P4.group.composition) (some [("R", [0, 1])]) (some []) none none = .ok G ∧
      lookup G.subgroup "R" = .ok [0, 1] ∧ G.composition.length = G.order ∧ (∀ row ∈ G.composition, row.length = G.order) ∧
      (∀ h ∈ [0, 1], h < G.order) ∧ G.comp 1 1 ∉ [0, 1]) ∧
    lookup GroupName.P4.group.subgroup "P2" = .ok [0, 2] ∧
    (∀ c ∈ [0, 2], GroupName.P4.group.comp (nth [0, 2] 0) c = c) ∧
    ∀ a ∈ [0, 2], ∀ b ∈ [0, 2], GroupName.P4.group.comp a b ∈ [0, 2] :=
  ⟨⟨_, rfl, rfl, rfl, by decide +kernel, by decide +kernel, by decide +kernel⟩, rfl, by decide +kernel, by decide +kernel⟩

/-- C75: a group that was constructed without an action and without a parent cannot act: AttributeError for every signal on
the grid. -/
theorem C75_group_no_action [Zero α] (name : String) (order : Nat) (inverses : Option (List Nat))
    (composition : Option (List (List Nat))) (subgroup cosets : Option (List (String × List Nat))) (G : Group)
    (h : Group.init name order inverses composition subgroup cosets none none = .ok G) (x : Tensor α) (axs : List Int) (a : Int)
    (ga : Option Int) (acting : Option String) : G.action x axs a ga acting none = .error .attribute := by
  unfold Group.init at h
  split at h
  · cases h
  · cases h
    rfl

/-- a cyclic group given by its table, without an action; the same table for a parent of another name; and a table with an
element without inverse -/
example : (∃ G, Group.init "Z" 2 none (some [[0, 1], [1, 0]]) (some [("Z", [0, 1])]) (some [("Z", [0])]) none none = .ok G) ∧
    (∀ e ∈ GroupName.P4.group.subgroup, e.1 ≠ "Z") ∧
    Group.init "Z" 2 none (some [[0, 1], [1, 1]]) none none none none = .error .index :=
  ⟨⟨_, rfl⟩, by decide, C75_group_no_inverse "Z" 2 [[0, 1], [1, 1]] none none none none rfl (by decide) 1 (by decide) (by decide)⟩

/-! ### acting -/

/-- C75, the defaults of `Group.action`: on a signal on the grid, the plane being axes 1 and 2, the transformed signals are put
along a new first axis, one for every element of the group. -/
theorem C75_action_defaults [Zero α] (n : GroupName) (hn : n.dim = 2) (x : Tensor α) (hx : 3 ≤ x.rank)
    (hg : n.Grid [nth x.shape 1, nth x.shape 2]) :
    ∃ y, n.group.action x (domain := none) = .ok y ∧ y.shape = n.group.order :: x.shape ∧
      ∀ g idx jdx, g < n.group.order → Valid x.shape idx → Valid x.shape jdx → MovesTo (n.motion g) [1, 2] x.shape idx jdx →
        y.get (g :: jdx) = x.get idx := by
  obtain ⟨y, hy, hs, h⟩ := (C03_rigid_motion n).2.2.2 α x [1, 2] 0
    ⟨by rw [hn]; rfl, by decide, by intro k hk; simp at hk; omega, fun h => by omega⟩ hg (Nat.zero_le _)
  exact ⟨y, hy, hs, fun g idx jdx hgo hi hj hm => (h g hgo).1 idx jdx hi hj hm⟩

/-- C75: on a signal on the group only the group axis has to be given. -/
theorem C75_action_defaults_group [Zero α] (n : GroupName) (hn : n.dim = 2) (x : Tensor α) (hx : 4 ≤ x.rank)
    (hg : n.Grid [nth x.shape 1, nth x.shape 2]) (hsz : nth x.shape 3 = n.group.order) :
    ∃ y, n.group.action x (groupAxis := some 3) = .ok y ∧ y.shape = n.group.order :: x.shape ∧
      ∀ g idx jdx, g < n.group.order → Valid x.shape idx → Valid x.shape jdx → MovesTo (n.motion g) [1, 2] x.shape idx jdx →
        y.get (g :: jdx) = x.get (idx.set 3 (n.group.comp (nth n.group.inverses g) (nth jdx 3))) := by
  obtain ⟨y, hy, hs, h⟩ := C05_regular_representation n x [1, 2] 0 3
    ⟨by rw [hn]; rfl, by decide, by intro k hk; simp at hk; omega, fun h => by omega⟩ hg (Nat.zero_le _) (by omega) (by decide) hsz
  exact ⟨y, hy, hs, h⟩

/-- C75: an acting group that is not a subgroup, or is left open, is a KeyError, for signals on the grid and on the group. -/
theorem C75_action_unknown_acting [Zero α] (n : GroupName) (x : Tensor α) (axs : List Nat) (a : Nat) (ga : Option Int)
    (hax : AxesOk n.dim x.rank axs) (hgrid : n.Grid (axs.map (nth x.shape))) (ha : a ≤ x.rank) (acting : Option String)
    (h0 : acting ≠ some "") (hu : ∀ s, acting = some s → ∀ e ∈ n.group.subgroup, e.1 ≠ s) (domain : String) :
    n.group.action x (axs.map Int.ofNat) a none acting none = .error .key ∧
    n.group.action x (axs.map Int.ofNat) a ga acting (some domain) = .error .key := by
  have hsub : n.group.sub (n.group.parseSubgroup acting) = .error .key := by
    cases acting with
    | none => rfl
    | some s =>
      have hp : n.group.parseSubgroup (some s) = some s := by
        unfold GroupData.parseSubgroup
        split <;> simp_all
      rw [hp]
      show lookup _ _ = _
      unfold lookup
      rw [List.find?_eq_none.2 fun e he => by simpa using hu s rfl e he]
  obtain ⟨y, hy, -⟩ := n.sym.action_grid_all x hax hgrid ha
  have hact : ∃ z, n.group.act α x (axs.map Int.ofNat) a = .ok z := by
    unfold Group.action Group.actionOnGrid at hy
    simp only [GroupData.parseSubgroup] at hy
    obtain ⟨z, hz, -⟩ := bind_eq_ok hy
    exact ⟨z, hz⟩
  obtain ⟨z, hz⟩ := hact
  constructor
  · have : n.group.parseSubgroup none = none := rfl
    unfold Group.action
    simp only [this, Group.actionOnGrid, hz, res_bind_ok, hsub, res_bind_error]
  · have hd : ∃ d', n.group.parseSubgroup (some domain) = some d' ∧ d' ≠ "" := by
      unfold GroupData.parseSubgroup
      split
      · exact absurd ‹_› (by simp)
      · exact ⟨_, rfl, by cases n <;> decide⟩
      · rename_i s hs hd
        cases hd
        exact ⟨_, rfl, fun e => hs (by rw [e])⟩
    obtain ⟨d', hd, hne⟩ := hd
    unfold Group.action
    simp only [hd]
    cases ga <;> simp only [Group.actionOnGroup, hsub, res_bind_error]

/-- C75: a domain that is not a subgroup is a KeyError, whatever the signal. -/
theorem C75_action_unknown_domain [Zero α] (n : GroupName) (x : Tensor α) (axs : List Int) (a : Int) (ga : Option Int) (acting : Option String)
    (A : List Nat) (hA : n.group.sub (n.group.parseSubgroup acting) = .ok A) (domain : String) (h0 : domain ≠ "")
    (hu : ∀ e ∈ n.group.subgroup, e.1 ≠ domain) :
    n.group.action x axs a ga acting (some domain) = .error .key := by
  have hp : n.group.parseSubgroup (some domain) = some domain := by
    unfold GroupData.parseSubgroup
    split <;> simp_all
  have hsub : n.group.sub (some domain) = .error .key := by
    show lookup _ _ = _
    unfold lookup
    rw [List.find?_eq_none.2 fun e he => by simpa using hu e he]
  unfold Group.action
  simp only [hp]
  cases ga <;> simp only [Group.actionOnGroup, hA, res_bind_ok, hsub, res_bind_error]

example : GroupName.P4.Grid [nth [2, 3, 3, 4, 1] 1, nth [2, 3, 3, 4, 1] 2] ∧ nth [2, 3, 3, 4, 1] 3 = GroupName.P4.group.order ∧
    (∀ e ∈ GroupName.P4.group.subgroup, e.1 ≠ "P4M") ∧
    GroupName.P4.group.sub (GroupName.P4.group.parseSubgroup (some "P2")) = .ok [0, 2] := ⟨⟨rfl, rfl⟩, rfl, by decide, rfl⟩

/-! ### calling -/

/-- C75: a built convolution or transposed convolution called on a tensor with too few axes, or with another number of channels
than it was built for, raises ValueError, and its attributes are unchanged. -/
theorem C75_call_refused [Semiring α] {a : ConvArgs α} {tr : Bool} {bt : Option Nat} {n : List Nat} {g : Option Nat} {C : Nat}
    {k0 b0 : List Nat → α} {H : List Nat} {l : GroupConv α} (hl : BuiltConv a tr bt n g C k0 b0 H l) (x : Tensor α)
    (hx : x.rank < a.group.dim + 2 ∨ (a.dataFormat = .channelsLast ∧ x.shape.getLast? ≠ some C) ∨
      (a.dataFormat = .channelsFirst ∧ x.shape[1]? ≠ some C)) :
    l.call x = (l, .error .value) := by
  have key : l.inputSpec = some (a.group.dim + 2, some C) ∧ l.dataFormat = a.dataFormat := by
    cases hf : a.dataFormat with
    | channelsLast =>
      obtain ⟨opt, kp, -, -, f, -⟩ := hl.facts_last hf
      exact ⟨f.spec, f.fmt.trans hf⟩
    | channelsFirst =>
      obtain ⟨opt, kp, -, -, f, -⟩ := hl.facts_first hf
      exact ⟨f.spec, f.fmt.trans hf⟩
  have hc : l.checkInput x = .error .value := by
    unfold GroupConv.checkInput
    rw [key.1, key.2]
    by_cases hr : x.rank < a.group.dim + 2
    · simp only [if_pos hr]
    · simp only [if_neg hr]
      rw [if_neg]
      rcases hx with hx | ⟨hf, hx⟩ | ⟨hf, hx⟩
      · exact absurd hx hr
      · rw [hf]
        intro h
        apply hx
        have h1 : x.rank - 1 < x.shape.length := by show x.shape.length - 1 < _; unfold Tensor.rank at hr; omega
        rw [List.getLast?_eq_getElem?, List.getElem?_eq_getElem (by exact h1)]
        rw [show channelAxis .channelsLast x.rank = x.rank - 1 from rfl, nth_eq_getElem _ _ h1] at h
        exact congrArg some h
      · rw [hf]
        intro h
        apply hx
        have h1 : 1 < x.shape.length := by unfold Tensor.rank at hr; omega
        rw [List.getElem?_eq_getElem h1]
        rw [show channelAxis .channelsFirst x.rank = 1 from rfl, nth_eq_getElem _ _ h1] at h
        exact congrArg some h
  unfold GroupConv.call
  simp only [hc]

/-- a layer on P4, called with two instead of three channels -/
example : ∃ l, BuiltConv p4Args false none [5, 5] none 3 (fun _ => 1) (fun _ => 0) [0, 1, 2, 3] l ∧
    [1, 5, 5, 2].getLast? ≠ some 3 := ⟨_, ⟨⟨_, rfl, rfl⟩, rfl, rfl⟩, by decide⟩

/-! ### merging and splitting axes -/

theorem pyIndex_out {r : Nat} {ax : Int} (h : ∀ k, ¬ IsAxis r ax k) : pyIndex r ax = .error .index := by
  unfold pyIndex
  split_ifs with h1 h2
  · exact absurd ⟨by omega, .inl (by omega)⟩ (h ax.toNat)
  · exact absurd ⟨by omega, .inr (by omega)⟩ (h (ax + r).toNat)
  · rfl

theorem pyIndex_in {r : Nat} {ax : Int} {k : Nat} (h : IsAxis r ax k) : pyIndex r ax = .ok k := by
  obtain ⟨h1, h2⟩ := h
  unfold pyIndex
  rcases h2 with h | h
  · rw [if_pos (by omega), h]; rfl
  · rw [if_neg (by omega), if_pos (by omega)]
    congr 1
    omega

/-- C75, `split_axes`: an axis that does not exist is an IndexError, otherwise a factor zero is a ZeroDivisionError, otherwise a
factor that does not divide the size is a ValueError. -/
theorem C75_split (x : Tensor α) (ax : Int) (f : Nat) :
    ((∀ k, ¬ IsAxis x.rank ax k) → splitAxes x f ax = .error .index) ∧
    (∀ k, IsAxis x.rank ax k → splitAxes x 0 ax = .error .zeroDiv) ∧
    (∀ k, IsAxis x.rank ax k → 0 < f → ¬ f ∣ nth x.shape k → 0 ∉ x.shape → splitAxes x f ax = .error .value) := by
  have hlen : (x.shape.map some).length = x.rank := by simp [Tensor.rank]
  have hget : ∀ k, k < x.rank → (x.shape.map some)[k]? = some (some (nth x.shape k)) := by
    intro k hk
    have hk' : k < x.shape.length := hk
    rw [List.getElem?_map, List.getElem?_eq_getElem hk', nth_eq_getElem _ _ hk']
    rfl
  refine ⟨fun h => ?_, fun k h => ?_, fun k h h0 hd hz => ?_⟩
  · unfold splitAxes splitAxesS splitShapes
    rw [hlen, pyIndex_out h]; rfl
  · unfold splitAxes splitAxesS splitShapes
    rw [hlen, pyIndex_in h, res_bind_ok, hget k h.1]; rfl
  · have hk : k < x.shape.length := h.1
    have hslice : ∀ l : List (Option Nat), l.length = x.rank → sliceTo l ax = l.take k ∧ sliceFrom l ax = l.drop k := by
      intro l hl
      have : (if ax < 0 then ((l.length : Int) + ax).toNat else ax.toNat) = k := by
        obtain ⟨h1, h2⟩ := h
        split_ifs <;> omega
      unfold sliceTo sliceFrom
      rw [this]
      exact ⟨rfl, rfl⟩
    have hs : splitShapes (x.shape.map some) f ax =
        .ok ((x.shape.take k ++ f :: nth x.shape k / f :: x.shape.drop (k + 1)).map some) := by
      unfold splitShapes
      rw [hlen, pyIndex_in h, res_bind_ok, hget k h.1]
      simp only [if_neg (show ¬ f = 0 by omega), res_pure]
      obtain ⟨e1, e2⟩ := hslice ((x.shape.map some).set k (some (nth x.shape k / f))) (by simp [Tensor.rank])
      rw [e1, e2, List.set_eq_take_append_cons_drop, if_pos (by simpa using hk)]
      have hl : (List.take k (x.shape.map some)).length = k := by simp; omega
      rw [List.take_left' hl, List.drop_left' hl]
      simp [List.map_take, List.map_drop]
    unfold splitAxes splitAxesS
    rw [hs, res_bind_ok]
    set l := x.shape.take k ++ f :: nth x.shape k / f :: x.shape.drop (k + 1) with hldef
    have hfmt : formatBatchDim (l.map some) = l.map Int.ofNat := by
      unfold formatBatchDim
      rw [List.map_map]
      rfl
    have hres : resolveShape (prod x.shape) (l.map Int.ofNat) = .ok l := by
      unfold resolveShape
      rw [if_pos]
      · rw [List.map_map]
        exact congrArg _ (List.map_id l)
      · simp
    unfold reshape
    rw [hfmt, hres, res_bind_ok]
    unfold reshapeN
    rw [if_neg]
    intro he
    have hx : x.shape = x.shape.take k ++ nth x.shape k :: x.shape.drop (k + 1) := by
      rw [nth_eq_getElem _ _ hk, List.getElem_cons_drop, List.take_append_drop]
    have hP : prod (x.shape.take k) ≠ 0 := prod_ne_zero.2 fun h => hz (List.mem_of_mem_take h)
    have hR : prod (x.shape.drop (k + 1)) ≠ 0 := prod_ne_zero.2 fun h => hz (List.mem_of_mem_drop h)
    rw [hldef, prod_append] at he
    conv_lhs at he => rw [hx, prod_append]
    simp only [prod_cons] at he
    have := Nat.eq_of_mul_eq_mul_left (Nat.pos_of_ne_zero hP) he
    rw [← mul_assoc] at this
    have := Nat.eq_of_mul_eq_mul_right (Nat.pos_of_ne_zero hR) this
    exact hd ⟨_, this⟩

/-- C75, `merge_axes`: an axis that does not exist is an IndexError. -/
theorem C75_merge (x : Tensor α) (am at' : Int) (h : (∀ k, ¬ IsAxis x.rank am k) ∨ ∀ k, ¬ IsAxis x.rank at' k) :
    mergeAxes x am at' = .error .index := by
  have hlen : (x.shape.map some).length = x.rank := by simp [Tensor.rank]
  unfold mergeAxes mergeAxesS mergeShapes
  rw [hlen]
  rcases h with h | h
  · rw [pyIndex_out h]; rfl
  · by_cases hm : ∃ k, IsAxis x.rank am k
    · obtain ⟨k, hk⟩ := hm
      rw [pyIndex_in hk, res_bind_ok, pyIndex_out h]; rfl
    · rw [pyIndex_out fun k hk => hm ⟨k, hk⟩]; rfl

/-- axes of a tensor with two axes, one of size six, which is not divisible by four -/
example : IsAxis 2 (-1) 1 ∧ (∀ k, ¬ IsAxis 2 2 k) ∧ (∀ k, ¬ IsAxis 2 (-3) k) ∧ ¬ 4 ∣ nth [2, 6] 1 ∧ 0 ∉ [2, 6] := by
  refine ⟨⟨by omega, .inr (by omega)⟩, ?_, ?_, by decide, by decide⟩ <;>
  · rintro k ⟨h1, h2⟩
    omega

/-! ### check_equivariance -/

/-- C75: check_equivariance on a layer whose result is empty is a ValueError. -/
theorem C75_check_empty [Field α] [LinearOrder α] (n : GroupName) (fmt : DataFormat)
    {f : Tensor α → Res (Tensor α)} (B : Nat) (m : List Nat) (g : Option Nat) (C : Nat) (x y : Tensor α)
    (hf : Batchwise f (sigShape fmt B m g C).tail) (hx : x.shape = sigShape fmt B m g C) (hm : n.Grid m)
    (hy : f x = .ok y) (m' : List Nat) (g' : Option Nat) (C' : Nat) (hys : y.shape = sigShape fmt B m' g' C') (hm' : n.Grid m')
    (h0 : 0 ∈ y.shape) (acting domain target : Option String) (A : List Nat)
    (hA : n.group.sub (n.group.parseSubgroup acting) = .ok A) (hD : SignalOn n.group g domain)
    (hT : SignalOn n.group g' target) :
    checkEquivariance f x n.group (spatialAxes fmt n.dim) (some (groupAxis fmt n.dim)) acting domain target = .error .value := by
  obtain ⟨gx, ex, hgx⟩ := act_shape n fmt x hx hm hA hD
  obtain ⟨gy, ey, hgy⟩ := act_shape n fmt y hys hm' hA hT
  have hxB : x.shape = B :: (sigShape fmt B m g C).tail := by rw [hx]; cases fmt <;> rfl
  obtain ⟨w, ew, hw, -⟩ := batched_ok hf hxB hy (by rw [hgx, hxB])
  obtain ⟨d, ed, hds, -⟩ := subT_ok (x := w) (y := gy) (by rw [hw, hgy])
  have hd := checkShape_sig n fmt x hx (n.sym.okLen m hm) hD
  have ht := checkShape_sig n fmt y hys (n.sym.okLen m' hm') hT
  have he : maxAbs d = .error .value := by
    unfold maxAbs
    rw [if_pos]
    by_contra h
    refine prod_ne_zero.1 h ?_
    rw [hds, hw]
    exact List.mem_cons_of_mem _ h0
  unfold checkEquivariance
  simp only [hd, ht, hy, res_bind_ok, action_parse, ex, ey, ew, ed, he]

theorem broadcast_error {s t : List Nat} (i : Nat) (hs : i < s.length) (ht : i < t.length) (h : nth s i ≠ nth t i)
    (h1 : nth s i ≠ 1) (h2 : nth t i ≠ 1) : broadcastRev s t = .error .value := by
  induction s generalizing t i with
  | nil => simp at hs
  | cons a s ih =>
    cases t with
    | nil => simp at ht
    | cons b t =>
      unfold broadcastRev
      cases i with
      | zero =>
        simp only [nth_cons_zero] at h h1 h2
        rw [if_neg (by simp [h, h1, h2])]
      | succ i =>
        simp only [nth_cons_succ] at h h1 h2
        have := ih (t := t) i (by simpa using hs) (by simpa using ht) h h1 h2
        split_ifs <;> first | rfl | (rw [this]; rfl)

/-- C75: check_equivariance on a layer whose result on the transformed signals has another size, along some axis `i` other than
the batch axis, than its result on the signal is a ValueError, unless one of the two sizes is one. -/
theorem C75_check_sizes [Field α] [LinearOrder α] (n : GroupName) (fmt : DataFormat)
    {f : Tensor α → Res (Tensor α)} (B : Nat) (m : List Nat) (g : Option Nat) (C : Nat) (x y : Tensor α)
    (hx : x.shape = sigShape fmt B m g C) (hm : n.Grid m)
    (hy : f x = .ok y) (m' : List Nat) (g' : Option Nat) (C' : Nat) (hys : y.shape = sigShape fmt B m' g' C') (hm' : n.Grid m')
    (acting domain target : Option String) (A : List Nat)
    (hA : n.group.sub (n.group.parseSubgroup acting) = .ok A) (hD : SignalOn n.group g domain)
    (hT : SignalOn n.group g' target)
    (hother : ∀ u : Tensor α, u.shape = A.length * B :: x.shape.tail → ∃ v i, f u = .ok v ∧
      v.rank = y.rank ∧ nth v.shape 0 = A.length * B ∧ 0 < i ∧ i < y.rank ∧ nth v.shape i ≠ nth y.shape i ∧ nth v.shape i ≠ 1 ∧
      nth y.shape i ≠ 1) :
    checkEquivariance f x n.group (spatialAxes fmt n.dim) (some (groupAxis fmt n.dim)) acting domain target = .error .value := by
  obtain ⟨gx, ex, hgx⟩ := act_shape n fmt x hx hm hA hD
  obtain ⟨gy, ey, hgy⟩ := act_shape n fmt y hys hm' hA hT
  have hxB : x.shape = B :: x.shape.tail := by rw [hx]; cases fmt <;> rfl
  have hyB : ∃ t, y.shape = B :: t := by rw [hys]; cases fmt <;> exact ⟨_, rfl⟩
  obtain ⟨t, hyB⟩ := hyB
  have hd := checkShape_sig n fmt x hx (n.sym.okLen m hm) hD
  have ht := checkShape_sig n fmt y hys (n.sym.okLen m' hm') hT
  have e1 : reshapeN gx (A.length * B :: x.shape.tail) = .ok ⟨A.length * B :: x.shape.tail,
      fun idx => gx.get (unravel gx.shape (ravel (A.length * B :: x.shape.tail) idx))⟩ := by
    unfold reshapeN
    rw [if_pos]
    rw [hgx]
    conv_lhs => rw [hxB]
    simp only [prod_cons, mul_assoc]
  obtain ⟨v, i, ev, hr, hv0, hi0, hi, hne, h1, h2⟩ := hother ⟨A.length * B :: x.shape.tail,
    fun idx => gx.get (unravel gx.shape (ravel (A.length * B :: x.shape.tail) idx))⟩ rfl
  have hgx' : gx.shape = A.length :: B :: x.shape.tail := by rw [hgx, ← hxB]
  obtain ⟨v0, vt, hvs⟩ : ∃ v0 vt, v.shape = v0 :: vt := by
    cases hv : v.shape with
    | nil =>
      have : v.rank = 0 := by simp [Tensor.rank, hv]
      omega
    | cons a b => exact ⟨a, b, rfl⟩
  have hv0' : v0 = A.length * B := by rw [hvs] at hv0; exact hv0
  have e2 : ∃ w, reshapeN v (A.length :: B :: v.shape.drop 1) = .ok w ∧ w.shape = A.length :: B :: vt := by
    refine ⟨_, by unfold reshapeN; rw [if_pos]; rw [hvs, hv0']; simp [mul_assoc], by rw [hvs]; rfl⟩
  obtain ⟨w, ew, hws⟩ := e2
  have eb : actOnBatchedTransform f gx = .ok w := by
    unfold actOnBatchedTransform
    rw [hgx']
    simp only [e1, res_bind_ok, ev]
    exact ew
  have es : subT w gy = .error .value := by
    unfold subT
    have hl : vt.length = t.length := by
      have := hr
      unfold Tensor.rank at this
      rw [hvs, hyB] at this
      simpa using this
    obtain ⟨j, rfl⟩ : ∃ j, i = j + 1 := ⟨i - 1, by omega⟩
    have hj : j < t.length := by
      unfold Tensor.rank at hi
      rw [hyB] at hi
      simpa using hi
    have hrev : ∀ l : List Nat, l.length = t.length → nth (A.length :: B :: l).reverse (t.length - 1 - j) = nth l j := by
      intro l hl
      simp only [List.reverse_cons, List.append_assoc]
      rw [nth_append, if_pos (by simp; omega)]
      unfold nth
      rw [List.getD_eq_getElem?_getD, List.getD_eq_getElem?_getD, List.getElem?_reverse (by omega)]
      congr 2
      omega
    rw [hws, hgy, hyB, broadcast_error (t.length - 1 - j)]
    · rfl
    · simp; omega
    · simp; omega
    · rw [hrev _ hl, hrev _ rfl]
      rw [hvs, hyB] at hne
      simpa using hne
    · rw [hrev _ hl]
      rw [hvs] at h1
      simpa using h1
    · rw [hrev _ rfl]
      rw [hyB] at h2
      simpa using h2
  unfold checkEquivariance
  simp only [hd, ht, hy, res_bind_ok, action_parse, ex, ey, eb, es, res_bind_error]

/-- hypotheses are met by a layer that keeps nothing of a signal, and by one whose number of channels depends on the size of the
batch -/
example : Batchwise (α := ℚ) (fun x => .ok ⟨[nth x.shape 0, 3, 3, 0], fun _ => 0⟩) (sigShape .channelsLast 2 [3, 3] none 1).tail ∧
    0 ∈ sigShape .channelsLast 2 [3, 3] none 0 ∧ SignalOn GroupName.P4.group none none ∧ GroupName.P4.Grid [3, 3] ∧
    ∀ u : Tensor ℚ, u.shape = 4 * 2 :: [3, 3, 1] → ∃ v i,
      (fun x : Tensor ℚ => (.ok ⟨[nth x.shape 0, 3, 3, nth x.shape 0], fun _ => 0⟩ : Res (Tensor ℚ))) u = .ok v ∧
      v.rank = 4 ∧ nth v.shape 0 = 4 * 2 ∧ 0 < i ∧ i < 4 ∧ nth v.shape i ≠ nth [2, 3, 3, 2] i ∧ nth v.shape i ≠ 1 ∧
      nth [2, 3, 3, 2] i ≠ 1 := by
  refine ⟨?_, by decide, rfl, ⟨rfl, rfl⟩, fun u hu => ?_⟩
  · intro x x' y B B' hx hx' hy
    cases hy
    refine ⟨_, [3, 3, 0], rfl, ?_, ?_, fun _ _ _ _ _ _ _ => rfl⟩
    · show [nth x.shape 0, 3, 3, 0] = _
      rw [hx]; rfl
    · show [nth x'.shape 0, 3, 3, 0] = _
      rw [hx']; rfl
  · have h8 : nth u.shape 0 = 8 := by rw [hu]; rfl
    refine ⟨_, 3, rfl, rfl, h8, by decide, by decide, ?_, ?_, by decide⟩
    · show nth u.shape 0 ≠ 2
      omega
    · show nth u.shape 0 ≠ 1
      omega

example : checkEquivariance (fun x => .ok ⟨[nth x.shape 0, 3, 3, 0], fun _ => 0⟩) (⟨[2, 3, 3, 1], fun _ => 1⟩ : Tensor ℚ)
      GroupName.P4.group [1, 2] (some 3) (some "") none none = .error .value ∧
    checkEquivariance (fun x => .ok ⟨[nth x.shape 0, 3, 3, nth x.shape 0], fun _ => 0⟩) (⟨[2, 3, 3, 1], fun _ => 1⟩ : Tensor ℚ)
      GroupName.P4.group [1, 2] (some 3) (some "") none none = .error .value := by decide +kernel

end GroCo
