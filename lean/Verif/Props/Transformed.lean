import Verif.Props.Training
import Verif.Props.FirstStack

/-
Property C83: layers with transformed weights.
-/

namespace GroCo
open Tensor

variable {α : Type}

/-- the stored kernel of a GroupConv layer; for layers on group-valued signals the axis of channels is split into group elements and
channels, as in `ops.reshape(kernel, kernel_size + (group.order, channels, filters))` -/
def kernelSignal (K : List Nat) (g : Option Nat) (C F : Nat) (k : List Nat → α) : Tensor α :=
  match g with
  | none => ⟨K ++ [C, F], k⟩
  | some g' => ⟨K ++ [g', C, F], fun idx => k (idx.take K.length ++
      [nth idx K.length * C + nth idx (K.length + 1), nth idx (K.length + 2)])⟩

/-- The kernel `k1` is the kernel `k0` transformed with element `e` by the method `action` of the group. -/
def TransformedKernel [Zero α] (n : GroupName) (K : List Nat) (g : Option Nat) (C F e : Nat) (k0 k1 : List Nat → α) : Prop :=
  ∃ y, n.group.action (kernelSignal K g C F k0) ((List.range n.dim).map Int.ofNat) 0 (g.map fun _ => (n.dim : Int)) (some "")
      (g.map fun _ => "") = .ok y ∧
    (kernelSignal K g C F k1).Same (slice y 0 e)

theorem transformed_entry [Zero α] {n : GroupName} {K : List Nat} (hK : n.Grid K) {g : Option Nat}
    (hg : ∀ g', g = some g' → g' = n.group.order) {C F e : Nat} (he : e < n.group.order) {k0 k1 : List Nat → α}
    (h : TransformedKernel n K g C F e k0 k1) {k : List Nat} (hk : Valid K k) {c o : Nat} (hc : c < chanO g C) (ho : o < F) :
    k1 (k ++ [c, o]) = k0 (back n.els K e k ++ [turnChan n.group.toGroupData (List.range n.group.order) g C e c, o]) := by
  have S := n.sym
  have hl : K.length = n.dim := S.okLen K hK
  have hkl : k.length = K.length := hk.length
  obtain ⟨y, hy, hs⟩ := h
  have hpar : n.group.parseSubgroup (some "") = some n.group.name := rfl
  have hax : (List.range n.dim).map Int.ofNat = (spAxes ([] : List Nat).length n.dim).map Int.ofNat := by
    rw [List.range_eq_range']; rfl
  rw [parse_acting S hpar S.tab.own, hax] at hy
  cases g with
  | none =>
    obtain ⟨z, hz, -, hzg⟩ := S.act_grid_sig (kernelSignal K none C F k0) (P := []) (m := K) (R := [C, F]) rfl hK S.tab.own
    cases (show Except.ok z = Except.ok y from hz.symm.trans hy)
    have hc' : c < C := hc
    have h1 := hs.2 (k ++ [c, o]) (valid_two.2 ⟨hk, hc', ho⟩)
    have h2 := hzg e [] k [c, o] (by rw [List.length_range]; exact he) trivial hk ⟨hc', ho, trivial⟩
    rw [nth_range, if_pos he] at h2
    exact h1.trans h2
  | some g' =>
    have := hg g' rfl
    subst this
    rw [show (Option.map (fun _ => "") (some n.group.order)) = some "" from rfl, parse_domain S hpar S.tab.own] at hy
    obtain ⟨h1, h2, h3⟩ := split_lt (m := n.group.order) (n := C) hc
    obtain ⟨z, hz, -, hzg⟩ := S.act_group_sig (kernelSignal K (some n.group.order) C F k0) (P := []) (m := K) (R := [C, F]) S.tab.own
      S.tab.own (fun _ h => h) (by rw [List.length_range]; rfl) hK
    have hga : (([] : List Nat).length + n.dim : Nat) = n.dim := by simp
    rw [hga] at hz
    cases (show Except.ok z = Except.ok y from hz.symm.trans hy)
    have q1 := hs.2 (k ++ [c / C, c % C, o]) ((valid_append _ _ _ _ hkl).2 ⟨hk, h1, h2, ho, trivial⟩)
    have q2 := hzg e [] k (c / C) [c % C, o] (by rw [List.length_range]; exact he) trivial hk (by rw [List.length_range]; exact h1)
      ⟨h2, ho, trivial⟩
    rw [nth_range, if_pos he] at q2
    have hbl : (back n.els K e k).length = K.length := (S.valid_back hK he hk).length
    have q3 := q1.trans q2
    have ent : ∀ (f : List Nat → α) (u : List Nat) (j : Nat), u.length = K.length →
        (kernelSignal K (some n.group.order) C F f).get (u ++ [j, c % C, o]) = f (u ++ [j * C + c % C, o]) := by
      intro f u j hu
      simp only [kernelSignal]
      rw [← hu, List.take_left']
      · simp [nth, List.getD_eq_getElem?_getD]
      · rfl
    rw [ent k1 k _ hkl, ← h3] at q3
    rw [q3]
    exact ent k0 _ _ hbl

/-- C83: if the stored kernel of a built GroupConv layer is replaced by the kernel transformed with element `e` of its subgroup `H`, with
the bias left as it is, the layer accepts the same inputs, and its output at element `H[i]` is what was its output at element `H[i] e`. -/
theorem C83_transformed_weights [Semiring α] {a : ConvArgs α} {bt : Option Nat} {n : List Nat} {g : Option Nat} {C : Nat}
    {k0 k1 b0 : List Nat → α} {H : List Nat} {l : GroupConv α} (hl : BuiltConv a false bt n g C k0 b0 H l)
    (hf : a.dataFormat = .channelsLast) (e : Nat) (he : e ∈ H) (hk : TransformedKernel a.group a.kernelSize g C a.filters e k0 k1)
    (x : Tensor α) (B : Nat) (m : List Nat) (hm : m.length = a.group.dim) (hx : x.shape = sigShape .channelsLast B m g C) :
    ((∃ y, (l.call x).2 = .ok y) ↔ ∃ z, ((l.assign k1 b0).call x).2 = .ok z) ∧
    ∀ y z, (l.call x).2 = .ok y → ((l.assign k1 b0).call x).2 = .ok z → z.shape = y.shape ∧
      ∀ b p i o, Valid y.shape (b :: p ++ [i, o]) → ∃ i', i' < H.length ∧ nth H i' = a.group.group.comp (nth H i) e ∧
        z.get (b :: p ++ [i, o]) = y.get (b :: p ++ [i', o]) := by
  have S := a.group.sym
  have hl' : BuiltConv a false bt n g C k1 b0 H (l.assign k1 b0) := C53_assign hl
  obtain ⟨opt, kp, e1, e2, f, hst⟩ := hl.facts_last hf
  obtain ⟨opt', kp', e1', e2', f', hst'⟩ := hl'.facts_last hf
  rw [e1] at e1'
  cases e1'
  rw [e2] at e2'
  cases e2'
  have hpad : (l.assign k1 b0).transforms.padState = l.transforms.padState := by
    rw [hst] at hst'
    exact (Except.ok.inj hst').symm
  obtain ⟨sH, hH⟩ := f.subA
  have hH : lookup a.group.group.subgroup sH = .ok H := hH
  have hsub := S.tab.subs _ (lookup_mem hH)
  have hglen : ∀ g', g = some g' → g' = a.group.group.order := fun g' hg' => by
    have := f.size g' hg'
    rwa [show domainOf a.group false H = List.range a.group.group.order from rfl, List.length_range] at this
  have hgr : ∀ g', g = some g' → g' = (List.range a.group.group.order).length := fun g' hg' => by
    rw [List.length_range]; exact hglen g' hg'
  obtain ⟨c1, d1⟩ := conv_call_last f hf hx hm
  obtain ⟨c2, d2⟩ := conv_call_last f' hf hx hm
  rw [hpad] at c2 d2
  refine ⟨⟨?_, ?_⟩, ?_⟩
  · rintro ⟨y, hy⟩
    obtain ⟨z, hz, -⟩ := d2 (c1 y hy)
    exact ⟨z, by rw [hz]⟩
  · rintro ⟨y, hy⟩
    obtain ⟨z, hz, -⟩ := d1 (c2 y hy)
    exact ⟨z, by rw [hz]⟩
  · intro y z hy hz
    obtain ⟨z₁, hz₁, hs₁, hg₁⟩ := d1 (c1 y hy)
    obtain ⟨z₂, hz₂, hs₂, hg₂⟩ := d2 (c2 z hz)
    rw [hz₁] at hy
    rw [hz₂] at hz
    cases hy
    cases hz
    refine ⟨hs₂.trans hs₁.symm, ?_⟩
    intro b p i o hv
    rw [hs₁] at hv
    have hpl := hv.length
    simp only [List.length_append, List.length_cons, List.length_nil] at hpl
    obtain ⟨⟨hb, hp⟩, hi, ho, _⟩ := (valid_append _ _ (b :: p) [i, o] (by simp only [List.length_cons]; omega)).1 hv
    have hi : i < H.length := hi
    have hmem : a.group.group.comp (nth H i) e ∈ H := hsub.2.2.2.2.1 _ (nth_mem _ _ hi) _ he
    have hlt : H.idxOf (a.group.group.comp (nth H i) e) < H.length := List.idxOf_lt_length_iff.2 hmem
    refine ⟨H.idxOf (a.group.group.comp (nth H i) e), hlt, nth_idxOf hmem, ?_⟩
    rw [hg₁ b p _ o hb hp hlt ho, hg₂ b p i o hb hp hi ho]
    refine congrArg a.activation (congrArg (· + _) ?_)
    apply sum_congr
    intro k hk'
    rw [mem_indices] at hk'
    apply sum_congr
    intro c hc
    rw [List.mem_range] at hc
    refine congrArg (HMul.hMul _) ?_
    have hnH : nth H i < a.group.group.order := S.sub_nth_lt hH hi
    have heo : e < a.group.group.order := S.sub_lt hH he
    rw [show domainOf a.group false H = List.range a.group.group.order from rfl,
      show nth (actingOf a.group false H) (H.idxOf (a.group.group.comp (nth H i) e)) = a.group.group.comp (nth H i) e from nth_idxOf hmem,
      weight_covariant S.tab.own hgr f.grid (List.mem_range.2 hnH) heo hk' hc]
    have hkb := S.valid_back f.grid hnH hk'
    have hct := S.turnChan_lt S.tab.own hgr (List.mem_range.2 hnH) hc
    rw [weight_false hglen f.grid heo hkb hct ho, ← transformed_entry f.grid hglen heo hk hkb hct ho]
    exact weight_false hglen f.grid hnH hk' hc ho

/-- C83: every kernel of a layer can be transformed with every element of the group. -/
theorem C83_transformable [Zero α] {a : ConvArgs α} {bt : Option Nat} {n : List Nat} {g : Option Nat} {C : Nat}
    {k0 b0 : List Nat → α} {H : List Nat} {l : GroupConv α} (hl : BuiltConv a false bt n g C k0 b0 H l)
    (hf : a.dataFormat = .channelsLast) (e : Nat) (he : e < a.group.group.order) :
    ∃ k1, TransformedKernel a.group a.kernelSize g C a.filters e k0 k1 := by
  have S := a.group.sym
  obtain ⟨opt, kp, e1, e2, f, hst⟩ := hl.facts_last hf
  have hl : a.kernelSize.length = a.group.dim := f.kernelLen
  have hpar : a.group.group.parseSubgroup (some "") = some a.group.group.name := rfl
  have hax : (List.range a.group.dim).map Int.ofNat = (spAxes ([] : List Nat).length a.group.dim).map Int.ofNat := by
    rw [List.range_eq_range']; rfl
  unfold TransformedKernel
  rw [parse_acting S hpar S.tab.own, hax]
  cases g with
  | none =>
    obtain ⟨y, hy, hs, -⟩ := S.act_grid_sig (kernelSignal a.kernelSize none C a.filters k0) (P := []) (m := a.kernelSize)
      (R := [C, a.filters]) rfl f.grid S.tab.own
    exact ⟨(slice y 0 e).get, y, hy, by simp [slice, hs, kernelSignal], fun idx _ => rfl⟩
  | some g' =>
    have := f.size g' rfl
    rw [show domainOf a.group false H = List.range a.group.group.order from rfl, List.length_range] at this
    subst this
    rw [show (Option.map (fun _ => "") (some a.group.group.order)) = some "" from rfl, parse_domain S hpar S.tab.own]
    obtain ⟨y, hy, hs, -⟩ := S.act_group_sig (kernelSignal a.kernelSize (some a.group.group.order) C a.filters k0) (P := [])
      (m := a.kernelSize) (R := [C, a.filters]) S.tab.own S.tab.own (fun _ h => h) (by rw [List.length_range]; rfl) f.grid
    rw [show (([] : List Nat).length + a.group.dim : Nat) = a.group.dim by simp] at hy
    refine ⟨fun idx => (slice y 0 e).get (idx.take a.kernelSize.length ++ [nth idx a.kernelSize.length / C,
      nth idx a.kernelSize.length % C, nth idx (a.kernelSize.length + 1)]), y, hy, by simp [slice, hs, kernelSignal], ?_⟩
    intro idx hv
    have hv : Valid (a.kernelSize ++ [a.group.group.order, C, a.filters]) idx := hv
    have hlen := hv.length
    simp only [List.length_append, List.length_cons, List.length_nil] at hlen
    obtain ⟨k, r, rfl, hkl⟩ : ∃ k r, idx = k ++ r ∧ k.length = a.kernelSize.length :=
      ⟨idx.take a.kernelSize.length, idx.drop a.kernelSize.length, (List.take_append_drop _ _).symm, by simp; omega⟩
    obtain ⟨hk, hr⟩ := (valid_append _ _ _ _ hkl).1 hv
    match r, hr with
    | [j, c, o], hr =>
      obtain ⟨-, hc, -⟩ := hr
      simp only [kernelSignal, ← hkl]
      rw [List.take_left' rfl, List.take_left' rfl]
      simp [nth, List.getD_eq_getElem?_getD, div_of hc, mod_of hc]

/-- C83: a GroupConv layer followed by global group pooling computes the same if its kernel is transformed with an element of its
subgroup. -/
theorem C83_invariants [Field α] [LinearOrder α] {a : ConvArgs α} {bt : Option Nat} {n : List Nat} {g : Option Nat} {C : Nat}
    {k0 k1 b0 : List Nat → α} {H : List Nat} {l : GroupConv α} (hl : BuiltConv a false bt n g C k0 b0 H l)
    (hf : a.dataFormat = .channelsLast) (e : Nat) (he : e ∈ H) (hk : TransformedKernel a.group a.kernelSize g C a.filters e k0 k1)
    (P : GlobalGroupPooling) (hd : P.dimensions = a.group.dim) (hfP : P.dataFormat = .channelsLast)
    (x : Tensor α) (B : Nat) (m : List Nat) (hm : m.length = a.group.dim) (hx : x.shape = sigShape .channelsLast B m g C)
    (y : Tensor α) (hy : (l.call x).2 = .ok y) :
    ∃ z u v, ((l.assign k1 b0).call x).2 = .ok z ∧ P.call y = .ok u ∧ P.call z = .ok v ∧ v.Same u := by
  have S := a.group.sym
  obtain ⟨h1, h2⟩ := C83_transformed_weights hl hf e he hk x B m hm hx
  obtain ⟨z, hz⟩ := h1.1 ⟨y, hy⟩
  obtain ⟨hzs, hzg⟩ := h2 y z hy hz
  obtain ⟨opt, kp, e1, e2, f, hst⟩ := hl.facts_last hf
  obtain ⟨sH, hH⟩ := f.subA
  have hH : lookup a.group.group.subgroup sH = .ok H := hH
  have hsub := S.tab.subs _ (lookup_mem hH)
  obtain ⟨before, after, src, -, -, -, h4⟩ := C22_group_convolution hl hf opt e1 x B m hm hx
  have hys := (h4 y hy).1
  obtain ⟨out, hout, hol, h0⟩ : ∃ out : List Nat, y.shape = sigShape .channelsLast B out (some H.length) a.filters ∧
      out.length = a.group.dim ∧ 0 ∉ out := ⟨_, hys, by simp, by simp⟩
  have hHpos : H.length ≠ 0 := fun h => by
    rw [List.length_eq_zero_iff.1 h] at he
    exact absurd he (by simp)
  obtain ⟨u, c1, c2, c3⟩ := C35_value P y B a.filters H.length out (by rw [hol, hd]) (by rw [hfP]; exact hout) hHpos h0
  obtain ⟨v, d1, d2, d3⟩ := C35_value P z B a.filters H.length out (by rw [hol, hd]) (by rw [hfP, hzs]; exact hout) hHpos h0
  refine ⟨z, u, v, hz, c1, d1, d2.trans c2.symm, ?_⟩
  intro idx hidx
  rw [d2] at hidx
  obtain ⟨b, c, hb, hc, rfl⟩ := C35_indices _ _ _ _ _ _ hidx
  rw [d3 b c hb hc, c3 b c hb hc]
  refine reduce_perm _ ?_
  unfold allEntries
  refine List.Perm.flatMap_left _ fun p hp => ?_
  rw [mem_indices] at hp
  have hmem : ∀ i, i < H.length → a.group.group.comp (nth H i) e ∈ H := fun i hi => hsub.2.2.2.2.1 _ (nth_mem _ _ hi) _ he
  have hσ : ∀ i, i < H.length → H.idxOf (a.group.group.comp (nth H i) e) < H.length := fun i hi =>
    List.idxOf_lt_length_iff.2 (hmem i hi)
  have hperm : ((List.range H.length).map fun i => H.idxOf (a.group.group.comp (nth H i) e)).Perm (List.range H.length) := by
    refine perm_map_self List.nodup_range (fun i hi => List.mem_range.2 (hσ i (List.mem_range.1 hi))) ?_
    intro i hi j hj h
    rw [List.mem_range] at hi hj
    have h' := congrArg (nth H) h
    rw [nth_idxOf (hmem i hi), nth_idxOf (hmem j hj)] at h'
    have L := S.tab.laws
    have heo := S.sub_lt hH he
    have ki := S.sub_nth_lt hH hi
    have kj := S.sub_nth_lt hH hj
    have h'' := congrArg (fun t => a.group.group.comp t (nth a.group.group.inverses e)) h'
    simp only [L.assoc _ _ _ ki heo (S.inv_lt heo), L.assoc _ _ _ kj heo (S.inv_lt heo), L.mul_inv _ heo, L.mul_one _ ki,
      L.mul_one _ kj] at h''
    exact nth_inj (S.sub_nodup hH) hi hj h''
  have hent : ((List.range H.length).map fun j => z.get (sigIndex P.dataFormat b p j c)) =
      ((List.range H.length).map fun i => H.idxOf (a.group.group.comp (nth H i) e)).map fun j =>
        y.get (sigIndex P.dataFormat b p j c) := by
    rw [List.map_map]
    apply List.map_congr_left
    intro i hi
    rw [List.mem_range] at hi
    obtain ⟨i', hi', hn', hg'⟩ := hzg b p i c (by
      rw [hout]
      exact (valid_append (B :: out) [H.length, a.filters] (b :: p) [i, c] (by simp [hp.length])).2 ⟨⟨hb, hp⟩, hi, hc, trivial⟩)
    have : i' = H.idxOf (a.group.group.comp (nth H i) e) :=
      nth_inj (S.sub_nodup hH) hi' (hσ i hi) (hn'.trans (nth_idxOf (hmem i hi)).symm)
    subst this
    rw [hfP]
    exact hg'
  rw [hent]
  exact hperm.map _

/-- C83 for channels_first layers that pad nothing themselves -/
theorem C83_channels_first [Semiring α] {a : ConvArgs α} {bt : Option Nat} {n : List Nat} {g : Option Nat} {C : Nat}
    {k0 k1 b0 : List Nat → α} {H : List Nat} {l : GroupConv α} (hl : BuiltConv a false bt n g C k0 b0 H l)
    (hf : a.dataFormat = .channelsFirst) (hu : Unpadded l.transforms) (e : Nat) (he : e ∈ H)
    (hk : TransformedKernel a.group a.kernelSize g C a.filters e k0 k1)
    (x : Tensor α) (B : Nat) (m : List Nat) (hm : m.length = a.group.dim) (hx : x.shape = sigShape .channelsFirst B m g C) :
    ((∃ y, (l.call x).2 = .ok y) ↔ ∃ z, ((l.assign k1 b0).call x).2 = .ok z) ∧
    ∀ y z, (l.call x).2 = .ok y → ((l.assign k1 b0).call x).2 = .ok z → z.shape = y.shape ∧
      ∀ b p i o, Valid y.shape (b :: o :: p ++ [i]) → ∃ i', i' < H.length ∧ nth H i' = a.group.group.comp (nth H i) e ∧
        z.get (b :: o :: p ++ [i]) = y.get (b :: o :: p ++ [i']) := by
  obtain ⟨opt, kp, hopt, -, f, -⟩ := hl.facts_first hf
  obtain ⟨l1, hl1, -, hsame⟩ := C30_plain hl hf hu opt hopt
  have hs := hsame k0 b0
  rw [assign_self hl, assign_self hl1] at hs
  have m1 := toLast_moved x hx
  obtain ⟨c1, c2⟩ := C83_transformed_weights hl1 rfl e he hk _ B m hm m1.last
  obtain ⟨r, o1⟩ := hs B m _ x hm m1
  obtain ⟨r', o1'⟩ := hsame k1 b0 B m _ x hm m1
  refine ⟨r.symm.trans (c1.trans r'), fun y y' hy hy' => ?_⟩
  obtain ⟨z, hz⟩ := r.2 ⟨y, hy⟩
  obtain ⟨z', hz'⟩ := r'.2 ⟨y', hy'⟩
  obtain ⟨q, mz⟩ := o1 z y hz hy
  obtain ⟨q', mz'⟩ := o1' z' y' hz' hy'
  obtain ⟨d1, d2⟩ := c2 z z' hz hz'
  have : q' = q := mz'.shape_eq (d1.trans mz.last)
  subst this
  have hyy : y'.shape = y.shape := mz'.first.trans mz.first.symm
  refine ⟨hyy, fun b p i o hv => ?_⟩
  obtain ⟨w, hw⟩ := mz.entry hv
  obtain ⟨i', hi', hn, hg⟩ := d2 b p i o w
  refine ⟨i', hi', hn, ?_⟩
  obtain ⟨-, hw'⟩ := mz'.entry (hyy ▸ hv)
  have hv' : Valid y.shape (b :: o :: p ++ [i']) := by
    rw [mz.first, show sigShape .channelsFirst B q' (some H.length) a.filters =
      (B :: a.filters :: q') ++ [H.length] by simp [sigShape]] at hv ⊢
    have hlen := hv.length
    simp only [List.length_append, List.length_cons, List.length_nil] at hlen
    have hlen' : (b :: o :: p).length = (B :: a.filters :: q').length := by simp only [List.length_cons]; omega
    exact (valid_append _ _ _ _ hlen').2 ⟨((valid_append _ _ _ _ hlen').1 hv).1, hi', trivial⟩
  rw [hw', (mz.entry hv').2]
  exact hg

/-- a P4 layer with a bias, and group-valued inputs -/
def turnedConv : ConvArgs Int :=
  { group := .P4, subgroup := some "P2", kernelSize := [3, 3], strides := [2, 1], padding := "same",
    allowNonEquivariance := true, dataFormat := .channelsLast, filters := 2, dilation := [1, 1], useBias := true,
    activation := fun v => max v 0 }

set_option maxRecDepth 8000 in
/-- hypotheses are met: a kernel that is transformed with the half turn, and a signal on which the layer can be called -/
example : ∃ l k1 y, BuiltConv turnedConv false none [4, 5] (some 4) 1 (fun k => nth k 0) (fun _ => 1) [0, 2] l ∧ 2 ∈ [0, 2] ∧
    TransformedKernel .P4 [3, 3] (some 4) 1 2 2 (fun k => (nth k 0 : Int)) k1 ∧
    (l.call ⟨sigShape .channelsLast 1 [4, 5] (some 4) 1, fun _ => 1⟩).2 = .ok y := by
  obtain ⟨l, y, hl, hy⟩ : ∃ l y, BuiltConv turnedConv false none [4, 5] (some 4) 1 (fun k => nth k 0) (fun _ => 1) [0, 2] l ∧
    (l.call ⟨sigShape .channelsLast 1 [4, 5] (some 4) 1, fun _ => 1⟩).2 = .ok y := ⟨_, _, ⟨⟨_, rfl, rfl⟩, rfl, rfl⟩, rfl⟩
  obtain ⟨k1, hk⟩ := C83_transformable hl rfl 2 (by decide)
  exact ⟨l, k1, y, hl, by simp, hk, hy⟩

/-- hypotheses of the channels_first version are met -/
example : ∃ l k1, BuiltConv { turnedConv with dataFormat := .channelsFirst } false none [4, 5] none 3 (fun k => nth k 0) (fun _ => 1)
      [0, 2] l ∧ Unpadded l.transforms ∧ TransformedKernel .P4 [3, 3] none 3 2 2 (fun k => (nth k 0 : Int)) k1 := by
  obtain ⟨l, hl⟩ : ∃ l, BuiltConv turnedConv false none [4, 5] none 3 (fun k => nth k 0) (fun _ => 1) [0, 2] l :=
    ⟨_, ⟨⟨_, rfl, rfl⟩, rfl, rfl⟩⟩
  obtain ⟨k1, hk⟩ := C83_transformable hl rfl 2 (by decide)
  exact ⟨_, k1, ⟨⟨_, rfl, rfl⟩, rfl, rfl⟩, rfl, hk⟩

end GroCo
