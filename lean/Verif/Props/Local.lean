import Verif.Props.Conv
import Verif.Props.Pooling
import Verif.Props.Transpose
import Verif.BatchLemmas
import Verif.StackSpec
import Verif.Props.State

/-
Property C77: an output entry depends only on the part of the input in its receptive field, and what the receptive field of a
stack of layers is.
-/

namespace GroCo
open Tensor

variable {α : Type}

/-- `f` maps signals with shapes `s B` to signals with shapes `s' B`, with `d` spatial axes after the batch axis, and entry
`(b, p, …)` of the result depends only on entries `(b, q, …)` of the input for positions `q` that `p` sees: inputs that agree there
give the same result there. -/
def Local (d : Nat) (s s' : Nat → List Nat) (sees : List Nat → List Nat → Prop) (f : Tensor α → Res (Tensor α)) : Prop :=
  ∀ (B : Nat) (x x' y y' : Tensor α), x.shape = s B → x'.shape = s B → f x = .ok y → f x' = .ok y' →
    y.shape = s' B ∧ y'.shape = s' B ∧
    ∀ b p r, p.length = d → Valid (s' B) (b :: p ++ r) →
      (∀ q t, q.length = d → Valid (s B) (b :: q ++ t) → sees p q → x.get (b :: q ++ t) = x'.get (b :: q ++ t)) →
        y.get (b :: p ++ r) = y'.get (b :: p ++ r)

/-- Along one axis, output position `p` sees the `size` input positions from `p * jump + start` on. -/
structure Reach where
  jump : Nat
  start : Int
  size : Nat

def Reach.Sees (f : Reach) (p q : Nat) : Prop := (p : Int) * f.jump + f.start ≤ q ∧ (q : Int) < p * f.jump + f.start + f.size

/-- position `p` sees position `q` along each of `d` axes -/
def SeesAll (d : Nat) (f : Nat → Reach) (p q : List Nat) : Prop := ∀ i, i < d → (f i).Sees (nth p i) (nth q i)

/-- A stack of layers, each of them local, from signals with shapes `s B` to signals with shapes `s' B`. -/
inductive LocalStack (d : Nat) : (Nat → List Nat) → (Nat → List Nat) → List (Nat → Reach) → List (Tensor α → Res (Tensor α)) → Prop
  | nil (s) : LocalStack d s s [] []
  | cons {s s' s'' f fs F Fs} (h : Local d s s' (SeesAll d f) F) (hs : LocalStack d s' s'' fs Fs) :
      LocalStack d s s'' (f :: fs) (F :: Fs)

/-- The receptive field of a stack: the layers' fields from the input to the output. The jump is the product of the jumps, the
size is one more than the sum of the sizes minus one, each times the jumps of the layers before it. -/
def receptive : List Reach → Reach
  | [] => ⟨1, 0, 1⟩
  | f :: fs => ⟨f.jump * (receptive fs).jump, f.start + f.jump * (receptive fs).start, f.size + f.jump * ((receptive fs).size - 1)⟩

theorem Reach.trans {f g : Reach} {p m q : Nat} (h2 : g.Sees p m) (h1 : f.Sees m q) (hg : 0 < g.size) :
    (⟨f.jump * g.jump, f.start + f.jump * g.start, f.size + f.jump * (g.size - 1)⟩ : Reach).Sees p q := by
  obtain ⟨a1, a2⟩ := h1
  obtain ⟨b1, b2⟩ := h2
  have hj : (0 : Int) ≤ f.jump := Int.natCast_nonneg _
  have e1 := mul_le_mul_of_nonneg_left b1 hj
  have e2 : (f.jump : Int) * m ≤ f.jump * (p * g.jump + g.start + (g.size - 1)) :=
    mul_le_mul_of_nonneg_left (by omega) hj
  have hc : ((g.size - 1 : Nat) : Int) = g.size - 1 := by omega
  constructor <;> simp only [Nat.cast_mul, Nat.cast_add, hc]
  · nlinarith
  · nlinarith

theorem receptive_pos (fs : List Reach) (h : ∀ f ∈ fs, 0 < f.size) : 0 < (receptive fs).size := by
  cases fs with
  | nil => exact Nat.one_pos
  | cons f fs =>
    have := h f List.mem_cons_self
    show 0 < f.size + _
    omega

/-- C77: the result of a stack of any number of layers depends on the receptive field only. -/
theorem C77_stack (d : Nat) (s s' : Nat → List Nat) (fs : List (Nat → Reach)) (Fs : List (Tensor α → Res (Tensor α)))
    (h : LocalStack d s s' fs Fs) (hpos : ∀ f ∈ fs, ∀ i, i < d → 0 < (f i).size) :
    Local d s s' (SeesAll d fun i => receptive (fs.map fun f => f i)) (sequential Fs) := by
  induction h with
  | nil s =>
    intro B x x' y y' hx hx' hy hy'
    cases hy
    cases hy'
    refine ⟨hx, hx', fun b p r hp hv hag => hag p r hp hv fun i _ => ?_⟩
    simp [receptive, Reach.Sees]
  | @cons s s' s'' f fs F Fs hF hs ih =>
    have ih := ih fun g hg => hpos g (List.mem_cons_of_mem _ hg)
    intro B x x' y y' hx hx' hy hy'
    have hseq : ∀ z, sequential (F :: Fs) z = (F z >>= sequential Fs) := fun z => by
      unfold sequential
      rw [List.foldlM_cons]
    rw [hseq] at hy hy'
    obtain ⟨u, hu, hy⟩ := bind_eq_ok hy
    obtain ⟨u', hu', hy'⟩ := bind_eq_ok hy'
    obtain ⟨s1, s2, h1⟩ := hF B x x' u u' hx hx' hu hu'
    obtain ⟨t1, t2, h2⟩ := ih B u u' y y' s1 s2 hy hy'
    refine ⟨t1, t2, fun b p r hp hv hag => h2 b p r hp hv fun m t hm hvm hpm => ?_⟩
    refine h1 b m t hm hvm fun q w hq hvq hmq => hag q w hq hvq fun i hi => ?_
    refine Reach.trans (hpm i hi) (hmq i hi) (receptive_pos _ ?_)
    intro g hg
    obtain ⟨g', hg', rfl⟩ := List.mem_map.1 hg
    exact hpos g' (List.mem_cons_of_mem _ hg') i hi

/-- C77: the size of the receptive field is one plus the sum over the layers of their size minus one times the strides of the
layers before, and its jump is the product of the strides. -/
theorem C77_size (fs : List Reach) (h : ∀ f ∈ fs, 0 < f.size) :
    (receptive fs).size = 1 + ((List.range fs.length).map fun i =>
      ((fs.map Reach.size).getD i 0 - 1) * ((fs.map Reach.jump).take i).prod).sum ∧
    (receptive fs).jump = (fs.map Reach.jump).prod := by
  induction fs with
  | nil => exact ⟨rfl, rfl⟩
  | cons f fs ih =>
    obtain ⟨h1, h2⟩ := ih fun g hg => h g (List.mem_cons_of_mem _ hg)
    have hf := h f List.mem_cons_self
    constructor
    · show f.size + f.jump * ((receptive fs).size - 1) = _
      rw [h1, List.length_cons, List.range_succ_eq_map, List.map_cons, List.sum_cons, List.map_map, Nat.add_sub_cancel_left,
        ← List.sum_map_mul_left]
      have : ∀ i, f.jump * (((fs.map Reach.size).getD i 0 - 1) * ((fs.map Reach.jump).take i).prod) =
          (((f :: fs).map Reach.size).getD (i + 1) 0 - 1) * (((f :: fs).map Reach.jump).take (i + 1)).prod := by
        intro i
        simp only [List.map_cons, List.getD_cons_succ, List.take_succ_cons, List.prod_cons]
        ring
      simp only [this]
      simp only [List.map_cons, List.getD_cons_zero, List.take_zero, List.prod_nil, Nat.mul_one, Function.comp_def, Nat.succ_eq_add_one]
      omega
    · show f.jump * (receptive fs).jump = _
      rw [h2, List.map_cons, List.prod_cons]

/-! ### the layers -/

/-- a read inside the grid is of a position in the window -/
theorem readAt_local [Zero α] {x x' : Tensor α} {m : List Nat} {b : Nat} {q : List Int} {r : List Nat}
    (h : InBox m q → x.get (b :: q.map Int.toNat ++ r) = x'.get (b :: q.map Int.toNat ++ r)) :
    readAt x m b q r = readAt x' m b q r := by
  unfold readAt
  split
  · exact h ‹_›
  · rfl

theorem valid_sig_index {B b : Nat} {m q r : List Nat} {g : Option Nat} {C : Nat} (hb : b < B) (hq : Valid m q)
    (hr : Valid (g.toList ++ [C]) r) : Valid (sigShape .channelsLast B m g C) (b :: q ++ r) := by
  show Valid ((B :: m) ++ (g.toList ++ [C])) ((b :: q) ++ r)
  exact (valid_append _ _ _ _ (by simp [hq.length])).2 ⟨⟨hb, hq⟩, hr⟩

/-- the position in the grid read through offset `k` of a kernel of sizes `K` is seen -/
theorem window_seen {d : Nat} {before strides dil K m p k : List Nat} (hs : strides.length = d) (hm : m.length = d)
    (hK : K.length = d) (hk : Valid K k) (hin : InBox m (window before strides dil p k)) :
    SeesAll d (fun i => ⟨nth strides i, -(nth before i : Int), dilated (nth K i) (nth dil i)⟩) p
      ((window before strides dil p k).map Int.toNat) := by
  intro i hi
  obtain ⟨hl, hin⟩ := inBox_iff.1 hin
  have h0 := (hin i (by omega)).1
  have hki := ((valid_iff _ _).1 hk).2 i (by omega)
  have hw : (window before strides dil p k).getD i 0 = (nth p i * nth strides i + nth k i * nth dil i : Int) - nth before i := by
    unfold window
    simp [List.getD_eq_getElem?_getD, hs, hi]
  have hn : ((nth ((window before strides dil p k).map Int.toNat) i : Nat) : Int) =
      (nth p i * nth strides i + nth k i * nth dil i : Int) - nth before i := by
    rw [← hw]
    have : nth ((window before strides dil p k).map Int.toNat) i = ((window before strides dil p k).getD i 0).toNat := by
      unfold nth
      simp only [List.getD_eq_getElem?_getD, List.getElem?_map]
      cases (window before strides dil p k)[i]? <;> rfl
    rw [this, Int.toNat_of_nonneg h0]
  have hle : (nth k i : Int) * nth dil i ≤ (nth K i - 1 : Nat) * nth dil i := by
    exact_mod_cast Nat.mul_le_mul_right _ (by omega)
  have hnn : (0 : Int) ≤ (nth k i : Int) * nth dil i := by positivity
  constructor
  · show (nth p i : Int) * nth strides i + -(nth before i : Int) ≤ _
    rw [hn]; linarith
  · show _ < (nth p i : Int) * nth strides i + -(nth before i : Int) + ((dilated (nth K i) (nth dil i) : Nat) : Int)
    rw [hn]
    unfold dilated
    push_cast at hle ⊢
    linarith

/-- C77, convolutions: along each axis, position `p` of the output sees the extent of the dilated kernel from `p` times the stride
minus the zeros put before the signal on. -/
theorem C77_convolution [Semiring α] {a : ConvArgs α} {bt : Option Nat} {n : List Nat} {g : Option Nat} {C : Nat}
    {k0 b0 : List Nat → α} {H : List Nat} {l : GroupConv α} (hl : BuiltConv a false bt n g C k0 b0 H l)
    (hf : a.dataFormat = .channelsLast) (opt : PadOption) (hopt : formatPaddingOption a.padding = .ok opt)
    (m : List Nat) (hm : m.length = a.group.dim) :
    ∃ before after m' : List Nat,
      (∀ i, i < a.group.dim → PadsTo opt (nth n i) (nth m i) (nth a.kernelSize i) (nth a.strides i) (nth a.dilation i)
        (nth before i) (nth after i)) ∧ m'.length = a.group.dim ∧
      Local a.group.dim (fun B => sigShape .channelsLast B m g C)
        (fun B => sigShape .channelsLast B m' (some H.length) a.filters)
        (SeesAll a.group.dim fun i =>
          ⟨nth a.strides i, -(nth before i : Int), dilated (nth a.kernelSize i) (nth a.dilation i)⟩)
        (fun x => (l.call x).2) := by
  obtain ⟨opt', kp, hopt', hkp, f, hst⟩ := hl.facts_last hf
  rw [hopt] at hopt'
  cases hopt'
  rw [show actingOf a.group false H = H from rfl] at f
  refine ⟨totalBefore l.transforms.padState kp a.strides a.dilation a.kernelSize m,
    totalAfter l.transforms.padState kp a.strides a.dilation a.kernelSize m,
    outSizes a.strides a.dilation a.kernelSize (padded l.transforms.padState kp a.strides a.dilation a.kernelSize m),
    fun i hi => padsTo_ok hl.dims hm f.kernelLen f.stridesLen f.stridesPos (padding_agree hopt hkp) hst hi,
    by rw [length_outSizes, f.stridesLen], ?_⟩
  intro B x x' y y' hx hx' hy hy'
  obtain ⟨c1, d1⟩ := conv_call_last f hf hx hm
  obtain ⟨c2, d2⟩ := conv_call_last f hf hx' hm
  obtain ⟨z, hz, hs, hg⟩ := d1 (c1 y hy)
  obtain ⟨z', hz', hs', hg'⟩ := d2 (c2 y' hy')
  simp only [hz] at hy
  simp only [hz'] at hy'
  cases hy
  cases hy'
  refine ⟨hs, hs', fun b p r hp hv hag => ?_⟩
  have hv0 : Valid ((B :: outSizes a.strides a.dilation a.kernelSize
      (padded l.transforms.padState kp a.strides a.dilation a.kernelSize m)) ++ [H.length, a.filters]) ((b :: p) ++ r) := hv
  obtain ⟨⟨hb, hpv⟩, hr⟩ := (valid_append _ _ _ _ (by simp [length_outSizes, f.stridesLen, hp])).1 hv0
  obtain ⟨i, o, rfl, hi, ho⟩ : ∃ i o, r = [i, o] ∧ i < H.length ∧ o < a.filters := by
    match r, hr with
    | [i, o], ⟨hi, ho, _⟩ => exact ⟨i, o, rfl, hi, ho⟩
  rw [hg b p i o hb hpv hi ho, hg' b p i o hb hpv hi ho]
  refine congrArg a.activation (congrArg (· + _) ?_)
  apply sum_congr
  intro k hk
  rw [mem_indices] at hk
  apply sum_congr
  intro c hc
  rw [List.mem_range] at hc
  refine congrArg (· * _) (readAt_local fun hin => ?_)
  have hq := inBox_toNat hin
  refine hag _ _ ?_ (valid_sig_index hb hq (valid_rest hc)) ?_
  · rw [List.length_map, length_winZ, f.stridesLen]
  · exact window_seen f.stridesLen hm f.kernelLen hk hin

/-- C77, pooling: position `p` of the output sees the pool size from `p` times the stride minus the positions before the signal. -/
theorem C77_pooling [Field α] [LinearOrder α] {a : PoolArgs} {bt : Option Nat} {n : List Nat} {g C : Nat} {H : List Nat}
    {l : GroupPooling} (hl : BuiltPool a bt n g C H l) (hf : a.dataFormat = .channelsLast) (opt : PadOption)
    (hopt : formatPaddingOption a.padding = .ok opt) (m : List Nat) (hm : m.length = a.group.dim) :
    ∃ lo hi skip skip' m' : List Nat,
      (∀ i, i < a.group.dim → PoolPads opt (nth n i) (nth m i) (nth a.poolSize i) (nth a.windowStrides i)
        (nth a.paddingStrides i) (nth lo i) (nth hi i) (nth skip i) (nth skip' i)) ∧ m'.length = a.group.dim ∧
      Local a.group.dim (fun B => sigShape .channelsLast B m (some g) C)
        (fun B => sigShape .channelsLast B m' (some H.length) C)
        (SeesAll a.group.dim fun i => ⟨nth a.windowStrides i, -((nth skip i + nth lo i : Nat) : Int), nth a.poolSize i⟩)
        (fun x : Tensor α => l.call x) := by
  obtain ⟨cos, lo, hi, skip, skip', ht, hpads, hcall⟩ := C33_uniform (α := α) hl hf opt hopt m hm
  obtain ⟨_, kp, _, _, _, f, hgo, _⟩ := hl.facts hf
  obtain ⟨sH, _, hH, _⟩ := f.sub
  refine ⟨lo, hi, skip, skip', (List.range a.group.dim).map fun i =>
    (nth skip i + (nth lo i + nth m i + nth hi i) + nth skip' i - nth a.poolSize i) / nth a.windowStrides i + 1, hpads, by simp, ?_⟩
  intro B x x' y y' hx hx' hy hy'
  obtain ⟨hs, hg⟩ := (hcall x B hx).2 y hy
  obtain ⟨hs', hg'⟩ := (hcall x' B hx').2 y' hy'
  refine ⟨hs, hs', fun b p r hp hv hag => ?_⟩
  obtain ⟨⟨hb, -⟩, hr⟩ := (valid_append (B :: (List.range a.group.dim).map fun i =>
    (nth skip i + (nth lo i + nth m i + nth hi i) + nth skip' i - nth a.poolSize i) / nth a.windowStrides i + 1)
    [H.length, C] (b :: p) r (by simp [hp])).1 hv
  obtain ⟨i, c, rfl, hi', hc⟩ : ∃ i c, r = [i, c] ∧ i < H.length ∧ c < C := by
    match r, hr with
    | [i, c], ⟨hi, hc, _⟩ => exact ⟨i, c, rfl, hi, hc⟩
  obtain ⟨qs, hqs, -, e1⟩ := hg b p i c (by rw [hs]; exact hv)
  obtain ⟨qs', hqs', -, e2⟩ := hg' b p i c (by rw [hs']; exact hv)
  rw [e1, e2, hqs', ← hqs]
  refine congrArg a.poolType.reduce (List.map_congr_left fun q hq => ?_)
  split
  next hin =>
    rw [hqs] at hq
    obtain ⟨k, hk, rfl⟩ := List.mem_map.1 (List.mem_of_mem_filter hq)
    rw [mem_indices] at hk
    refine congrArg a.poolType.reduce (List.map_congr_left fun t htm => ?_)
    refine hag _ _ ?_ (valid_sig_index hb (inBox_toNat hin) ?_) ?_
    · rw [List.length_map, (inBox_iff.1 hin).1, hm]
    · refine ⟨?_, hc, trivial⟩
      rw [hgo]
      exact a.group.sym.tab.laws.closed _ _ (a.group.sym.sub_lt hH (nth_mem _ _ hi')) (ht.2.1 t htm)
    · have := window_seen f.stridesLen hm f.sizeLen hk hin
      intro j hj
      have h1 := this j hj
      have hpos : 0 < nth a.poolSize j := Nat.pos_of_ne_zero fun h => f.sizePos (h ▸ nth_mem _ _ (by rw [f.sizeLen]; exact hj))
      have hone : nth (List.replicate a.group.dim 1) j = 1 := by simp [nth, List.getD_eq_getElem?_getD, hj]
      have hdil : dilated (nth a.poolSize j) 1 = nth a.poolSize j := by unfold dilated; omega
      simpa only [hone, hdil, nth_map_range, if_pos hj] using h1
  next => rfl

/-- C77, transposed convolutions: position `p` of the output, counted from `crop` positions before its start, sees the positions of
the input from which the dilated kernel reaches it. -/
theorem C77_transposed [Semiring α] {a : ConvArgs α} {bt : Option Nat} {n : List Nat} {g : Option Nat} {C : Nat}
    {k0 b0 : List Nat → α} {H : List Nat} {l : GroupConv α} (hl : BuiltConv a true bt n g C k0 b0 H l)
    (hf : a.dataFormat = .channelsLast) (m : List Nat) (hm : m.length = a.group.dim) :
    ∃ (opt : PadOption) (before after crop m' : List Nat), formatPaddingOption a.padding = .ok opt ∧
      (∀ i, i < a.group.dim → l.transforms.padState.amount (i + 1) = ((nth before i : Int), (nth after i : Int))) ∧
      (∀ i, i < a.group.dim → nth crop i = match opt with
        | .valid | .validEquiv => 0
        | .same | .sameEquiv => (dilated (nth a.kernelSize i) (nth a.dilation i) - nth a.strides i) / 2) ∧
      m'.length = a.group.dim ∧
      Local a.group.dim (fun B => sigShape .channelsLast B m g C)
        (fun B => sigShape .channelsLast B m' (some a.group.group.order) a.filters)
        (fun p q => ∀ i, i < a.group.dim → (nth q i + nth before i) * nth a.strides i ≤ nth p i + nth crop i ∧
          nth p i + nth crop i < (nth q i + nth before i) * nth a.strides i + dilated (nth a.kernelSize i) (nth a.dilation i))
        (fun x => (l.call x).2) := by
  obtain ⟨opt, before, after, crop, -, -, -, hopt, -, -, hbef, hcrop, -, -, -⟩ := C41_transposed_convolution hl hf
    ⟨sigShape .channelsLast 0 m g C, fun _ => 0⟩ 0 m hm rfl
  obtain ⟨opt', kp, hopt', hkp, f, hst⟩ := hl.facts_last hf
  rw [hopt] at hopt'
  cases hopt'
  rw [show actingOf a.group true H = List.range a.group.group.order from rfl] at f
  have hb' : ∀ i, i < a.group.dim → nth (befores (epads l.transforms.padState a.group.dim)) i = nth before i := by
    intro i hi
    have h := hbef i hi
    rw [amount_pads _ _ _ f.onGrid] at h
    rw [nth_befores, nth_epads hi]
    have := congrArg Prod.fst h
    simp only at this
    omega
  have hc' : ∀ i, i < a.group.dim →
      nth (upCrop kp a.strides a.dilation a.kernelSize (grow m (epads l.transforms.padState a.group.dim))) i = nth crop i := by
    intro i hi
    rw [hcrop i hi, upCrop, nth_map_range, if_pos (by rw [f.stridesLen]; exact hi), padding_agree hopt hkp]
    cases opt <;> rfl
  refine ⟨opt, before, after, crop, upSizes kp a.strides a.dilation a.kernelSize (grow m (epads l.transforms.padState a.group.dim)),
    hopt, hbef, hcrop, by simp [upSizes, f.stridesLen], ?_⟩
  intro B x x' y y' hx hx' hy hy'
  obtain ⟨z, hz, hs, hg⟩ := convT_call_last f hf hx hm
  obtain ⟨z', hz', hs', hg'⟩ := convT_call_last f hf hx' hm
  simp only [hz] at hy
  simp only [hz'] at hy'
  cases hy
  cases hy'
  rw [List.length_range] at hs hs'
  refine ⟨hs, hs', fun b p r hp hv hag => ?_⟩
  obtain ⟨⟨hb, hpv⟩, hr⟩ := (valid_append (B :: upSizes kp a.strides a.dilation a.kernelSize
    (grow m (epads l.transforms.padState a.group.dim))) [a.group.group.order, a.filters] (b :: p) r
    (by simp [upSizes, f.stridesLen, hp])).1 hv
  obtain ⟨i, o, rfl, hi, ho⟩ : ∃ i o, r = [i, o] ∧ i < a.group.group.order ∧ o < a.filters := by
    match r, hr with
    | [i, o], ⟨hi, ho, _⟩ => exact ⟨i, o, rfl, hi, ho⟩
  rw [hg b p i o hb hpv (by rwa [List.length_range]) ho, hg' b p i o hb hpv (by rwa [List.length_range]) ho]
  refine congrArg a.activation (congrArg (· + _) ?_)
  apply sum_congr
  intro k hk
  rw [mem_indices] at hk
  apply sum_congr
  intro c hc
  rw [List.mem_range] at hc
  refine congrArg (· * _) ?_
  unfold spread
  apply sum_congr
  intro q hq
  rw [mem_indices] at hq
  split
  next hh =>
    refine hag q _ (by rw [hq.length, hm]) (valid_sig_index hb hq (valid_rest hc)) fun j hj => ?_
    have h1 := hh j (by rw [f.stridesLen]; exact hj)
    rw [hb' j hj, hc' j hj] at h1
    have hkj := ((valid_iff _ _).1 hk).2 j (by rw [f.kernelLen]; exact hj)
    have h2 : nth k j * nth a.dilation j ≤ (nth a.kernelSize j - 1) * nth a.dilation j := Nat.mul_le_mul_right _ (by omega)
    unfold dilated
    omega
  next => rfl

/-- C77, layers that work entry by entry, such as activations: every position sees itself only. -/
theorem C77_entrywise (d : Nat) (s : Nat → List Nat) (h : List Nat → α → α) :
    Local d s s (SeesAll d fun _ => ⟨1, 0, 1⟩) (fun x => .ok ⟨x.shape, fun idx => h idx (x.get idx)⟩) := by
  intro B x x' y y' hx hx' hy hy'
  cases hy
  cases hy'
  refine ⟨hx, hx', fun b p r hp hv hag => congrArg (h _) (hag p r hp hv fun i _ => ?_)⟩
  simp [Reach.Sees]

/-- the hypotheses are met: a built convolution, and a stack of two layers that work entry by entry -/
example : ∃ l, BuiltConv smallConv false none [3, 3] none 1 (fun _ => 1) (fun _ => 0) [0, 1, 2, 3] l ∧
    smallConv.dataFormat = .channelsLast ∧ formatPaddingOption smallConv.padding = .ok .valid :=
  ⟨_, ⟨⟨_, rfl, rfl⟩, rfl, rfl⟩, rfl, rfl⟩

example : ∃ a : ConvArgs Int, a.dataFormat = .channelsLast ∧ ∃ l, BuiltConv a true none [3, 3] none 1 (fun _ => 1) (fun _ => 0)
    [0, 1, 2, 3] l :=
  ⟨smallConv, rfl, _, ⟨_, rfl, rfl⟩, rfl, rfl⟩

example (s : Nat → List Nat) (h h' : List Nat → Int → Int) : LocalStack (α := Int) 2 s s [fun _ => ⟨1, 0, 1⟩, fun _ => ⟨1, 0, 1⟩]
    [fun x => .ok ⟨x.shape, fun idx => h idx (x.get idx)⟩, fun x => .ok ⟨x.shape, fun idx => h' idx (x.get idx)⟩] :=
  .cons (C77_entrywise 2 s h) (.cons (C77_entrywise 2 s h') (.nil s))

/-- three layers with kernels of sizes 3, 3, 5, the second with stride 2: 13 positions -/
example : receptive [⟨1, 0, 3⟩, ⟨2, -1, 3⟩, ⟨1, 0, 5⟩] = ⟨2, -1, 13⟩ := rfl

/-- The field is not too large: on images of sizes 5 and 5 the first output entry depends on the last pixel of its window, which has
three rows and columns, and not on the next one. -/
example : ∃ l, BuiltConv smallConv false none [5, 5] none 1 (fun _ => 1) (fun _ => 0) [0, 1, 2, 3] l ∧
    ((l.call ⟨[1, 5, 5, 1], fun _ => 0⟩).2.map fun y => y.get [0, 0, 0, 0, 0]) = .ok 0 ∧
    ((l.call ⟨[1, 5, 5, 1], fun i => if i = [0, 2, 2, 0] then 1 else 0⟩).2.map fun y => y.get [0, 0, 0, 0, 0]) = .ok 1 ∧
    ((l.call ⟨[1, 5, 5, 1], fun i => if i = [0, 3, 2, 0] then 1 else 0⟩).2.map fun y => y.get [0, 0, 0, 0, 0]) = .ok 0 := by
  refine ⟨_, ⟨⟨_, rfl, rfl⟩, rfl, rfl⟩, ?_, ?_, ?_⟩ <;> decide +kernel

end GroCo
