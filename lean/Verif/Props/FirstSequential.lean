import Verif.Props.Sequential
import Verif.Props.FirstShape
import Verif.Props.FirstStack

/-
Property C79 for models of channels_first layers that pad nothing themselves.
-/

namespace GroCo
open Tensor

variable {α : Type}

theorem inputShape_first (b : Option Nat) (n : List Nat) (g : Option Nat) (C : Nat) :
    inputShape .channelsFirst b n g C = b :: (C :: (n ++ g.toList)).map some := by
  cases g <;> simp [inputShape]

theorem sigShape_first (B : Nat) (n : List Nat) (g : Option Nat) (C : Nat) :
    sigShape .channelsFirst B n g C = B :: C :: (n ++ g.toList) := by
  cases g <;> simp [sigShape]

theorem split_signal_first {d : Nat} {t : List Nat} (h : t.length = d + 1 ∨ t.length = d + 2) :
    ∃ n g C, n.length = d ∧ t = C :: (n ++ g.toList) ∧ (t.length = d + 2 ↔ g ≠ none) := by
  cases t with
  | nil => simp at h
  | cons C r =>
    rcases h with h | h
    · exact ⟨r, none, C, by simpa using h, by simp, by simp [h]⟩
    · have hr : r.length = d + 1 := by simpa using h
      refine ⟨r.take d, some (nth r d), C, by simp [hr], ?_, by simp [h]⟩
      rw [List.cons.injEq]
      refine ⟨rfl, ?_⟩
      apply ext_nth
      · simp [hr]
      · intro i hi
        rw [nth_append]
        split
        · rename_i hc
          simp only [List.length_take, hr] at hc
          simp [nth, List.getElem?_take, show i < d by omega]
        · rename_i hc
          simp only [List.length_take, hr] at hc
          obtain rfl : i = d := by omega
          simp [hr, nth]

/-- what a built channels_first layer announces has known sizes, except for the batch size -/
theorem announced_known_first {a : ConvArgs α} {tr : Bool} {bt : Option Nat} {n : List Nat} {g : Option Nat} {C : Nat}
    {k0 b0 : List Nat → α} {H : List Nat} {l : GroupConv α} (hl : BuiltConv a tr bt n g C k0 b0 H l)
    (hf : a.dataFormat = .channelsFirst) {arg s : List (Option Nat)} (h : l.computeOutputShape arg = .ok s) :
    ∃ t : List Nat, s = bt :: t.map some := by
  obtain ⟨h1, h2, h3⟩ := hl.shape_facts
  obtain ⟨opt, kp, e1, e2, f, hst⟩ := hl.facts_first hf
  have hn := hl.dims
  have hlen : (signalShape DataFormat.channelsFirst.isLast bt (some (chanO g C)) n).length = a.strides.length + 2 := by
    simp [signalShape, DataFormat.isLast, hn, f.stridesLen]
  have hsp : spatialShapeOf DataFormat.channelsFirst a.strides.length (signalShape DataFormat.channelsFirst.isLast bt (some (chanO g C)) n) =
      n.map some := by
    simp [spatialShapeOf, signalShape, DataFormat.isLast, f.stridesLen, ← hn]
  have h0 : (signalShape DataFormat.channelsFirst.isLast bt (some (chanO g C)) n).getD 0 none = bt := by
    simp [signalShape, DataFormat.isLast]
  have hga : l.transforms.groupAxis = a.group.dim + 1 + 1 := by rw [f.gaxis, hf]; rfl
  have key : ∀ ou : List (Option Nat), none ∉ ou →
      ∃ t : List Nat, l.transforms.correctOutputShape ([bt, some a.filters] ++ ou) = bt :: t.map some := by
    intro ou ho
    unfold GroupTransforms.correctOutputShape
    rw [hga]
    obtain ⟨t, ht⟩ := known_list (l := (some a.filters :: ou).take (a.group.dim + 1) ++ [some l.transforms.group.group.order] ++
      (some a.filters :: ou).drop (a.group.dim + 1)) (by
        intro hm
        have ho' : none ∉ some a.filters :: ou := by simp [ho]
        rcases List.mem_append.1 hm with hm | hm
        · rcases List.mem_append.1 hm with hm | hm
          · exact ho' (List.mem_of_mem_take hm)
          · simp at hm
        · exact ho' (List.mem_of_mem_drop hm))
    exact ⟨t, by rw [← ht]; simp⟩
  unfold GroupConv.computeOutputShape at h
  rw [f.transp, h1, h2, f.fmt, f.padding, f.strides, f.dilation, f.filters, hf] at h
  cases tr with
  | false =>
    simp only [Bool.false_eq_true, if_false] at h
    obtain ⟨out, eo, es⟩ := bind_eq_ok h
    cases es
    simp only [convOutputShape, hlen, ne_eq, not_true_eq_false, if_false, hsp] at eo
    obtain ⟨ou, em, eo⟩ := bind_eq_ok eo
    cases eo
    rw [h0]
    exact key ou (mapM_known (by intro i hi; rw [List.mem_range, f.stridesLen] at hi; omega) em)
  | true =>
    simp only [if_true] at h
    obtain ⟨out, eo, es⟩ := bind_eq_ok h
    cases es
    simp only [convTransposeOutputShape, hlen, ne_eq, not_true_eq_false, if_false, hsp] at eo
    cases eo
    rw [h0]
    refine key _ ?_
    intro hm
    obtain ⟨i, hi, e⟩ := List.mem_map.1 hm
    rw [List.mem_range, f.stridesLen, ← hn] at hi
    simp [hi] at e

/-- a shape a channels_first convolution layer can be built on is that of a signal -/
theorem built_of_first {a : ConvArgs α} {tr : Bool} {bt : Option Nat} {t : List Nat} {k0 b0 : List Nat → α} {l0 l : GroupConv α}
    (hf : a.dataFormat = .channelsFirst) {H : List Nat} (hH : a.group.group.sub (a.group.group.parseSubgroup a.subgroup) = .ok H)
    (h0 : GroupConv.init a a.group.dim tr = .ok l0) (h : l0.build (bt :: t.map some) k0 b0 = .ok l) :
    ∃ n g C, t = C :: (n ++ g.toList) ∧ BuiltConv a tr bt n g C k0 b0 H l := by
  have hlen : t.length = a.group.dim + 1 ∨ t.length = a.group.dim + 2 := by
    have h := h
    obtain ⟨s, m, opt, kp, e1, e2, e3, e4, e5, e6, e7, e8, e9, rfl⟩ := conv_init_inv h0
    unfold GroupConv.build at h
    obtain ⟨t1, ht, h⟩ := bind_eq_ok h
    obtain ⟨ch, _, h⟩ := bind_eq_ok h
    obtain ⟨os, ho, h⟩ := bind_eq_ok h
    rcases transforms_build_gv ht with hl | hl
    · right
      simpa [initTransforms] using hl
    · left
      unfold GroupConv.computeOutputShape at ho
      simp only [hl] at ho
      split at ho
      · obtain ⟨out, eo, -⟩ := bind_eq_ok ho
        unfold convTransposeOutputShape at eo
        simp only [List.length_cons, List.length_map, e6] at eo
        split at eo
        · cases eo
        · omega
      · obtain ⟨out, eo, -⟩ := bind_eq_ok ho
        unfold convOutputShape at eo
        simp only [List.length_cons, List.length_map, e6] at eo
        split at eo
        · cases eo
        · omega
  obtain ⟨n, g, C, hn, rfl, -⟩ := split_signal_first hlen
  refine ⟨n, g, C, rfl, ⟨l0, h0, ?_⟩, hn, hH⟩
  rw [hf, inputShape_first]
  exact h

/-- The layers the theorems below are about: channels_first layers on a subgroup of their group that pad nothing themselves when they
are built on this shape; pooling of signals on the group; other layers that treat the entries of a batch independently. -/
def LayerArgs.PlainFirst (L : LayerArgs α) (shape : List (Option Nat)) : Prop :=
  match L with
  | .conv a tr k0 b0 => a.dataFormat = .channelsFirst ∧ (∃ H, a.group.group.sub (a.group.group.parseSubgroup a.subgroup) = .ok H) ∧
      ∀ l0 l, GroupConv.init a a.group.dim tr = .ok l0 → l0.build shape k0 b0 = .ok l → Unpadded l.transforms
  | .pool a => a.dataFormat = .channelsFirst ∧ shape.length = a.group.dim + 3 ∧
      (∃ H, a.group.group.sub (a.group.group.parseSubgroup a.subgroup) = .ok H) ∧
      ∀ l0 l, GroupPooling.init a a.group.dim = .ok l0 → l0.build shape = .ok l → Unpadded l.transforms
  | .other f => ∀ t, Batchwise f t

/-- Convolutions on the whole group, and transposed ones on any subgroup. -/
def LayerArgs.Whole (L : LayerArgs α) : Prop :=
  match L with
  | .conv a tr _ _ =>
      tr = true ∨ ∀ H, a.group.group.sub (a.group.group.parseSubgroup a.subgroup) = .ok H → H.length = a.group.group.order
  | _ => True

/-- one layer of a model: what it announces, and when this is right -/
theorem symbolic_step_first [Field α] [LinearOrder α] {L : LayerArgs α} {bt : Option Nat} {t : List Nat}
    {f : Tensor α → Res (Tensor α)} {s : List (Option Nat)} (hp : L.PlainFirst (bt :: t.map some))
    (hs : L.symbolic (bt :: t.map some) = .ok (f, s)) {x u : Tensor α}
    {B : Nat} (hx : x.shape = B :: t) (hB : ∀ b, bt = some b → B = b) (hu : f x = .ok u) :
    ∃ t' tu, s = bt :: t'.map some ∧ u.shape = B :: tu ∧ (t' = tu ↔ L.Whole) := by
  cases L with
  | conv a tr k0 b0 =>
    obtain ⟨hf, ⟨H, hH⟩, hun⟩ := hp
    unfold LayerArgs.symbolic at hs
    obtain ⟨l0, e0, hs⟩ := bind_eq_ok hs
    obtain ⟨l, e1, hs⟩ := bind_eq_ok hs
    obtain ⟨s', e2, hs⟩ := bind_eq_ok hs
    cases hs
    replace hun := hun l0 l e0 e1
    obtain ⟨n, g, C, rfl, hl⟩ := built_of_first hf hH e0 e1
    obtain ⟨t', rfl⟩ := announced_known_first hl hf e2
    have hx' : x.shape = sigShape a.dataFormat B n g C := by rw [hx, hf, sigShape_first]
    obtain ⟨u', tu, eu, hsu, -⟩ := C36_channels_first_batchwise hl hf hun B n hl.dims x x u B B (by rw [hx, sigShape_first]; rfl) (by
      rw [hx, sigShape_first]; rfl) hu
    have hex : (∃ s, l.computeOutputShape (bt :: (C :: (n ++ g.toList)).map some) = .ok s ∧ Announces s u.shape) ↔
        (tr = true ∨ H.length = a.group.group.order) := by
      cases tr with
      | true => simpa using C28_unpadded_transposed hl hun x B hB hx' u hu (bt :: (C :: (n ++ g.toList)).map some)
      | false => simpa using C28_unpadded hl hun x B hB hx' u hu (bt :: (C :: (n ++ g.toList)).map some)
    rw [e2, hsu] at hex
    refine ⟨t', tu, rfl, hsu, ?_⟩
    rw [← announces_known hB]
    have : Announces (bt :: t'.map some) (B :: tu) ↔ ∃ s, (Except.ok (bt :: t'.map some) : Res (List (Option Nat))) = .ok s ∧ Announces s (B :: tu) :=
      ⟨fun h => ⟨_, rfl, h⟩, fun ⟨s, e, h⟩ => by cases e; exact h⟩
    rw [this, hex]
    unfold LayerArgs.Whole
    exact ⟨fun h => h.imp id fun h1 H' hH' => by rw [hH] at hH'; cases hH'; exact h1, fun h => h.imp id fun h1 => h1 H hH⟩
  | pool a =>
    obtain ⟨hf, hlen, ⟨H, hH⟩, hun⟩ := hp
    unfold LayerArgs.symbolic at hs
    obtain ⟨l0, e0, hs⟩ := bind_eq_ok hs
    obtain ⟨l, e1, hs⟩ := bind_eq_ok hs
    obtain ⟨s', e2, hs⟩ := bind_eq_ok hs
    cases hs
    replace hun := hun l0 l e0 e1
    obtain ⟨n, g, C, hn, rfl, hg⟩ := split_signal_first (d := a.group.dim) (t := t) (Or.inr (by simpa using hlen))
    obtain ⟨g, rfl⟩ := Option.ne_none_iff_exists'.1 (hg.1 (by simpa using hlen))
    have hl : BuiltPool a bt n g C H l := ⟨⟨l0, e0, by rw [hf, inputShape_first]; exact e1⟩, hn, hH⟩
    have hb := C36_channels_first_pooling_batchwise (α := α) hl hf hun B n hl.dims
    rw [sigShape_first, List.tail_cons] at hb
    obtain ⟨t', rfl, hsu⟩ := tracedShape_iff hb e2 hx hu
    exact ⟨t', t', rfl, hsu, by simp [LayerArgs.Whole]⟩
  | other f =>
    unfold LayerArgs.symbolic at hs
    obtain ⟨s', e2, hs⟩ := bind_eq_ok hs
    cases hs
    obtain ⟨t', rfl, hsu⟩ := tracedShape_iff (hp t) e2 hx hu
    exact ⟨t', t', rfl, hsu, by simp [LayerArgs.Whole]⟩

/-- C79, exactly, for channels_first layers that pad nothing themselves: in a model that has been built and runs, every layer was built
on the shape of the signals it gets (and the announced shape of the model is that of its output) if and only if all its convolutions
are on the whole group. -/
theorem C79_channels_first_exact [Field α] [LinearOrder α] (Ls : List (LayerArgs α)) (bt : Option Nat) (t : List Nat)
    (fs : List (Tensor α → Res (Tensor α))) (ss : List (List (Option Nat))) (h : buildModel Ls (bt :: t.map some) = .ok (fs, ss))
    (hp : ∀ i (hi : i < Ls.length), Ls[i].PlainFirst (ss.getD i [])) (x y : Tensor α) (B : Nat) (hx : x.shape = B :: t)
    (hB : ∀ b, bt = some b → B = b) (hy : sequential fs x = .ok y) :
    (∀ i, i ≤ Ls.length → ∀ u, sequential (fs.take i) x = .ok u → Announces (ss.getD i []) u.shape) ↔
      ∀ i (hi : i < Ls.length), Ls[i].Whole := by
  induction Ls generalizing t fs ss x with
  | nil =>
    cases h
    refine ⟨fun _ i hi => absurd hi (by simp), ?_⟩
    intro _ i hi u hu
    obtain rfl : i = 0 := by simpa using hi
    cases hu
    rw [hx]
    exact (announces_known hB).2 rfl
  | cons L Ls ih =>
    obtain ⟨f, s', fs, ss, e1, e2, rfl, rfl⟩ := buildModel_cons.1 h
    obtain ⟨u, hu, hy⟩ := sequential_cons.1 hy
    obtain ⟨t', tu, rfl, hsu, hiff⟩ := symbolic_step_first (hp 0 (by simp)) e1 hx hB hu
    have hp' : ∀ i (hi : i < Ls.length), Ls[i].PlainFirst (ss.getD i []) := fun i hi => hp (i + 1) (by simpa using hi)
    have h0 : ss.getD 0 [] = bt :: t'.map some := by
      cases Ls with
      | nil => cases e2; rfl
      | cons => obtain ⟨_, _, _, _, _, _, _, rfl⟩ := buildModel_cons.1 e2; rfl
    constructor
    · intro hall
      have h1 := hall 1 (by simp) u (sequential_cons.2 ⟨u, hu, rfl⟩)
      have h1' : t' = tu := by
        have e : ((bt :: t.map some) :: ss).getD 1 [] = bt :: t'.map some := h0
        rw [e, hsu] at h1
        exact (announces_known hB).1 h1
      subst h1'
      have := (ih t' fs ss e2 hp' u hsu hy).1 (fun i hi v hv => hall (i + 1) (by simpa using hi) v (sequential_cons.2 ⟨u, hu, hv⟩))
      intro i hi
      cases i with
      | zero => exact hiff.1 rfl
      | succ i => exact this i (by simpa using hi)
    · intro hall
      have h1' := hiff.2 (hall 0 (by simp))
      subst h1'
      have := (ih t' fs ss e2 hp' u hsu hy).2 (fun i hi => hall (i + 1) (by simpa using hi))
      intro i hi v hv
      cases i with
      | zero =>
        cases hv
        rw [hx]
        exact (announces_known hB).2 rfl
      | succ i =>
        obtain ⟨u', hu', hv⟩ := sequential_cons.1 hv
        rw [hu] at hu'
        cases hu'
        exact this i (by simpa using hi) v hv

/-- one layer: if it can be applied to a tensor, and announces what it returns, Keras can build it into a model -/
theorem symbolic_of_eager_first [Field α] [LinearOrder α] {L : LayerArgs α} {x u : Tensor α} {B : Nat} {t : List Nat}
    (hx : x.shape = B :: t) (hp : L.PlainFirst (x.shape.map some)) (hh : L.Whole) (hu : L.eager x = .ok u) :
    ∃ f tu, L.symbolic (none :: t.map some) = .ok (f, none :: tu.map some) ∧ u.shape = B :: tu ∧ f x = .ok u := by
  have hp' : L.PlainFirst (none :: t.map some) := by
    rw [hx] at hp
    cases L with
    | conv a tr k0 b0 =>
      obtain ⟨hf, hH, hun⟩ := hp
      refine ⟨hf, hH, fun l0 l e0 e1 => ?_⟩
      obtain ⟨r, e2⟩ := conv_batch e0 e1 (some B)
      exact hun l0 (l.recorded r) e0 e2
    | pool a =>
      obtain ⟨hf, hlen, hH, hun⟩ := hp
      refine ⟨hf, hlen, hH, fun l0 l e0 e1 => ?_⟩
      obtain ⟨r, e2⟩ := pool_batch e0 e1 (some B)
      exact hun l0 (l.recorded r) e0 e2
    | other f => exact hp
  suffices h : ∃ f s, L.symbolic (none :: t.map some) = .ok (f, s) ∧ f x = .ok u by
    obtain ⟨f, s, h1, h2⟩ := h
    obtain ⟨t', tu, rfl, h3, h4⟩ := symbolic_step_first (B := B) hp' h1 hx (by simp) h2
    have := h4.2 hh
    subst this
    exact ⟨f, t', h1, h3, h2⟩
  cases L with
  | conv a tr k0 b0 =>
    unfold LayerArgs.eager at hu
    obtain ⟨l0, e0, hu⟩ := bind_eq_ok hu
    obtain ⟨l, e1, hu⟩ := bind_eq_ok hu
    rw [hx] at e1
    obtain ⟨r, e2⟩ := conv_batch e0 e1 none
    have hu' : ((l.recorded r).call x).2 = .ok u := by rw [recorded_call]; exact hu
    obtain ⟨s, es⟩ := build_announces e2 (none :: t.map some)
    refine ⟨fun x => ((l.recorded r).call x).2, s, ?_, hu'⟩
    unfold LayerArgs.symbolic
    simp only [e0, res_bind_ok, e2, es]
    rfl
  | pool a =>
    obtain ⟨hf, hlen, ⟨H, hH⟩, hun⟩ := hp'
    unfold LayerArgs.eager at hu
    obtain ⟨l0, e0, hu⟩ := bind_eq_ok hu
    obtain ⟨l, e1, hu⟩ := bind_eq_ok hu
    rw [hx] at e1
    obtain ⟨r, e2⟩ := pool_batch e0 e1 none
    replace hun := hun l0 _ e0 e2
    obtain ⟨n, g, C, hn, rfl, hg⟩ := split_signal_first (d := a.group.dim) (t := t) (Or.inr (by simpa using hlen))
    obtain ⟨g, rfl⟩ := Option.ne_none_iff_exists'.1 (hg.1 (by simpa using hlen))
    have hl : BuiltPool a none n g C H (l.recorded r) := ⟨⟨l0, e0, by rw [hf, inputShape_first]; exact e2⟩, hn, hH⟩
    have hb := C36_channels_first_pooling_batchwise (α := α) hl hf hun B n hl.dims
    rw [sigShape_first, List.tail_cons] at hb
    obtain ⟨s, es⟩ := tracedShape_total hb hx hu none
    refine ⟨fun x => (l.recorded r).call x, s, ?_, hu⟩
    unfold LayerArgs.symbolic
    simp only [e0, res_bind_ok, e2, es]
    rfl
  | other f =>
    obtain ⟨s, es⟩ := tracedShape_total (hp' t) hx hu none
    refine ⟨f, s, ?_, hu⟩
    unfold LayerArgs.symbolic
    simp only [es, res_bind_ok]
    rfl

/-- C79, proved part for channels_first layers: if no layer pads anything itself and all convolutions are on the whole group then the
model can be built and computes what the layers compute one after the other. Missing: convolutions on a proper subgroup and layers that
pad; those with channels_first pad the wrong axes (C21). -/
theorem C79_channels_first_partial [Field α] [LinearOrder α] (Ls : List (LayerArgs α)) (x y : Tensor α) (B : Nat) (t : List Nat)
    (hx : x.shape = B :: t) (hy : eagerModel Ls x = .ok y)
    (hp : ∀ i (hi : i < Ls.length) u, eagerModel (Ls.take i) x = .ok u → Ls[i].PlainFirst (u.shape.map some) ∧ Ls[i].Whole) :
    ∃ fs ss, buildModel Ls (none :: t.map some) = .ok (fs, ss) ∧ sequential fs x = .ok y := by
  induction Ls generalizing x t with
  | nil =>
    cases hy
    exact ⟨[], _, rfl, rfl⟩
  | cons L Ls ih =>
    obtain ⟨u, hu, hy⟩ := bind_eq_ok (show L.eager x >>= (fun x => eagerModel Ls x) = .ok y from hy)
    obtain ⟨p1, p2⟩ := hp 0 (by simp) x rfl
    obtain ⟨f, tu, e1, hsu, hf⟩ := symbolic_of_eager_first hx p1 p2 hu
    obtain ⟨fs, ss, e2, e3⟩ := ih u tu hsu hy (by
      intro i hi v hv
      refine hp (i + 1) (by simpa using hi) v ?_
      show L.eager x >>= (fun x => eagerModel (Ls.take i) x) = _
      rw [hu]
      exact hv)
    exact ⟨f :: fs, _, buildModel_cons.2 ⟨f, _, fs, ss, e1, e2, rfl, rfl⟩, sequential_cons.2 ⟨u, hf, e3⟩⟩

/-- a layer that lifts channels_first images to P4, without padding -/
def firstLift : ConvArgs ℚ := { halfConv with group := .P4, padding := "valid", allowNonEquivariance := true, dataFormat := .channelsFirst }

/-- pooling to P2 with channels_first -/
def firstPoolQ : PoolArgs :=
  { group := .P4, subgroup := some "P2", poolType := .max, poolSize := [2, 2], strides := none, padding := "valid",
    allowNonEquivariance := true, dataFormat := .channelsFirst }

/-- a lifting layer, a layer on signals on P4, and pooling of these -/
def firstModel : List (LayerArgs ℚ) :=
  [.conv firstLift false (fun _ => 1) (fun _ => 0), .conv firstLift false (fun _ => 2) (fun _ => 0), .pool firstPoolQ]

set_option maxRecDepth 8000 in
/-- hypotheses are met: this model can be built and runs, and all its layers announce what they return -/
example : ∃ fs ss y, buildModel firstModel (none :: [3, 2, 2].map some) = .ok (fs, ss) ∧
    sequential fs ⟨[1, 3, 2, 2], fun i => nth i 2⟩ = .ok y ∧
    ∀ i, i ≤ firstModel.length → ∀ u, sequential (fs.take i) ⟨[1, 3, 2, 2], fun i => nth i 2⟩ = .ok u → Announces (ss.getD i []) u.shape := by
  obtain ⟨fs, ss, y, h1, h2, h3⟩ : ∃ fs ss y, buildModel firstModel (none :: [3, 2, 2].map some) = .ok (fs, ss) ∧
      sequential fs ⟨[1, 3, 2, 2], fun i => nth i 2⟩ = .ok y ∧
      ∀ i (hi : i < firstModel.length), firstModel[i].PlainFirst (ss.getD i []) := by
    refine ⟨_, _, _, rfl, rfl, fun i hi => ?_⟩
    match i, hi with
    | 0, _ => exact ⟨rfl, ⟨_, rfl⟩, fun l0 l e0 e1 => by cases e0; cases e1; rfl⟩
    | 1, _ => exact ⟨rfl, ⟨_, rfl⟩, fun l0 l e0 e1 => by cases e0; cases e1; rfl⟩
    | 2, _ => exact ⟨rfl, rfl, ⟨_, rfl⟩, fun l0 l e0 e1 => by cases e0; cases e1; rfl⟩
  refine ⟨fs, ss, y, h1, h2, (C79_channels_first_exact _ none [3, 2, 2] fs ss h1 h3 _ y 1 rfl (by simp) h2).2 fun i hi => ?_⟩
  match i, hi with
  | 0, _ => exact Or.inr fun H hH => by cases hH; rfl
  | 1, _ => exact Or.inr fun H hH => by cases hH; rfl
  | 2, _ => exact trivial

end GroCo
