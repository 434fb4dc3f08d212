import Verif.SequentialLemmas
import Verif.Props.Notebook

/-
Property C79: models made of layers, as `keras.Sequential` builds them.
-/

namespace GroCo
open Tensor

variable {α : Type}

/-- C79 as stated: if layers can be applied one after the other to a tensor then the model made of them can be built for tensors of
this shape, and computes the same. -/
def ModelsAsLayers : Prop :=
  ∀ (Ls : List (LayerArgs ℚ)) (x y : Tensor ℚ), eagerModel Ls x = .ok y →
    ∃ fs ss, buildModel Ls (none :: x.shape.tail.map some) = .ok (fs, ss) ∧ sequential fs x = .ok y

/-- The layers the theorems are about: channels_last, on a subgroup of their group; pooling of signals on the group; other layers that
treat the entries of a batch independently. -/
def LayerArgs.Plain (L : LayerArgs α) (shape : List (Option Nat)) : Prop :=
  match L with
  | .conv a _ _ _ => a.dataFormat = .channelsLast ∧ ∃ H, a.group.group.sub (a.group.group.parseSubgroup a.subgroup) = .ok H
  | .pool a => a.dataFormat = .channelsLast ∧ shape.length = a.group.dim + 3 ∧
      ∃ H, a.group.group.sub (a.group.group.parseSubgroup a.subgroup) = .ok H
  | .other f => ∀ t, Batchwise f t

/-- Convolutions on the whole group, and transposed ones on any subgroup, whose padding layer adds nothing to a signal of this
shape. -/
def LayerArgs.Honest (L : LayerArgs α) (shape : List (Option Nat)) : Prop :=
  match L with
  | .conv a tr _ _ =>
      (tr = true ∨ ∀ H, a.group.group.sub (a.group.group.parseSubgroup a.subgroup) = .ok H → H.length = a.group.group.order) ∧
      ∀ opt, formatPaddingOption a.padding = .ok opt → opt = .valid ∨ opt = .same ∨ ∀ i m, i < a.group.dim →
        shape.getD (i + 1) none = some m → Symmetric m (nth a.kernelSize i) (nth a.strides i) (ownZeros tr opt m (nth a.kernelSize i) (nth a.strides i))
  | _ => True

/-- one layer of a model: what it announces, and when this is right -/
theorem symbolic_step [Field α] [LinearOrder α] {L : LayerArgs α} {bt : Option Nat} {t : List Nat} {f : Tensor α → Res (Tensor α)}
    {s : List (Option Nat)} (hp : L.Plain (bt :: t.map some)) (hs : L.symbolic (bt :: t.map some) = .ok (f, s)) {x u : Tensor α}
    {B : Nat} (hx : x.shape = B :: t) (hB : ∀ b, bt = some b → B = b) (hu : f x = .ok u) :
    ∃ t' tu, s = bt :: t'.map some ∧ u.shape = B :: tu ∧ (t' = tu ↔ L.Honest (bt :: t.map some)) := by
  cases L with
  | conv a tr k0 b0 =>
    obtain ⟨hf, H, hH⟩ := hp
    unfold LayerArgs.symbolic at hs
    obtain ⟨l0, e0, hs⟩ := bind_eq_ok hs
    obtain ⟨l, e1, hs⟩ := bind_eq_ok hs
    obtain ⟨s', e2, hs⟩ := bind_eq_ok hs
    cases hs
    obtain ⟨n, g, C, rfl, hl⟩ := built_of hf hH e0 e1
    obtain ⟨t', rfl⟩ := announced_known hl hf e2
    have hx' : x.shape = sigShape .channelsLast B n g C := by rw [hx, sigShape_last]
    obtain ⟨opt, kp, hopt, -, -, -⟩ := hl.facts_last hf
    obtain ⟨u', tu, eu, hsu, -⟩ := C36_layers_batchwise hl hf B n hl.dims x x u B B (by rw [hx, sigShape_last]; rfl) (by
      rw [hx, sigShape_last]; rfl) hu
    have hex : (∃ s, l.computeOutputShape (bt :: (n ++ g.toList ++ [C]).map some) = .ok s ∧ Announces s u.shape) ↔
        (tr = true ∨ H.length = a.group.group.order) ∧ (opt = .valid ∨ opt = .same ∨ ∀ i, i < a.group.dim →
          Symmetric (nth n i) (nth a.kernelSize i) (nth a.strides i) (ownZeros tr opt (nth n i) (nth a.kernelSize i) (nth a.strides i))) := by
      cases tr with
      | true => simpa using C28_transposed_exact hl hf opt hopt x B hB hx' u hu (bt :: (n ++ g.toList ++ [C]).map some)
      | false =>
        have := C28_exact hl hf opt hopt x B hB hx' u hu (bt :: (n ++ g.toList ++ [C]).map some)
        have e : ∀ n k s, builtIn opt n k s = ownZeros false opt n k s := by
          intro n k s
          cases opt <;> rfl
        simpa [e] using this
    rw [e2, hsu] at hex
    refine ⟨t', tu, rfl, hsu, ?_⟩
    rw [← announces_known hB]
    have : Announces (bt :: t'.map some) (B :: tu) ↔ ∃ s, (Except.ok (bt :: t'.map some) : Res (List (Option Nat))) = .ok s ∧ Announces s (B :: tu) :=
      ⟨fun h => ⟨_, rfl, h⟩, fun ⟨s, e, h⟩ => by cases e; exact h⟩
    rw [this, hex]
    unfold LayerArgs.Honest
    have hget : ∀ i, i < a.group.dim → (bt :: (n ++ g.toList ++ [C]).map some).getD (i + 1) none = some (nth n i) := by
      intro i hi
      rw [← hl.dims] at hi
      simp [nth, hi, List.getElem?_append]
    constructor
    · rintro ⟨h1, h2⟩
      refine ⟨h1.imp id fun h1 H' hH' => by rw [hH] at hH'; cases hH'; exact h1, ?_⟩
      intro opt' hopt'
      rw [hopt] at hopt'
      cases hopt'
      refine h2.imp id (Or.imp id ?_)
      intro h i m hi hm
      rw [hget i hi] at hm
      cases hm
      exact h i hi
    · rintro ⟨h1, h2⟩
      refine ⟨h1.imp id fun h1 => h1 H hH, (h2 opt hopt).imp id (Or.imp id ?_)⟩
      intro h i hi
      exact h i _ hi (hget i hi)
  | pool a =>
    obtain ⟨hf, hlen, H, hH⟩ := hp
    unfold LayerArgs.symbolic at hs
    obtain ⟨l0, e0, hs⟩ := bind_eq_ok hs
    obtain ⟨l, e1, hs⟩ := bind_eq_ok hs
    obtain ⟨s', e2, hs⟩ := bind_eq_ok hs
    cases hs
    obtain ⟨n, g, C, hn, rfl, hg⟩ := split_signal (d := a.group.dim) (t := t) (Or.inr (by simpa using hlen))
    obtain ⟨g, rfl⟩ := Option.ne_none_iff_exists'.1 (hg.1 (by simpa using hlen))
    have hl : BuiltPool a bt n g C H l := ⟨⟨l0, e0, by rw [hf, inputShape_last]; exact e1⟩, hn, hH⟩
    have hb := C36_pooling_batchwise (α := α) hl hf B n hl.dims
    rw [sigShape_last, List.tail_cons] at hb
    obtain ⟨t', rfl, hsu⟩ := tracedShape_iff hb e2 hx hu
    exact ⟨t', t', rfl, hsu, by simp [LayerArgs.Honest]⟩
  | other f =>
    unfold LayerArgs.symbolic at hs
    obtain ⟨s', e2, hs⟩ := bind_eq_ok hs
    cases hs
    obtain ⟨t', rfl, hsu⟩ := tracedShape_iff (hp t) e2 hx hu
    exact ⟨t', t', rfl, hsu, by simp [LayerArgs.Honest]⟩

theorem sequential_cons {f : Tensor α → Res (Tensor α)} {fs : List (Tensor α → Res (Tensor α))} {x y : Tensor α} :
    sequential (f :: fs) x = .ok y ↔ ∃ u, f x = .ok u ∧ sequential fs u = .ok y := by
  constructor
  · intro h
    exact bind_eq_ok h
  · rintro ⟨u, h1, h2⟩
    show (f x >>= fun x => sequential fs x) = _
    rw [h1]
    exact h2

theorem buildModel_cons [Field α] [LinearOrder α] {L : LayerArgs α} {Ls : List (LayerArgs α)} {s : List (Option Nat)}
    {fs : List (Tensor α → Res (Tensor α))} {ss : List (List (Option Nat))} :
    buildModel (L :: Ls) s = .ok (fs, ss) ↔ ∃ f s' fs' ss', L.symbolic s = .ok (f, s') ∧ buildModel Ls s' = .ok (fs', ss') ∧
      fs = f :: fs' ∧ ss = s :: ss' := by
  constructor
  · intro h
    obtain ⟨⟨f, s'⟩, e1, h⟩ := bind_eq_ok h
    obtain ⟨⟨fs', ss'⟩, e2, h⟩ := bind_eq_ok h
    cases h
    exact ⟨f, s', fs', ss', e1, e2, rfl, rfl⟩
  · rintro ⟨f, s', fs', ss', e1, e2, rfl, rfl⟩
    unfold buildModel
    rw [e1]
    simp only [res_bind_ok, e2]
    rfl

/-- C79, exactly: in a model that has been built and runs, every layer was built on the shape of the signals it gets (and the announced
shape of the model is that of its output) if and only if all its convolutions are on the whole group and pad nothing. -/
theorem C79_exact [Field α] [LinearOrder α] (Ls : List (LayerArgs α)) (bt : Option Nat) (t : List Nat)
    (fs : List (Tensor α → Res (Tensor α))) (ss : List (List (Option Nat))) (h : buildModel Ls (bt :: t.map some) = .ok (fs, ss))
    (hp : ∀ i (hi : i < Ls.length), Ls[i].Plain (ss.getD i [])) (x y : Tensor α) (B : Nat) (hx : x.shape = B :: t)
    (hB : ∀ b, bt = some b → B = b) (hy : sequential fs x = .ok y) :
    (∀ i, i ≤ Ls.length → ∀ u, sequential (fs.take i) x = .ok u → Announces (ss.getD i []) u.shape) ↔
      ∀ i (hi : i < Ls.length), Ls[i].Honest (ss.getD i []) := by
  induction Ls generalizing t fs ss x with
  | nil =>
    cases h
    refine ⟨fun _ i hi => absurd hi (by simp), ?_⟩
    intro _ i hi u hu
    obtain rfl : i = 0 := by simpa using hi
    cases hu
    rw [hx]
    exact (announces_known hB).2 rfl
  | cons L Ls ih =>
    obtain ⟨f, s', fs, ss, e1, e2, rfl, rfl⟩ := buildModel_cons.1 h
    obtain ⟨u, hu, hy⟩ := sequential_cons.1 hy
    obtain ⟨t', tu, rfl, hsu, hiff⟩ := symbolic_step (hp 0 (by simp)) e1 hx hB hu
    have hp' : ∀ i (hi : i < Ls.length), Ls[i].Plain (ss.getD i []) := fun i hi => hp (i + 1) (by simpa using hi)
    have h0 : ss.getD 0 [] = bt :: t'.map some := by
      cases Ls with
      | nil => cases e2; rfl
      | cons => obtain ⟨_, _, _, _, _, _, _, rfl⟩ := buildModel_cons.1 e2; rfl
    constructor
    · intro hall
      have h1 := hall 1 (by simp) u (sequential_cons.2 ⟨u, hu, rfl⟩)
      have h1' : t' = tu := by
        have e : ((bt :: t.map some) :: ss).getD 1 [] = bt :: t'.map some := h0
        rw [e, hsu] at h1
        exact (announces_known hB).1 h1
      subst h1'
      have := (ih t' fs ss e2 hp' u hsu hy).1 (fun i hi v hv => hall (i + 1) (by simpa using hi) v (sequential_cons.2 ⟨u, hu, hv⟩))
      intro i hi
      cases i with
      | zero => exact hiff.1 rfl
      | succ i => exact this i (by simpa using hi)
    · intro hall
      have h1' := hiff.2 (hall 0 (by simp))
      subst h1'
      have := (ih t' fs ss e2 hp' u hsu hy).2 (fun i hi => hall (i + 1) (by simpa using hi))
      intro i hi v hv
      cases i with
      | zero =>
        cases hv
        rw [hx]
        exact (announces_known hB).2 rfl
      | succ i =>
        obtain ⟨u', hu', hv⟩ := sequential_cons.1 hv
        rw [hu] at hu'
        cases hu'
        exact this i (by simpa using hi) v hv

/-- one layer: if it can be applied to a tensor, and announces what it returns, Keras can build it into a model -/
theorem symbolic_of_eager [Field α] [LinearOrder α] {L : LayerArgs α} {x u : Tensor α} {B : Nat} {t : List Nat} (hx : x.shape = B :: t)
    (hp : L.Plain (x.shape.map some)) (hh : L.Honest (x.shape.map some)) (hu : L.eager x = .ok u) :
    ∃ f tu, L.symbolic (none :: t.map some) = .ok (f, none :: tu.map some) ∧ u.shape = B :: tu ∧ f x = .ok u := by
  suffices h : ∃ f s, L.symbolic (none :: t.map some) = .ok (f, s) ∧ f x = .ok u by
    obtain ⟨f, s, h1, h2⟩ := h
    have hp' : L.Plain (none :: t.map some) := by
      rw [hx] at hp
      cases L with
      | conv a tr k0 b0 => exact hp
      | pool a => exact hp
      | other f => exact hp
    have hh' : L.Honest (none :: t.map some) := by
      rw [hx] at hh
      cases L with
      | conv a tr k0 b0 => cases tr <;> exact hh
      | pool a => trivial
      | other f => trivial
    obtain ⟨t', tu, rfl, h3, h4⟩ := symbolic_step (B := B) hp' h1 hx (by simp) h2
    have := h4.2 hh'
    subst this
    exact ⟨f, t', h1, h3, h2⟩
  rw [hx] at hp hh
  cases L with
  | conv a tr k0 b0 =>
    obtain ⟨hf, H, hH⟩ := hp
    unfold LayerArgs.eager at hu
    obtain ⟨l0, e0, hu⟩ := bind_eq_ok hu
    obtain ⟨l, e1, hu⟩ := bind_eq_ok hu
    rw [hx] at e1
    obtain ⟨r, e2⟩ := conv_batch e0 e1 none
    have hu' : ((l.recorded r).call x).2 = .ok u := by rw [recorded_call]; exact hu
    obtain ⟨n, g, C, rfl, hl⟩ := built_of hf hH e0 e2
    have hx' : x.shape = sigShape .channelsLast B n g C := by rw [hx, sigShape_last]
    obtain ⟨s, es⟩ := build_announces e2 (none :: (n ++ g.toList ++ [C]).map some)
    refine ⟨fun x => ((l.recorded r).call x).2, s, ?_, hu'⟩
    unfold LayerArgs.symbolic
    simp only [e0, res_bind_ok, e2, es]
    rfl
  | pool a =>
    obtain ⟨hf, hlen, H, hH⟩ := hp
    unfold LayerArgs.eager at hu
    obtain ⟨l0, e0, hu⟩ := bind_eq_ok hu
    obtain ⟨l, e1, hu⟩ := bind_eq_ok hu
    rw [hx] at e1
    obtain ⟨r, e2⟩ := pool_batch e0 e1 none
    obtain ⟨n, g, C, hn, rfl, hg⟩ := split_signal (d := a.group.dim) (t := t) (Or.inr (by simpa using hlen))
    obtain ⟨g, rfl⟩ := Option.ne_none_iff_exists'.1 (hg.1 (by simpa using hlen))
    have hl : BuiltPool a none n g C H (l.recorded r) := ⟨⟨l0, e0, by rw [hf, inputShape_last]; exact e2⟩, hn, hH⟩
    have hb := C36_pooling_batchwise (α := α) hl hf B n hl.dims
    rw [sigShape_last, List.tail_cons] at hb
    obtain ⟨s, es⟩ := tracedShape_total hb hx hu none
    refine ⟨fun x => (l.recorded r).call x, s, ?_, hu⟩
    unfold LayerArgs.symbolic
    simp only [e0, res_bind_ok, e2, es]
    rfl
  | other f =>
    obtain ⟨s, es⟩ := tracedShape_total (hp t) hx hu none
    refine ⟨f, s, ?_, hu⟩
    unfold LayerArgs.symbolic
    simp only [es, res_bind_ok]
    rfl

/-- C79, proved part: if all convolutions are on the whole group and pad nothing then the model can be built and computes what the
layers compute one after the other. Missing: convolutions on a proper subgroup (`C79_violation_subgroup`) and convolutions that pad
(`C79_violation_padding`). -/
theorem C79_model_partial [Field α] [LinearOrder α] (Ls : List (LayerArgs α)) (x y : Tensor α) (B : Nat) (t : List Nat)
    (hx : x.shape = B :: t) (hy : eagerModel Ls x = .ok y)
    (hp : ∀ i (hi : i < Ls.length) u, eagerModel (Ls.take i) x = .ok u → Ls[i].Plain (u.shape.map some) ∧ Ls[i].Honest (u.shape.map some)) :
    ∃ fs ss, buildModel Ls (none :: t.map some) = .ok (fs, ss) ∧ sequential fs x = .ok y := by
  induction Ls generalizing x t with
  | nil =>
    cases hy
    exact ⟨[], _, rfl, rfl⟩
  | cons L Ls ih =>
    obtain ⟨u, hu, hy⟩ := bind_eq_ok (show L.eager x >>= (fun x => eagerModel Ls x) = .ok y from hy)
    obtain ⟨p1, p2⟩ := hp 0 (by simp) x rfl
    obtain ⟨f, tu, e1, hsu, hf⟩ := symbolic_of_eager hx p1 p2 hu
    obtain ⟨fs, ss, e2, e3⟩ := ih u tu hsu hy (by
      intro i hi v hv
      refine hp (i + 1) (by simpa using hi) v ?_
      show L.eager x >>= (fun x => eagerModel (Ls.take i) x) = _
      rw [hu]
      exact hv)
    exact ⟨f :: fs, _, buildModel_cons.2 ⟨f, _, fs, ss, e1, e2, rfl, rfl⟩, sequential_cons.2 ⟨u, hf, e3⟩⟩

/-- a layer on P4 with the subgroup P2 -/
def quarterConv : ConvArgs ℚ :=
  { group := .P4, subgroup := some "P2", kernelSize := [1, 1], strides := [1, 1], padding := "valid_equiv",
    allowNonEquivariance := false, dataFormat := .channelsLast, filters := 1, dilation := [1, 1], useBias := false,
    activation := id }

/-- a layer for its output, signals on P2 -/
def halfConv : ConvArgs ℚ := { quarterConv with group := .P2, subgroup := some "" }

/-- C79 fails for convolutions on a proper subgroup: a P4 convolution with subgroup P2 and a P2 convolution can be applied one after
the other, but making a model of them raises AssertionError, since the first announces four group elements. -/
theorem C79_violation_subgroup : ¬ ModelsAsLayers := by
  intro h
  obtain ⟨fs, ss, h1, -⟩ := h [.conv quarterConv false (fun _ => 1) (fun _ => 0), .conv halfConv false (fun _ => 1) (fun _ => 0)]
    ⟨[1, 1, 1, 1], fun _ => 1⟩ _ rfl
  have : buildModel [.conv quarterConv false (fun _ => 1) (fun _ => 0), .conv halfConv false (fun _ => 1) (fun _ => 0)]
    (none :: [1, 1, 1].map some) = .error .assertion := rfl
  rw [show (⟨[1, 1, 1, 1], fun _ => 1⟩ : Tensor ℚ).shape.tail = [1, 1, 1] from rfl, this] at h1
  cases h1

/-- a P2 layer that pads 5 x 5 images to 9 x 9 and returns 3 x 3 images, but announces 1 x 1 -/
def thirdConv : ConvArgs ℚ :=
  { group := .P2, subgroup := some "", kernelSize := [3, 3], strides := [3, 3], padding := "valid_equiv",
    allowNonEquivariance := false, dataFormat := .channelsLast, filters := 1, dilation := [1, 1], useBias := false,
    activation := id }

/-- a P2 layer that pads nothing if built on 1 x 1 images -/
def fourthConv : ConvArgs ℚ := { thirdConv with kernelSize := [1, 1], strides := [4, 4] }

/-- C79 fails for convolutions that pad: the next layer is built on the sizes announced, not on those it gets, and so does not pad as it
should. The model of two such layers, both built with `allow_non_equivariance=False`, returns another shape than the layers one after
the other. -/
theorem C79_violation_padding : ¬ ModelsAsLayers := by
  intro h
  obtain ⟨fs, ss, h1, h2⟩ := h [.conv thirdConv false (fun _ => 1) (fun _ => 0), .conv fourthConv false (fun _ => 1) (fun _ => 0)]
    ⟨[1, 5, 5, 1], fun _ => 1⟩ _ rfl
  cases h1
  have := congrArg (fun r : Res (Tensor ℚ) => r.map Tensor.shape) h2
  revert this
  decide +kernel

/-- ... and is not equivariant, without any warning. -/
theorem C79_violation_equivariance : ∃ fs ss y,
    buildModel [.conv thirdConv false (fun _ => 1) (fun _ => 0), .conv fourthConv false (fun _ => 1) (fun _ => 0)]
      (none :: [5, 5, 1].map some) = .ok (fs, ss) ∧
    sequential fs ⟨[1, 5, 5, 1], fun i => if i = [0, 0, 0, 0] then 1 else 0⟩ = .ok y ∧
    ¬ Commutes GroupName.P2.group 2 .channelsLast (some "") 2 none (some "") (sequential fs)
      ⟨[1, 5, 5, 1], fun i => if i = [0, 0, 0, 0] then 1 else 0⟩ y := by
  refine ⟨_, _, _, rfl, rfl, ?_⟩
  intro h
  have := h.not_differ rfl (i := 1) (by decide) [0, 0, 0, 0, 0]
  revert this
  decide +kernel

/-- a convolution of the notebook as a layer of a model -/
theorem symbolic_notebook_conv [Field α] [LinearOrder α] {n s : GroupName} {F C h w : Nat} {act : α → α}
    {g : Option Nat} {k0 b0 : List Nat → α} {l : GroupConv α} {acting : Option String} {order : Nat}
    (hl : BuiltConv (notebookConv s F act) false none [h + 2, w + 2] g C k0 b0 (List.range s.group.order) l) {on on' : Option String}
    (E : EquivariantLayer n .channelsLast acting order ⟨[h + 2, w + 2], g, C, on⟩ ⟨[h, w], some s.group.order, F, on'⟩
      (fun x => (l.call x).2)) :
    (LayerArgs.conv (notebookConv s F act) false k0 b0).symbolic (none :: ([h + 2, w + 2] ++ g.toList ++ [C]).map some) =
      .ok (fun x => (l.call x).2, none :: [h, w, s.group.order, F].map some) := by
  obtain ⟨l0, e0, e1⟩ := hl.built
  have e1' : l0.build (none :: ([h + 2, w + 2] ++ g.toList ++ [C]).map some) k0 b0 = .ok l := by
    rw [← inputShape_last]
    exact e1
  obtain ⟨out, es⟩ := build_announces e1' (none :: ([h + 2, w + 2] ++ g.toList ++ [C]).map some)
  have hsym : (LayerArgs.conv (notebookConv s F act) false k0 b0).symbolic (none :: ([h + 2, w + 2] ++ g.toList ++ [C]).map some) =
      .ok (fun x => (l.call x).2, out) := by
    unfold LayerArgs.symbolic
    have e0' : GroupConv.init (notebookConv s F act) (notebookConv s F act).group.dim false = .ok l0 := e0
    simp only [e0', res_bind_ok, e1', es]
    rfl
  obtain ⟨y, ey, hy, -⟩ := E.2 ⟨_, fun _ => 0⟩ 1 rfl
  obtain ⟨t', tu, rfl, hu, hiff⟩ := symbolic_step (L := .conv (notebookConv s F act) false k0 b0) (B := 1)
    (x := ⟨sigShape .channelsLast 1 [h + 2, w + 2] g C, fun _ => 0⟩) ⟨rfl, ⟨_, hl.elements⟩⟩ hsym (sigShape_last ..) (by simp) ey
  have hh := hiff.2 ⟨.inr fun H hH => by
    have := hl.elements
    rw [hH] at this
    cases this
    simp [notebookConv, usualConv], fun opt ho => .inl (by
      rw [show formatPaddingOption (notebookConv s F act).padding = .ok .valid from (by decide : formatPaddingOption "valid" = .ok .valid)] at ho
      cases ho
      rfl)⟩
  rw [hy, show SignalKind.shape ⟨[h, w], some s.group.order, F, on'⟩ .channelsLast 1 = 1 :: [h, w, s.group.order, F] from rfl] at hu
  cases hu
  rw [hsym, hh]

/-- a pooling layer of the notebook as a layer of a model -/
theorem symbolic_notebook_pool [Field α] [LinearOrder α] {n s : GroupName} {t : PoolType} {sub : String} {k C h w h' w' g : Nat}
    {H : List Nat} {l : GroupPooling} {acting : Option String} {order : Nat}
    (hl : BuiltPool (notebookPool s sub t k) none [h, w] g C H l) {on on' : Option String}
    (E : EquivariantLayer n .channelsLast acting order ⟨[h, w], some g, C, on⟩ ⟨[h', w'], some H.length, C, on'⟩
      (fun x : Tensor α => l.call x)) :
    (LayerArgs.pool (notebookPool s sub t k)).symbolic (none :: [h, w, g, C].map some) =
      .ok (fun x : Tensor α => l.call x, none :: [h', w', H.length, C].map some) := by
  obtain ⟨l0, e0, e1⟩ := hl.built
  have e1' : l0.build (none :: [h, w, g, C].map some) = .ok l := e1
  have e0' : GroupPooling.init (notebookPool s sub t k) (notebookPool s sub t k).group.dim = .ok l0 := e0
  have ht : tracedShape (fun x : Tensor α => l.call x) (none :: [h, w, g, C].map some) = .ok (none :: [h', w', H.length, C].map some) := by
    apply tracedShape_ok
    intro x B hx
    obtain ⟨y, ey, hy, -⟩ := E.2 x B hx
    exact ⟨y, ey, hy⟩
  unfold LayerArgs.symbolic
  simp only [e0', res_bind_ok, e1', ht]
  rfl

/-- another layer of the notebook as a layer of a model -/
theorem symbolic_other [Field α] [LinearOrder α] {f : Tensor α → Res (Tensor α)} {t t' : List Nat}
    (h : ∀ (x : Tensor α) (B : Nat), x.shape = B :: t → ∃ y, f x = .ok y ∧ y.shape = B :: t') :
    (LayerArgs.other f).symbolic (none :: t.map some) = .ok (f, none :: t'.map some) := by
  unfold LayerArgs.symbolic
  simp only [tracedShape_ok (bt := none) h, res_bind_ok]
  rfl

theorem global3D_shape [Field α] [LinearOrder α] (t : PoolType) {h w g C : Nat} (hh : h ≠ 0) (hw : w ≠ 0) (hg : g ≠ 0) (x : Tensor α)
    (B : Nat) (hx : x.shape = B :: [h, w, g, C]) : ∃ y, global3D t x = .ok y ∧ y.shape = B :: [C] := by
  unfold global3D kerasGlobalPool
  have hr : x.rank = 5 := by simp [rank, hx]
  have hsp : spatialShapeOf .channelsLast 3 x.shape = [h, w, g] := by simp [spatialShapeOf, hx]
  simp only [hsp, hr]
  rw [if_neg (by simp; omega)]
  exact ⟨_, rfl, by simp [hx, nth]⟩

theorem denseHead_shape (classes : Nat) (dense : List α → Nat → α) {C : Nat} (x : Tensor α) (B : Nat) (hx : x.shape = B :: [C]) :
    ∃ y, denseHead classes dense x = .ok y ∧ y.shape = B :: [classes] := by
  unfold denseHead
  rw [hx]
  exact ⟨_, rfl, rfl⟩

/-- C79 for the network of the notebook: `keras.Sequential` builds every layer on the shape of the signals it gets, so the model is
the invariant one of C78. -/
theorem C79_notebook [Field α] [LinearOrder α] [IsStrictOrderedRing α] (n : GroupName) (hn : n.dim = 2) (h w : Nat)
    (hm : n.Grid [h, w]) (hh : 4 < h) (hw : 4 < w) (F1 F2 F3 F4 C classes : Nat) (hF1 : 0 < F1) (hF2 : 0 < F2) (hF3 : 0 < F3)
    (hF4 : 0 < F4) (act : α → α) (w1 w2 w3 w4 b1 b2 b3 b4 : List Nat → α) (t : PoolType) (dense : List α → Nat → α) :
    ∃ fs ss, buildModel [.conv (notebookConv n F1 act) false w1 b1, .conv (notebookConv n F2 act) false w2 b2,
        .pool (notebookPool n "" t 2), .conv (notebookConv n F3 act) false w3 b3, .conv (notebookConv n F4 act) false w4 b4,
        .other (global3D t), .other (denseHead classes dense)] (none :: [h * 2 + 4, w * 2 + 4, C].map some) = .ok (fs, ss) ∧
      ss.getLast? = some [none, some classes] ∧ Batchwise (sequential fs) [h * 2 + 4, w * 2 + 4, C] ∧
      ∀ (x : Tensor α) (B : Nat), x.shape = [B, h * 2 + 4, w * 2 + 4, C] →
        ∃ y gx, sequential fs x = .ok y ∧ y.shape = [B, classes] ∧ n.group.action x [1, 2] 0 none (some "") none = .ok gx ∧
          gx.shape = n.group.order :: x.shape ∧ ∀ i, i < n.group.order → ∃ z, sequential fs (slice gx 0 i) = .ok z ∧ z.Same y := by
  have hown := n.sym.tab.own
  have hsub := own_sub n
  have conv := fun F hF a b ha hb hg g hgg C k0 b0 => notebook_conv (α := α) n n hn _ hown (some "") _ hsub (fun _ h => h) F hF act a b ha hb
    hg g hgg C k0 b0
  obtain ⟨l1, B1, E1⟩ := conv F1 hF1 (h * 2 + 2) (w * 2 + 2) (by omega) (by omega) (grid_two hn hm (· * 2 + 2)) none (.inl rfl) C w1 b1
  obtain ⟨l2, B2, E2⟩ := conv F2 hF2 (h * 2) (w * 2) (by omega) (by omega) (grid_two hn hm (· * 2)) _ (.inr rfl) F1 w2 b2
  obtain ⟨l3, B3, E3⟩ := notebook_pool (α := α) n n hn _ hown "" _ hsub (some "") _ hsub (own_map _) t 2 h w (by omega) (by omega)
    (by omega) hm F2
  obtain ⟨l4, B4, E4⟩ := conv F3 hF3 (h - 2) (w - 2) (by omega) (by omega) (grid_two hn hm (· - 2)) _ (.inr rfl) F2 w3 b3
  obtain ⟨l5, B5, E5⟩ := conv F4 hF4 (h - 2 - 2) (w - 2 - 2) (by omega) (by omega) (grid_two hn hm (· - 2 - 2)) _ (.inr rfl) F3 w4 b4
  have S1 := symbolic_notebook_conv B1 E1
  have S2 := symbolic_notebook_conv B2 E2
  have S3 := symbolic_notebook_pool B3 E3
  have S4 := symbolic_notebook_conv B4 E4
  have S5 := symbolic_notebook_conv B5 E5
  rw [show h - 2 + 2 = h by omega, show w - 2 + 2 = w by omega] at B4 S4
  rw [show h - 2 - 2 + 2 = h - 2 by omega, show w - 2 - 2 + 2 = w - 2 by omega] at B5 S5
  rw [List.length_range] at S3
  have hno : n.group.order ≠ 0 := by cases n <;> decide
  have S6 := symbolic_other (global3D_shape (α := α) t (C := F4) (show h - 2 - 2 ≠ 0 by omega) (show w - 2 - 2 ≠ 0 by omega) hno)
  have S7 := symbolic_other (denseHead_shape (α := α) classes dense (C := F4))
  refine ⟨_, _, buildModel_cons.2 ⟨_, _, _, _, S1, buildModel_cons.2 ⟨_, _, _, _, S2, buildModel_cons.2 ⟨_, _, _, _, S3,
    buildModel_cons.2 ⟨_, _, _, _, S4, buildModel_cons.2 ⟨_, _, _, _, S5, buildModel_cons.2 ⟨_, _, _, _, S6,
    buildModel_cons.2 ⟨_, _, _, _, S7, rfl, rfl, rfl⟩, rfl, rfl⟩, rfl, rfl⟩, rfl, rfl⟩, rfl, rfl⟩, rfl, rfl⟩, rfl, rfl⟩, rfl, ?_⟩
  obtain ⟨l1', l2', l3', l4', l5', B1', B2', B3', B4', B5', hall⟩ := C78_network n hn h w hm hh hw F1 F2 F3 F4 C classes hF1 hF2 hF3 hF4 act
    w1 w2 w3 w4 b1 b2 b3 b4 t dense
  cases B1.unique B1'
  cases B2.unique B2'
  cases B3.unique B3'
  cases B4.unique B4'
  cases B5.unique B5'
  refine ⟨(hall ⟨[0, h * 2 + 4, w * 2 + 4, C], fun _ => 0⟩ 0 rfl).1, ?_⟩
  intro x B hx
  obtain ⟨-, -, y, gx, h1, h2, h3, h4, h5, -⟩ := hall x B hx
  exact ⟨y, gx, h1, h2, h3, h4, h5⟩

/-- C79 for the network of the notebook with different groups: also the models of which the layers pass to subgroups. The convolutions
are on the whole of their group, it is the pooling layers that pass to a subgroup. -/
theorem C79_notebook_subgroups [Field α] [LinearOrder α] (n s r : GroupName) (hn : n.dim = 2) (P Q : List Nat)
    (hP : lookup n.group.subgroup s.group.name = .ok P) (hQ : lookup s.group.subgroup r.group.name = .ok Q)
    (h w : Nat) (hm : n.Grid [h, w]) (hh : 4 < h) (hw : 4 < w) (F1 F2 F3 F4 C classes : Nat) (hF1 : 0 < F1) (hF2 : 0 < F2)
    (hF3 : 0 < F3) (hF4 : 0 < F4) (act : α → α) (w1 w2 w3 w4 b1 b2 b3 b4 : List Nat → α) (t : PoolType) (dense : List α → Nat → α) :
    ∃ fs ss A, buildModel [.conv (notebookConv n F1 act) false w1 b1, .conv (notebookConv n F2 act) false w2 b2,
        .pool (notebookPool n s.group.name t 2), .conv (notebookConv s F3 act) false w3 b3, .pool (notebookPool s r.group.name t 1),
        .conv (notebookConv r F4 act) false w4 b4, .other (global3D t), .other (denseHead classes dense)]
        (none :: [h * 2 + 4, w * 2 + 4, C].map some) = .ok (fs, ss) ∧
      ss.getLast? = some [none, some classes] ∧ lookup n.group.subgroup r.group.name = .ok A ∧
      Batchwise (sequential fs) [h * 2 + 4, w * 2 + 4, C] ∧
      ∀ (x : Tensor α) (B : Nat), x.shape = [B, h * 2 + 4, w * 2 + 4, C] →
        ∃ y gx, sequential fs x = .ok y ∧ y.shape = [B, classes] ∧ n.group.action x [1, 2] 0 none (some "") none = .ok gx ∧
          gx.shape = n.group.order :: x.shape ∧ ∀ e ∈ A, ∃ z, sequential fs (slice gx 0 e) = .ok z ∧ z.Same y := by
  have hown := n.sym.tab.own
  have hsub := own_sub n
  have hR := C59_nested n s r P Q hP hQ
  have hA : n.group.sub (n.group.parseSubgroup (some r.group.name)) = .ok (Q.map (nth P)) := by
    rw [(n.sym.tab.parse hR).1]
    exact hR
  have hPl := (sub_embed_els hP).1
  have hQl := (sub_embed_els hQ).1
  have hlt : ∀ e ∈ Q.map (nth P), e < n.group.order := fun e he => n.sym.sub_lt hR he
  have hAn : ∀ e ∈ Q.map (nth P), e ∈ List.range n.group.order := fun e he => List.mem_range.2 (hlt e he)
  have hAP : ∀ e ∈ Q.map (nth P), e ∈ P := by
    intro e he
    obtain ⟨i, hi, rfl⟩ := List.mem_map.1 he
    exact nth_mem _ _ (by rw [← hPl]; exact s.sym.sub_lt hQ hi)
  have hPn : ∀ e ∈ P, e < n.group.order := fun e he => n.sym.sub_lt hP he
  have hAP' : ∀ e ∈ Q.map (nth P), e ∈ P.map (nth (List.range n.group.order)) := by
    intro e he
    exact List.mem_map.2 ⟨e, hAP e he, by simp [nth, hPn e (hAP e he)]⟩
  have hps : n.group.parseSubgroup (some s.group.name) = some s.group.name := (n.sym.tab.parse hP).1
  have hpr : s.group.parseSubgroup (some r.group.name) = some r.group.name := (s.sym.tab.parse hQ).1
  have hPsub : n.group.sub (n.group.parseSubgroup (some s.group.name)) = .ok P := by rw [hps]; exact hP
  have hQsub : s.group.sub (s.group.parseSubgroup (some r.group.name)) = .ok Q := by rw [hpr]; exact hQ
  have hs2 : s.dim = 2 := (sub_embed n s hP).1.trans hn
  have hr2 : r.dim = 2 := (sub_embed n r hR).1.trans hn
  have conv := fun (v : GroupName) V (hV : lookup n.group.subgroup v.group.name = .ok V) hAV F hF a b ha hb hg g hgg C k0 b0 =>
    notebook_conv (α := α) n v hn V hV (some r.group.name) _ hA hAV F hF act a b ha hb hg g hgg C k0 b0
  obtain ⟨l1, B1, E1⟩ := conv n _ hown hAn F1 hF1 (h * 2 + 2) (w * 2 + 2) (by omega) (by omega) (grid_two hn hm (· * 2 + 2)) none (.inl rfl)
    C w1 b1
  obtain ⟨l2, B2, E2⟩ := conv n _ hown hAn F2 hF2 (h * 2) (w * 2) (by omega) (by omega) (grid_two hn hm (· * 2)) _ (.inr rfl) F1 w2 b2
  obtain ⟨l3, B3, E3⟩ := notebook_pool (α := α) n n hn _ hown s.group.name P hPsub (some r.group.name) _ hA hAP' t 2 h w (by omega)
    (by omega) (by omega) hm F2
  obtain ⟨l4, B4, E4⟩ := conv s P hP hAP F3 hF3 (h - 2) (w - 2) (by omega) (by omega) (grid_two hn hm (· - 2)) _ (.inr rfl) F2 w3 b3
  obtain ⟨l5, B5, E5⟩ := notebook_pool (α := α) n s hn P hP r.group.name Q hQsub (some r.group.name) _ hA (fun _ h => h) t 1
    (h - 2) (w - 2) (by omega) (by omega) (by omega) (grid_two hn hm (· - 2)) F3
  obtain ⟨l6, B6, E6⟩ := conv r _ hR (fun _ h => h) F4 hF4 (h - 2 - 2) (w - 2 - 2) (by omega) (by omega) (grid_two hn hm (· - 2 - 2)) _
    (.inr rfl) F3 w4 b4
  have S1 := symbolic_notebook_conv B1 E1
  have S2 := symbolic_notebook_conv B2 E2
  have S3 := symbolic_notebook_pool B3 E3
  have S4 := symbolic_notebook_conv B4 E4
  have S5 := symbolic_notebook_pool B5 E5
  have S6 := symbolic_notebook_conv B6 E6
  rw [show h - 2 + 2 = h by omega, show w - 2 + 2 = w by omega] at B4 S4
  rw [show (h - 2) * 1 = h - 2 by omega, show (w - 2) * 1 = w - 2 by omega] at B5 S5
  rw [show h - 2 - 2 + 2 = h - 2 by omega, show w - 2 - 2 + 2 = w - 2 by omega] at B6 S6
  rw [← hPl] at S3
  rw [← hQl] at S5
  have hno : r.group.order ≠ 0 := by cases r <;> decide
  have S7 := symbolic_other (global3D_shape (α := α) t (C := F4) (show h - 2 - 2 ≠ 0 by omega) (show w - 2 - 2 ≠ 0 by omega) hno)
  have S8 := symbolic_other (denseHead_shape (α := α) classes dense (C := F4))
  refine ⟨_, _, _, buildModel_cons.2 ⟨_, _, _, _, S1, buildModel_cons.2 ⟨_, _, _, _, S2, buildModel_cons.2 ⟨_, _, _, _, S3,
    buildModel_cons.2 ⟨_, _, _, _, S4, buildModel_cons.2 ⟨_, _, _, _, S5, buildModel_cons.2 ⟨_, _, _, _, S6,
    buildModel_cons.2 ⟨_, _, _, _, S7, buildModel_cons.2 ⟨_, _, _, _, S8, rfl, rfl, rfl⟩, rfl, rfl⟩, rfl, rfl⟩, rfl, rfl⟩, rfl, rfl⟩, rfl, rfl⟩,
    rfl, rfl⟩, rfl, rfl⟩, rfl, hR, ?_⟩
  obtain ⟨l1', l2', l3', l4', l5', l6', A, hA', B1', B2', B3', B4', B5', B6', hall⟩ := C78_subgroups n s r hn P Q hP hQ h w hm hh hw F1 F2 F3 F4 C
    classes hF1 hF2 hF3 hF4 act w1 w2 w3 w4 b1 b2 b3 b4 t dense
  cases B1.unique B1'
  cases B2.unique B2'
  cases B3.unique B3'
  cases B4.unique B4'
  cases B5.unique B5'
  cases B6.unique B6'
  rw [hR] at hA'
  cases hA'
  refine ⟨(hall ⟨[0, h * 2 + 4, w * 2 + 4, C], fun _ => 0⟩ 0 rfl).1, ?_⟩
  intro x B hx
  obtain ⟨-, y, gx, h1, h2, h3, h4, h5, -⟩ := hall x B hx
  exact ⟨y, gx, h1, h2, h3, h4, h5⟩

/-- the layers of the notebook on images of size 28 x 28 -/
example := C79_notebook (α := ℚ) .P4M rfl 12 12 ⟨rfl, rfl⟩ (by decide) (by decide) 8 8 8 8 1 10 (by decide) (by decide) (by decide)
  (by decide) id (fun _ => 1) (fun _ => 1) (fun _ => 1) (fun _ => 1) (fun _ => 0) (fun _ => 0) (fun _ => 0) (fun _ => 0) .max
  (fun l i => l.getD i 0)

/-- ... and with the groups P4M, P4 and P2 -/
example := C79_notebook_subgroups (α := ℚ) .P4M .P4 .P2 rfl _ _ rfl rfl 12 12 ⟨rfl, rfl⟩ (by decide) (by decide) 8 8 8 8 1 10 (by decide)
  (by decide) (by decide) (by decide) id (fun _ => 1) (fun _ => 1) (fun _ => 1) (fun _ => 1) (fun _ => 0) (fun _ => 0) (fun _ => 0)
  (fun _ => 0) .max (fun l i => l.getD i 0)

/-- a layer on the whole group that pads nothing -/
def fullConv : ConvArgs ℚ := { halfConv with kernelSize := [2, 2], padding := "valid" }

theorem fullConv_plain (s : List (Option Nat)) (k0 b0 : List Nat → ℚ) : (LayerArgs.conv fullConv false k0 b0).Plain s :=
  ⟨rfl, ⟨_, rfl⟩⟩

theorem fullConv_honest (s : List (Option Nat)) (k0 b0 : List Nat → ℚ) : (LayerArgs.conv fullConv false k0 b0).Honest s := by
  refine ⟨.inr fun H hH => ?_, fun opt ho => .inl ?_⟩
  · cases hH
    rfl
  · have : formatPaddingOption "valid" = .ok .valid := by decide
    rw [show fullConv.padding = "valid" from rfl, this] at ho
    cases ho
    rfl

/-- two such layers -/
def twice : List (LayerArgs ℚ) := [.conv fullConv false (fun _ => 1) (fun _ => 0), .conv fullConv false (fun _ => 1) (fun _ => 0)]

/-- two such layers meet the hypotheses of `C79_model_partial`, -/
example :
    ∃ fs ss y, buildModel twice (none :: [3, 3, 1].map some) = .ok (fs, ss) ∧
      eagerModel twice ⟨[2, 3, 3, 1], fun _ => 1⟩ = .ok y ∧
      sequential fs ⟨[2, 3, 3, 1], fun _ => 1⟩ = .ok y := by
  obtain ⟨fs, ss, h1, h2⟩ := C79_model_partial twice
    ⟨[2, 3, 3, 1], fun _ => 1⟩ _ 2 [3, 3, 1] rfl rfl (by
      intro i hi u _
      match i, hi with
      | 0, _ => exact ⟨fullConv_plain .., fullConv_honest ..⟩
      | 1, _ => exact ⟨fullConv_plain .., fullConv_honest ..⟩)
  exact ⟨fs, ss, _, h1, rfl, h2⟩

/-- ... and of `C79_exact`; there the layers that announce something wrong count too. -/
example : ∃ fs ss y,
    buildModel [.conv thirdConv false (fun _ => 1) (fun _ => 0), .conv fourthConv false (fun _ => 1) (fun _ => 0)] (none :: [5, 5, 1].map some) = .ok (fs, ss) ∧
    sequential fs ⟨[2, 5, 5, 1], fun _ => 1⟩ = .ok y ∧
    ¬ ∀ i, i ≤ 2 → ∀ u, sequential (fs.take i) ⟨[2, 5, 5, 1], fun _ => 1⟩ = .ok u → Announces (ss.getD i []) u.shape := by
  refine ⟨_, _, _, rfl, rfl, ?_⟩
  intro h
  have := (C79_exact [.conv thirdConv false (fun _ => 1) (fun _ => 0), .conv fourthConv false (fun _ => 1) (fun _ => 0)] none [5, 5, 1] _ _ rfl (by
      intro i hi
      match i, hi with
      | 0, _ => exact ⟨rfl, ⟨_, rfl⟩⟩
      | 1, _ => exact ⟨rfl, ⟨_, rfl⟩⟩) ⟨[2, 5, 5, 1], fun _ => 1⟩ _ 2 rfl (by simp) rfl).1 h 0 (by decide)
  have e : formatPaddingOption "valid_equiv" = .ok .validEquiv := by decide
  obtain h | h | h := this.2 _ e
  · cases h
  · cases h
  · obtain ⟨-, h⟩ := h 0 5 (by decide) rfl
    revert h
    decide

/-- a transposed layer with an even kernel, which pads -/
def evenUp : ConvArgs ℚ := { halfConv with kernelSize := [2, 2], padding := "same_equiv" }

/-- a transposed layer that pads also counts: what comes after it is built on images of sizes 2 x 1 and gets 3 x 2. -/
example : ∃ fs ss y,
    buildModel [.conv evenUp true (fun _ => 1) (fun _ => 0)] (none :: [2, 1, 1].map some) = .ok (fs, ss) ∧
    sequential fs ⟨[1, 2, 1, 1], fun _ => 1⟩ = .ok y ∧ y.shape = [1, 3, 2, 2, 1] ∧
    ¬ ∀ i, i ≤ 1 → ∀ u, sequential (fs.take i) ⟨[1, 2, 1, 1], fun _ => 1⟩ = .ok u → Announces (ss.getD i []) u.shape := by
  obtain ⟨fs, ss, y, h1, h2, h3, h4⟩ : ∃ fs ss y,
      buildModel [.conv evenUp true (fun _ => 1) (fun _ => 0)] (none :: [2, 1, 1].map some) = .ok (fs, ss) ∧
      sequential fs ⟨[1, 2, 1, 1], fun _ => 1⟩ = .ok y ∧ y.shape = [1, 3, 2, 2, 1] ∧ ss.getD 0 [] = none :: [2, 1, 1].map some :=
    ⟨_, _, _, rfl, rfl, rfl, rfl⟩
  refine ⟨fs, ss, y, h1, h2, h3, ?_⟩
  intro h
  have := (C79_exact [.conv evenUp true (fun _ => 1) (fun _ => 0)] none [2, 1, 1] fs ss h1 (by
      intro i hi
      match i, hi with
      | 0, _ => exact ⟨rfl, ⟨_, rfl⟩⟩) ⟨[1, 2, 1, 1], fun _ => 1⟩ y 1 rfl (by simp) h2).1 h 0 (by decide)
  have e : formatPaddingOption "same_equiv" = .ok .sameEquiv := by decide
  obtain h | h | h := this.2 _ e
  · cases h
  · cases h
  · obtain ⟨h, -⟩ := h 0 2 (by decide) (by rw [h4]; rfl)
    revert h
    decide

end GroCo
