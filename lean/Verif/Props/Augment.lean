import Verif.AugmentSpec
import Verif.Props.Sequential
import Verif.Props.Stack

/-
Property C80: augmenting the data with transformed images, each by an element of its own.
-/

namespace GroCo
open Tensor

variable {α W : Type}

/-- C80: a stack of equivariant layers treats every image of a batch by itself: if each is transformed by a group element of its own
then each output is transformed by the same element. -/
theorem C80_per_image [Zero α] (n : GroupName) (fmt : DataFormat) (acting : Option String) (A : List Nat)
    (hA : n.group.sub (n.group.parseSubgroup acting) = .ok A) (k k' : SignalKind) (hfits : k'.Fits n)
    (fs : List (Tensor α → Res (Tensor α))) (hs : EquivariantStack n fmt acting A.length k k' fs) (x : Tensor α) (B : Nat)
    (hx : x.shape = k.shape fmt B) (e : Nat → Nat) (he : ∀ b, b < B → e b < A.length) :
    ∃ y gx gy, sequential fs x = .ok y ∧
      n.group.action x (spatialAxes fmt n.dim) 0 (some (groupAxis fmt n.dim)) acting k.on = .ok gx ∧
      n.group.action y (spatialAxes fmt n.dim) 0 (some (groupAxis fmt n.dim)) acting k'.on = .ok gy ∧
      ∀ x', Augmented gx x x' e → ∃ y', sequential fs x' = .ok y' ∧ Augmented gy y y' e := by
  obtain ⟨hb, hc⟩ := C37_stack_equivariant n fmt acting A hA k k' hfits fs hs
  obtain ⟨y, ey, sy, gx, gy, egx, sgx, egy, sgy, hi⟩ := hc x B hx
  refine ⟨y, gx, gy, ey, egx, egy, ?_⟩
  rintro x' ⟨hx', hget⟩
  have hcons : ∃ s, k.shape fmt B = B :: s := by unfold SignalKind.shape sigShape; cases fmt <;> exact ⟨_, rfl⟩
  obtain ⟨s, hks⟩ := hcons
  have hbs : Batchwise (sequential fs) s := by have := hb B; rwa [hks] at this
  rw [hks] at hx
  rw [hx] at hx'
  obtain ⟨y', t, ey', sy1, sy', -⟩ := hbs x x' y B B hx hx' ey
  refine ⟨y', ey', by rw [sy', sy1], ?_⟩
  intro b idx hv
  rw [sy1] at hv
  obtain ⟨hbB, hv⟩ := hv
  obtain ⟨z, ez, sz, hz⟩ := hi (e b) (he b hbB)
  have hsl : (slice gx 0 (e b)).shape = B :: s := by
    show gx.shape.eraseIdx 0 = _
    rw [sgx, hx]
    rfl
  obtain ⟨y'', t', ey'', sz', sy'', hrow⟩ := hbs _ x' z B B hsl hx' ez
  rw [ey'] at ey''
  cases ey''
  rw [sy'] at sy''
  cases sy''
  rw [← hrow b b hbB hbB (by
    intro p hp
    rw [hget b p (by rw [hx]; exact ⟨hbB, hp⟩)]
    rfl) idx hv]
  exact hz (b :: idx) (by rw [sz']; exact ⟨hbB, hv⟩)

/-- a model that treats images independently and is invariant is invariant for each image by itself -/
theorem invariant_per_image [Zero α] {f : Tensor α → Res (Tensor α)} {s : List Nat} (hb : Batchwise f s) {x gx y : Tensor α} {B : Nat}
    (hx : x.shape = B :: s) {g : Nat} (hgx : gx.shape = g :: x.shape) (ey : f x = .ok y) {e : Nat → Nat}
    (hi : ∀ b, b < B → ∃ z, f (slice gx 0 (e b)) = .ok z ∧ z.Same y) {x' : Tensor α} (hx' : Augmented gx x x' e) :
    ∃ y', f x' = .ok y' ∧ y'.Same y := by
  obtain ⟨hx', hget⟩ := hx'
  rw [hx] at hx'
  obtain ⟨y', t, ey', sy, sy', -⟩ := hb x x' y B B hx hx' ey
  refine ⟨y', ey', by rw [sy', sy], ?_⟩
  intro idx hv
  rw [sy'] at hv
  cases idx with
  | nil => exact absurd hv (by simp [Valid])
  | cons b idx =>
    obtain ⟨hbB, hv⟩ := hv
    obtain ⟨z, ez, sz, hz⟩ := hi b hbB
    have hsl : (slice gx 0 (e b)).shape = B :: s := by
      show gx.shape.eraseIdx 0 = _
      rw [hgx, hx]
      rfl
    obtain ⟨y'', t', ey'', sz', sy'', hrow⟩ := hb _ x' z B B hsl hx' ez
    rw [ey'] at ey''
    cases ey''
    rw [sy'] at sy''
    cases sy''
    rw [← hrow b b hbB hbB (by
      intro p hp
      rw [hget b p (by rw [hx]; exact ⟨hbB, hp⟩)]
      rfl) idx hv]
    exact hz (b :: idx) (by rw [sz']; exact ⟨hbB, hv⟩)

theorem observed_same {r r' : Res (Tensor α)} {y y' : Tensor α} (h : r = .ok y) (h' : r' = .ok y') (hs : y'.Same y) :
    observed r' = observed r := by
  obtain ⟨h1, h2⟩ := hs
  rw [h, h']
  show (Except.ok (y'.shape, (indices y'.shape).map y'.get) : Res (List Nat × List α)) = .ok (y.shape, (indices y.shape).map y.get)
  rw [← h1, List.map_congr_left (fun i hi => h2 i ((mem_indices _ _).1 hi))]

/-- training depends on what is observed only -/
theorem train_congr {model : W → Tensor α → Res (Tensor α)} {update : Nat → (W → Res (List Nat × List α)) → W → W} :
    ∀ (xs xs' : List (Tensor α)), List.Forall₂ (fun x x' => ∀ w, observed (model w x') = observed (model w x)) xs xs' →
      ∀ i w, train model update i xs' w = train model update i xs w
  | _, _, .nil, _, _ => rfl
  | _, _, .cons h t, i, w => by
    unfold train
    rw [funext h]
    exact train_congr _ _ t _ _

/-- C80 for the network of the notebook: augmentation changes nothing. Whatever the way of training (`update`), after any number of
batches the weights are the same as without transforming the images, for every choice of an element for each image. -/
theorem C80_training [Field α] [LinearOrder α] [IsStrictOrderedRing α] (n : GroupName) (hn : n.dim = 2) (h w : Nat)
    (hm : n.Grid [h, w]) (hh : 4 < h) (hw : 4 < w) (F1 F2 F3 F4 C classes : Nat) (hF1 : 0 < F1) (hF2 : 0 < F2) (hF3 : 0 < F3)
    (hF4 : 0 < F4) (act : α → α) (kernel bias : W → Nat → List Nat → α) (t : PoolType) (dense : W → List α → Nat → α)
    (update : Nat → (W → Res (List Nat × List α)) → W → W) (xs xs' : List (Tensor α))
    (haug : List.Forall₂ (fun x x' => ∃ B gx e, x.shape = [B, h * 2 + 4, w * 2 + 4, C] ∧
      n.group.action x [1, 2] 0 none (some "") none = .ok gx ∧ (∀ b, b < B → e b < n.group.order) ∧ Augmented gx x x' e) xs xs')
    (i : Nat) (w0 : W) :
    let model := fun v : W => runModel [.conv (notebookConv n F1 act) false (kernel v 1) (bias v 1),
      .conv (notebookConv n F2 act) false (kernel v 2) (bias v 2), .pool (notebookPool n "" t 2),
      .conv (notebookConv n F3 act) false (kernel v 3) (bias v 3), .conv (notebookConv n F4 act) false (kernel v 4) (bias v 4),
      .other (global3D t), .other (denseHead classes (dense v))] (none :: [h * 2 + 4, w * 2 + 4, C].map some)
    (∀ v, ∀ x ∈ xs ++ xs', ∃ y, model v x = .ok y) ∧ train model update i xs' w0 = train model update i xs w0 := by
  intro model
  have key : List.Forall₂ (fun x x' => ∀ v, ∃ y y', model v x = .ok y ∧ model v x' = .ok y' ∧ y'.Same y) xs xs' := by
    refine haug.imp ?_
    rintro x x' ⟨B, gx, e, hx, hgx, he, ha⟩ v
    obtain ⟨fs, ss, hbuild, -, hb, hall⟩ := C79_notebook n hn h w hm hh hw F1 F2 F3 F4 C classes hF1 hF2 hF3 hF4 act (kernel v 1)
      (kernel v 2) (kernel v 3) (kernel v 4) (bias v 1) (bias v 2) (bias v 3) (bias v 4) t (dense v)
    have hmodel : ∀ x, model v x = sequential fs x := by
      intro x
      show (buildModel _ _ >>= fun r => sequential r.1 x) = _
      rw [hbuild]
      rfl
    obtain ⟨y, gx', ey, -, egx, sgx, hi⟩ := hall x B hx
    rw [hgx] at egx
    cases egx
    obtain ⟨y', ey', hs⟩ := invariant_per_image hb hx sgx ey (fun b hbB => hi (e b) (he b hbB)) ha
    exact ⟨y, y', by rw [hmodel, ey], by rw [hmodel, ey'], hs⟩
  refine ⟨?_, train_congr _ _ (key.imp fun x x' h v => ?_) i w0⟩
  · intro v x hx
    clear haug
    induction key with
    | nil => simp at hx
    | cons h _ ih =>
      obtain ⟨y, y', e1, e2, -⟩ := h v
      simp only [List.cons_append, List.mem_cons, List.mem_append] at hx ih
      obtain rfl | hx | rfl | hx := hx
      · exact ⟨y, e1⟩
      · exact ih (.inl hx)
      · exact ⟨y', e2⟩
      · exact ih (.inr hx)
  · obtain ⟨y, y', e1, e2, hs⟩ := h v
    exact observed_same e1 e2 hs

/-- C80 for the network of the notebook that goes down to subgroups: augmentation with elements of the last subgroup changes nothing. -/
theorem C80_training_subgroups [Field α] [LinearOrder α] (n s r : GroupName) (hn : n.dim = 2) (P Q A : List Nat)
    (hP : lookup n.group.subgroup s.group.name = .ok P) (hQ : lookup s.group.subgroup r.group.name = .ok Q)
    (hA : lookup n.group.subgroup r.group.name = .ok A)
    (h w : Nat) (hm : n.Grid [h, w]) (hh : 4 < h) (hw : 4 < w) (F1 F2 F3 F4 C classes : Nat) (hF1 : 0 < F1) (hF2 : 0 < F2)
    (hF3 : 0 < F3) (hF4 : 0 < F4) (act : α → α) (kernel bias : W → Nat → List Nat → α) (t : PoolType) (dense : W → List α → Nat → α)
    (update : Nat → (W → Res (List Nat × List α)) → W → W) (xs xs' : List (Tensor α))
    (haug : List.Forall₂ (fun x x' => ∃ B gx e, x.shape = [B, h * 2 + 4, w * 2 + 4, C] ∧
      n.group.action x [1, 2] 0 none (some "") none = .ok gx ∧ (∀ b, b < B → e b ∈ A) ∧ Augmented gx x x' e) xs xs')
    (i : Nat) (w0 : W) :
    let model := fun v : W => runModel [.conv (notebookConv n F1 act) false (kernel v 1) (bias v 1),
      .conv (notebookConv n F2 act) false (kernel v 2) (bias v 2), .pool (notebookPool n s.group.name t 2),
      .conv (notebookConv s F3 act) false (kernel v 3) (bias v 3), .pool (notebookPool s r.group.name t 1),
      .conv (notebookConv r F4 act) false (kernel v 4) (bias v 4), .other (global3D t), .other (denseHead classes (dense v))]
      (none :: [h * 2 + 4, w * 2 + 4, C].map some)
    train model update i xs' w0 = train model update i xs w0 := by
  intro model
  refine train_congr _ _ (haug.imp ?_) i w0
  rintro x x' ⟨B, gx, e, hx, hgx, he, ha⟩ v
  obtain ⟨fs, ss, A', hbuild, -, hA', hb, hall⟩ := C79_notebook_subgroups n s r hn P Q hP hQ h w hm hh hw F1 F2 F3 F4 C classes hF1 hF2
    hF3 hF4 act (kernel v 1) (kernel v 2) (kernel v 3) (kernel v 4) (bias v 1) (bias v 2) (bias v 3) (bias v 4) t (dense v)
  rw [hA] at hA'
  cases hA'
  have hmodel : ∀ x, model v x = sequential fs x := by
    intro x
    show (buildModel _ _ >>= fun r => sequential r.1 x) = _
    rw [hbuild]
    rfl
  obtain ⟨y, gx', ey, -, egx, sgx, hi⟩ := hall x B hx
  rw [hgx] at egx
  cases egx
  obtain ⟨y', ey', hs⟩ := invariant_per_image hb hx sgx ey (fun b hbB => hi (e b) (he b hbB)) ha
  exact observed_same (by rw [hmodel, ey]) (by rw [hmodel, ey']) hs

/-- the batch with the images transformed as given -/
def augment [Zero α] (gx x : Tensor α) (e : Nat → Nat) : Tensor α :=
  ⟨x.shape, fun i => match i with
    | [] => 0
    | b :: idx => gx.get (e b :: b :: idx)⟩

theorem augment_augmented [Zero α] (gx x : Tensor α) (e : Nat → Nat) : Augmented gx x (augment gx x e) e := ⟨rfl, fun _ _ _ => rfl⟩

/-- a layer of the notebook on a batch of two images, the first turned by 90 degrees and the second by 180 -/
example (k0 b0 : List Nat → ℚ) (x : Tensor ℚ) (hx : x.shape = [2, 28, 28, 1]) : ∃ l y gx gy x' y',
    BuiltConv (notebookConv .P4 8 id) false none [26 + 2, 26 + 2] none 1 k0 b0 [0, 1, 2, 3] l ∧ (l.call x).2 = .ok y ∧
    P4.action x [1, 2] 0 (some 3) (some "") none = .ok gx ∧ P4.action y [1, 2] 0 (some 3) (some "") (some "P4") = .ok gy ∧
    Augmented gx x x' (· + 1) ∧ (l.call x').2 = .ok y' ∧ Augmented gy y y' (· + 1) := by
  obtain ⟨l, hl, E⟩ := notebook_conv (α := ℚ) .P4 .P4 rfl _ rfl (some "") _ rfl (fun _ h => h) 8 (by decide) id 26 26 (by decide) (by decide)
    ⟨rfl, rfl⟩ none (.inl rfl) 1 k0 b0
  obtain ⟨y, gx, gy, e1, e2, e3, hall⟩ := C80_per_image .P4 .channelsLast (some "") _ rfl _ ⟨[26, 26], some 4, 8, some "P4"⟩
    ⟨⟨rfl, rfl⟩, ⟨_, rfl, rfl⟩⟩ _ (.cons E (.nil _)) x 2 hx (· + 1) (by decide)
  obtain ⟨y', e4, h⟩ := hall _ (augment_augmented gx x _)
  obtain ⟨y1, e1, e1'⟩ := sequential_cons.1 e1
  cases e1'
  obtain ⟨y2, e4, e4'⟩ := sequential_cons.1 e4
  cases e4'
  exact ⟨l, y, gx, gy, _, y', hl, e1, e2, e3, augment_augmented gx x _, e4, h⟩

/-- two batches of two images each, with the notebook's sizes: batches that meet the hypothesis exist, here each image is transformed by
another element. -/
example (x1 x2 : Tensor ℚ) (h1 : x1.shape = [2, 28, 28, 1]) (h2 : x2.shape = [2, 28, 28, 1]) :
    ∃ xs', List.Forall₂ (fun x x' : Tensor ℚ => ∃ B gx e, x.shape = [B, 12 * 2 + 4, 12 * 2 + 4, 1] ∧
      GroupName.P4M.group.action x [1, 2] 0 none (some "") none = .ok gx ∧ (∀ b, b < B → e b < GroupName.P4M.group.order) ∧
      Augmented gx x x' e) [x1, x2] xs' := by
  obtain ⟨fs, ss, -, -, -, hall⟩ := C79_notebook (α := ℚ) .P4M rfl 12 12 ⟨rfl, rfl⟩ (by decide) (by decide) 8 8 8 8 1 10 (by decide)
    (by decide) (by decide) (by decide) id (fun _ => 1) (fun _ => 1) (fun _ => 1) (fun _ => 1) (fun _ => 0) (fun _ => 0) (fun _ => 0)
    (fun _ => 0) .max (fun l i => l.getD i 0)
  obtain ⟨-, g1, -, -, e1, -, -⟩ := hall x1 2 h1
  obtain ⟨-, g2, -, -, e2, -, -⟩ := hall x2 2 h2
  exact ⟨_, .cons ⟨2, g1, (· + 1), h1, e1, by decide, augment_augmented _ _ _⟩
    (.cons ⟨2, g2, (· + 5), h2, e2, by decide, augment_augmented _ _ _⟩ .nil)⟩

end GroCo
