import Verif.Notebook
import Verif.Props.Stack
import Verif.Props.Actions

/-
Lemmas for the networks of notebooks/example_MNIST.ipynb.
-/

namespace GroCo
open Tensor

variable {α : Type}

theorem indices_split (h w g : Nat) : indices [h, w, g] = (indices [h, w]).flatMap fun p => (List.range g).map fun j => p ++ [j] := by
  simp only [indices, List.flatMap_map, List.map_flatMap, List.flatMap_assoc, List.map_map, List.map_cons, List.map_nil,
    Function.comp_def, List.flatMap_cons, List.flatMap_nil, List.append_nil, List.flatMap_singleton, List.singleton_append,
    List.cons_append, List.nil_append]
  have key : ∀ (l : List Nat) (f : Nat → List Nat), l.flatMap (fun a => [f a]) = l.map f := by
    intro l f
    induction l with
    | nil => rfl
    | cons a l ih => simp [ih]
  simp only [key]

theorem global3D_ok [Field α] [LinearOrder α] (t : PoolType) {x : Tensor α} {B h w g C : Nat} (hx : x.shape = [B, h, w, g, C])
    (hh : h ≠ 0) (hw : w ≠ 0) (hg : g ≠ 0) :
    ∃ y, global3D t x = .ok y ∧ y.shape = [B, C] ∧
      ∀ b c, y.get [b, c] = t.reduce (allEntries .channelsLast [h, w] g x b c) := by
  unfold global3D kerasGlobalPool
  rw [if_neg]
  · refine ⟨_, rfl, by simp [hx], ?_⟩
    intro b c
    simp only [hx, spatialShapeOf, allEntries]
    rw [show List.take 3 (List.drop 1 [B, h, w, g, C]) = [h, w, g] from rfl, indices_split, List.map_flatMap]
    congr 1
    rw [List.flatMap_def, List.flatMap_def]
    congr 1
    apply List.map_congr_left
    intro p _
    simp [sigIndex]
  · simp [hx, rank, spatialShapeOf, hh, hw, hg, Ne.symm hh, Ne.symm hw, Ne.symm hg]

theorem Batchwise.comp {f g : Tensor α → Res (Tensor α)} {s t : List Nat} (hf : Batchwise f s)
    (hsh : ∀ x y B, x.shape = B :: s → f x = .ok y → y.shape = B :: t) (hg : Batchwise g t) : Batchwise (fun x => f x >>= g) s := by
  intro x x' y B B' hx hx' hy
  obtain ⟨u, hu, hy⟩ : ∃ u, f x = .ok u ∧ g u = .ok y := by
    cases h : f x with
    | error e => simp only [h] at hy; cases hy
    | ok u => simp only [h] at hy; exact ⟨u, rfl, hy⟩
  obtain ⟨u', t1, hu', h1, h2, h3⟩ := hf x x' u B B' hx hx' hu
  rw [hsh x u B hx hu] at h1
  cases h1
  obtain ⟨y', t2, hy', k1, k2, k3⟩ := hg u u' y B B' (hsh x u B hx hu) h2 hy
  refine ⟨y', t2, by simp only [hu']; exact hy', k1, k2, ?_⟩
  intro b b' hb hb' he
  exact k3 b b' hb hb' (h3 b b' hb hb' he)

theorem global3D_batchwise [Field α] [LinearOrder α] (t : PoolType) {h w g C : Nat} (hh : h ≠ 0) (hw : w ≠ 0) (hg : g ≠ 0) :
    Batchwise (α := α) (global3D t) [h, w, g, C] := by
  intro x x' y B B' hx hx' hy
  obtain ⟨y1, e1, s1, v1⟩ := global3D_ok t hx hh hw hg
  obtain ⟨y2, e2, s2, v2⟩ := global3D_ok t hx' hh hw hg
  rw [e1] at hy
  cases hy
  refine ⟨y2, [C], e2, s1, s2, ?_⟩
  intro b b' _ _ he idx hv
  match idx, hv with
  | [c], hv =>
  rw [v1, v2]
  congr 1
  unfold allEntries
  rw [List.flatMap_def, List.flatMap_def]
  congr 1
  apply List.map_congr_left
  intro p hp
  apply List.map_congr_left
  intro j hj
  rw [mem_indices] at hp
  rw [List.mem_range] at hj
  match p, hp with
  | [p, q], hp => exact he [p, q, j, c] ⟨hp.1, hp.2.1, hj, hv.1, trivial⟩

theorem denseHead_ok (classes : Nat) (f : List α → Nat → α) {x : Tensor α} {B C : Nat} (hx : x.shape = [B, C]) :
    ∃ y, denseHead classes f x = .ok y ∧ y.shape = [B, classes] ∧
      ∀ b c, y.get [b, c] = f ((List.range C).map fun c => x.get [b, c]) c := by
  unfold denseHead
  rw [hx]
  exact ⟨_, rfl, rfl, fun b c => rfl⟩

theorem denseHead_batchwise (classes : Nat) (f : List α → Nat → α) (C : Nat) : Batchwise (denseHead classes f) [C] := by
  intro x x' y B B' hx hx' hy
  obtain ⟨y1, e1, s1, v1⟩ := denseHead_ok classes f hx
  obtain ⟨y2, e2, s2, v2⟩ := denseHead_ok classes f hx'
  rw [e1] at hy
  cases hy
  refine ⟨y2, [classes], e2, s1, s2, ?_⟩
  intro b b' _ _ he idx hv
  match idx, hv with
  | [c], hv =>
  rw [v1, v2]
  congr 1
  apply List.map_congr_left
  intro k hk
  exact he [k] ⟨List.mem_range.1 hk, trivial⟩

/-- Keras's global pooling over the grid and the group axis is GroCo's global group pooling. -/
theorem global3D_same [Field α] [LinearOrder α] (t : PoolType) {x : Tensor α} {B h w g C : Nat} (hx : x.shape = [B, h, w, g, C])
    (hh : h ≠ 0) (hw : w ≠ 0) (hg : g ≠ 0) :
    ∃ y z, global3D t x = .ok y ∧ (⟨2, t, false, .channelsLast⟩ : GlobalGroupPooling).call x = .ok z ∧ y.Same z := by
  obtain ⟨y, ey, sy, vy⟩ := global3D_ok t hx hh hw hg
  obtain ⟨z, ez, sz, vz⟩ := C35_value (⟨2, t, false, .channelsLast⟩ : GlobalGroupPooling) x B C g [h, w] rfl hx hg (by
    simp [Ne.symm hh, Ne.symm hw])
  refine ⟨y, z, ey, ez, sy.trans sz.symm, ?_⟩
  intro idx hv
  rw [sy] at hv
  match idx, hv with
  | [b, c], hv => exact (vy b c).trans (vz b c hv.1 hv.2.1).symm

theorem valid_pair_inv {B C : Nat} {idx : List Nat} (h : Valid [B, C] idx) : ∃ b c, idx = [b, c] ∧ b < B ∧ c < C := by
  match idx, h with
  | [b, c], h => exact ⟨b, c, rfl, h.1, h.2.1⟩

/-- an equivariant network, Keras's global pooling and a last layer -/
theorem invariant_head [Field α] [LinearOrder α] (n : GroupName) (hn : n.dim = 2) (acting : Option String) (A : List Nat)
    (hA : n.group.sub (n.group.parseSubgroup acting) = .ok A) {hI wI h w C C' : Nat} {on : Option String} {D : List Nat}
    (hD : n.group.sub (n.group.parseSubgroup on) = .ok D) (hAD : ∀ e ∈ A, e ∈ D) (hh : h ≠ 0) (hw : w ≠ 0) (hm : n.Grid [h, w])
    {fs : List (Tensor α → Res (Tensor α))} (t : PoolType) (classes : Nat) (dense : List α → Nat → α)
    (hs : EquivariantStack n .channelsLast acting A.length ⟨[hI, wI], none, C, none⟩ ⟨[h, w], some D.length, C', on⟩ fs) :
    Batchwise (sequential (fs ++ [global3D t, denseHead classes dense])) [hI, wI, C] ∧
    ∀ (x : Tensor α) (B : Nat), x.shape = [B, hI, wI, C] →
      ∃ y gx, sequential (fs ++ [global3D t, denseHead classes dense]) x = .ok y ∧ y.shape = [B, classes] ∧
        n.group.action x [1, 2] 0 none acting none = .ok gx ∧ gx.shape = A.length :: x.shape ∧
        ∀ i, i < A.length → ∃ z, sequential (fs ++ [global3D t, denseHead classes dense]) (slice gx 0 i) = .ok z ∧ z.Same y := by
  have hfits : (⟨[h, w], some D.length, C', on⟩ : SignalKind).Fits n := ⟨hm, D, hD, rfl⟩
  have hst := C37_stack_equivariant n .channelsLast acting A hA _ _ hfits fs hs
  have hD0 : D.length ≠ 0 := by
    obtain ⟨sD, _, hlD⟩ := parse_sub hD
    have := ((C09_all_groups n).2 sD D hlD).2.1
    intro h
    rw [List.length_eq_zero_iff.1 h] at this
    cases this
  have happ : sequential (fs ++ [global3D t, denseHead classes dense]) =
      fun x => (sequential fs x >>= global3D t) >>= denseHead classes dense := by
    funext x
    unfold sequential
    rw [List.foldlM_append, bind_assoc]
    congr 1
    funext y
    show (global3D t y >>= fun z => denseHead classes dense z >>= fun z => .ok z) = _
    congr 1
    funext z
    cases denseHead classes dense z <;> rfl
  have hsh1 : ∀ (x y : Tensor α) (B : Nat), x.shape = B :: [hI, wI, C] → sequential fs x = .ok y →
      y.shape = [B, h, w, D.length, C'] := by
    intro x y B hx hy
    obtain ⟨u, eu, su, -⟩ := hst.2 x B hx
    rw [eu] at hy
    cases hy
    exact su
  have hb1 : Batchwise (sequential fs) [hI, wI, C] := hst.1 0
  have hb2 := hb1.comp hsh1 (global3D_batchwise t hh hw hD0)
  have hb3 := hb2.comp (t := [C']) (by
    intro x y B hx hy
    obtain ⟨u, eu, su, -⟩ := hst.2 x B hx
    obtain ⟨v, ev, sv, -⟩ := global3D_ok t (show u.shape = [B, h, w, D.length, C'] from su) hh hw hD0
    simp only [eu, res_bind_ok, ev] at hy
    cases hy
    exact sv) (denseHead_batchwise classes dense C')
  rw [happ]
  refine ⟨hb3, ?_⟩
  intro x B hx
  obtain ⟨y1, gx, e1, a1, b1, inv⟩ := C37_stack_invariant n ⟨2, t, false, .channelsLast⟩ hn.symm acting A D hA _ _ fs hs hm
    (by simp [Ne.symm hh, Ne.symm hw]) hD rfl hAD x B hx
  have hval : ∀ x' y1, x'.shape = [B, hI, wI, C] →
      sequential (fs ++ [(⟨2, t, false, .channelsLast⟩ : GlobalGroupPooling).call]) x' = .ok y1 →
      ∃ v, (sequential fs x' >>= global3D t) = .ok v ∧ v.Same y1 ∧ v.shape = [B, C'] := by
    intro x' y1 hx' h1
    obtain ⟨u, eu, su, -⟩ := hst.2 x' B hx'
    obtain ⟨v, z, ev, ez, hvz⟩ := global3D_same t (show u.shape = [B, h, w, D.length, C'] from su) hh hw hD0
    obtain ⟨v', ev', sv, -⟩ := global3D_ok t (show u.shape = [B, h, w, D.length, C'] from su) hh hw hD0
    rw [ev] at ev'
    cases ev'
    have : sequential (fs ++ [(⟨2, t, false, .channelsLast⟩ : GlobalGroupPooling).call]) x' = .ok z := by
      unfold sequential at eu ⊢
      rw [List.foldlM_append, eu]
      simp only [res_bind_ok, List.foldlM_cons, List.foldlM_nil, ez]
      rfl
    rw [this] at h1
    cases h1
    exact ⟨v, by rw [eu]; exact ev, hvz, sv⟩
  obtain ⟨v, ev, hv, sv⟩ := hval x y1 hx e1
  obtain ⟨y, ey, sy, vy⟩ := denseHead_ok classes dense sv
  refine ⟨y, gx, by simp only [ev]; exact ey, sy, ?_, b1, ?_⟩
  · rw [← a1, hn]
    rfl
  · intro i hi
    obtain ⟨z1, ez1, hz1⟩ := inv i hi
    have hs1 : (slice gx 0 i).shape = [B, hI, wI, C] := by
      show gx.shape.eraseIdx 0 = _
      rw [b1, hx]
      rfl
    obtain ⟨v', ev', hv', sv'⟩ := hval _ z1 hs1 ez1
    obtain ⟨z, ez, sz, vz⟩ := denseHead_ok classes dense sv'
    refine ⟨z, by simp only [ev']; exact ez, sz.trans sy.symm, ?_⟩
    intro idx hidx
    rw [sz] at hidx
    obtain ⟨b, c, rfl, hb, hc⟩ := valid_pair_inv hidx
    rw [vz, vy]
    congr 1
    apply List.map_congr_left
    intro k hk
    have hk := List.mem_range.1 hk
    have hvv := (hv'.trans hz1).trans hv.symm
    exact hvv.2 [b, k] (by rw [sv']; exact ⟨hb, hk, trivial⟩)

end GroCo
