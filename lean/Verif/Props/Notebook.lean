import Verif.NotebookLemmas
import Verif.Props.Usual
import Verif.Props.Subgroups

/-
Property C78: the networks of notebooks/example_MNIST.ipynb, for all weights and images of many sizes.
-/

namespace GroCo
open Tensor

variable {α : Type}

/-- `GroupConv2D(group=s, kernel_size=3, activation=act, filters=F)` -/
def notebookConv (s : GroupName) (F : Nat) (act : α → α) : ConvArgs α := { usualConv s 3 F act with padding := "valid" }

/-- `GroupMaxPooling2D(group=s, subgroup=sub, pool_size=k, strides=k)`; also average pooling -/
def notebookPool (s : GroupName) (sub : String) (t : PoolType) (k : Nat) : PoolArgs :=
  { usualPool s t k with strides := some (List.replicate s.dim k), subgroup := some sub }

theorem grid_two {n : GroupName} (hn : n.dim = 2) {h w : Nat} (hm : n.Grid [h, w]) (φ : Nat → Nat) : n.Grid [φ h, φ w] := by
  refine grid_of_sizes n hm hm hm hm (by simp [hn]) (fun m _ _ _ => φ m) ?_
  intro i hi
  rw [hn] at hi
  obtain rfl | rfl : i = 0 ∨ i = 1 := by omega
  · rfl
  · rfl

theorem embedded {n s : GroupName} {P : List Nat} (hP : lookup n.group.subgroup s.group.name = .ok P) {A : List Nat}
    (hAP : ∀ e ∈ A, e ∈ P) : ∀ e ∈ A, e ∈ (List.range s.group.order).map (nth P) := by
  intro e he
  obtain ⟨i, hi, h⟩ := List.getElem_of_mem (hAP e he)
  rw [(sub_embed_els hP).1]
  exact List.mem_map.2 ⟨i, List.mem_range.2 hi, by rw [nth_eq_getElem _ _ hi, h]⟩

/-- one convolution layer of the notebook, in a network over a group `n` with subgroup `s` -/
theorem notebook_conv [Semiring α] (n s : GroupName) (hn : n.dim = 2) (P : List Nat)
    (hP : lookup n.group.subgroup s.group.name = .ok P) (acting : Option String) (A : List Nat)
    (hA : n.group.sub (n.group.parseSubgroup acting) = .ok A) (hAP : ∀ e ∈ A, e ∈ P) (F : Nat) (hF : 0 < F) (act : α → α) (h w : Nat)
    (hh : 0 < h) (hw : 0 < w) (hm : n.Grid [h, w]) (g : Option Nat) (hg : g = none ∨ g = some s.group.order) (C : Nat)
    (k0 b0 : List Nat → α) :
    ∃ l, BuiltConv (notebookConv s F act) false none [h + 2, w + 2] g C k0 b0 (List.range s.group.order) l ∧
      EquivariantLayer n .channelsLast acting A.length ⟨[h + 2, w + 2], g, C, g.map fun _ => s.group.name⟩
        ⟨[h, w], some s.group.order, F, some s.group.name⟩ (fun x => (l.call x).2) := by
  have hs2 : s.dim = 2 := (sub_embed n s hP).1.trans hn
  have hk : (notebookConv s F act).kernelSize = [3, 3] := by
    show List.replicate s.dim 3 = _
    rw [hs2]
    rfl
  have hst : (notebookConv s F act).strides = [1, 1] := by
    show List.replicate s.dim 1 = _
    rw [hs2]
    rfl
  have hz : SizesOk (notebookConv s F act) := by
    obtain ⟨h1, h2, h3, h4, h5⟩ := usual_sizes s (k := 3) rfl hF act
    exact ⟨h1, h2, h3, h4, h5⟩
  have hout : sampledSizes .valid [h + 2, w + 2] (notebookConv s F act).kernelSize (notebookConv s F act).strides = [h, w] := by
    rw [hk, hst]
    simp [sampledSizes, builtIn, List.range_succ]
    omega
  have hc : ∀ k, n.Grid [k, k] := fun k => by
    have := const_grid n k
    rw [hn] at this
    exact this
  have := C74_convolution n (notebookConv s F act) .valid .valid (C39_documented_names ("valid", .valid, .valid) (by decide)) hz rfl rfl
    rfl (by rw [hk]; exact hc 3) (by rw [hst]; exact hc 1) [h + 2, w + 2] (grid_two hn hm (· + 2)) (by
      intro i hi
      have hi : i < 2 := hi
      rw [hk, hst]
      obtain rfl | rfl : i = 0 ∨ i = 1 := by omega
      · exact ⟨⟨rfl, Int.emod_one _⟩, by simp [builtIn]; omega⟩
      · exact ⟨⟨rfl, Int.emod_one _⟩, by simp [builtIn]; omega⟩) g hg C P (List.range s.group.order) A hP (own_sub s) acting hA
    (embedded hP hAP) k0 b0
  rw [hout, List.length_range] at this
  exact this

/-- one pooling layer of the notebook -/
theorem notebook_pool [Field α] [LinearOrder α] (n s : GroupName) (hn : n.dim = 2) (P : List Nat)
    (hP : lookup n.group.subgroup s.group.name = .ok P) (sub : String) (H : List Nat)
    (hH : s.group.sub (s.group.parseSubgroup (some sub)) = .ok H) (acting : Option String) (A : List Nat)
    (hA : n.group.sub (n.group.parseSubgroup acting) = .ok A) (hAH : ∀ e ∈ A, e ∈ H.map (nth P)) (t : PoolType) (k h w : Nat)
    (hk : 0 < k) (hh : 0 < h) (hw : 0 < w) (hm : n.Grid [h, w]) (C : Nat) :
    ∃ l, BuiltPool (notebookPool s sub t k) none [h * k, w * k] s.group.order C H l ∧
      EquivariantLayer n .channelsLast acting A.length ⟨[h * k, w * k], some s.group.order, C, some s.group.name⟩
        ⟨[h, w], some H.length, C, s.group.parseSubgroup (some sub)⟩ (fun x : Tensor α => l.call x) := by
  have hs2 : s.dim = 2 := (sub_embed n s hP).1.trans hn
  have e1 : (notebookPool s sub t k).poolSize = [k, k] := by
    show List.replicate s.dim k = _
    rw [hs2]
    rfl
  have e2 : (notebookPool s sub t k).strides = some [k, k] := by
    show some (List.replicate s.dim k) = _
    rw [hs2]
    rfl
  have e3 : (notebookPool s sub t k).windowStrides = [k, k] := by rw [PoolArgs.windowStrides, e2]; rfl
  have e4 : (notebookPool s sub t k).paddingStrides = [k, k] := by rw [PoolArgs.paddingStrides, e2]; rfl
  have hc : n.Grid [k, k] := by
    have := const_grid n k
    rw [hn] at this
    exact this
  have hle : ∀ m, 0 < m → k ≤ m * k := fun m hm => Nat.le_mul_of_pos_left k hm
  have hdiv : ∀ m, 0 < m → (m * k - k) / k + 1 = m := by
    intro m hm
    rw [show m * k - k = (m - 1) * k by rw [Nat.sub_mul, Nat.one_mul], Nat.mul_div_cancel _ hk]
    omega
  have hout : sampledSizes .valid [h * k, w * k] (notebookPool s sub t k).poolSize (notebookPool s sub t k).windowStrides = [h, w] := by
    rw [e1, e3]
    simp [sampledSizes, builtIn, List.range_succ, hdiv h hh, hdiv w hw]
  have hsym : ∀ m, Symmetric (m * k) k k 0 := by
    intro m
    refine ⟨rfl, ?_⟩
    have : ((m * k : Nat) : Int) + (0 : Nat) - (k : Nat) = ((m : Int) - 1) * k := by push_cast; ring
    rw [this]
    exact Int.mul_emod_left _ _
  have := C74_pooling (α := α) n (notebookPool s sub t k) .valid .valid
    (C39_documented_names ("valid", .valid, .valid) (by decide)) rfl rfl (by rw [e1]; exact hc) (by rw [e1]; simp; omega)
    (by rw [e2]; rintro s' h'; cases h'; exact ⟨hc, by simp; omega⟩) [h * k, w * k] (grid_two hn hm (· * k)) (by
      intro i hi
      have hi : i < 2 := hi
      rw [e1, e2, e3, e4]
      obtain rfl | rfl : i = 0 ∨ i = 1 := by omega
      · exact ⟨hsym h, fun h => (by cases h), hle h hh⟩
      · exact ⟨hsym w, fun h => (by cases h), hle w hw⟩) C P H A hP hH acting hA hAH
  rw [hout] at this
  exact this

/-- the test of the notebook: the transformed copies of one image as a batch -/
theorem merged_test {f : Tensor α → Res (Tensor α)} {s : List Nat} (hf : Batchwise f s) {x y gx : Tensor α} {order classes : Nat}
    (hx : x.shape = 1 :: s) (hy : f x = .ok y) (hys : y.shape = [1, classes]) (hgx : gx.shape = order :: x.shape) :
    ∃ images z, reshapeN gx (order :: x.shape.tail) = .ok images ∧ f images = .ok z ∧ z.shape = [order, classes] ∧
      ∀ i c v, i < order → c < classes → f (slice gx 0 i) = .ok v → v.Same y → z.get [i, c] = y.get [0, c] := by
  have e1 : reshapeN gx (order :: x.shape.tail) = .ok ⟨order :: s, fun idx => gx.get (unravel gx.shape (ravel (order :: s) idx))⟩ := by
    unfold reshapeN
    rw [if_pos]
    · rw [hx]
      rfl
    · rw [hgx, hx, prod_cons, prod_cons, List.tail_cons, prod_cons, Nat.one_mul]
  obtain ⟨z, t, ez, t1, t2, -⟩ := hf x ⟨order :: s, fun idx => gx.get (unravel gx.shape (ravel (order :: s) idx))⟩ y 1 order hx rfl hy
  rw [hys] at t1
  cases t1
  refine ⟨_, z, e1, ez, t2, ?_⟩
  intro i c v hi hc ev hv
  have hs : (slice gx 0 i).shape = 1 :: s := by
    show gx.shape.eraseIdx 0 = _
    rw [hgx, hx]
    rfl
  obtain ⟨v', t', ev', u1, u2, h3⟩ := hf ⟨order :: s, fun idx => gx.get (unravel gx.shape (ravel (order :: s) idx))⟩ (slice gx 0 i) z
    order 1 rfl hs ez
  rw [ev] at ev'
  cases ev'
  rw [t2] at u1
  cases u1
  rw [h3 i 0 hi (by omega) ?_ [c] ⟨hc, trivial⟩]
  · exact hv.2 [0, c] (by rw [u2]; exact ⟨by omega, hc, trivial⟩)
  · intro idx hidx
    show gx.get (unravel gx.shape (ravel (order :: s) (i :: idx))) = gx.get (i :: 0 :: idx)
    have : ravel (order :: s) (i :: idx) = ravel gx.shape (i :: 0 :: idx) := by
      rw [hgx, hx]
      simp [ravel, prod_cons]
    rw [this, unravel_ravel]
    rw [hgx, hx]
    exact ⟨hi, by omega, hidx⟩

/-- C78, the network of the notebook with group `n` throughout, P4M there, on images of size 28 x 28 there: for all weights, numbers
of filters and channels, activations and last layers, and for all sizes for which the layers fit, the layers can be built and the
network gives the same numbers for all transformed copies of an image (`transformed_images` in the notebook), also if these are put
into one batch as in the notebook. The other images in a batch play no role. The first layer is equivariant according to check_equivariance, as called there. -/
theorem C78_network [Field α] [LinearOrder α] [IsStrictOrderedRing α] (n : GroupName) (hn : n.dim = 2) (h w : Nat) (hm : n.Grid [h, w])
    (hh : 4 < h) (hw : 4 < w) (F1 F2 F3 F4 C classes : Nat) (hF1 : 0 < F1) (hF2 : 0 < F2) (hF3 : 0 < F3) (hF4 : 0 < F4)
    (act : α → α) (w1 w2 w3 w4 b1 b2 b3 b4 : List Nat → α) (t : PoolType) (dense : List α → Nat → α) :
    ∃ l1 l2 l3 l4 l5,
      BuiltConv (notebookConv n F1 act) false none [h * 2 + 4, w * 2 + 4] none C w1 b1 (List.range n.group.order) l1 ∧
      BuiltConv (notebookConv n F2 act) false none [h * 2 + 2, w * 2 + 2] (some n.group.order) F1 w2 b2 (List.range n.group.order) l2 ∧
      BuiltPool (notebookPool n "" t 2) none [h * 2, w * 2] n.group.order F2 (List.range n.group.order) l3 ∧
      BuiltConv (notebookConv n F3 act) false none [h, w] (some n.group.order) F2 w3 b3 (List.range n.group.order) l4 ∧
      BuiltConv (notebookConv n F4 act) false none [h - 2, w - 2] (some n.group.order) F3 w4 b4 (List.range n.group.order) l5 ∧
      ∀ (x : Tensor α) (B : Nat), x.shape = [B, h * 2 + 4, w * 2 + 4, C] →
        let model := sequential [fun x => (l1.call x).2, fun x => (l2.call x).2, fun x => l3.call x, fun x => (l4.call x).2,
          fun x => (l5.call x).2, global3D t, denseHead classes dense]
        Batchwise model [h * 2 + 4, w * 2 + 4, C] ∧
        (0 < B → checkEquivariance (fun x => (l1.call x).2) x n.group (groupAxis := some 3) (domain := none) = .ok 0) ∧
        ∃ y gx, model x = .ok y ∧ y.shape = [B, classes] ∧ n.group.action x [1, 2] 0 none (some "") none = .ok gx ∧
          gx.shape = n.group.order :: x.shape ∧
          (∀ i, i < n.group.order → ∃ z, model (slice gx 0 i) = .ok z ∧ z.Same y) ∧
          (B = 1 → ∃ images z, reshapeN gx (n.group.order :: x.shape.tail) = .ok images ∧ model images = .ok z ∧
            z.shape = [n.group.order, classes] ∧
            ∀ i c, i < n.group.order → c < classes → z.get [i, c] = y.get [0, c]) := by
  have hown := n.sym.tab.own
  have hsub := own_sub n
  have conv := fun F hF a b ha hb hg g hgg C k0 b0 => notebook_conv (α := α) n n hn _ hown (some "") _ hsub (fun _ h => h) F hF act a b ha hb
    hg g hgg C k0 b0
  obtain ⟨l1, B1, E1⟩ := conv F1 hF1 (h * 2 + 2) (w * 2 + 2) (by omega) (by omega) (grid_two hn hm (· * 2 + 2)) none (.inl rfl) C w1 b1
  obtain ⟨l2, B2, E2⟩ := conv F2 hF2 (h * 2) (w * 2) (by omega) (by omega) (grid_two hn hm (· * 2)) _ (.inr rfl) F1 w2 b2
  obtain ⟨l3, B3, E3⟩ := notebook_pool (α := α) n n hn _ hown "" _ hsub (some "") _ hsub (own_map _) t 2 h w (by omega) (by omega)
    (by omega) hm F2
  obtain ⟨l4, B4, E4⟩ := conv F3 hF3 (h - 2) (w - 2) (by omega) (by omega) (grid_two hn hm (· - 2)) _ (.inr rfl) F2 w3 b3
  obtain ⟨l5, B5, E5⟩ := conv F4 hF4 (h - 2 - 2) (w - 2 - 2) (by omega) (by omega) (grid_two hn hm (· - 2 - 2)) _ (.inr rfl) F3 w4 b4
  rw [show h - 2 + 2 = h by omega, show w - 2 + 2 = w by omega] at B4 E4
  rw [show h - 2 - 2 + 2 = h - 2 by omega, show w - 2 - 2 + 2 = w - 2 by omega] at B5 E5
  refine ⟨l1, l2, l3, l4, l5, B1, B2, B3, B4, B5, ?_⟩
  intro x B hx model
  rw [List.length_range] at E3
  have hst : EquivariantStack n .channelsLast (some "") (List.range n.group.order).length ⟨[h * 2 + 4, w * 2 + 4], none, C, none⟩
      ⟨[h - 2 - 2, w - 2 - 2], some (List.range n.group.order).length, F4, some n.group.name⟩
      [fun x => (l1.call x).2, fun x => (l2.call x).2, fun x => l3.call x, fun x => (l4.call x).2, fun x => (l5.call x).2] := by
    rw [List.length_range] at *
    exact .cons E1 (.cons E2 (.cons E3 (.cons E4 (.cons E5 (.nil _)))))
  have hD : n.group.sub (n.group.parseSubgroup (some n.group.name)) = .ok (List.range n.group.order) := by
    rw [own_sub' n]
    exact hown
  obtain ⟨hb, inv⟩ := invariant_head n hn (some "") _ hsub hD (fun _ h => h) (by omega) (by omega) (grid_two hn hm (· - 2 - 2)) t classes
    dense hst
  refine ⟨hb, ?_, ?_⟩
  · intro hB
    obtain ⟨y1, ey1, sy1, hc⟩ := E1.2 x B hx
    obtain ⟨r, hr, -, hr0⟩ := C36_sound_and_complete n .channelsLast B [h * 2 + 4, w * 2 + 4] none C x y1 (E1.1 B) hx
      (grid_two hn hm (· * 2 + 4)) ey1 [h * 2 + 2, w * 2 + 2] (some n.group.order) F1 sy1 (grid_two hn hm (· * 2 + 2)) (by
        rw [sy1]
        have hno : n.group.order ≠ 0 := by cases n <;> decide
        simp [SignalKind.shape, sigShape]
        omega) (some "") none (some n.group.name) _ hsub rfl ⟨_, hD, by simp⟩
    rw [← hr0.2 hc, ← hr, hn]
    unfold checkEquivariance
    rw [own_sub' n]
    rfl
  · obtain ⟨y, gx, ey, sy, egx, sgx, hi⟩ := inv x B hx
    rw [List.length_range] at sgx hi
    refine ⟨y, gx, ey, sy, egx, sgx, hi, ?_⟩
    rintro rfl
    obtain ⟨images, z, ei, ez, sz, hz⟩ := merged_test hb hx ey sy sgx
    refine ⟨images, z, ei, ez, sz, ?_⟩
    intro i c hi' hc
    obtain ⟨v, ev, hv⟩ := hi i hi'
    exact hz i c v hi' hc ev hv

/-- C78: Keras's `GlobalMaxPooling3D` (or average pooling), which the notebook uses at the end, computes the same as GroCo's
`GlobalGroupMaxPooling2D` on signals on a group in the plane. -/
theorem C78_global_pooling [Field α] [LinearOrder α] (t : PoolType) (x : Tensor α) (B h w g C : Nat) (hx : x.shape = [B, h, w, g, C])
    (hh : h ≠ 0) (hw : w ≠ 0) (hg : g ≠ 0) :
    ∃ y z, kerasGlobalPool .channelsLast 3 t.reduce false x = .ok y ∧
      (⟨2, t, false, .channelsLast⟩ : GlobalGroupPooling).call x = .ok z ∧ y.Same z :=
  global3D_same t hx hh hw hg

/-- C78, the network of the notebook that goes down to subgroups, P4M, P2MM and PMw there: it is still invariant under the elements of
the last subgroup (in the notebook, elements 0 and 4 of P4M). -/
theorem C78_subgroups [Field α] [LinearOrder α] (n s r : GroupName) (hn : n.dim = 2) (P Q : List Nat)
    (hP : lookup n.group.subgroup s.group.name = .ok P) (hQ : lookup s.group.subgroup r.group.name = .ok Q)
    (h w : Nat) (hm : n.Grid [h, w]) (hh : 4 < h) (hw : 4 < w) (F1 F2 F3 F4 C classes : Nat) (hF1 : 0 < F1) (hF2 : 0 < F2)
    (hF3 : 0 < F3) (hF4 : 0 < F4) (act : α → α) (w1 w2 w3 w4 b1 b2 b3 b4 : List Nat → α) (t : PoolType) (dense : List α → Nat → α) :
    ∃ l1 l2 l3 l4 l5 l6 A, lookup n.group.subgroup r.group.name = .ok A ∧
      BuiltConv (notebookConv n F1 act) false none [h * 2 + 4, w * 2 + 4] none C w1 b1 (List.range n.group.order) l1 ∧
      BuiltConv (notebookConv n F2 act) false none [h * 2 + 2, w * 2 + 2] (some n.group.order) F1 w2 b2 (List.range n.group.order) l2 ∧
      BuiltPool (notebookPool n s.group.name t 2) none [h * 2, w * 2] n.group.order F2 P l3 ∧
      BuiltConv (notebookConv s F3 act) false none [h, w] (some s.group.order) F2 w3 b3 (List.range s.group.order) l4 ∧
      BuiltPool (notebookPool s r.group.name t 1) none [h - 2, w - 2] s.group.order F3 Q l5 ∧
      BuiltConv (notebookConv r F4 act) false none [h - 2, w - 2] (some r.group.order) F3 w4 b4 (List.range r.group.order) l6 ∧
      ∀ (x : Tensor α) (B : Nat), x.shape = [B, h * 2 + 4, w * 2 + 4, C] →
        let model := sequential [fun x => (l1.call x).2, fun x => (l2.call x).2, fun x => l3.call x, fun x => (l4.call x).2,
          fun x => l5.call x, fun x => (l6.call x).2, global3D t, denseHead classes dense]
        Batchwise model [h * 2 + 4, w * 2 + 4, C] ∧ ∃ y gx, model x = .ok y ∧ y.shape = [B, classes] ∧ n.group.action x [1, 2] 0 none (some "") none = .ok gx ∧
          gx.shape = n.group.order :: x.shape ∧
          (∀ e ∈ A, ∃ z, model (slice gx 0 e) = .ok z ∧ z.Same y) ∧
          (B = 1 → ∃ images z, reshapeN gx (n.group.order :: x.shape.tail) = .ok images ∧ model images = .ok z ∧
            z.shape = [n.group.order, classes] ∧ ∀ e ∈ A, ∀ c, c < classes → z.get [e, c] = y.get [0, c]) := by
  have hown := n.sym.tab.own
  have hR := C59_nested n s r P Q hP hQ
  have hA : n.group.sub (n.group.parseSubgroup (some r.group.name)) = .ok (Q.map (nth P)) := by
    rw [(n.sym.tab.parse hR).1]
    exact hR
  have hPl := (sub_embed_els hP).1
  have hQl := (sub_embed_els hQ).1
  have hlt : ∀ e ∈ Q.map (nth P), e < n.group.order := fun e he => n.sym.sub_lt hR he
  have hAn : ∀ e ∈ Q.map (nth P), e ∈ List.range n.group.order := fun e he => List.mem_range.2 (hlt e he)
  have hAP : ∀ e ∈ Q.map (nth P), e ∈ P := by
    intro e he
    obtain ⟨i, hi, rfl⟩ := List.mem_map.1 he
    exact nth_mem _ _ (by rw [← hPl]; exact s.sym.sub_lt hQ hi)
  have hPn : ∀ e ∈ P, e < n.group.order := fun e he => n.sym.sub_lt hP he
  have hAP' : ∀ e ∈ Q.map (nth P), e ∈ P.map (nth (List.range n.group.order)) := by
    intro e he
    exact List.mem_map.2 ⟨e, hAP e he, by simp [nth, hPn e (hAP e he)]⟩
  have hps : n.group.parseSubgroup (some s.group.name) = some s.group.name := (n.sym.tab.parse hP).1
  have hpr : s.group.parseSubgroup (some r.group.name) = some r.group.name := (s.sym.tab.parse hQ).1
  have hPsub : n.group.sub (n.group.parseSubgroup (some s.group.name)) = .ok P := by rw [hps]; exact hP
  have hQsub : s.group.sub (s.group.parseSubgroup (some r.group.name)) = .ok Q := by rw [hpr]; exact hQ
  have conv := fun (v : GroupName) V (hV : lookup n.group.subgroup v.group.name = .ok V) hAV F hF a b ha hb hg g hgg C k0 b0 =>
    notebook_conv (α := α) n v hn V hV (some r.group.name) _ hA hAV F hF act a b ha hb hg g hgg C k0 b0
  obtain ⟨l1, B1, E1⟩ := conv n _ hown hAn F1 hF1 (h * 2 + 2) (w * 2 + 2) (by omega) (by omega) (grid_two hn hm (· * 2 + 2)) none (.inl rfl)
    C w1 b1
  obtain ⟨l2, B2, E2⟩ := conv n _ hown hAn F2 hF2 (h * 2) (w * 2) (by omega) (by omega) (grid_two hn hm (· * 2)) _ (.inr rfl) F1 w2 b2
  obtain ⟨l3, B3, E3⟩ := notebook_pool (α := α) n n hn _ hown s.group.name P hPsub (some r.group.name) _ hA hAP' t 2 h w (by omega)
    (by omega) (by omega) hm F2
  obtain ⟨l4, B4, E4⟩ := conv s P hP hAP F3 hF3 (h - 2) (w - 2) (by omega) (by omega) (grid_two hn hm (· - 2)) _ (.inr rfl) F2 w3 b3
  obtain ⟨l5, B5, E5⟩ := notebook_pool (α := α) n s hn P hP r.group.name Q hQsub (some r.group.name) _ hA (fun _ h => h) t 1
    (h - 2) (w - 2) (by omega) (by omega) (by omega) (grid_two hn hm (· - 2)) F3
  obtain ⟨l6, B6, E6⟩ := conv r _ hR (fun _ h => h) F4 hF4 (h - 2 - 2) (w - 2 - 2) (by omega) (by omega) (grid_two hn hm (· - 2 - 2)) _
    (.inr rfl) F3 w4 b4
  rw [show h - 2 + 2 = h by omega, show w - 2 + 2 = w by omega] at B4 E4
  rw [show (h - 2) * 1 = h - 2 by omega, show (w - 2) * 1 = w - 2 by omega] at B5 E5
  rw [show h - 2 - 2 + 2 = h - 2 by omega, show w - 2 - 2 + 2 = w - 2 by omega] at B6 E6
  rw [← hPl, hps] at E3
  rw [← hQl, hpr] at E5
  refine ⟨l1, l2, l3, l4, l5, l6, _, hR, B1, B2, B3, B4, B5, B6, ?_⟩
  intro x B hx model
  have hst : EquivariantStack n .channelsLast (some r.group.name) (Q.map (nth P)).length ⟨[h * 2 + 4, w * 2 + 4], none, C, none⟩
      ⟨[h - 2 - 2, w - 2 - 2], some (Q.map (nth P)).length, F4, some r.group.name⟩
      [fun x => (l1.call x).2, fun x => (l2.call x).2, fun x => l3.call x, fun x => (l4.call x).2, fun x => l5.call x,
        fun x => (l6.call x).2] := by
    have e : (Q.map (nth P)).length = r.group.order := by rw [List.length_map, hQl]
    have : (⟨[h - 2 - 2, w - 2 - 2], some (Q.map (nth P)).length, F4, some r.group.name⟩ : SignalKind) =
      ⟨[h - 2 - 2, w - 2 - 2], some r.group.order, F4, some r.group.name⟩ := by rw [e]
    rw [this]
    exact .cons E1 (.cons E2 (.cons E3 (.cons E4 (.cons E5 (.cons E6 (.nil _))))))
  obtain ⟨hb, inv⟩ := invariant_head n hn (some r.group.name) _ hA hA (fun _ h => h) (by omega) (by omega) (grid_two hn hm (· - 2 - 2)) t
    classes dense hst
  obtain ⟨y, gA, ey, sy, egA, sgA, hi⟩ := inv x B hx
  have hrank : x.rank = 4 := by simp [rank, hx]
  obtain ⟨gx, gA', egx, egA', -, hslice⟩ := C06_subgroup_slices_grid n x [1, 2] 0 ⟨by simp [hn], by decide, by simp [hrank, hn]⟩ (by
    rw [hx]
    exact grid_two hn hm (· * 2 + 4)) (by omega) r.group.name _ hR
  rw [show n.group.action x (List.map Int.ofNat [1, 2]) ((0 : Nat) : Int) none (some r.group.name) none =
    n.group.action x [1, 2] 0 none (some r.group.name) none from rfl, egA] at egA'
  cases egA'
  have sgx : gx.shape = n.group.order :: x.shape := by
    obtain ⟨gx', e', s'⟩ := n.sym.action_grid_all x (axs := [1, 2]) (a := 0) ⟨by simp [hn], by decide, by simp [hrank, hn]⟩ (by
      rw [hx]
      exact grid_two hn hm (· * 2 + 4)) (by omega)
    rw [egx] at e'
    cases e'
    rw [s'.1]
    simp
  have hall : ∀ e ∈ Q.map (nth P), ∃ z, model (slice gx 0 e) = .ok z ∧ z.Same y := by
    intro e he
    obtain ⟨i, hi', he'⟩ := List.getElem_of_mem he
    have hsl := hslice i hi'
    rw [nth_eq_getElem _ _ hi', he'] at hsl
    obtain ⟨v, ev, hv⟩ := hi i hi'
    have hs1 : (slice gA 0 i).shape = B :: [h * 2 + 4, w * 2 + 4, C] := by
      show gA.shape.eraseIdx 0 = _
      rw [sgA, hx]
      rfl
    obtain ⟨z, ez, hz⟩ := hb.same hs1 hsl.symm ev
    exact ⟨z, ez, hz.trans hv⟩
  refine ⟨hb, y, gx, ey, sy, egx, sgx, hall, ?_⟩
  rintro rfl
  obtain ⟨images, z, ei, ez, sz, hz⟩ := merged_test hb hx ey sy sgx
  refine ⟨images, z, ei, ez, sz, ?_⟩
  intro e he c hc
  obtain ⟨v, ev, hv⟩ := hall e he
  exact hz e c v (hlt e he) hc ev hv

/-- the sizes of the notebook: MNIST images of 28 x 28 pixels, the group P4M, filters 16, 32, 64 and 128 divided by the square root
of eight -/
example (w1 w2 w3 w4 b1 b2 b3 b4 : List Nat → ℚ) (softmax : List ℚ → Nat → ℚ) := C78_network .P4M rfl 12 12 ⟨rfl, rfl⟩ (by decide) (by decide)
  6 11 23 45 1 10 (by decide) (by decide) (by decide) (by decide) (fun v => max v 0) w1 w2 w3 w4 b1 b2 b3 b4 .max softmax

/-- the subgroups of the notebook; PMw consists of the elements 0 and 4 of P4M -/
example (w1 w2 w3 w4 b1 b2 b3 b4 : List Nat → ℚ) (softmax : List ℚ → Nat → ℚ) := C78_subgroups .P4M .P2MM .PMw rfl _ _ rfl rfl 12 12
  ⟨rfl, rfl⟩ (by decide) (by decide) 5 16 45 90 1 10 (by decide) (by decide) (by decide) (by decide) (fun v => max v 0) w1 w2 w3 w4
  b1 b2 b3 b4 .max softmax

example : lookup GroupName.P4M.group.subgroup "PMw" = .ok [0, 4] := rfl

example : ∃ x : Tensor ℚ, x.shape = [1, 6, 6, 8, 45] := ⟨⟨[1, 6, 6, 8, 45], fun _ => 1⟩, rfl⟩

end GroCo
