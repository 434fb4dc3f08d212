import Verif.Layers
import Verif.Layout
import Verif.ManipsLemmas

/-
Helper lemmas: the index tensor with which a group layer gathers its transformed kernel.
-/

namespace GroCo
open Tensor

variable {α : Type}

theorem valid_two {s k : List Nat} {a b i j : Nat} :
    Valid (s ++ [a, b]) (k ++ [i, j]) ↔ Valid s k ∧ i < a ∧ j < b := by
  constructor
  · intro h
    have hl : k.length = s.length := by have := h.length; simp at this; omega
    rw [valid_append _ _ _ _ hl] at h
    simpa [Valid] using h
  · rintro ⟨h, hi, hj⟩
    rw [valid_append _ _ _ _ h.length]
    simp [Valid, h, hi, hj]

/-- an index with two trailing axes -/
theorem two_of_valid {s idx : List Nat} {a b : Nat} (h : Valid (s ++ [a, b]) idx) :
    ∃ k i j, idx = k ++ [i, j] ∧ Valid s k ∧ i < a ∧ j < b := by
  obtain ⟨k, r, rfl, hk, hr⟩ := valid_append_split h
  match r, hr with
  | [i, j], hr => exact ⟨k, i, j, rfl, hk, by simpa [Valid] using hr⟩

/-- a number below a product, split -/
theorem split_lt {v m n : Nat} (h : v < m * n) : v / n < m ∧ v % n < n ∧ v = v / n * n + v % n := by
  have hn : 0 < n := Nat.pos_of_ne_zero (by rintro rfl; simp at h)
  exact ⟨Nat.div_lt_of_lt_mul (by rwa [Nat.mul_comm]), Nat.mod_lt _ hn, by rw [Nat.mul_comm]; exact (Nat.div_add_mod _ _).symm⟩

theorem div_of {i n o : Nat} (ho : o < n) : (i * n + o) / n = i := by
  rw [Nat.add_comm, Nat.add_mul_div_right _ _ (by omega), Nat.div_eq_of_lt ho, Nat.zero_add]
theorem mod_of {i n o : Nat} (ho : o < n) : (i * n + o) % n = o := by
  rw [Nat.add_comm, Nat.add_mul_mod_self_right, Nat.mod_eq_of_lt ho]

section
variable {G : Group} {d : Nat} {els : List SPerm} {ok : List Nat → Prop}

/-- The stored weight used by a lifting layer for element `g`, offset `k`, channel `c`, filter `o`. -/
def liftIdx (els : List SPerm) (K : List Nat) (C F : Nat) (g : Nat) (k : List Nat) (c o : Nat) : Nat :=
  ravel (K ++ [C, F]) (back els K g k ++ [c, o])

/-- The same for a group-valued input on `D` with `C` channels each. -/
def groupIdx (G : GroupData) (els : List SPerm) (D K : List Nat) (C F : Nat) (g : Nat) (k : List Nat) (c' o : Nat) : Nat :=
  let e := G.comp (nth G.inverses g) (nth D (c' / C))
  if e ∈ D then ravel (K ++ [D.length * C, F]) (back els K g k ++ [D.idxOf e * C + c' % C, o]) else 0

theorem sub_pos (T : Tables G.toGroupData d els) {s : String} {A : List Nat} (hA : lookup G.subgroup s = .ok A) :
    0 < A.length := by
  have := (T.subs _ (lookup_mem hA)).2.2.1
  cases A with
  | nil => simp at this
  | cons _ _ => simp

theorem range_eq_spAxes (d : Nat) : (List.range d).map Int.ofNat = (spAxes 0 d).map Int.ofNat := by
  rw [spAxes, List.range_eq_range']

/-- merging the new group axis of a transformed index tensor with the filters -/
theorem merge_filters (y : Tensor Nat) {K : List Nat} {A C F : Nat} (hy : y.shape = K ++ [A, C, F]) :
    ∃ z, mergeAxes y (-3) (-1) = .ok z ∧ z.shape = K ++ [C, A * F] ∧
      ∀ k c i o, Valid K k → c < C → i < A → o < F → z.get (k ++ [c, i * F + o]) = y.get (k ++ [i, c, o]) := by
  have hr : y.rank = K.length + 3 := by simp [Tensor.rank, hy]
  obtain ⟨z, e, hs, hg⟩ := mergeAxes_ok y (am := -3) (at' := -1) (m := K.length) (t := K.length + 2)
    (normAxis_of (by omega) (by omega)) (normAxis_of (by omega) (by omega)) (by simp [SameSign]) (by omega)
  have hs' : z.shape = K ++ [C, A * F] := by
    rw [hs, hy]
    lay (rfl : K.length = K.length)
    rw [Nat.mul_comm]
  refine ⟨z, e, hs', ?_⟩
  intro k c i o hk hc hi ho
  have hkl := hk.length
  rw [hg _ (by rw [hs']; exact valid_two.2 ⟨hk, hc, mul_add_lt hi ho⟩), hy]
  have e1 : after K.length (K.length + 2) = K.length + 1 := by simp [after]
  rw [e1]
  lay (rfl : K.length = K.length)
  lay hkl
  rw [div_of ho, mod_of ho]

theorem Sym.liftIndices (S : Sym G d els ok) {K : List Nat} (hK : ok K) {s : String} {A : List Nat}
    (hA : lookup G.subgroup s = .ok A) (x : Tensor Nat) {C F : Nat} (hx : x.shape = K ++ [C, F])
    (hxg : ∀ idx, x.get idx = ravel x.shape idx) :
    ∃ z, (do
        let y ← G.action x ((List.range d).map Int.ofNat) d none (some s) none
        mergeAxes y (-3) (-1)) = .ok z ∧ z.shape = K ++ [C, A.length * F] ∧
      ∀ k c i o, Valid K k → c < C → i < A.length → o < F →
        z.get (k ++ [c, i * F + o]) = liftIdx els K C F (nth A i) k c o := by
  have hKl := S.okLen K hK
  have hr : x.rank = d + 2 := by simp [Tensor.rank, hx, hKl]
  have hco : coords (spAxes 0 d) x.shape = K := by
    rw [hx]; exact coords_spAxes (a := []) rfl hKl
  obtain ⟨y, ey, sy⟩ := S.action_grid x (axs := spAxes 0 d) (axesOk_spAxes (by omega)) (by rw [hco]; exact hK) (a := d) (by omega) hA
  have hys : y.shape = K ++ [A.length, C, F] := by
    rw [sy.1, hx]; lay hKl; simp
  obtain ⟨z, ez, hz, hg⟩ := merge_filters y hys
  refine ⟨z, by rw [range_eq_spAxes, ey]; exact ez, hz, ?_⟩
  intro k c i o hk hc hi ho
  have hkl : k.length = d := hk.length.trans hKl
  have hgo := (S.tab.subs _ (lookup_mem hA)).2.2.2.1 _ (nth_mem _ _ hi)
  rw [hg k c i o hk hc hi ho, sy.2 _ (by rw [hys, valid_append _ _ _ _ hk.length]; simp [Valid, hk, hi, hc, ho])]
  lay hkl
  rw [hco]
  have : (A.map fun i => elPull els (spAxes 0 d) K i).getD i id = elPull els (spAxes 0 d) K (nth A i) := by
    simp [List.getD_eq_getElem?_getD, hi, nth]
  rw [this, hxg, hx]
  have := elPull_spAxes (els := els) (a := []) (p := k) (r := [c, o]) (n := K) (g := nth A i) (m := 0) rfl hkl
    (S.wf hgo).1
  simp only [List.nil_append] at this
  rw [this]
  rfl

theorem Sym.groupIndices (S : Sym G d els ok) {K : List Nat} (hK : ok K) {s t : String} {A D : List Nat}
    (hA : lookup G.subgroup s = .ok A) (hD : lookup G.subgroup t = .ok D) (x : Tensor Nat) {C F : Nat}
    (hx : x.shape = K ++ [D.length * C, F]) (hxg : ∀ idx, x.get idx = ravel x.shape idx) :
    ∃ z, (do
        let y ← splitAxes x D.length (-2)
        let y ← G.action y ((List.range d).map Int.ofNat) d (some (d : Int)) (some s) (some t)
        let y ← mergeAxes y (-3) (-2)
        mergeAxes y (-3) (-1)) = .ok z ∧ z.shape = K ++ [D.length * C, A.length * F] ∧
      ∀ k c' i o, Valid K k → c' < D.length * C → i < A.length → o < F →
        z.get (k ++ [c', i * F + o]) = groupIdx G.toGroupData els D K C F (nth A i) k c' o := by
  have hKl := S.okLen K hK
  have hr : x.rank = d + 2 := by simp [Tensor.rank, hx, hKl]
  have hDp := sub_pos S.tab hD
  obtain ⟨y1, e1, s1, g1⟩ := splitAxes_ok x (ax := -2) (k := d) (left := D.length) (q := C)
    (normAxis_of (by omega) (by omega)) hDp (by rw [hx]; lay hKl)
  have s1' : y1.shape = K ++ [D.length, C, F] := by
    rw [s1, hx]; lay hKl
  have hr1 : y1.rank = d + 3 := by simp [Tensor.rank, s1', hKl]
  have hco : coords (spAxes 0 d) y1.shape = K := by
    rw [s1']; exact coords_spAxes (a := []) rfl hKl
  obtain ⟨y2, e2, s2, g2⟩ := S.action_group y1 (axs := spAxes 0 d) (a := d) (ga := d)
    (axesOk_spAxes (by omega)) (by rw [hco]; exact hK)
    (by omega) (by omega) (by simp [List.mem_range'_1]) hA hD (by rw [s1']; lay hKl)
  have s2' : y2.shape = K ++ [A.length, D.length, C, F] := by rw [s2, s1']; lay hKl
  have hr2 : y2.rank = d + 4 := by simp [Tensor.rank, s2', hKl]
  obtain ⟨y3, e3, s3, g3⟩ := mergeAxes_ok y2 (am := -3) (at' := -2) (m := d + 1) (t := d + 2)
    (normAxis_of (by omega) (by omega)) (normAxis_of (by omega) (by omega)) (by simp [SameSign]) (by omega)
  have s3' : y3.shape = K ++ [A.length, D.length * C, F] := by
    rw [s3, s2']; lay hKl; rw [Nat.mul_comm]
  obtain ⟨z, ez, hz, hg⟩ := merge_filters y3 s3'
  refine ⟨z, by
    simp only [range_eq_spAxes, e1, e2, e3, res_bind_ok]; exact ez, hz, ?_⟩
  intro k c' i o hk hc hi ho
  have hkl : k.length = d := hk.length.trans hKl
  have hgo := (S.tab.subs _ (lookup_mem hA)).2.2.2.1 _ (nth_mem _ _ hi)
  obtain ⟨h1, h2, h3⟩ := split_lt hc
  rw [hg k c' i o hk hc hi ho, g3 _ (by rw [s3', valid_append _ _ _ _ hk.length]; simp [Valid, hk, hi, hc, ho])]
  have ea : after (d + 1) (d + 2) = d + 1 := by simp [after]
  rw [ea, s2']
  lay hKl
  lay hkl
  have e5 : k ++ [i, c' / C, c' % C, o] = (k ++ [c' / C, c' % C, o]).insertIdx d i := by lay hkl
  rw [e5, g2 i _ hi (by rw [s1', valid_append _ _ _ _ hk.length]; simp [Valid, hk, h1, h2, ho]), hco]
  unfold regular groupIdx
  lay hkl
  split
  · rename_i hm
    have := elPull_spAxes (els := els) (a := []) (p := k) (r := [c' / C, c' % C, o]) (n := K) (g := nth A i) (m := 0) rfl hkl
      (S.wf hgo).1
    simp only [List.nil_append] at this
    rw [this]
    have hbl := S.length_back (n := K) (p := k) hgo
    have hbv := S.valid_back hK hgo hk
    lay hbl
    rw [g1 _ (by
      rw [s1', valid_append _ _ _ _ hbv.length]
      simp [Valid, hbv, h2, ho, List.idxOf_lt_length_iff.2 hm])]
    lay hbl
    rw [hxg, hx]
  · rfl

end

end GroCo
