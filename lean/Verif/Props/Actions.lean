import Verif.MatrixLemmas
import Verif.ActionLemmas

/-
Properties C05–C08: signals on the group, acting subgroups, domain subgroups, upsampling.
`n.group.action x axs a (some ga) (some A) (some D)` is the call
`group.action(x, spatial_axes=axs, new_group_axis=a, group_axis=ga, acting_group=A, domain_group=D)`;
`""` means the whole group. `n.motion` is the motion described in C03.
-/

namespace GroCo
open Tensor

variable {α : Type} [Zero α]

/-- C07: acting with the elements of the subgroup `A` on a signal on the subgroup `D`. The entry for the acting element
`A[i]`, at group element `D[j]`, is the input at the moved-back position and group element `A[i]⁻¹ D[j]`, or 0 when
that is outside of `D`. -/
theorem C07_zero_outside_domain (n : GroupName) (x : Tensor α) (axs : List Nat) (a ga : Nat)
    (hax : AxesOk n.dim x.rank axs) (hgrid : n.Grid (axs.map (nth x.shape))) (ha : a ≤ x.rank) (hga : ga < x.rank)
    (hgax : ga ∉ axs) (sA sD : String) (A D : List Nat) (hA : lookup n.group.subgroup sA = .ok A)
    (hD : lookup n.group.subgroup sD = .ok D) (hsz : nth x.shape ga = D.length) :
    ∃ y, n.group.action x (axs.map Int.ofNat) a (some (ga : Int)) (some sA) (some sD) = .ok y ∧
      y.shape = x.shape.insertIdx a A.length ∧
      ∀ i idx jdx, i < A.length → Valid x.shape idx → Valid x.shape jdx →
        MovesTo (n.motion (nth A i)) axs x.shape idx jdx →
        let c := n.group.comp (nth n.group.inverses (nth A i)) (nth D (nth jdx ga))
        y.get (jdx.insertIdx a i) = if c ∈ D then x.get (idx.set ga (D.idxOf c)) else 0 := by
  obtain ⟨y, ey, hs, hg⟩ := n.sym.action_group x hax hgrid ha hga hgax hA hD hsz
  refine ⟨y, ey, hs, fun i idx jdx hi hv hj hm => ?_⟩
  have hAi := (n.sym.tab.subs _ (lookup_mem hA)).2.2.2.1 _ (nth_mem _ _ hi)
  rw [hg i jdx hi hj, regular, n.elPull_of_moves hAi hax hgrid hv hj hm]

/-- C05: on a signal on the whole group the result for `g` at (position, group element `h`) is the input at the
moved-back position and group element `g⁻¹ h`. -/
theorem C05_regular_representation (n : GroupName) (x : Tensor α) (axs : List Nat) (a ga : Nat)
    (hax : AxesOk n.dim x.rank axs) (hgrid : n.Grid (axs.map (nth x.shape))) (ha : a ≤ x.rank) (hga : ga < x.rank)
    (hgax : ga ∉ axs) (hsz : nth x.shape ga = n.group.order) :
    ∃ y, n.group.action x (axs.map Int.ofNat) a (some (ga : Int)) (some "") (some "") = .ok y ∧
      y.shape = x.shape.insertIdx a n.group.order ∧
      ∀ g idx jdx, g < n.group.order → Valid x.shape idx → Valid x.shape jdx →
        MovesTo (n.motion g) axs x.shape idx jdx →
        y.get (jdx.insertIdx a g) = x.get (idx.set ga (n.group.comp (nth n.group.inverses g) (nth jdx ga))) := by
  obtain ⟨y, ey, hs, hg⟩ := n.sym.action_group x hax hgrid ha hga hgax n.sym.tab.own n.sym.tab.own (by simpa using hsz)
  refine ⟨y, by rw [action_own_acting n.sym, action_own_domain n.sym]; exact ey, by simpa using hs,
    fun g idx jdx hgo hv hj hm => ?_⟩
  have hjg := hj.lt hga
  rw [hsz] at hjg
  rw [hg g jdx (by simpa using hgo) hj, nth_range, if_pos hgo, regular_full n.sym x hgo hjg,
    n.elPull_of_moves hgo hax hgrid hv hj hm]

/-- C05: it is a left action: `g` and then `h` is `composition[h][g]`; element 0 does nothing. -/
theorem C05_left_action (n : GroupName) (x : Tensor α) (axs : List Nat) (a a' ga : Nat)
    (hax : AxesOk n.dim x.rank axs) (hgrid : n.Grid (axs.map (nth x.shape))) (ha : a ≤ x.rank) (ha' : a' ≤ x.rank)
    (hga : ga < x.rank) (hgax : ga ∉ axs) (hsz : nth x.shape ga = n.group.order) :
    ∃ y, n.group.action x (axs.map Int.ofNat) a (some (ga : Int)) (some "") (some "") = .ok y ∧ (slice y a 0).Same x ∧
      ∀ g, g < n.group.order → ∃ z,
        n.group.action (slice y a g) (axs.map Int.ofNat) a' (some (ga : Int)) (some "") (some "") = .ok z ∧
        ∀ h, h < n.group.order → (slice z a' h).Same (slice y a (n.group.comp h g)) := by
  have T := n.sym.tab
  have L := T.laws
  have act : ∀ (x : Tensor α), AxesOk n.dim x.rank axs → n.Grid (axs.map (nth x.shape)) → ∀ a, a ≤ x.rank →
      ga < x.rank → nth x.shape ga = n.group.order →
      ∃ y, n.group.action x (axs.map Int.ofNat) a (some (ga : Int)) (some "") (some "") = .ok y ∧
      y.shape = x.shape.insertIdx a n.group.order ∧
      ∀ g idx, g < n.group.order → Valid x.shape idx → y.get (idx.insertIdx a g) =
        x.get ((elPull n.els axs (coords axs x.shape) g idx).set ga
          (n.group.comp (nth n.group.inverses g) (nth idx ga))) := by
    intro x hax hgrid a ha hga hsz
    obtain ⟨y, ey, hs, hg⟩ := n.sym.action_group x hax hgrid ha hga hgax T.own T.own (by simpa using hsz)
    refine ⟨y, by rw [action_own_acting n.sym, action_own_domain n.sym]; exact ey, by simpa using hs,
      fun g idx hgo hv => ?_⟩
    have hjg := hv.lt hga
    rw [hsz] at hjg
    rw [hg g idx (by simpa using hgo) hv, nth_range, if_pos hgo, regular_full n.sym x hgo hjg]
  obtain ⟨y, ey, hys, hyg⟩ := act x hax hgrid a ha hga hsz
  have hinv0 : nth n.group.inverses 0 = 0 := by
    have h1 := L.mul_inv 0 T.pos
    rw [L.one_mul _ (L.inv_closed 0 T.pos)] at h1
    exact h1
  refine ⟨y, ey, ⟨slice_shape hys ha, fun idx hi => ?_⟩, fun g hg => ?_⟩
  · rw [slice_shape hys ha] at hi
    have hig := hi.lt hga
    rw [hsz] at hig
    have := hyg 0 idx T.pos hi
    rw [hinv0, L.one_mul _ hig, n.sym.elPull_one hax hi, set_nth_self] at this
    exact this
  · have hs := slice_shape (g := g) hys ha
    obtain ⟨z, ez, hzs, hzg⟩ := act (slice y a g) (by simp only [Tensor.rank, hs]; exact hax) (by rw [hs]; exact hgrid)
      a' (by simp only [Tensor.rank, hs]; exact ha') (by simp only [Tensor.rank, hs]; exact hga) (by rw [hs]; exact hsz)
    rw [hs] at hzs hzg
    refine ⟨z, ez, fun h hh => ⟨?_, fun idx hi => ?_⟩⟩
    · rw [slice_shape hzs ha', slice_shape hys ha]
    · rw [slice_shape hzs ha'] at hi
      have hc := (T.comp h hh g hg).1
      have hig := hi.lt hga
      rw [hsz] at hig
      have hih := (T.inv h hh).1
      have hig' := (T.inv g hg).1
      have hlen : idx.length = x.rank := hi.length
      have hel : (elPull n.els axs (coords axs x.shape) h idx).length = x.rank := by
        unfold elPull SPerm.pullIdx; rw [length_place, hlen]
      have h1 := hzg h idx hh hi
      simp only [slice]
      rw [h1]
      simp only [slice]
      have hv2 : Valid x.shape ((elPull n.els axs (coords axs x.shape) h idx).set ga
          (n.group.comp (nth n.group.inverses h) (nth idx ga))) :=
        valid_set (n.sym.valid_elPull hax hgrid hh hi) (by rw [hsz]; exact L.closed _ _ hih hig)
      rw [hyg g _ hg hv2, hyg _ idx hc hi, elPull_set hgax, List.set_set, nth_set_self (by omega),
        n.sym.elPull_comp hax hgrid hh hg hi]
      congr 2
      rw [← L.assoc _ _ _ hig' hih hig]
      congr 1
      -- inverse of a product
      have hci := (T.inv _ hc).1
      have e1 : n.group.comp (n.group.comp h g) (n.group.comp (nth n.group.inverses g) (nth n.group.inverses h)) = 0 := by
        rw [L.assoc _ _ _ hh hg (L.closed _ _ hig' hih), ← L.assoc _ _ _ hg hig' hih, L.mul_inv g hg, L.one_mul _ hih,
          L.mul_inv h hh]
      have e2 := L.assoc _ _ _ hci hc (L.closed _ _ hig' hih)
      rw [e1, L.inv_mul _ hc, L.one_mul _ (L.closed _ _ hig' hih), L.mul_one _ hci] at e2
      exact e2

/-- C06: acting with a subgroup is taking the subgroup's slices of the full action: on the grid. -/
theorem C06_subgroup_slices_grid (n : GroupName) (x : Tensor α) (axs : List Nat) (a : Nat)
    (hax : AxesOk n.dim x.rank axs) (hgrid : n.Grid (axs.map (nth x.shape))) (ha : a ≤ x.rank)
    (s : String) (H : List Nat) (hs : lookup n.group.subgroup s = .ok H) :
    ∃ y z, n.group.action x (axs.map Int.ofNat) a none (some "") none = .ok y ∧
      n.group.action x (axs.map Int.ofNat) a none (some s) none = .ok z ∧
      z.shape = x.shape.insertIdx a H.length ∧
      ∀ i, i < H.length → (slice z a i).Same (slice y a (nth H i)) := by
  obtain ⟨y, ey, sy⟩ := n.sym.action_grid_all x hax hgrid ha
  obtain ⟨z, ez, sz⟩ := n.sym.action_grid x hax hgrid ha hs
  refine ⟨y, z, ey, ez, by rw [sz.1]; simp, fun i hi => ⟨by rw [sz.slice_shape ha, sy.slice_shape ha], fun idx hv => ?_⟩⟩
  rw [sz.slice_shape ha] at hv
  have hHi := (n.sym.tab.subs _ (lookup_mem hs)).2.2.2.1 _ (nth_mem _ _ hi)
  rw [sz.slice_get ha (by simpa using hi) hv, sy.slice_get ha (by simpa using hHi) hv, getD_map_range _ _ hHi]
  simp [hi, nth]

/-- C06: the same for signals on the group, or on a subgroup `D`. -/
theorem C06_subgroup_slices_group (n : GroupName) (x : Tensor α) (axs : List Nat) (a ga : Nat)
    (hax : AxesOk n.dim x.rank axs) (hgrid : n.Grid (axs.map (nth x.shape))) (ha : a ≤ x.rank) (hga : ga < x.rank)
    (hgax : ga ∉ axs) (s sD : String) (H D : List Nat) (hs : lookup n.group.subgroup s = .ok H)
    (hD : lookup n.group.subgroup sD = .ok D) (hsz : nth x.shape ga = D.length) :
    ∃ y z, n.group.action x (axs.map Int.ofNat) a (some (ga : Int)) (some "") (some sD) = .ok y ∧
      n.group.action x (axs.map Int.ofNat) a (some (ga : Int)) (some s) (some sD) = .ok z ∧
      z.shape = x.shape.insertIdx a H.length ∧
      ∀ i, i < H.length → (slice z a i).Same (slice y a (nth H i)) := by
  obtain ⟨y, ey, hys, hyg⟩ := n.sym.action_group x hax hgrid ha hga hgax n.sym.tab.own hD hsz
  obtain ⟨z, ez, hzs, hzg⟩ := n.sym.action_group x hax hgrid ha hga hgax hs hD hsz
  refine ⟨y, z, by rw [action_own_acting n.sym]; exact ey, ez, hzs,
    fun i hi => ⟨by rw [slice_shape hzs ha, slice_shape hys ha], fun idx hv => ?_⟩⟩
  rw [slice_shape hzs ha] at hv
  have hHi := (n.sym.tab.subs _ (lookup_mem hs)).2.2.2.1 _ (nth_mem _ _ hi)
  simp only [slice]
  rw [hzg i idx hi hv, hyg _ idx (by simpa using hHi) hv, nth_range, if_pos hHi]

/-- C06, C07: every listed subgroup is one of the group objects, which composes, inverts and acts in the same way:
on the grid, and on signals on the subgroup. -/
theorem C06_subgroup_object (n : GroupName) (s : String) (H : List Nat) (hs : lookup n.group.subgroup s = .ok H) :
    ∃ m : GroupName, m.group.name = s ∧ m.dim = n.dim ∧ m.group.order = H.length ∧
      (∀ i j, i < H.length → j < H.length → nth H (m.group.comp i j) = n.group.comp (nth H i) (nth H j)) ∧
      (∀ i, i < H.length → nth H (nth m.group.inverses i) = nth n.group.inverses (nth H i)) ∧
      ∀ (x : Tensor α) (axs : List Nat) (a : Nat), AxesOk n.dim x.rank axs → n.Grid (axs.map (nth x.shape)) →
        a ≤ x.rank →
        (∃ y z, n.group.action x (axs.map Int.ofNat) a none (some s) none = .ok y ∧
          m.group.action x (axs.map Int.ofNat) a none (some "") none = .ok z ∧ y.Same z) ∧
        ∀ ga, ga < x.rank → ga ∉ axs → nth x.shape ga = H.length →
          ∃ y z, n.group.action x (axs.map Int.ofNat) a (some (ga : Int)) (some s) (some s) = .ok y ∧
            m.group.action x (axs.map Int.ofNat) a (some (ga : Int)) (some "") (some "") = .ok z ∧ y.Same z := by
  obtain ⟨m, rfl⟩ := n.sub_name hs
  obtain ⟨ho, he⟩ := sub_embed_els hs
  have hd := (sub_embed n m hs).1
  have hsub := n.sym.tab.subs _ (lookup_mem hs)
  refine ⟨m, rfl, hd, ho, fun i j hi hj => sub_embed_comp hs hi hj, fun i hi => sub_embed_inv hs hi, ?_⟩
  intro x axs a hax hgrid ha
  have hpull : ∀ i, i < H.length → ∀ k idx, elPull m.els axs k i idx = elPull n.els axs k (nth H i) idx := by
    intro i hi k idx
    unfold elPull
    rw [he i hi]
  constructor
  · obtain ⟨y, ey, sy⟩ := n.sym.action_grid x hax hgrid ha hs
    obtain ⟨z, ez, sz⟩ := m.sym.action_grid_all x (by rw [hd]; exact hax) (sub_grid hs hgrid) ha
    refine ⟨y, z, ey, ez, by rw [sy.1, sz.1]; simp [ho], fun idx hi => ?_⟩
    have hz : Valid z.shape idx := by rw [sz.1]; rw [sy.1] at hi; simpa [ho] using hi
    have hlt := (valid_insert_erase (s := x.shape) ha (sy.1 ▸ hi)).2
    simp only [List.length_map] at hlt
    rw [sy.2 idx hi, sz.2 idx hz]
    have hlt' : nth idx a < m.group.order := by rw [ho]; exact hlt
    rw [getD_map_range _ _ hlt']
    rw [hpull _ hlt]
    have hlt2 : idx[a]?.getD 0 < H.length := hlt
    simp [hlt2, nth]
  · intro ga hga hgax hsz
    obtain ⟨y, ey, hys, hyg⟩ := n.sym.action_group x hax hgrid ha hga hgax hs hs hsz
    obtain ⟨z, ez, hzs, hzg⟩ := m.sym.action_group x (by rw [hd]; exact hax) (sub_grid hs hgrid) ha hga hgax
      m.sym.tab.own m.sym.tab.own (by simpa [ho] using hsz)
    refine ⟨y, z, ey, by rw [action_own_acting m.sym, action_own_domain m.sym]; exact ez, by rw [hys, hzs]; simp [ho],
      fun idx hi => ?_⟩
    have hv := valid_insert_erase (s := x.shape) ha (hys ▸ hi)
    have hal : a < idx.length := by
      rw [hi.length, hys, List.length_insertIdx_of_le_length ha]; romega
    have hia : nth idx a < H.length := hv.2
    have hom : nth idx a < m.group.order := by rw [ho]; exact hia
    have e := insertIdx_eraseIdx_nth hal
    rw [← e, hyg _ _ hia hv.1, hzg _ _ (by simpa using hom) hv.1, nth_range, if_pos hom]
    have hig : nth (idx.eraseIdx a) ga < H.length := by rw [← hsz]; exact hv.1.lt hga
    rw [regular_full m.sym x hom (by rw [ho]; exact hig), hpull _ hia]
    have hmi : nth m.group.inverses (nth idx a) < H.length := by
      rw [← ho]; exact (m.sym.tab.inv _ hom).1
    have hmc : m.group.comp (nth m.group.inverses (nth idx a)) (nth (idx.eraseIdx a) ga) < H.length := by
      rw [← ho]; exact (m.sym.tab.comp _ (m.sym.tab.inv _ hom).1 _ (by rw [ho]; exact hig)).1
    simp only [regular]
    rw [← sub_embed_inv hs hia, ← sub_embed_comp hs hmi hig]
    rw [if_pos (nth_mem _ _ hmc)]
    congr 2
    apply idxOf_eq_of_nth hmc rfl
    intro j hj hjj
    rw [nth_eq_getElem _ _ hj, nth_eq_getElem _ _ hmc] at hjj
    exact (hsub.2.1.getElem_inj_iff).1 hjj

/-- C08: `upsample` is extension by zero, the listed slices of its result are the input, and it commutes with the
action of the subgroup. -/
theorem C08_upsample (n : GroupName) (x : Tensor α) (ga : Nat) (hga : ga < x.rank) (s : String) (H : List Nat)
    (hs : lookup n.group.subgroup s = .ok H) (hsz : nth x.shape ga = H.length) :
    ∃ u, n.group.upsample x (ga : Int) (some s) = .ok u ∧ u.shape = x.shape.set ga n.group.order ∧
      (∀ idx, Valid u.shape idx →
        u.get idx = if nth idx ga ∈ H then x.get (idx.set ga (H.idxOf (nth idx ga))) else 0) ∧
      (∃ t, take u H (ga : Int) = .ok t ∧ t.Same x) ∧
      ∀ (axs : List Nat) (a : Nat), AxesOk n.dim x.rank axs → n.Grid (axs.map (nth x.shape)) → a ≤ x.rank → ga ∉ axs →
        ∃ y y' z, n.group.action u (axs.map Int.ofNat) a (some (ga : Int)) (some s) (some "") = .ok y ∧
          n.group.action x (axs.map Int.ofNat) a (some (ga : Int)) (some s) (some s) = .ok y' ∧
          n.group.upsample y' (if (a : Int) ≤ ga then (ga : Int) + 1 else ga) (some s) = .ok z ∧ y.Same z := by
  have hsub := n.sym.tab.subs _ (lookup_mem hs)
  obtain ⟨u, eu, hus, hug⟩ := upsample_ok hs hsub.2.1 n.sym.tab.pos x hga hsz
  have hur : u.rank = x.rank := by simp only [Tensor.rank, hus, List.length_set]
  have hun : nth u.shape ga = n.group.order := by rw [hus, nth_set_self hga]
  refine ⟨u, eu, hus, hug, ?_, ?_⟩
  · refine ⟨_, take_ok u (by omega) (by rw [hun]; exact hsub.2.2.2.1), ?_, ?_⟩
    · simp only [hus, List.set_set]
      rw [← hsz, set_nth_self]
    · intro idx hi
      simp only [hus, List.set_set] at hi
      rw [← hsz, set_nth_self] at hi
      have hlt := hi.lt hga
      rw [hsz] at hlt
      have hil : ga < idx.length := by rw [hi.length]; exact hga
      simp only
      rw [hug, nth_set_self hil, if_pos (nth_mem _ _ hlt), List.set_set]
      · congr 1
        have : H.idxOf (nth H (nth idx ga)) = nth idx ga := by
          apply idxOf_eq_of_nth hlt rfl
          intro j hj hjj
          rw [nth_eq_getElem _ _ hj, nth_eq_getElem _ _ hlt] at hjj
          exact (hsub.2.1.getElem_inj_iff).1 hjj
        rw [this, set_nth_self]
      · rw [hus]
        rw [valid_iff]
        refine ⟨by simp [hi.length], fun k hk => ?_⟩
        simp only [List.length_set] at hk
        rw [nth_set, nth_set]
        by_cases hkg : k = ga
        · rw [if_pos ⟨hkg, hil⟩, if_pos ⟨hkg, hga⟩]; exact hsub.2.2.2.1 _ (nth_mem _ _ hlt)
        · rw [if_neg (by omega), if_neg (by omega)]; exact hi.lt hk
  · intro axs a hax hgrid ha hgax
    have hcs : coords axs u.shape = coords axs x.shape := by rw [hus, coords_set hgax]
    obtain ⟨y, ey, hys, hyg⟩ := n.sym.action_group u (axs := axs) (a := a) (ga := ga) (by rw [hur]; exact hax)
      (by rw [hcs]; exact hgrid) (by omega) (by omega) hgax hs n.sym.tab.own (by simpa using hun)
    obtain ⟨y', ey', hys', hyg'⟩ := n.sym.action_group x hax hgrid ha hga hgax hs hs hsz
    have hr' : y'.rank = x.rank + 1 := by
      simp only [Tensor.rank, hys', List.length_insertIdx_of_le_length ha]
    have hsh : shift a ga < y'.rank := by rw [hr']; exact shift_lt hga
    obtain ⟨z, ez, hzs, hzg⟩ := upsample_ok hs hsub.2.1 n.sym.tab.pos y' (ga := shift a ga) hsh (by
      rw [hys', nth_insert_shift _ _ _ _ ha, hsz])
    refine ⟨y, y', z, by rw [action_own_domain n.sym]; exact ey, ey', by rw [axis_shift]; exact ez, ?_, ?_⟩
    · rw [hys, hzs, hys', hus]
      apply ext_nth
      · rw [List.length_set, List.length_insertIdx_of_le_length (by simpa using ha),
          List.length_insertIdx_of_le_length ha, List.length_set]
      · intro k hk
        rw [nth_insertIdx _ _ _ _ (by simpa using ha), nth_set, nth_set, nth_set, nth_insertIdx _ _ _ _ ha,
          List.length_insertIdx_of_le_length ha]
        unfold shift
        grind
    · intro idx hi
      have hal : a < idx.length := by
        rw [hi.length, hys, List.length_insertIdx_of_le_length (by romega)]; romega
      have hv := valid_insert_erase (s := u.shape) (by romega) (hys ▸ hi)
      have hia : nth idx a < H.length := hv.2
      have hHi := hsub.2.2.2.1 _ (nth_mem _ _ hia)
      have e := insertIdx_eraseIdx_nth hal
      have hk : nth (idx.eraseIdx a) ga < n.group.order := by
        have := hv.1.lt (i := ga) (by romega)
        rwa [hun] at this
      have hzv : Valid z.shape idx := by
        have hsame : z.shape = y.shape := by
          rw [hys, hzs, hys', hus]
          apply ext_nth
          · rw [List.length_set, List.length_insertIdx_of_le_length ha,
              List.length_insertIdx_of_le_length (by simpa using ha), List.length_set]
          · intro k hk
            rw [nth_insertIdx _ _ _ _ (by simpa using ha), nth_set, nth_set, nth_set, nth_insertIdx _ _ _ _ ha,
              List.length_insertIdx_of_le_length ha]
            unfold shift
            grind
        rw [hsame]; exact hi
      rw [hzg idx hzv, ← nth_erase_shift]
      have hpv := n.sym.valid_elPull (s := u.shape) (axs := axs)
        (by have := hur; simp only [Tensor.rank] at this; rw [this]; exact hax) (by rw [hcs]; exact hgrid) hHi hv.1
      have hpl := hpv.length
      conv_lhs => rw [← e]
      rw [hyg _ _ hia hv.1, regular_full n.sym u hHi hk, hug]
      · have L := n.sym.tab.laws
        have hii := (n.sym.tab.inv _ hHi).1
        rw [nth_set_self (by romega), List.set_set]
        have hiff : n.group.comp (nth n.group.inverses (nth H (nth idx a))) (nth (idx.eraseIdx a) ga) ∈ H ↔
            nth (idx.eraseIdx a) ga ∈ H := by
          constructor
          · intro hm
            have := hsub.2.2.2.2.1 _ (nth_mem _ _ hia) _ hm
            rwa [← L.assoc _ _ _ hHi hii hk, L.mul_inv _ hHi, L.one_mul _ hk] at this
          · intro hm
            exact hsub.2.2.2.2.1 _ (hsub.2.2.2.2.2 _ (nth_mem _ _ hia)) _ hm
        by_cases hm : nth (idx.eraseIdx a) ga ∈ H
        · rw [if_pos hm, if_pos (hiff.2 hm)]
          have hix := List.idxOf_lt_length_of_mem hm
          have hxv : Valid x.shape ((idx.eraseIdx a).set ga (H.idxOf (nth (idx.eraseIdx a) ga))) := by
            have hv1 := hv.1
            rw [hus] at hv1
            exact valid_set_set hv1 (fun _ => by rw [hsz]; exact hix)
          have := hyg' (nth idx a) _ hia hxv
          have e2 : idx.set (shift a ga) (H.idxOf (nth (idx.eraseIdx a) ga)) =
              ((idx.eraseIdx a).set ga (H.idxOf (nth (idx.eraseIdx a) ga))).insertIdx a (nth idx a) := by
            rw [← erase_set_shift _ _ _ _ hal]
            have hne := shift_ne a ga
            have e3 : nth (idx.set (shift a ga) (H.idxOf (nth (idx.eraseIdx a) ga))) a = nth idx a := by
              rw [nth_set, if_neg]; omega
            rw [← e3]
            exact (insertIdx_eraseIdx_nth (by simpa using hal)).symm
          rw [e2, this]
          simp only [regular]
          rw [nth_set_self (by rw [hv.1.length]; romega)]
          have e4 : nth H (H.idxOf (nth (idx.eraseIdx a) ga)) = nth (idx.eraseIdx a) ga := by
            rw [nth_eq_getElem _ _ hix]; exact List.getElem_idxOf hix
          rw [e4, if_pos (hiff.2 hm), elPull_set hgax, List.set_set, hcs]
        · rw [if_neg hm, if_neg (fun h => hm (hiff.1 h))]
      · exact valid_set hpv (by
          rw [hun]
          exact (n.sym.tab.comp _ (n.sym.tab.inv _ hHi).1 _ hk).1)

/-- hypotheses are met: a signal on a 3x3 grid and the subgroup P4 of P4M, batch first, channels last -/
example : AxesOk GroupName.P4M.dim 5 [1, 2] ∧ GroupName.P4M.Grid ([1, 2].map (nth [2, 3, 3, 4, 7])) ∧ 3 ∉ [1, 2] ∧
    lookup GroupName.P4M.group.subgroup "P4" = .ok [0, 1, 2, 3] ∧
    lookup GroupName.P4M.group.subgroup "P2MM" = .ok [0, 4, 6, 2] ∧
    nth [2, 3, 3, 4, 7] 3 = [0, 1, 2, 3].length :=
  ⟨⟨rfl, by decide, by decide, nofun⟩, ⟨rfl, by decide⟩, by decide, by decide, by decide, by decide⟩

/-- a 2x2 image on P4, turned by a quarter: the group axis is cycled and the image turned -/
example : ∃ y, P4.action (⟨[2, 2, 4], fun idx => nth idx 2 * 100 + nth idx 0 * 10 + nth idx 1⟩ : Tensor Nat) [0, 1] 0
    (some 2) (some "") (some "") = .ok y ∧ y.get [1, 1, 0, 2] = 100 ∧ y.get [1, 0, 0, 0] = 301 := by
  refine ⟨_, rfl, ?_, ?_⟩ <;> decide

end GroCo
