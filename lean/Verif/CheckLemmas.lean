import Verif.GlobalPoolLemmas
import Verif.StackSpec

/-
Helper lemmas: check_equivariance.
-/

namespace GroCo
open Tensor

variable {α : Type}

theorem broadcastRev_self (s : List Nat) : broadcastRev s s = .ok s := by
  induction s with
  | nil => rfl
  | cons a s ih => simp [broadcastRev, ih]

theorem broadcastIdx_self {s idx : List Nat} (h : Valid s idx) : broadcastIdx s idx = idx := by
  unfold broadcastIdx
  rw [h.length, Nat.sub_self, List.drop_zero]
  induction s generalizing idx with
  | nil => cases idx <;> simp_all [Valid]
  | cons n s ih =>
    cases idx with
    | nil => exact absurd h (by simp [Valid])
    | cons i idx =>
      rw [List.zipWith_cons_cons, ih h.2]
      have := h.1
      split
      · rw [show i = 0 by omega]
      · rfl

theorem subT_ok [Sub α] {x y : Tensor α} (h : x.shape = y.shape) :
    ∃ z, subT x y = .ok z ∧ z.shape = x.shape ∧ ∀ idx, Valid x.shape idx → z.get idx = x.get idx - y.get idx := by
  unfold subT
  rw [← h, broadcastRev_self]
  refine ⟨_, rfl, by simp, fun idx hi => ?_⟩
  simp only [broadcastIdx_self hi]

theorem prod_ne_zero {s : List Nat} : prod s ≠ 0 ↔ 0 ∉ s := by
  induction s with
  | nil => simp [prod]
  | cons a s ih =>
    rw [show prod (a :: s) = a * prod s from rfl]
    simp only [List.mem_cons, not_or, ← ih, ne_eq, Nat.mul_eq_zero]
    exact and_congr_left fun _ => not_congr eq_comm

theorem maxAbs_ok [Field α] [LinearOrder α] {x : Tensor α} (h : 0 ∉ x.shape) :
    ∃ r, maxAbs x = .ok r ∧ (∀ idx, Valid x.shape idx → |x.get idx| ≤ r) ∧ ∃ idx, Valid x.shape idx ∧ |x.get idx| = r := by
  unfold maxAbs
  rw [if_neg (prod_ne_zero.2 h)]
  refine ⟨_, rfl, fun idx hi => le_maxOf (List.mem_map.2 ⟨idx, (mem_indices _ _).2 hi, rfl⟩), ?_⟩
  have := maxOf_mem (l := (indices x.shape).map fun i => |x.get i|) (by simpa using indices_ne_nil h)
  obtain ⟨idx, hi, e⟩ := List.mem_map.1 this
  exact ⟨idx, (mem_indices _ _).1 hi, e⟩

theorem batched_ok {f : Tensor α → Res (Tensor α)} {s : List Nat} (hf : Batchwise f s) {x y gx : Tensor α} {B order : Nat}
    (hx : x.shape = B :: s) (hy : f x = .ok y) (hgx : gx.shape = order :: B :: s) :
    ∃ w, actOnBatchedTransform f gx = .ok w ∧ w.shape = order :: y.shape ∧
      ∀ i, i < order → ∃ z, f (slice gx 0 i) = .ok z ∧ z.shape = y.shape ∧
        ∀ idx, Valid y.shape idx → w.get (i :: idx) = z.get idx := by
  obtain ⟨_, t, _, hyt, -⟩ := hf x x y B B hx hx hy
  have e1 : reshapeN gx (order * B :: s) = .ok ⟨order * B :: s,
      fun idx => gx.get (unravel gx.shape (ravel (order * B :: s) idx))⟩ := by
    unfold reshapeN
    rw [if_pos]
    rw [hgx, prod_cons, prod_cons, prod_cons, Nat.mul_assoc]
  obtain ⟨y2, t2, ey2, hyt2, hy2, -⟩ := hf x ⟨order * B :: s,
      fun idx => gx.get (unravel gx.shape (ravel (order * B :: s) idx))⟩ y B (order * B) hx rfl hy
  rw [hyt] at hyt2
  cases hyt2
  have e2 : reshapeN y2 (order :: B :: t) = .ok ⟨order :: B :: t,
      fun idx => y2.get (unravel y2.shape (ravel (order :: B :: t) idx))⟩ := by
    unfold reshapeN
    rw [if_pos]
    rw [hy2, prod_cons, prod_cons, prod_cons, Nat.mul_assoc]
  refine ⟨⟨order :: B :: t, fun idx => y2.get (unravel y2.shape (ravel (order :: B :: t) idx))⟩, ?_, by rw [hyt], ?_⟩
  · unfold actOnBatchedTransform
    rw [hgx]
    simp only
    rw [e1]
    simp only [res_bind_ok]
    rw [ey2]
    simp only [res_bind_ok, hy2, List.drop_succ_cons, List.drop_zero]
    rw [e2, hy2]
  · intro i hi
    have hsl : (slice gx 0 i).shape = B :: s := by simp [slice, hgx]
    obtain ⟨z, t3, ez, ht3, hz, hzz⟩ := hf ⟨order * B :: s,
      fun idx => gx.get (unravel gx.shape (ravel (order * B :: s) idx))⟩ (slice gx 0 i) y2 (order * B) B rfl hsl ey2
    rw [hy2] at ht3
    cases ht3
    refine ⟨z, ez, by rw [hz, hyt], ?_⟩
    intro idx hidx
    rw [hyt] at hidx
    cases idx with
    | nil => exact absurd hidx (by simp [Valid])
    | cons b idx =>
      have hb : b < B := hidx.1
      have hib : i * B + b < order * B := mul_add_lt hi hb
      have u1 : unravel (order * B :: t) (ravel (order :: B :: t) (i :: b :: idx)) = (i * B + b) :: idx :=
        unravel_split (A := []) (i := []) valid_nil hidx.2 hi hb
      simp only [hy2, u1]
      apply hzz _ _ hib hb ?_ _ hidx.2
      intro jdx hj
      have u2 : unravel (order :: B :: s) (ravel (order * B :: s) ((i * B + b) :: jdx)) =
          ((i * B + b) / B) :: ((i * B + b) % B) :: jdx :=
        unravel_merge (A := []) (i := []) valid_nil hj hib
      simp only [hgx, u2, div_of hb, mod_of hb]
      rfl

theorem parse_idem (G : GroupData) (s : Option String) : G.parseSubgroup (G.parseSubgroup s) = G.parseSubgroup s := by
  have : ∀ t : String, t = "" ∨ G.parseSubgroup (some t) = some t := by
    intro t
    by_cases h : t = ""
    · exact Or.inl h
    · right
      unfold GroupData.parseSubgroup
      grind
  cases s with
  | none => rfl
  | some s =>
    rcases this s with rfl | h
    · show G.parseSubgroup (some G.name) = some G.name
      rcases this G.name with h | h
      · rw [h]
        show some G.name = some ""
        rw [h]
      · exact h
    · rw [h, h]

theorem action_parse [Zero α] (G : Group) (x : Tensor α) (axs : List Int) (a : Int) (ga : Option Int) (s t : Option String) :
    G.action x axs a ga (G.parseSubgroup s) (G.parseSubgroup t) = G.action x axs a ga s t := by
  unfold Group.action
  simp only [parse_idem]

/-- the value computed by check_equivariance once the two shape checks have passed -/
theorem check_ok [Field α] [LinearOrder α] {f : Tensor α → Res (Tensor α)} {s : List Nat} (hf : Batchwise f s) {x y : Tensor α}
    {B : Nat} (hx : x.shape = B :: s) (hy : f x = .ok y) {G : Group} {axs : List Int} {ga : Option Int}
    {acting domain target : Option String} (hd : checkShape G.toGroupData x ga (G.parseSubgroup domain) = .ok ())
    (ht : checkShape G.toGroupData y ga (G.parseSubgroup target) = .ok ()) {gx gy : Tensor α} {order : Nat}
    (hgx : G.action x axs 0 ga acting domain = .ok gx) (hgxs : gx.shape = order :: x.shape)
    (hgy : G.action y axs 0 ga acting target = .ok gy) (hgys : gy.shape = order :: y.shape)
    (h0 : 0 < order) (hy0 : 0 ∉ y.shape) :
    ∃ r, checkEquivariance f x G axs ga acting domain target = .ok r ∧
      (∀ i, i < order → ∃ z, f (slice gx 0 i) = .ok z ∧ z.shape = y.shape ∧
        ∀ idx, Valid y.shape idx → |z.get idx - (slice gy 0 i).get idx| ≤ r) ∧
      ∃ i z idx, i < order ∧ f (slice gx 0 i) = .ok z ∧ Valid y.shape idx ∧ |z.get idx - (slice gy 0 i).get idx| = r := by
  obtain ⟨w, ew, hw, hwg⟩ := batched_ok hf hx hy (by rw [hgxs, hx])
  obtain ⟨d, ed, hds, hdg⟩ := subT_ok (x := w) (y := gy) (by rw [hw, hgys])
  obtain ⟨r, er, hr, idx, hidx, hattain⟩ := maxAbs_ok (x := d) (by
    rw [hds, hw]
    simp only [List.mem_cons, not_or]
    exact ⟨by omega, hy0⟩)
  refine ⟨r, ?_, ?_, ?_⟩
  · unfold checkEquivariance
    simp only [hd, ht, hy, res_bind_ok, action_parse, hgx, hgy, ew, ed, er]
  · intro i hi
    obtain ⟨z, ez, hz, hzg⟩ := hwg i hi
    refine ⟨z, ez, hz, fun idx hidx => ?_⟩
    have hv : Valid w.shape (i :: idx) := by rw [hw]; exact ⟨hi, hidx⟩
    have := hr (i :: idx) (by rw [hds]; exact hv)
    rw [hdg _ hv, hzg idx hidx] at this
    exact this
  · rw [hds] at hidx
    rw [hdg idx hidx] at hattain
    rw [hw] at hidx
    cases idx with
    | nil => exact absurd hidx (by simp [Valid])
    | cons i idx =>
      obtain ⟨z, ez, hz, hzg⟩ := hwg i hidx.1
      rw [hzg idx hidx.2] at hattain
      exact ⟨i, z, idx, hidx.1, ez, hidx.2, hattain⟩

theorem sigShape_split (fmt : DataFormat) (B : Nat) (m : List Nat) (g : Option Nat) (C : Nat) : ∃ P R : List Nat,
    sigShape fmt B m g C = P ++ m ++ (g.toList ++ R) ∧ groupAxis fmt m.length = P.length + m.length ∧
      spatialAxes fmt m.length = (spAxes P.length m.length).map Int.ofNat := by
  cases fmt with
  | channelsLast => exact ⟨[B], [C], by simp [sigShape], by simp [groupAxis]; omega, rfl⟩
  | channelsFirst => exact ⟨[B, C], [], by simp [sigShape], by simp [groupAxis]; omega, rfl⟩

/-- shape of a signal acted on -/
theorem act_shape [Zero α] (n : GroupName) (fmt : DataFormat) (x : Tensor α) {B : Nat} {m : List Nat} {g : Option Nat} {C : Nat}
    (hx : x.shape = sigShape fmt B m g C) (hm : n.Grid m) {A : List Nat} {ta td : Option String}
    (hA : n.group.sub (n.group.parseSubgroup ta) = .ok A) (hD : SignalOn n.group g td) :
    ∃ y, n.group.action x (spatialAxes fmt n.dim) 0 (some (groupAxis fmt n.dim : Int)) ta td = .ok y ∧
      y.shape = A.length :: x.shape := by
  have S := n.sym
  have hml : m.length = n.dim := S.okLen m hm
  obtain ⟨s, hta, hA⟩ := parse_sub hA
  obtain ⟨P, R, hs, hga, hsp⟩ := sigShape_split fmt B m g C
  rw [hs] at hx
  rw [hml] at hga hsp
  rw [parse_acting S hta hA, hga, hsp]
  cases g with
  | none =>
    rw [show td = none from hD, action_none]
    obtain ⟨y, ey, hy, _⟩ := S.act_grid_sig x (P := P) (m := m) (R := R) (by simpa using hx) hm hA
    exact ⟨y, ey, hy⟩
  | some g' =>
    obtain ⟨D, hD, rfl⟩ := hD
    obtain ⟨sD, htd, hD⟩ := parse_sub hD
    rw [parse_domain S htd hD]
    have hr : x.rank = P.length + n.dim + (R.length + 1) := by simp [Tensor.rank, hx, hml]; omega
    have hco : coords (spAxes P.length n.dim) x.shape = m := by rw [hx]; exact coords_spAxes rfl hml
    have hPm : (P ++ m).length = P.length + n.dim := by simp [hml]
    obtain ⟨y, ey, hy, hg⟩ := S.action_group x (axs := spAxes P.length n.dim) (a := 0) (ga := P.length + n.dim)
      (axesOk_spAxes (by omega)) (by rw [hco]; exact hm) (by omega) (by omega) (by simp) hA hD (by
        rw [hx, nth_app0 hPm]; rfl)
    exact ⟨y, ey, by rw [hy]; simp⟩

theorem checkShape_sig (n : GroupName) (fmt : DataFormat) (x : Tensor α) {B : Nat} {m : List Nat} {g : Option Nat} {C : Nat}
    (hx : x.shape = sigShape fmt B m g C) (hm : m.length = n.dim) {t : Option String} (h : SignalOn n.group g t) :
    checkShape n.group.toGroupData x (some (groupAxis fmt n.dim : Int)) (n.group.parseSubgroup t) = .ok () := by
  cases g with
  | none => rw [show t = none from h]; rfl
  | some g =>
    obtain ⟨D, hD, rfl⟩ := h
    obtain ⟨s, hs, hD⟩ := parse_sub hD
    obtain ⟨P, R, e, hga, -⟩ := sigShape_split fmt B m (some D.length) C
    rw [e] at hx
    rw [hm] at hga
    have hr : x.rank = P.length + n.dim + (R.length + 1) := by simp [Tensor.rank, hx, hm]; omega
    have e1 : pyIndex x.rank ((P.length + n.dim : Nat) : Int) = .ok (P.length + n.dim) := by
      unfold pyIndex
      rw [if_pos (by omega)]
      rfl
    have e2 : nth x.shape (P.length + n.dim) = D.length := by rw [hx, nth_app0 (by simp [hm])]; rfl
    rw [hs, hga]
    unfold checkShape
    simp only [hD, res_bind_ok, e1, e2, if_true]

end GroCo
