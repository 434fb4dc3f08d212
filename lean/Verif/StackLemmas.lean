import Verif.BatchLemmas

/-
Helper lemmas about stacks of layers: the action written as one reindexing, comparison of the actions of a group and of
its subgroups.
-/

namespace GroCo
open Tensor

variable {α : Type}

/-- where element `e` reads entry `idx`; `k` axes precede the grid with sizes `m`, `D` lists the elements on the group axis -/
def moved (n : GroupName) (k : Nat) (g : Option Nat) (D m : List Nat) (e : Nat) (idx : List Nat) : List Nat :=
  idx.take k ++ back n.els m e ((idx.drop k).take n.dim) ++
    match g with
    | none => idx.drop (k + n.dim)
    | some _ => turn n.group.toGroupData D e (nth idx (k + n.dim)) :: idx.drop (k + n.dim + 1)

/-- number of axes before the grid -/
def lead : DataFormat → Nat
  | .channelsLast => 1
  | .channelsFirst => 2

/-- the elements `D` on the group axis, if there is one -/
def OnDom (n : GroupName) (g : Option Nat) (td : Option String) (D : List Nat) : Prop :=
  match g with
  | none => td = none
  | some g => g = D.length ∧ n.group.sub (n.group.parseSubgroup td) = .ok D

theorem SignalOn.onDom {n : GroupName} {g : Option Nat} {td : Option String} (h : SignalOn n.group g td) :
    ∃ D, OnDom n g td D := by
  cases g with
  | none => exact ⟨[], h⟩
  | some g =>
    obtain ⟨D, h1, h2⟩ := h
    exact ⟨D, h2.symm, h1⟩

theorem act_el [Zero α] (n : GroupName) (fmt : DataFormat) (x : Tensor α) {B : Nat} {m : List Nat} {g : Option Nat} {C : Nat}
    (hx : x.shape = sigShape fmt B m g C) (hm : n.Grid m) {A D : List Nat} {ta td : Option String}
    (hA : n.group.sub (n.group.parseSubgroup ta) = .ok A) (hD : OnDom n g td D) (hAD : g = none ∨ ∀ e ∈ A, e ∈ D) :
    ∃ y, n.group.action x (spatialAxes fmt n.dim) 0 (some (groupAxis fmt n.dim : Int)) ta td = .ok y ∧
      y.shape = A.length :: x.shape ∧
      ∀ i, i < A.length → ∀ idx, Valid x.shape idx →
        (slice y 0 i).get idx = x.get (moved n (lead fmt) g D m (nth A i) idx) := by
  have S := n.sym
  have hml : m.length = n.dim := S.okLen m hm
  obtain ⟨s, hta, hA⟩ := parse_sub hA
  obtain ⟨P, R, hs, hga, hsp, hP⟩ : ∃ P R : List Nat,
      sigShape fmt B m g C = P ++ m ++ (g.toList ++ R) ∧ groupAxis fmt m.length = P.length + m.length ∧
        spatialAxes fmt m.length = (spAxes P.length m.length).map Int.ofNat ∧ P.length = lead fmt := by
    cases fmt with
    | channelsLast => exact ⟨[B], [C], by simp [sigShape], by simp [groupAxis]; omega, rfl, rfl⟩
    | channelsFirst => exact ⟨[B, C], [], by simp [sigShape], by simp [groupAxis]; omega, rfl, rfl⟩
  rw [hs] at hx
  rw [hml] at hga hsp
  rw [parse_acting S hta hA, hga, hsp, ← hP]
  cases g with
  | none =>
    rw [show td = none from hD, action_none]
    obtain ⟨y, ey, hy, hg⟩ := S.act_grid_sig x (P := P) (m := m) (R := R) (by simpa using hx) hm hA
    refine ⟨y, ey, hy, fun i hi idx hidx => ?_⟩
    rw [hx] at hidx
    obtain ⟨bp, r, rfl, hbp, hr⟩ := valid_append_split hidx
    obtain ⟨b, p, rfl, hb, hp⟩ := valid_append_split hbp
    rw [hg i b p r hi hb hp (by simpa using hr)]
    congr 1
    unfold moved
    have h1 : b.length = P.length := hb.length
    have h2 : p.length = n.dim := by rw [hp.length, hml]
    simp [← h1, ← h2]
  | some g' =>
    obtain ⟨rfl, hD⟩ := hD
    obtain ⟨sD, htd, hD⟩ := parse_sub hD
    rw [parse_domain S htd hD]
    obtain ⟨y, ey, hy, hg⟩ := S.act_group_sig x (P := P) (m := m) (R := R) hA hD (hAD.resolve_left (by simp)) (by simpa using hx) hm
    refine ⟨y, ey, hy, fun i hi idx hidx => ?_⟩
    rw [hx] at hidx
    obtain ⟨bp, r, rfl, hbp, hr⟩ := valid_append_split hidx
    obtain ⟨b, p, rfl, hb, hp⟩ := valid_append_split hbp
    match r, hr with
    | j :: r, hr =>
    rw [hg i b p j r hi hb hp hr.1 hr.2]
    congr 1
    unfold moved
    have h1 : b.length = P.length := hb.length
    have h2 : p.length = n.dim := by rw [hp.length, hml]
    have h3 : nth (b ++ p ++ j :: r) (b.length + p.length) = j := by rw [nth_app0 (by simp)]; rfl
    have h4 : (b ++ p ++ j :: r).drop (b.length + p.length + 1) = r := by
      rw [show b ++ p ++ j :: r = b ++ p ++ [j] ++ r by simp, List.drop_left' (by simp; omega)]
    rw [← h1, ← h2, h3, h4]
    simp

/-- a subgroup of a subgroup is listed as a subgroup, with the elements one expects -/
theorem sub_sub {n m : GroupName} {H : List Nat} (h : lookup n.group.subgroup m.group.name = .ok H) {s : String}
    {K : List Nat} (hK : lookup m.group.subgroup s = .ok K) :
    lookup n.group.subgroup s = .ok (K.map (nth H)) := by
  have key : ∀ n m : GroupName, (n.group.subgroup.map (·.1)).contains m.group.name →
      ∀ e ∈ m.group.subgroup, lookup n.group.subgroup e.1 =
        (do let H ← lookup n.group.subgroup m.group.name; return e.2.map (nth H)) := by
    intro n m
    cases n <;> cases m <;> decide +kernel
  have h1 := key n m (by
    rw [List.contains_iff_mem, List.mem_map]
    exact ⟨_, lookup_mem h, rfl⟩) _ (lookup_mem hK)
  rw [h] at h1
  exact h1

theorem mem_nth {l : List Nat} {e : Nat} (h : e ∈ l) : ∃ j, j < l.length ∧ nth l j = e := by
  obtain ⟨j, hj, rfl⟩ := List.mem_iff_getElem.1 h
  exact ⟨j, hj, by simp [nth, hj]⟩

theorem nth_map_nth {H K : List Nat} {i : Nat} (hi : i < K.length) : nth (K.map (nth H)) i = nth H (nth K i) := by
  simp [nth, hi]

theorem idxOf_map_of_inj {H : List Nat} (hinj : ∀ a b, a < H.length → b < H.length → nth H a = nth H b → a = b) {D : List Nat}
    (hDH : ∀ a ∈ D, a < H.length) {c : Nat} (hc : c ∈ D) : (D.map (nth H)).idxOf (nth H c) = D.idxOf c := by
  induction D with
  | nil => cases hc
  | cons a D ih =>
    rw [List.map_cons, List.idxOf_cons, List.idxOf_cons]
    by_cases hac : a = c
    · subst hac; simp
    · have : nth H a ≠ nth H c := fun hh => hac (hinj _ _ (hDH _ (by simp)) (hDH _ hc) hh)
      have h1 : (a == c) = false := by simpa using hac
      have h2 : (nth H a == nth H c) = false := by simpa using this
      rw [h1, h2]
      simp only [cond_false]
      rw [ih (fun b hb => hDH b (List.mem_cons_of_mem _ hb)) ((List.mem_cons.1 hc).resolve_left (Ne.symm hac))]

/-- reading with an element of the subgroup and with the same element of the group -/
theorem moved_sub {n m : GroupName} {H : List Nat} (h : lookup n.group.subgroup m.group.name = .ok H) {g : Option Nat}
    {sD : String} {D : List Nat} (hD : g = none ∨ g = some D.length ∧ lookup m.group.subgroup sD = .ok D) {k : Nat} {sz : List Nat} {e : Nat}
    (he : e < m.group.order) (heD : g = none ∨ e ∈ D) {idx : List Nat} (hidx : g = none ∨ nth idx (k + n.dim) < D.length) :
    moved n k g (D.map (nth H)) sz (nth H e) idx = moved m k g D sz e idx := by
  obtain ⟨hd, _⟩ := sub_embed n m h
  obtain ⟨ho, hels⟩ := sub_embed_els h
  have hlt : ∀ e, e ∈ H → e < n.group.order := fun e he => n.sym.sub_lt h he
  have hb : ∀ p, back m.els sz e p = back n.els sz (nth H e) p := by
    intro p
    unfold back
    rw [hels e (by omega)]
  unfold moved
  rw [hd, hb]
  cases g with
  | none => rfl
  | some g =>
    obtain ⟨_, hD⟩ := hD.resolve_left (by simp)
    replace heD := heD.resolve_left (by simp)
    replace hidx := hidx.resolve_left (by simp)
    simp only
    congr 2
    unfold turn
    have hDlt : ∀ j, j < D.length → nth D j < H.length := fun j hj => by rw [← ho]; exact m.sym.sub_nth_lt hD hj
    have hinv : nth m.group.inverses e < H.length := by rw [← ho]; exact m.sym.inv_lt he
    have hinj : ∀ a b, a < H.length → b < H.length → nth H a = nth H b → a = b := by
      intro a b ha hb' hab
      have := (n.sym.tab.subs _ (lookup_mem h)).2.1
      have h1 := List.Nodup.getElem_inj_iff this (hi := ha) (hj := hb')
      simp only [nth, List.getD_eq_getElem?_getD, ha, hb', List.getElem?_eq_getElem, Option.getD_some] at hab
      exact h1.1 hab
    rw [nth_map_nth hidx, ← sub_embed_inv h (by omega), ← sub_embed_comp h hinv (hDlt _ hidx)]
    have hc : m.group.comp (nth m.group.inverses e) (nth D (nth idx (k + n.dim))) ∈ D := m.sym.sub_turn_mem hD heD hidx
    generalize m.group.comp (nth m.group.inverses e) (nth D (nth idx (k + n.dim))) = c at hc
    have hDH : ∀ a ∈ D, a < H.length := fun a ha => by rw [← ho]; exact m.sym.sub_lt hD ha
    exact idxOf_map_of_inj hinj hDH hc

theorem Batchwise.same {f : Tensor α → Res (Tensor α)} {s : List Nat} (hf : Batchwise f s) {x x' y : Tensor α} {B : Nat}
    (hx : x.shape = B :: s) (hxx : x'.Same x) (hy : f x = .ok y) : ∃ y', f x' = .ok y' ∧ y'.Same y := by
  have hx' : x'.shape = B :: s := hxx.1.trans hx
  obtain ⟨y', t, e, h1, h2, h3⟩ := hf x x' y B B hx hx' hy
  refine ⟨y', e, h2.trans h1.symm, ?_⟩
  intro idx hidx
  rw [h2] at hidx
  match idx, hidx with
  | b :: idx, hidx =>
  refine (h3 b b hidx.1 hidx.1 ?_ idx hidx.2).symm
  intro j hj
  exact (hxx.2 (b :: j) (by rw [hx']; exact ⟨hidx.1, hj⟩)).symm

theorem parse_mem {n m : GroupName} {H : List Nat} (h : lookup n.group.subgroup m.group.name = .ok H) {t : Option String}
    {K : List Nat} (hK : m.group.sub (m.group.parseSubgroup t) = .ok K) :
    n.group.sub (n.group.parseSubgroup (m.group.parseSubgroup t)) = .ok (K.map (nth H)) := by
  obtain ⟨s, hs, hK⟩ := parse_sub hK
  have := sub_sub h hK
  rw [hs, (n.sym.tab.parse this).1]
  exact this

theorem OnDom.up {n m : GroupName} {H : List Nat} (h : lookup n.group.subgroup m.group.name = .ok H) {g : Option Nat}
    {t : Option String} {D : List Nat} (hD : OnDom m g t D) : OnDom n g (m.group.parseSubgroup t) (D.map (nth H)) := by
  cases g with
  | none => rw [show t = none from hD]; rfl
  | some g => exact ⟨by simpa using hD.1, parse_mem h hD.2⟩

theorem nth_sigShape {fmt : DataFormat} {B : Nat} {m : List Nat} {g C d : Nat} (hm : m.length = d) :
    nth (sigShape fmt B m (some g) C) (lead fmt + d) = g := by
  cases fmt with
  | channelsLast =>
    have : sigShape .channelsLast B m (some g) C = (B :: m) ++ g :: [C] := rfl
    rw [this, nth_app0 (by simp [lead, hm]; omega)]
    rfl
  | channelsFirst =>
    have : sigShape .channelsFirst B m (some g) C = (B :: C :: m) ++ g :: [] := rfl
    rw [this, nth_app0 (by simp [lead, hm]; omega)]
    rfl

theorem valid_nth {s idx : List Nat} (h : Valid s idx) {i : Nat} (hi : i < s.length) : nth idx i < nth s i := by
  induction s generalizing idx i with
  | nil => simp at hi
  | cons a s ih =>
    match idx, h with
    | j :: idx, h =>
    cases i with
    | zero => exact h.1
    | succ i => exact ih h.2 (by simpa using hi)

/-- slices of the action of a group by an element of a subgroup agree with slices of the action of the subgroup -/
theorem slices_agree [Zero α] {n m : GroupName} {H : List Nat} (h : lookup n.group.subgroup m.group.name = .ok H)
    (fmt : DataFormat) (x : Tensor α) {B : Nat} {sz : List Nat} {g : Option Nat} {C : Nat}
    (hx : x.shape = sigShape fmt B sz g C) (hm : n.Grid sz) {A A' D : List Nat} {ta ta' td : Option String}
    (hA : n.group.sub (n.group.parseSubgroup ta) = .ok A) (hA' : m.group.sub (m.group.parseSubgroup ta') = .ok A')
    (hAA : ∀ e ∈ A, e ∈ A'.map (nth H)) (hD : OnDom m g td D) (hAD : g = none ∨ ∀ e ∈ A', e ∈ D) :
    ∃ y z, n.group.action x (spatialAxes fmt n.dim) 0 (some (groupAxis fmt n.dim : Int)) ta (m.group.parseSubgroup td) = .ok y ∧
      y.shape = A.length :: x.shape ∧
      m.group.action x (spatialAxes fmt m.dim) 0 (some (groupAxis fmt m.dim : Int)) ta' td = .ok z ∧
      z.shape = A'.length :: x.shape ∧
      ∀ i j, i < A.length → j < A'.length → nth A i = nth H (nth A' j) → (slice y 0 i).Same (slice z 0 j) := by
  obtain ⟨hd, _⟩ := sub_embed n m h
  have hAD' : g = none ∨ ∀ e ∈ A, e ∈ D.map (nth H) := hAD.imp id fun hh e he => by
    obtain ⟨e', he', rfl⟩ := List.mem_map.1 (hAA e he)
    exact List.mem_map.2 ⟨e', hh e' he', rfl⟩
  obtain ⟨y, ey, hy, gy⟩ := act_el n fmt x hx hm hA (hD.up h) hAD'
  obtain ⟨z, ez, hz, gz⟩ := act_el m fmt x hx (sub_grid h hm) hA' hD hAD
  refine ⟨y, z, ey, hy, ez, hz, ?_⟩
  intro i j hi hj hij
  have hsy : (slice y 0 i).shape = x.shape := by simp [slice, hy]
  have hsz : (slice z 0 j).shape = x.shape := by simp [slice, hz]
  refine ⟨hsy.trans hsz.symm, ?_⟩
  intro idx hidx
  rw [hsy] at hidx
  rw [gy i hi idx hidx, gz j hj idx hidx, hij]
  obtain ⟨sA', _, hlA'⟩ := parse_sub hA'
  have he := m.sym.sub_nth_lt hlA' hj
  cases g with
  | none => rw [← moved_sub h (sD := "") (D := D) (.inl rfl) he (.inl rfl) (.inl rfl)]
  | some g =>
    obtain ⟨sD, _, hlD⟩ := parse_sub hD.2
    have hml := n.sym.okLen sz hm
    rw [moved_sub h (.inr ⟨congrArg some hD.1, hlD⟩) he (.inr (hAD.resolve_left (by simp) _ (nth_mem _ _ hj))) (.inr ?_)]
    have := valid_nth hidx (i := lead fmt + n.dim) (by rw [hx]; cases fmt <;> simp [sigShape, lead, hml] <;> omega)
    rw [hx, nth_sigShape hml, hD.1] at this
    exact this

/-- a layer that commutes with a group commutes with its subgroups, also seen from a larger group -/
theorem Commutes.up [Zero α] {n m : GroupName} {H : List Nat} (h : lookup n.group.subgroup m.group.name = .ok H)
    {fmt : DataFormat} {f : Tensor α → Res (Tensor α)} {x y : Tensor α} {B : Nat} {sz sz' : List Nat} {g g' : Option Nat} {C C' : Nat}
    (hf : Batchwise f (sigShape fmt B sz g C).tail)
    (hx : x.shape = sigShape fmt B sz g C) (hm : n.Grid sz) (hy : y.shape = sigShape fmt B sz' g' C') (hm' : n.Grid sz')
    {A A' D T : List Nat} {ta ta' dx dy : Option String}
    (hA : n.group.sub (n.group.parseSubgroup ta) = .ok A) (hA' : m.group.sub (m.group.parseSubgroup ta') = .ok A')
    (hAA : ∀ e ∈ A, e ∈ A'.map (nth H)) (hD : OnDom m g dx D) (hAD : g = none ∨ ∀ e ∈ A', e ∈ D)
    (hT : OnDom m g' dy T) (hAT : g' = none ∨ ∀ e ∈ A', e ∈ T)
    (hc : Commutes m.group m.dim fmt ta' A'.length dx dy f x y) :
    Commutes n.group n.dim fmt ta A.length (m.group.parseSubgroup dx) (m.group.parseSubgroup dy) f x y := by
  obtain ⟨gx, gx', e1, s1, e1', s1', a1⟩ := slices_agree h fmt x hx hm hA hA' hAA hD hAD
  obtain ⟨gy, gy', e2, s2, e2', s2', a2⟩ := slices_agree h fmt y hy hm' hA hA' hAA hT hAT
  obtain ⟨hx0, hy0, c1, -, c2, -, hc⟩ := hc
  rw [e1'] at c1
  cases c1
  rw [e2'] at c2
  cases c2
  refine ⟨gx, gy, e1, s1, e2, s2, ?_⟩
  intro i hi
  obtain ⟨e, he, hei⟩ := List.mem_map.1 (hAA _ (nth_mem _ _ hi))
  obtain ⟨j, hj, rfl⟩ := mem_nth he
  obtain ⟨z, ez, hz⟩ := hc j hj
  have b1 := a1 i j hi hj hei.symm
  have b2 := a2 i j hi hj hei.symm
  have hsx : (slice gx' 0 j).shape = B :: (sigShape fmt B sz g C).tail := by
    rw [← b1.1]
    simp only [slice, s1, List.eraseIdx_cons_zero, hx]
    cases fmt <;> rfl
  obtain ⟨z', ez', hz'⟩ := hf.same hsx b1 ez
  exact ⟨z', ez', hz'.trans (hz.trans b2.symm)⟩

theorem shape_tail (k : SignalKind) (fmt : DataFormat) (B B' : Nat) : k.shape fmt B = B :: (k.shape fmt B').tail := by
  unfold SignalKind.shape sigShape
  cases fmt <;> rfl

theorem sigIndex_valid {fmt : DataFormat} {B : Nat} {m : List Nat} {g C b : Nat} {p : List Nat} {j c : Nat} (hb : b < B)
    (hp : Valid m p) (hj : j < g) (hc : c < C) : Valid (sigShape fmt B m (some g) C) (sigIndex fmt b p j c) := by
  cases fmt with
  | channelsLast => exact ⟨hb, (valid_append _ _ _ _ hp.length).2 ⟨hp, hj, hc, trivial⟩⟩
  | channelsFirst => exact ⟨hb, hc, (valid_append _ _ _ _ hp.length).2 ⟨hp, hj, trivial⟩⟩

/-- two equivariant layers after each other -/
theorem EquivariantLayer.comp [Zero α] {n : GroupName} {fmt : DataFormat} {acting : Option String} {order : Nat}
    {k k' k'' : SignalKind} {f f' : Tensor α → Res (Tensor α)} (hf : EquivariantLayer n fmt acting order k k' f)
    (hf' : EquivariantLayer n fmt acting order k' k'' f') :
    EquivariantLayer n fmt acting order k k'' (fun x => do f' (← f x)) := by
  obtain ⟨hb, hf⟩ := hf
  obtain ⟨hb', hf'⟩ := hf'
  refine ⟨fun B0 => ?_, ?_⟩
  · intro x x' z B B' hx hx' hz
    rw [← shape_tail k fmt B B0] at hx
    rw [← shape_tail k fmt B' B0] at hx'
    obtain ⟨y, ey, sy, -⟩ := hf x B hx
    obtain ⟨y1, t, ey1, s1, s2, g1⟩ := hb B x x' y B B' (hx.trans (shape_tail ..)) (hx'.trans (shape_tail ..)) ey
    have ht : (k'.shape fmt B).tail = t := by rw [← sy, s1]; rfl
    rw [← ht] at s1 s2 g1
    simp only [ey, res_bind_ok] at hz
    obtain ⟨z1, u, ez1, t1, t2, g2⟩ := hb' B y y1 z B B' s1 s2 hz
    refine ⟨z1, u, by simp only [ey1, res_bind_ok, ez1], t1, t2, ?_⟩
    intro b b' hbB hbB' hxx idx hidx
    refine g2 b b' hbB hbB' ?_ idx hidx
    intro j hj
    refine g1 b b' hbB hbB' ?_ j hj
    intro i hi
    exact hxx i (by rw [show (k.shape fmt B0).tail = (k.shape fmt B).tail by unfold SignalKind.shape sigShape; cases fmt <;> rfl]; exact hi)
  · intro x B hx
    obtain ⟨y, ey, sy, cy⟩ := hf x B hx
    obtain ⟨z, ez, sz, cz⟩ := hf' y B sy
    refine ⟨z, by simp only [ey, res_bind_ok, ez], sz, ?_⟩
    obtain ⟨gx, gy, a1, b1, a2, b2, c⟩ := cy
    obtain ⟨gy', gz, a1', b1', a2', b2', c'⟩ := cz
    rw [a2] at a1'
    cases a1'
    refine ⟨gx, gz, a1, b1, a2', b2', ?_⟩
    intro i hi
    obtain ⟨u, eu, hu⟩ := c i hi
    obtain ⟨v, ev, hv⟩ := c' i hi
    have hs : (slice gy 0 i).shape = B :: (k'.shape fmt B).tail := by
      simp only [slice, b2, List.eraseIdx_cons_zero, sy]
      exact shape_tail ..
    obtain ⟨w, ew, hw⟩ := (hb' B).same hs hu ev
    exact ⟨w, by simp only [eu, res_bind_ok, ew], hw.trans hv⟩

/-- doing nothing is equivariant -/
theorem EquivariantLayer.id [Zero α] {n : GroupName} {fmt : DataFormat} {acting : Option String} {A : List Nat} {k : SignalKind}
    (hk : k.Fits n) (hA : n.group.sub (n.group.parseSubgroup acting) = .ok A) :
    EquivariantLayer (α := α) n fmt acting A.length k k (fun x => .ok x) := by
  refine ⟨fun B0 => ?_, ?_⟩
  · intro x x' y B B' hx hx' hy
    cases hy
    exact ⟨x', _, rfl, hx, hx', fun b b' _ _ h => h⟩
  · intro x B hx
    obtain ⟨y, ey, hy⟩ := act_shape n fmt x hx hk.1 hA hk.2
    exact ⟨x, rfl, hx, y, y, ey, hy, ey, hy, fun i _ => ⟨_, rfl, Same.refl _⟩⟩

/-- a layer over a group object is an equivariant layer of the stack, seen from a larger group -/
theorem equivariantLayer_up [Zero α] {n m : GroupName} {P : List Nat} (h : lookup n.group.subgroup m.group.name = .ok P)
    {fmt : DataFormat} {f : Tensor α → Res (Tensor α)} {k k' : SignalKind} {H D T A : List Nat} {sub dx dy acting : Option String}
    (hb : ∀ B, Batchwise f (k.shape fmt B).tail) {x0 y0 : Tensor α} {B0 : Nat} (hx0 : x0.shape = k.shape fmt B0)
    (hy0 : f x0 = .ok y0) (hys0 : y0.shape = k'.shape fmt B0)
    (hk : k.on = m.group.parseSubgroup dx) (hk' : k'.on = m.group.parseSubgroup dy)
    (hg : n.Grid k.grid) (hg' : n.Grid k'.grid)
    (hH : m.group.sub (m.group.parseSubgroup sub) = .ok H) (hD : OnDom m k.g dx D) (hT : OnDom m k'.g dy T)
    (hHD : k.g = none ∨ ∀ e ∈ H, e ∈ D) (hHT : k'.g = none ∨ ∀ e ∈ H, e ∈ T)
    (hA : n.group.sub (n.group.parseSubgroup acting) = .ok A) (hAH : ∀ e ∈ A, e ∈ H.map (nth P))
    (hc : ∀ (x y : Tensor α) B, x.shape = k.shape fmt B → f x = .ok y → Commutes m.group m.dim fmt sub H.length dx dy f x y) :
    EquivariantLayer n fmt acting A.length k k' f := by
  refine ⟨hb, ?_⟩
  intro x B hx
  obtain ⟨y, t, ey, s1, s2, -⟩ := hb B x0 x y0 B0 B (hx0.trans (shape_tail ..)) (hx.trans (shape_tail ..)) hy0
  have ht : t = (k'.shape fmt B).tail := by
    rw [hys0, shape_tail k' fmt B0 B] at s1
    exact (List.cons.inj s1).2.symm
  have hys : y.shape = k'.shape fmt B := by rw [s2, ht]; exact (shape_tail ..).symm
  refine ⟨y, ey, hys, ?_⟩
  rw [hk, hk']
  exact Commutes.up h (hb B) hx hg hys hg' hA hH hAH hD hHD hT hHT (hc x y B hx ey)

end GroCo
