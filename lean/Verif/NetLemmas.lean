import Verif.NetSpec
import Verif.StackLemmas

/-
Helper lemmas about networks with branches.
-/

namespace GroCo
open Tensor

variable {α : Type}

/-- index of a signal with position `p`, group index `r` (if any) and channel `c` -/
def asm (fmt : DataFormat) (b : Nat) (p r : List Nat) (c : Nat) : List Nat :=
  match fmt with
  | .channelsLast => b :: p ++ (r ++ [c])
  | .channelsFirst => b :: c :: p ++ r

theorem asm_valid {fmt : DataFormat} {B : Nat} {m : List Nat} {g : Option Nat} {C b : Nat} {p r : List Nat} {c : Nat} (hb : b < B)
    (hp : Valid m p) (hr : Valid g.toList r) (hc : c < C) : Valid (sigShape fmt B m g C) (asm fmt b p r c) := by
  cases fmt with
  | channelsLast =>
    exact ⟨hb, (valid_append _ _ _ _ hp.length).2 ⟨hp, (valid_append _ _ _ _ hr.length).2 ⟨hr, hc, trivial⟩⟩⟩
  | channelsFirst => exact ⟨hb, hc, (valid_append _ _ _ _ hp.length).2 ⟨hp, hr⟩⟩

theorem asm_of {fmt : DataFormat} {B : Nat} {m : List Nat} {g : Option Nat} {C : Nat} {i : List Nat}
    (h : Valid (sigShape fmt B m g C) i) :
    ∃ b p r c, i = asm fmt b p r c ∧ b < B ∧ Valid m p ∧ Valid g.toList r ∧ c < C := by
  cases fmt with
  | channelsLast =>
    match i, h with
    | b :: i, h =>
    obtain ⟨p, r, rfl, hp, hr⟩ := valid_append_split h.2
    obtain ⟨r, c, rfl, hr', hc⟩ := valid_append_split hr
    match c, hc with
    | [c], hc => exact ⟨b, p, r, c, rfl, h.1, hp, hr', hc.1⟩
  | channelsFirst =>
    match i, h with
    | b :: c :: i, h =>
    obtain ⟨p, r, rfl, hp, hr⟩ := valid_append_split h.2.2
    exact ⟨b, p, r, c, rfl, h.1, hp, hr, h.2.1⟩

theorem channelAt_asm (fmt : DataFormat) (b : Nat) (p r : List Nat) (c : Nat) : channelAt fmt (asm fmt b p r c) = c := by
  cases fmt with
  | channelsLast =>
    show nth (b :: p ++ (r ++ [c])) _ = c
    rw [show b :: p ++ (r ++ [c]) = (b :: p ++ r) ++ [c] by simp, nth_app0 (by simp [asm]; omega)]
    rfl
  | channelsFirst => rfl

theorem batch_asm (fmt : DataFormat) (b : Nat) (p r : List Nat) (c : Nat) : nth (asm fmt b p r c) 0 = b := by
  cases fmt <;> rfl

/-- where an element reads an entry, for the group index given as a list -/
def turned (n : GroupName) (D : List Nat) (e : Nat) (r : List Nat) : List Nat := r.map (turn n.group.toGroupData D e)

theorem moved_asm {n : GroupName} {fmt : DataFormat} {m : List Nat} {g : Option Nat} {D : List Nat} {e b : Nat} {p r : List Nat} {c : Nat}
    (hp : p.length = n.dim) (hr : Valid g.toList r) :
    moved n (lead fmt) g D m e (asm fmt b p r c) = asm fmt b (back n.els m e p) (turned n D e r) c := by
  unfold moved turned
  cases fmt with
  | channelsLast =>
    cases g with
    | none =>
      match r, hr with
      | [], _ =>
        have h4 : (b :: p ++ ([] ++ [c])).drop (1 + n.dim) = [c] := by
          rw [List.nil_append, List.drop_left' (by simp [hp]; omega)]
        simp only [lead, asm]
        rw [h4]
        simp [← hp]
    | some g =>
      match r, hr with
      | [j], _ =>
        simp only [lead, asm]
        have h3 : nth (b :: p ++ ([j] ++ [c])) (1 + n.dim) = j := by rw [nth_app0 (by simp [hp]; omega)]; rfl
        have h4 : (b :: p ++ ([j] ++ [c])).drop (1 + n.dim + 1) = [c] := by
          rw [show b :: p ++ ([j] ++ [c]) = b :: p ++ [j] ++ [c] by simp, List.drop_left' (by simp [hp]; omega)]
        rw [h3, h4]
        simp [← hp]
  | channelsFirst =>
    cases g with
    | none =>
      match r, hr with
      | [], _ =>
        have h4 : (b :: c :: p ++ []).drop (2 + n.dim) = [] := by
          rw [List.drop_left' (by simp [hp]; omega)]
        simp only [lead, asm]
        rw [h4]
        simp [← hp]
    | some g =>
      match r, hr with
      | [j], _ =>
        simp only [lead, asm]
        have h3 : nth (b :: c :: p ++ [j]) (2 + n.dim) = j := by rw [nth_app0 (by simp [hp]; omega)]; rfl
        have h4 : (b :: c :: p ++ [j]).drop (2 + n.dim + 1) = [] := by
          rw [show b :: c :: p ++ [j] = b :: c :: p ++ [j] ++ [] by simp, List.drop_left' (by simp [hp]; omega)]
        rw [h3, h4]
        simp [← hp]

/-- the facts about reading with element `e` that are needed below -/
structure Moving (n : GroupName) (fmt : DataFormat) (m : List Nat) (g : Option Nat) (D : List Nat) (e : Nat) : Prop where
  grid : n.Grid m
  lt : e < n.group.order
  dom : g = none ∨ ∃ s, lookup n.group.subgroup s = .ok D ∧ e ∈ D ∧ g = some D.length

theorem Moving.turned {n : GroupName} {fmt : DataFormat} {m : List Nat} {g : Option Nat} {D : List Nat} {e : Nat}
    (h : Moving n fmt m g D e) {r : List Nat} (hr : Valid g.toList r) : Valid g.toList (turned n D e r) := by
  rcases h.dom with rfl | ⟨s, hD, he, rfl⟩
  · match r, hr with
    | [], _ => trivial
  · match r, hr with
    | [j], hr => exact ⟨n.sym.turn_lt hD he hr.1, trivial⟩

theorem Moving.turned_inj {n : GroupName} {fmt : DataFormat} {m : List Nat} {g : Option Nat} {D : List Nat} {e : Nat}
    (h : Moving n fmt m g D e) {r r' : List Nat} (hr : Valid g.toList r) (hr' : Valid g.toList r')
    (heq : GroCo.turned n D e r = GroCo.turned n D e r') : r = r' := by
  rcases h.dom with rfl | ⟨s, hD, he, rfl⟩
  · match r, hr, r', hr' with
    | [], _, [], _ => rfl
  · match r, hr, r', hr' with
    | [j], hr, [j'], hr' =>
      rw [n.sym.turn_inj hD he hr.1 hr'.1 (List.cons.inj heq).1]

theorem asm_inj {fmt : DataFormat} {b b' : Nat} {p p' r r' : List Nat} {c c' : Nat} (hp : p.length = p'.length)
    (hr : r.length = r'.length) (h : asm fmt b p r c = asm fmt b' p' r' c') : b = b' ∧ p = p' ∧ r = r' ∧ c = c' := by
  cases fmt with
  | channelsLast =>
    have h1 := List.cons.inj h
    have h2 := List.append_inj h1.2 hp
    have h3 := List.append_inj h2.2 hr
    exact ⟨h1.1, h2.1, h3.1, (List.cons.inj h3.2).1⟩
  | channelsFirst =>
    have h1 := List.cons.inj h
    have h2 := List.cons.inj h1.2
    have h3 := List.append_inj h2.2 hp
    exact ⟨h1.1, h3.1, h3.2, h2.1⟩

/-- moving a batch of signals permutes the values in each channel of each sample -/
theorem valuesOf_moved {n : GroupName} {fmt : DataFormat} {m : List Nat} {g : Option Nat} {D : List Nat} {e : Nat}
    (h : Moving n fmt m g D e) {x x' : Tensor α} {B C : Nat} (hx : x.shape = sigShape fmt B m g C) (hx' : x'.shape = x.shape)
    (hg : ∀ i, Valid x.shape i → x'.get i = x.get (moved n (lead fmt) g D m e i)) (b c : Nat) :
    (valuesOf fmt x' b c).Perm (valuesOf fmt x b c) := by
  unfold valuesOf
  rw [hx']
  have hml := n.sym.okLen m h.grid
  have hk := h.grid.kept h.lt
  have key : ∀ i, Valid x.shape i → ∃ b p r c, i = asm fmt b p r c ∧ b < B ∧ Valid m p ∧ Valid g.toList r ∧ c < C ∧
      moved n (lead fmt) g D m e i = asm fmt b (back n.els m e p) (GroCo.turned n D e r) c := by
    intro i hi
    rw [hx] at hi
    obtain ⟨b, p, r, c, rfl, hb, hp, hr, hc⟩ := asm_of hi
    exact ⟨b, p, r, c, rfl, hb, hp, hr, hc, moved_asm (hp.length.trans hml) hr⟩
  have hperm : (((indices x.shape).filter fun i => nth i 0 == b && channelAt fmt i == c).map (moved n (lead fmt) g D m e)).Perm
      ((indices x.shape).filter fun i => nth i 0 == b && channelAt fmt i == c) := by
    apply perm_map_self ((nodup_indices _).filter _)
    · intro i hi
      rw [List.mem_filter, mem_indices] at hi ⊢
      obtain ⟨b', p, r, c', rfl, hb, hp, hr, hc, e1⟩ := key i hi.1
      rw [e1, hx]
      refine ⟨asm_valid hb (hk.valid h.lt hp) (h.turned hr) hc, ?_⟩
      have := hi.2
      rw [batch_asm, channelAt_asm] at this ⊢
      exact this
    · intro i hi j hj hij
      rw [List.mem_filter, mem_indices] at hi hj
      obtain ⟨b1, p1, r1, c1, rfl, hb1, hp1, hr1, hc1, e1⟩ := key i hi.1
      obtain ⟨b2, p2, r2, c2, rfl, hb2, hp2, hr2, hc2, e2⟩ := key j hj.1
      rw [e1, e2] at hij
      obtain ⟨rfl, hpp, hrr, rfl⟩ := asm_inj
        ((hk.valid h.lt hp1).length.trans (hk.valid h.lt hp2).length.symm)
        ((h.turned hr1).length.trans (h.turned hr2).length.symm) hij
      rw [hk.inj h.lt hp1 hp2 hpp, h.turned_inj hr1 hr2 hrr]
  refine List.Perm.trans (List.Perm.of_eq ?_) (hperm.map x.get)
  rw [List.map_map]
  apply List.map_congr_left
  intro i hi
  rw [List.mem_filter, mem_indices] at hi
  exact hg i hi.1

theorem valuesOf_same {fmt : DataFormat} {x x' : Tensor α} (h : x'.Same x) (b c : Nat) : valuesOf fmt x' b c = valuesOf fmt x b c := by
  unfold valuesOf
  rw [h.1]
  apply List.map_congr_left
  intro i hi
  rw [List.mem_filter, mem_indices] at hi
  exact h.2 i (h.1 ▸ hi.1)

/-- the elements a signal is defined on, and what reading with an acting element needs -/
theorem SignalKind.Under.dom {k : SignalKind} {n : GroupName} {acting : Option String} {A : List Nat} (h : k.Under n acting)
    (hA : n.group.sub (n.group.parseSubgroup acting) = .ok A) (fmt : DataFormat) :
    ∃ D, OnDom n k.g k.on D ∧ (k.g = none ∨ ∀ e ∈ A, e ∈ D) ∧ ∀ i, i < A.length → Moving n fmt k.grid k.g D (nth A i) := by
  obtain ⟨⟨hm, hs⟩, hsub⟩ := h
  obtain ⟨D, hD⟩ := hs.onDom
  obtain ⟨sA, _, hlA⟩ := parse_sub hA
  have hAD : k.g = none ∨ ∀ e ∈ A, e ∈ D := by
    cases hg : k.g with
    | none => exact .inl rfl
    | some g =>
      rw [hg] at hD hsub
      exact .inr ((hsub.resolve_left (by simp)) A D hA hD.2)
  refine ⟨D, hD, hAD, fun i hi => ⟨hm, n.sym.sub_nth_lt hlA hi, ?_⟩⟩
  cases hg : k.g with
  | none => exact .inl rfl
  | some g =>
    rw [hg] at hD hAD
    obtain ⟨sD, _, hlD⟩ := parse_sub hD.2
    exact .inr ⟨sD, hlD, hAD.resolve_left (by simp) _ (nth_mem _ _ hi), congrArg some hD.1⟩

theorem EquivariantLayer.map [Zero α] {n : GroupName} {fmt : DataFormat} {acting : Option String} {order : Nat} {k k' : SignalKind}
    {f : Tensor α → Res (Tensor α)} (h : EquivariantLayer n fmt acting order k k' f) : EquivariantMap n fmt acting order k k' f := by
  intro x B hx
  obtain ⟨y, ey, hy, hc⟩ := h.2 x B hx
  exact ⟨y, ey, hy, fun x' hxx => (h.1 B).same (hx.trans (shape_tail ..)) hxx ey, hc⟩

theorem EquivariantMap.seq [Zero α] {n : GroupName} {fmt : DataFormat} {acting : Option String} {order : Nat} {k k' k'' : SignalKind}
    {f f' : Tensor α → Res (Tensor α)} (hf : EquivariantMap n fmt acting order k k' f)
    (hf' : EquivariantMap n fmt acting order k' k'' f') : EquivariantMap n fmt acting order k k'' (fun x => do f' (← f x)) := by
  intro x B hx
  obtain ⟨y, ey, hy, sy, gx, gy, a1, b1, a2, b2, c⟩ := hf x B hx
  obtain ⟨z, ez, hz, sz, gy', gz, a1', b1', a2', b2', c'⟩ := hf' y B hy
  rw [a2] at a1'
  cases a1'
  refine ⟨z, by simp only [ey, res_bind_ok, ez], hz, ?_, gx, gz, a1, b1, a2', b2', ?_⟩
  · intro x' hxx
    obtain ⟨y', ey', hyy⟩ := sy x' hxx
    obtain ⟨z', ez', hzz⟩ := sz y' hyy
    exact ⟨z', by simp only [ey', res_bind_ok, ez'], hzz⟩
  · intro i hi
    obtain ⟨u, eu, hu⟩ := c i hi
    obtain ⟨v, ev, hv⟩ := c' i hi
    have hs : (slice gy 0 i).shape = k'.shape fmt B := by simp only [slice, b2, List.eraseIdx_cons_zero, hy]
    obtain ⟨w, ew, _, sw, _⟩ := hf' (slice gy 0 i) B hs
    obtain ⟨w', ew', hw'⟩ := sw u hu
    rw [ev] at ew
    cases ew
    exact ⟨w', by simp only [eu, res_bind_ok, ew'], hw'.trans hv⟩

theorem EquivariantMap.entrywise [Zero α] {n : GroupName} {fmt : DataFormat} {acting : Option String} {A : List Nat} {k : SignalKind}
    (hA : n.group.sub (n.group.parseSubgroup acting) = .ok A) (hk : k.Under n acting)
    {ψ : Nat → Nat → Nat → (Nat → Nat → List α) → α → α} (hψ : Unordered ψ) :
    EquivariantMap n fmt acting A.length k k (entrywise fmt ψ) := by
  intro x B hx
  obtain ⟨D, hD, hAD, hmv⟩ := hk.dom hA fmt
  refine ⟨_, rfl, hx, ?_, ?_⟩
  · intro x' hxx
    refine ⟨_, rfl, hxx.1, ?_⟩
    intro i hi
    simp only
    rw [hxx.2 i hi, hxx.1]
    exact hψ _ _ _ _ _ _ fun b c => List.Perm.of_eq (valuesOf_same hxx b c)
  · obtain ⟨gx, e1, s1, g1⟩ := act_el n fmt x hx hk.1.1 hA hD hAD
    obtain ⟨gy, e2, s2, g2⟩ := act_el n fmt (⟨x.shape, fun i => ψ (nth x.shape 0) (nth i 0) (channelAt fmt i) (valuesOf fmt x) (x.get i)⟩ : Tensor α)
      hx hk.1.1 hA hD hAD
    refine ⟨gx, gy, e1, s1, e2, s2, ?_⟩
    intro i hi
    have hsx : (slice gx 0 i).shape = x.shape := by simp [slice, s1]
    have hsy : (slice gy 0 i).shape = x.shape := by simp [slice, s2]
    refine ⟨_, rfl, hsx.trans hsy.symm, ?_⟩
    intro idx hidx
    simp only [hsx] at hidx
    rw [g2 i hi idx hidx]
    simp only
    rw [g1 i hi idx hidx]
    have hv := valuesOf_moved (hmv i hi) hx hsx (g1 i hi)
    rw [hψ _ _ _ _ _ _ hv, hsx]
    have hx2 := hx ▸ hidx
    obtain ⟨b, p, r, c, rfl, hb, hp, hr, hc⟩ := asm_of hx2
    rw [moved_asm (hp.length.trans (n.sym.okLen _ hk.1.1)) hr]
    simp only [batch_asm, channelAt_asm]

theorem EquivariantMap.merge [Zero α] {n : GroupName} {fmt : DataFormat} {acting : Option String} {A : List Nat} {k k' : SignalKind}
    (hA : n.group.sub (n.group.parseSubgroup acting) = .ok A) (hk : k'.Under n acting) (op : α → α → α)
    {f f' : Tensor α → Res (Tensor α)} (hf : EquivariantMap n fmt acting A.length k k' f)
    (hf' : EquivariantMap n fmt acting A.length k k' f') : EquivariantMap n fmt acting A.length k k' (merged op f f') := by
  intro x B hx
  obtain ⟨D, hD, hAD, -⟩ := hk.dom hA fmt
  obtain ⟨y, ey, hy, sy, gx, gy, a1, b1, a2, b2, c⟩ := hf x B hx
  obtain ⟨z, ez, hz, sz, gx', gz, a1', b1', a2', b2', c'⟩ := hf' x B hx
  rw [a1] at a1'
  cases a1'
  have hyz : y.shape = z.shape := hy.trans hz.symm
  have run : ∀ x y z, f x = .ok y → f' x = .ok z → y.shape = z.shape →
      merged op f f' x = .ok ⟨y.shape, fun i => op (y.get i) (z.get i)⟩ := by
    intro x y z e1 e2 h
    unfold merged
    simp only [e1, e2, res_bind_ok, if_pos h]
  obtain ⟨gw, e3, s3, g3⟩ := act_el n fmt (⟨y.shape, fun i => op (y.get i) (z.get i)⟩ : Tensor α) hy hk.1.1 hA hD hAD
  obtain ⟨gy', e4, s4, g4⟩ := act_el n fmt y hy hk.1.1 hA hD hAD
  obtain ⟨gz', e5, s5, g5⟩ := act_el n fmt z hz hk.1.1 hA hD hAD
  rw [a2] at e4
  cases e4
  rw [a2'] at e5
  cases e5
  refine ⟨_, run x y z ey ez hyz, hy, ?_, gx, gw, a1, b1, e3, s3, ?_⟩
  · intro x' hxx
    obtain ⟨y', ey', hyy⟩ := sy x' hxx
    obtain ⟨z', ez', hzz⟩ := sz x' hxx
    refine ⟨_, run x' y' z' ey' ez' (hyy.1.trans (hyz.trans hzz.1.symm)), hyy.1, ?_⟩
    intro i hi
    simp only at hi ⊢
    rw [hyy.2 i hi, hzz.2 i (by rw [hzz.1, ← hyz, ← hyy.1]; exact hi)]
  · intro i hi
    obtain ⟨u, eu, hu⟩ := c i hi
    obtain ⟨v, ev, hv⟩ := c' i hi
    have hsy : (slice gy 0 i).shape = y.shape := by simp [slice, b2]
    have hsz : (slice gz 0 i).shape = z.shape := by simp [slice, b2']
    have hsw : (slice gw 0 i).shape = y.shape := by simp [slice, s3]
    refine ⟨_, run _ u v eu ev (hu.1.trans (hsy.trans (hyz.trans (hsz.symm.trans hv.1.symm)))), hu.1.trans (hsy.trans hsw.symm), ?_⟩
    intro idx hidx
    simp only at hidx ⊢
    have hiy : Valid y.shape idx := hsy ▸ hu.1 ▸ hidx
    have hiz : Valid z.shape idx := hyz ▸ hiy
    rw [g3 i hi idx hiy, hu.2 idx hidx, hv.2 idx (by rw [hv.1, hsz]; exact hiz), g4 i hi idx hiy, g5 i hi idx hiz]

theorem concat_at {y z : Tensor α} {P Q : List Nat} {C C' : Nat} {ax : Int} (hy : y.shape = P ++ C :: Q) (hz : z.shape = P ++ C' :: Q)
    (hn : normAxis y.rank ax = .ok P.length) :
    ∃ w, concatenate [y, z] ax = .ok w ∧ w.shape = P ++ (C + C') :: Q ∧
      ∀ i c j, i.length = P.length → w.get (i ++ c :: j) = if c < C then y.get (i ++ c :: j) else z.get (i ++ (c - C) :: j) := by
  have hnat : normAxis y.rank ((P.length : Nat) : Int) = .ok P.length := normAxis_nat (normAxis_lt hn)
  have hconc := concatenate_ok y [z] (normAxis_lt hn) (by
    intro u hu
    rw [List.mem_singleton] at hu
    subst hu
    rw [Tensor.rank, Tensor.rank, hy, hz]
    exact ⟨by rw [List.eraseIdx_append_of_length_le (le_refl _), List.eraseIdx_append_of_length_le (le_refl _)]; simp, by simp⟩)
  have h1 : concatenate [y, z] ax = concatenate [y, z] (P.length : Nat) := by
    unfold concatenate
    simp only [hn, hnat]
  have hcy : nth y.shape P.length = C := by rw [hy, nth_app0 rfl]; rfl
  have hcz : nth z.shape P.length = C' := by rw [hz, nth_app0 rfl]; rfl
  refine ⟨_, h1.trans hconc, ?_, ?_⟩
  · simp only [List.map_cons, List.map_nil, List.sum_cons, List.sum_nil, hcy, hcz]
    rw [hy]
    simp
  · intro i c j hi
    have hc : nth (i ++ c :: j) P.length = c := by rw [← hi, nth_app0 rfl]; rfl
    have hset : (i ++ c :: j).set P.length (c - C) = i ++ (c - C) :: j := by rw [← hi]; simp
    simp only [concatGet, hc, hcy, hset]

/-- concatenation along the channel axis -/
theorem concat_sig {fmt : DataFormat} {y z : Tensor α} {B : Nat} {m : List Nat} {g : Option Nat} {C C' : Nat}
    (hy : y.shape = sigShape fmt B m g C) (hz : z.shape = sigShape fmt B m g C') :
    ∃ w, concatenate [y, z] (channelArg fmt) = .ok w ∧ w.shape = sigShape fmt B m g (C + C') ∧
      ∀ b p r c, p.length = m.length → r.length = g.toList.length →
        w.get (asm fmt b p r c) = if c < C then y.get (asm fmt b p r c) else z.get (asm fmt b p r (c - C)) := by
  cases fmt with
  | channelsLast =>
    have hs : ∀ C, sigShape .channelsLast B m g C = (B :: m ++ g.toList) ++ [C] := fun C => by simp [sigShape]
    have ha : ∀ b p r c, asm .channelsLast b p r c = (b :: p ++ r) ++ [c] := fun b p r c => by simp [asm]
    rw [hs] at hy hz
    have hr : y.rank = (B :: m ++ g.toList).length + 1 := by rw [Tensor.rank, hy, List.length_append]; rfl
    obtain ⟨w, e, h1, h2⟩ := concat_at (ax := -1) hy hz (by
      rw [show (-1 : Int) = -((1 : Nat) : Int) by rfl, normAxis_neg (by omega) (by omega), hr]
      rfl)
    refine ⟨w, e, by rw [hs, h1], ?_⟩
    intro b p r c hp hr
    rw [ha, ha]
    exact h2 _ _ _ (by simp [hp, hr])
  | channelsFirst =>
    have hr : y.rank = (m ++ g.toList).length + 2 := by rw [Tensor.rank, hy]; rfl
    obtain ⟨w, e, h1, h2⟩ := concat_at (ax := 1) (P := [B]) hy hz (normAxis_nat (a := 1) (by omega))
    exact ⟨w, e, h1, fun b p r c _ _ => h2 [b] c (p ++ r) rfl⟩

theorem EquivariantMap.concat [Zero α] {n : GroupName} {fmt : DataFormat} {acting : Option String} {A : List Nat} {k : SignalKind}
    {m : List Nat} {g : Option Nat} {C C' : Nat} {on : Option String}
    (hA : n.group.sub (n.group.parseSubgroup acting) = .ok A) (hk : SignalKind.Under ⟨m, g, C, on⟩ n acting)
    {f f' : Tensor α → Res (Tensor α)} (hf : EquivariantMap n fmt acting A.length k ⟨m, g, C, on⟩ f)
    (hf' : EquivariantMap n fmt acting A.length k ⟨m, g, C', on⟩ f') :
    EquivariantMap n fmt acting A.length k ⟨m, g, C + C', on⟩ (concatenated fmt f f') := by
  intro x B hx
  obtain ⟨D, hD, hAD, hmv⟩ := hk.dom hA fmt
  obtain ⟨y, ey, hy, sy, gx, gy, a1, b1, a2, b2, c⟩ := hf x B hx
  obtain ⟨z, ez, hz, sz, gx', gz, a1', b1', a2', b2', c'⟩ := hf' x B hx
  rw [a1] at a1'
  cases a1'
  have hml := n.sym.okLen m hk.1.1
  obtain ⟨w, ew, hw, gw0⟩ := concat_sig (g := g) hy hz
  have run : ∀ x y z, f x = .ok y → f' x = .ok z → concatenated fmt f f' x = concatenate [y, z] (channelArg fmt) := by
    intro x y z e1 e2
    unfold concatenated
    simp only [e1, e2, res_bind_ok]
  have split : ∀ {i}, Valid (sigShape fmt B m g (C + C')) i → ∃ b p r c, i = asm fmt b p r c ∧ b < B ∧ Valid m p ∧ Valid g.toList r ∧
      ((c < C ∧ Valid (sigShape fmt B m g C) (asm fmt b p r c)) ∨
        (¬ c < C ∧ Valid (sigShape fmt B m g C') (asm fmt b p r (c - C)))) := by
    intro i hi
    obtain ⟨b, p, r, c, rfl, hb, hp, hr, hc⟩ := asm_of hi
    refine ⟨b, p, r, c, rfl, hb, hp, hr, ?_⟩
    by_cases h : c < C
    · exact .inl ⟨h, asm_valid hb hp hr h⟩
    · exact .inr ⟨h, asm_valid hb hp hr (by omega)⟩
  obtain ⟨gw, e3, s3, g3⟩ := act_el n fmt w hw hk.1.1 hA hD hAD
  obtain ⟨gy', e4, s4, g4⟩ := act_el n fmt y hy hk.1.1 hA hD hAD
  obtain ⟨gz', e5, s5, g5⟩ := act_el n fmt z hz hk.1.1 hA hD hAD
  rw [a2] at e4
  cases e4
  rw [a2'] at e5
  cases e5
  -- concatenations of the same tensors are the same
  have cong : ∀ {u v u' v' : Tensor α}, u.shape = sigShape fmt B m g C → v.shape = sigShape fmt B m g C' → u'.Same u → v'.Same v →
      ∃ w w', concatenate [u, v] (channelArg fmt) = .ok w ∧ concatenate [u', v'] (channelArg fmt) = .ok w' ∧ w'.Same w := by
    intro u v u' v' hu hv hu' hv'
    obtain ⟨w1, e1, h1, q1⟩ := concat_sig (g := g) hu hv
    obtain ⟨w2, e2, h2, q2⟩ := concat_sig (g := g) (hu'.1.trans hu) (hv'.1.trans hv)
    refine ⟨w1, w2, e1, e2, h2.trans h1.symm, ?_⟩
    intro i hi
    rw [h2] at hi
    obtain ⟨b, p, r, c, rfl, hb, hp, hr, hcc⟩ := split hi
    rw [q1 b p r c hp.length hr.length, q2 b p r c hp.length hr.length]
    rcases hcc with ⟨h, hv1⟩ | ⟨h, hv1⟩
    · rw [if_pos h, if_pos h]
      exact hu'.2 _ (by rw [hu'.1, hu]; exact hv1)
    · rw [if_neg h, if_neg h]
      exact hv'.2 _ (by rw [hv'.1, hv]; exact hv1)
  refine ⟨w, (run x y z ey ez).trans ew, hw, ?_, gx, gw, a1, b1, e3, s3, ?_⟩
  · intro x' hxx
    obtain ⟨y', ey', hyy⟩ := sy x' hxx
    obtain ⟨z', ez', hzz⟩ := sz x' hxx
    obtain ⟨w1, w2, q1, q2, q3⟩ := cong hy hz hyy hzz
    rw [ew] at q1
    cases q1
    exact ⟨w2, (run x' y' z' ey' ez').trans q2, q3⟩
  · intro i hi
    obtain ⟨u, eu, hu⟩ := c i hi
    obtain ⟨v, ev, hv⟩ := c' i hi
    have hsy : (slice gy 0 i).shape = sigShape fmt B m g C := by simp only [slice, b2, List.eraseIdx_cons_zero]; exact hy
    have hsz : (slice gz 0 i).shape = sigShape fmt B m g C' := by simp only [slice, b2', List.eraseIdx_cons_zero]; exact hz
    have hsw : (slice gw 0 i).shape = w.shape := by simp [slice, s3]
    obtain ⟨w1, w2, q1, q2, q3⟩ := cong hsy hsz hu hv
    refine ⟨w2, (run _ u v eu ev).trans q2, q3.trans ?_⟩
    obtain ⟨w3, e6, h6, q6⟩ := concat_sig (g := g) hsy hsz
    rw [q1] at e6
    cases e6
    refine ⟨h6.trans (hw.symm.trans hsw.symm), ?_⟩
    intro idx hidx
    rw [h6] at hidx
    rw [g3 i hi idx (hw ▸ hidx)]
    obtain ⟨b, p, r, c, rfl, hb, hp, hr, hcc⟩ := split hidx
    have hmo := hmv i hi
    have hk' := hmo.grid.kept hmo.lt
    have hpl : p.length = n.dim := hp.length.trans hml
    rw [q6 b p r c hp.length hr.length]
    have hmove : ∀ c, moved n (lead fmt) g D m (nth A i) (asm fmt b p r c) =
      asm fmt b (back n.els m (nth A i) p) (GroCo.turned n D (nth A i) r) c := fun c => moved_asm hpl hr
    show _ = w.get (moved n (lead fmt) g D m (nth A i) (asm fmt b p r c))
    rw [hmove, gw0 b _ _ c (hk'.valid hmo.lt hp).length (hmo.turned hr).length]
    rcases hcc with ⟨h, hv1⟩ | ⟨h, hv1⟩
    · rw [if_pos h, if_pos h, g4 i hi _ (by rw [hy]; exact hv1)]
      exact congrArg y.get (hmove c)
    · rw [if_neg h, if_neg h, g5 i hi _ (by rw [hz]; exact hv1)]
      exact congrArg z.get (hmove (c - C))

end GroCo
