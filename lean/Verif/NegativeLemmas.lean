import Verif.BuildLemmas

/-
Helper lemmas: negative axes.
-/

namespace GroCo
open Tensor

variable {α β γ : Type}

theorem bind_congr_ok {m : Res β} {f g : β → Res γ} (h : ∀ a, m = .ok a → f a = g a) : (m >>= f) = m >>= g := by
  cases m with
  | error e => rfl
  | ok a => exact h a rfl

theorem normAxis_fromEnd {r k : Nat} (h1 : 0 < k) (h2 : k ≤ r) : normAxis r (-(k : Int)) = normAxis r ((r : Int) - k) := by
  unfold normAxis
  rw [if_neg (by omega), if_pos (by omega), if_pos (by omega)]
  congr 2
  omega

theorem expandDims_neg (x : Tensor α) {k r : Nat} (h1 : 0 < k) (h2 : k ≤ r) (hr : x.rank + 1 = r) :
    expandDims x (-(k : Int)) = expandDims x ((r : Int) - k) := by
  subst hr
  unfold expandDims
  rw [normAxis_fromEnd h1 h2]

theorem concatenate_neg (x : Tensor α) (l : List (Tensor α)) {k r : Nat} (h1 : 0 < k) (h2 : k ≤ r) (hr : x.rank = r) :
    concatenate (x :: l) (-(k : Int)) = concatenate (x :: l) ((r : Int) - k) := by
  subst hr
  show (normAxis x.rank _ >>= _) = _
  rw [normAxis_fromEnd h1 h2]
  rfl

theorem take_neg (x : Tensor α) (is : List Nat) {k r : Nat} (h1 : 0 < k) (h2 : k ≤ r) (hr : x.rank = r) :
    take x is (-(k : Int)) = take x is ((r : Int) - k) := by
  subst hr
  unfold take
  rw [normAxis_fromEnd h1 h2]

theorem moveaxis_neg (x : Tensor α) (s : Int) {k r : Nat} (h1 : 0 < k) (h2 : k ≤ r) (hr : x.rank = r) :
    moveaxis x s (-(k : Int)) = moveaxis x s ((r : Int) - k) := by
  subst hr
  unfold moveaxis
  rw [normAxis_fromEnd h1 h2]

theorem expandDims_rank {x y : Tensor α} {i : Int} (h : expandDims x i = .ok y) : y.rank = x.rank + 1 := by
  unfold expandDims at h
  obtain ⟨a, ha, h⟩ := bind_eq_ok h
  have := normAxis_lt ha
  cases h
  show (List.insertIdx _ _ _).length = _
  rw [List.length_insertIdx, if_pos (by show a ≤ x.rank; omega)]

theorem flip_rank {x y : Tensor α} {i : Int} (h : flip x i = .ok y) : y.rank = x.rank := by
  unfold flip at h
  obtain ⟨a, -, h⟩ := bind_eq_ok h
  cases h
  rfl

theorem transpose_rank {x y : Tensor α} {p : List Nat} (h : transpose x p = .ok y) : y.rank = x.rank := by
  unfold transpose at h
  split at h
  · rename_i hc
    cases h
    show (List.map _ _).length = _
    simp [hc.1]
  · cases h

theorem concatenate_rank {x y : Tensor α} {l : List (Tensor α)} {i : Int} (h : concatenate (x :: l) i = .ok y) : y.rank = x.rank := by
  unfold concatenate at h
  obtain ⟨a, -, h⟩ := bind_eq_ok h
  split at h
  · cases h
    simp [Tensor.rank]
  · cases h

theorem take_rank {x y : Tensor α} {is : List Nat} {i : Int} (h : take x is i = .ok y) : y.rank = x.rank := by
  unfold take at h
  obtain ⟨a, -, h⟩ := bind_eq_ok h
  split at h
  · cases h
    simp [Tensor.rank]
  · cases h

theorem moveaxis_rank {x y : Tensor α} {s d : Int} (h : moveaxis x s d = .ok y) : y.rank = x.rank := by
  unfold moveaxis at h
  obtain ⟨_, -, h⟩ := bind_eq_ok h
  obtain ⟨_, -, h⟩ := bind_eq_ok h
  exact transpose_rank h

theorem P4M_neg (x : Tensor α) {h w : Int} {k r : Nat} (h1 : 0 < k) (h2 : k ≤ r) (hr : x.rank + 1 = r)
    (hh : (r : Int) - k ≤ h) (hw : (r : Int) - k ≤ w) :
    P4M_action x [h, w] (-(k : Int)) = P4M_action x [h, w] ((r : Int) - k) := by
  simp only [P4M_action, unpack2]
  show (expandDims _ _ >>= _) = (expandDims _ _ >>= _)
  rw [expandDims_neg x h1 h2 hr]
  apply bind_congr_ok
  intro x1 e1
  have r1 := expandDims_rank e1
  rw [if_pos (by omega : -(k : Int) ≤ h), if_pos hh, if_pos (by omega : -(k : Int) ≤ w), if_pos hw]
  apply bind_congr_ok
  intro _ _
  rw [concatenate_neg x1 _ h1 h2 (by omega)]
  apply bind_congr_ok
  intro x2 e2
  have r2 := concatenate_rank e2
  apply bind_congr_ok
  intro _ _
  rw [concatenate_neg x2 _ h1 h2 (by omega)]
  apply bind_congr_ok
  intro x3 e3
  have r3 := concatenate_rank e3
  apply bind_congr_ok
  intro _ _
  apply bind_congr_ok
  intro _ _
  rw [concatenate_neg x3 _ h1 h2 (by omega)]
  apply bind_congr_ok
  intro x4 e4
  have r4 := concatenate_rank e4
  exact take_neg x4 _ h1 h2 (by omega)

theorem P4M_rank {x y : Tensor α} {axs : List Int} {na : Int} (e : P4M_action x axs na = .ok y) :
    y.rank = x.rank + 1 := by
  obtain ⟨hw, -, e⟩ := bind_eq_ok e
  obtain ⟨x1, e1, e⟩ := bind_eq_ok e
  have r1 := expandDims_rank e1
  obtain ⟨_, -, e⟩ := bind_eq_ok e
  obtain ⟨x2, e2, e⟩ := bind_eq_ok e
  have r2 := concatenate_rank e2
  obtain ⟨_, -, e⟩ := bind_eq_ok e
  obtain ⟨x3, e3, e⟩ := bind_eq_ok e
  have r3 := concatenate_rank e3
  obtain ⟨_, -, e⟩ := bind_eq_ok e
  obtain ⟨_, -, e⟩ := bind_eq_ok e
  obtain ⟨x4, e4, e⟩ := bind_eq_ok e
  have r4 := concatenate_rank e4
  have := take_rank e
  omega

theorem P4_neg (x : Tensor α) {h w : Int} {k r : Nat} (h1 : 0 < k) (h2 : k ≤ r) (hr : x.rank + 1 = r)
    (hh : (r : Int) - k ≤ h) (hw : (r : Int) - k ≤ w) :
    P4_action x [h, w] (-(k : Int)) = P4_action x [h, w] ((r : Int) - k) := by
  simp only [P4_action, unpack2]
  show (expandDims _ _ >>= _) = (expandDims _ _ >>= _)
  rw [expandDims_neg x h1 h2 hr]
  apply bind_congr_ok
  intro x1 e1
  have r1 := expandDims_rank e1
  rw [if_pos (by omega : -(k : Int) ≤ h), if_pos hh, if_pos (by omega : -(k : Int) ≤ w), if_pos hw]
  apply bind_congr_ok
  intro _ _
  apply bind_congr_ok
  intro _ _
  rw [concatenate_neg x1 _ h1 h2 (by omega)]
  apply bind_congr_ok
  intro x2 e2
  have r2 := concatenate_rank e2
  apply bind_congr_ok
  intro _ _
  apply bind_congr_ok
  intro _ _
  apply bind_congr_ok
  intro _ _
  rw [concatenate_neg x2 _ h1 h2 (by omega)]
  apply bind_congr_ok
  intro x3 e3
  have r3 := concatenate_rank e3
  exact take_neg x3 _ h1 h2 (by omega)

theorem P4_rank {x y : Tensor α} {axs : List Int} {na : Int} (e : P4_action x axs na = .ok y) :
    y.rank = x.rank + 1 := by
  obtain ⟨hw, -, e⟩ := bind_eq_ok e
  obtain ⟨x1, e1, e⟩ := bind_eq_ok e
  have r1 := expandDims_rank e1
  obtain ⟨_, -, e⟩ := bind_eq_ok e
  obtain ⟨_, -, e⟩ := bind_eq_ok e
  obtain ⟨x2, e2, e⟩ := bind_eq_ok e
  have r2 := concatenate_rank e2
  obtain ⟨_, -, e⟩ := bind_eq_ok e
  obtain ⟨_, -, e⟩ := bind_eq_ok e
  obtain ⟨_, -, e⟩ := bind_eq_ok e
  obtain ⟨x3, e3, e⟩ := bind_eq_ok e
  have r3 := concatenate_rank e3
  have := take_rank e
  omega

theorem P2MM_neg (x : Tensor α) {h w : Int} {k r : Nat} (h1 : 0 < k) (h2 : k ≤ r) (hr : x.rank + 1 = r)
    (hh : (r : Int) - k ≤ h) (hw : (r : Int) - k ≤ w) :
    P2MM_action x [h, w] (-(k : Int)) = P2MM_action x [h, w] ((r : Int) - k) := by
  simp only [P2MM_action, unpack2]
  show (expandDims _ _ >>= _) = (expandDims _ _ >>= _)
  rw [expandDims_neg x h1 h2 hr]
  apply bind_congr_ok
  intro x1 e1
  have r1 := expandDims_rank e1
  rw [if_pos (by omega : -(k : Int) ≤ h), if_pos hh, if_pos (by omega : -(k : Int) ≤ w), if_pos hw]
  apply bind_congr_ok
  intro _ _
  rw [concatenate_neg x1 _ h1 h2 (by omega)]
  apply bind_congr_ok
  intro x2 e2
  have r2 := concatenate_rank e2
  apply bind_congr_ok
  intro _ _
  exact concatenate_neg x2 _ h1 h2 (by omega)

theorem P2MM_rank {x y : Tensor α} {axs : List Int} {na : Int} (e : P2MM_action x axs na = .ok y) :
    y.rank = x.rank + 1 := by
  obtain ⟨hw, -, e⟩ := bind_eq_ok e
  obtain ⟨x1, e1, e⟩ := bind_eq_ok e
  have r1 := expandDims_rank e1
  obtain ⟨_, -, e⟩ := bind_eq_ok e
  obtain ⟨x2, e2, e⟩ := bind_eq_ok e
  have r2 := concatenate_rank e2
  obtain ⟨_, -, e⟩ := bind_eq_ok e
  have := concatenate_rank e
  omega

theorem PMh_neg (x : Tensor α) {h w : Int} {k r : Nat} (h1 : 0 < k) (h2 : k ≤ r) (hr : x.rank + 1 = r)
    (hh : (r : Int) - k ≤ h) :
    PMh_action x [h, w] (-(k : Int)) = PMh_action x [h, w] ((r : Int) - k) := by
  simp only [PMh_action, unpack2]
  show (expandDims _ _ >>= _) = (expandDims _ _ >>= _)
  rw [expandDims_neg x h1 h2 hr]
  apply bind_congr_ok
  intro x1 e1
  have r1 := expandDims_rank e1
  rw [if_pos (by omega : -(k : Int) ≤ h), if_pos hh]
  apply bind_congr_ok
  intro _ _
  exact concatenate_neg x1 _ h1 h2 (by omega)

theorem PMh_rank {x y : Tensor α} {axs : List Int} {na : Int} (e : PMh_action x axs na = .ok y) :
    y.rank = x.rank + 1 := by
  obtain ⟨hw, -, e⟩ := bind_eq_ok e
  obtain ⟨x1, e1, e⟩ := bind_eq_ok e
  have r1 := expandDims_rank e1
  obtain ⟨_, -, e⟩ := bind_eq_ok e
  have := concatenate_rank e
  omega

theorem PMw_neg (x : Tensor α) {h w : Int} {k r : Nat} (h1 : 0 < k) (h2 : k ≤ r) (hr : x.rank + 1 = r)
    (hw : (r : Int) - k ≤ w) :
    PMw_action x [h, w] (-(k : Int)) = PMw_action x [h, w] ((r : Int) - k) := by
  simp only [PMw_action, unpack2]
  show (expandDims _ _ >>= _) = (expandDims _ _ >>= _)
  rw [expandDims_neg x h1 h2 hr]
  apply bind_congr_ok
  intro x1 e1
  have r1 := expandDims_rank e1
  rw [if_pos (by omega : -(k : Int) ≤ w), if_pos hw]
  apply bind_congr_ok
  intro _ _
  exact concatenate_neg x1 _ h1 h2 (by omega)

theorem PMw_rank {x y : Tensor α} {axs : List Int} {na : Int} (e : PMw_action x axs na = .ok y) :
    y.rank = x.rank + 1 := by
  obtain ⟨hw, -, e⟩ := bind_eq_ok e
  obtain ⟨x1, e1, e⟩ := bind_eq_ok e
  have r1 := expandDims_rank e1
  obtain ⟨_, -, e⟩ := bind_eq_ok e
  have := concatenate_rank e
  omega

theorem P2_neg (x : Tensor α) {h w : Int} {k r : Nat} (h1 : 0 < k) (h2 : k ≤ r) (hr : x.rank + 1 = r)
    (hh : (r : Int) - k ≤ h) (hw : (r : Int) - k ≤ w) :
    P2_action x [h, w] (-(k : Int)) = P2_action x [h, w] ((r : Int) - k) := by
  simp only [P2_action, unpack2]
  show (expandDims _ _ >>= _) = (expandDims _ _ >>= _)
  rw [expandDims_neg x h1 h2 hr]
  apply bind_congr_ok
  intro x1 e1
  have r1 := expandDims_rank e1
  rw [if_pos (by omega : -(k : Int) ≤ h), if_pos hh, if_pos (by omega : -(k : Int) ≤ w), if_pos hw]
  apply bind_congr_ok
  intro _ _
  apply bind_congr_ok
  intro _ _
  exact concatenate_neg x1 _ h1 h2 (by omega)

theorem P2_rank {x y : Tensor α} {axs : List Int} {na : Int} (e : P2_action x axs na = .ok y) :
    y.rank = x.rank + 1 := by
  obtain ⟨hw, -, e⟩ := bind_eq_ok e
  obtain ⟨x1, e1, e⟩ := bind_eq_ok e
  have r1 := expandDims_rank e1
  obtain ⟨_, -, e⟩ := bind_eq_ok e
  obtain ⟨_, -, e⟩ := bind_eq_ok e
  have := concatenate_rank e
  omega

theorem P1_neg (x : Tensor α) (axs : List Int) {k r : Nat} (h1 : 0 < k) (h2 : k ≤ r) (hr : x.rank + 1 = r) :
    P1_action x axs (-(k : Int)) = P1_action x axs ((r : Int) - k) := expandDims_neg x h1 h2 hr

theorem P1_rank {x y : Tensor α} {axs : List Int} {na : Int} (e : P1_action x axs na = .ok y) : y.rank = x.rank + 1 :=
  expandDims_rank e

theorem mapM_congr_mem {ι : Type} {f g : ι → Res β} : ∀ (l : List ι), (∀ i ∈ l, f i = g i) → l.mapM f = l.mapM g
  | [], _ => rfl
  | a :: l, h => by
    rw [List.mapM_cons, List.mapM_cons, h a (List.mem_cons_self ..), mapM_congr_mem l fun i hi => h i (List.mem_cons_of_mem _ hi)]

theorem mapM_ok_all {ι : Type} {f : ι → Res β} {P : β → Prop} : ∀ (l : List ι) {ys : List β},
    (∀ i ∈ l, ∀ y, f i = .ok y → P y) → l.mapM f = .ok ys → ∀ y ∈ ys, P y
  | [], ys, _, h => by
    cases h
    intro y hy
    cases hy
  | a :: l, ys, hP, h => by
    rw [List.mapM_cons] at h
    obtain ⟨y, hy, h⟩ := bind_eq_ok h
    obtain ⟨zs, hz, h⟩ := bind_eq_ok h
    cases h
    intro z hz'
    rcases List.mem_cons.mp hz' with rfl | hz'
    · exact hP a (List.mem_cons_self ..) _ hy
    · exact mapM_ok_all l (fun i hi => hP i (List.mem_cons_of_mem _ hi)) hz z hz'

theorem foldlM_flip_rank : ∀ (l : List Nat) {o : Nat} {x y : Tensor α},
    l.foldlM (fun y f => flip y ((f + o : Nat) : Int)) x = .ok y → y.rank = x.rank
  | [], o, x, y, h => by
    cases h
    rfl
  | f :: l, o, x, y, h => by
    rw [List.foldlM_cons] at h
    obtain ⟨z, hz, h⟩ := bind_eq_ok h
    rw [foldlM_flip_rank l h, flip_rank hz]

theorem concatenate_neg' (l : List (Tensor α)) {k r : Nat} (h1 : 0 < k) (h2 : k ≤ r) (hr : ∀ t ∈ l, t.rank = r) :
    concatenate l (-(k : Int)) = concatenate l ((r : Int) - k) := by
  cases l with
  | nil => rfl
  | cons x l => exact concatenate_neg x l h1 h2 (hr x (List.mem_cons_self ..))

theorem Oh_neg (x : Tensor α) (axs : List Int) {k r : Nat} (h1 : 0 < k) (h2 : k ≤ r) (hr : x.rank + 1 = r) :
    Oh_action x axs (-(k : Int)) = Oh_action x axs ((r : Int) - k) := by
  unfold Oh_action
  apply bind_congr_ok
  intro o _
  have hm : (ohParameters.mapM fun pf => do
      let y ← pf.2.foldlM (fun y f => flip y ((f + o : Nat) : Int)) x
      let y ← transpose y (List.range o ++ pf.1.map (· + o) ++ (List.range x.rank).drop (o + 3))
      expandDims y (-(k : Int))) = (ohParameters.mapM fun pf => do
      let y ← pf.2.foldlM (fun y f => flip y ((f + o : Nat) : Int)) x
      let y ← transpose y (List.range o ++ pf.1.map (· + o) ++ (List.range x.rank).drop (o + 3))
      expandDims y ((r : Int) - k)) := by
    apply mapM_congr_mem
    intro pf _
    apply bind_congr_ok
    intro y ey
    apply bind_congr_ok
    intro z ez
    apply expandDims_neg z h1 h2
    rw [transpose_rank ez, foldlM_flip_rank _ ey, hr]
  dsimp only
  rw [hm]
  apply bind_congr_ok
  intro ys hys
  apply concatenate_neg' ys h1 h2
  refine mapM_ok_all _ ?_ hys
  intro pf _ z ez
  obtain ⟨y, ey, ez⟩ := bind_eq_ok ez
  obtain ⟨u, eu, ez⟩ := bind_eq_ok ez
  rw [expandDims_rank ez, transpose_rank eu, foldlM_flip_rank _ ey, hr]

theorem Oh_rank {x y : Tensor α} {axs : List Int} {na : Int} (e : Oh_action x axs na = .ok y) : y.rank = x.rank + 1 := by
  unfold Oh_action at e
  obtain ⟨o, -, e⟩ := bind_eq_ok e
  obtain ⟨ys, hys, e⟩ := bind_eq_ok e
  have hall : ∀ t ∈ ys, t.rank = x.rank + 1 := by
    refine mapM_ok_all _ ?_ hys
    intro pf _ z ez
    obtain ⟨y, ey, ez⟩ := bind_eq_ok ez
    obtain ⟨u, eu, ez⟩ := bind_eq_ok ez
    rw [expandDims_rank ez, transpose_rank eu, foldlM_flip_rank _ ey]
  cases ys with
  | nil => cases e
  | cons t ys => rw [concatenate_rank e, hall t (List.mem_cons_self ..)]

theorem subgroupAction_rank (P : Group) (s : String) (hP : ∀ {x y : Tensor α} {axs na}, P.act α x axs na = .ok y → y.rank = x.rank + 1)
    {x y : Tensor α} {axs : List Int} {na : Int} (e : subgroupAction P s α x axs na = .ok y) : y.rank = x.rank + 1 := by
  obtain ⟨z, ez, e⟩ := bind_eq_ok e
  obtain ⟨is, -, e⟩ := bind_eq_ok e
  rw [take_rank e, hP ez]

theorem subgroupAction_neg (P : Group) (s : String) {x : Tensor α} {axs : List Int} {k r : Nat} (h1 : 0 < k) (h2 : k ≤ r)
    (hr : x.rank + 1 = r) (hP : P.act α x axs (-(k : Int)) = P.act α x axs ((r : Int) - k))
    (hk : ∀ {y : Tensor α} {na}, P.act α x axs na = .ok y → y.rank = x.rank + 1) :
    subgroupAction P s α x axs (-(k : Int)) = subgroupAction P s α x axs ((r : Int) - k) := by
  unfold subgroupAction
  rw [hP]
  apply bind_congr_ok
  intro y ey
  apply bind_congr_ok
  intro is _
  exact take_neg y is h1 h2 (by rw [hk ey, hr])

/-- the actions add one axis -/
theorem act_rank (n : GroupName) {x y : Tensor α} {axs : List Int} {na : Int} (e : n.group.act α x axs na = .ok y) :
    y.rank = x.rank + 1 := by
  cases n
  · exact P1_rank (axs := axs) e
  · exact P2_rank e
  · exact PMw_rank e
  · exact PMh_rank e
  · exact P2MM_rank e
  · exact P4_rank e
  · exact P4M_rank e
  · exact Oh_rank e
  · exact subgroupAction_rank Oh "O" (fun h => Oh_rank h) e
  · exact subgroupAction_rank Oh "D4h" (fun h => Oh_rank h) e
  · exact subgroupAction_rank Oh "D4" (fun h => Oh_rank h) e

/-- where the new axis comes before the spatial axes, and always for P1 and in three dimensions, it does not matter from
which end it is counted -/
theorem act_neg (n : GroupName) (x : Tensor α) (axs : List Int) {k r : Nat} (h1 : 0 < k) (h2 : k ≤ r) (hr : x.rank + 1 = r)
    (h : n.dim = 3 ∨ n = .P1 ∨ ∀ a ∈ axs, (r : Int) - k ≤ a) :
    n.group.act α x axs (-(k : Int)) = n.group.act α x axs ((r : Int) - k) := by
  by_cases h3 : n.dim = 3
  · cases n <;> first | (exact absurd h3 (by decide)) | skip
    · exact Oh_neg x axs h1 h2 hr
    · exact subgroupAction_neg Oh "O" h1 h2 hr (Oh_neg x axs h1 h2 hr) (fun h => Oh_rank h)
    · exact subgroupAction_neg Oh "D4h" h1 h2 hr (Oh_neg x axs h1 h2 hr) (fun h => Oh_rank h)
    · exact subgroupAction_neg Oh "D4" h1 h2 hr (Oh_neg x axs h1 h2 hr) (fun h => Oh_rank h)
  · by_cases hp : n = .P1
    · subst hp
      exact P1_neg x axs h1 h2 hr
    · have h := (h.resolve_left h3).resolve_left hp
      match axs, h with
      | [], _ | [a], _ | a :: b :: c :: l, _ =>
        cases n <;> first | rfl | (exact absurd rfl h3) | (exact absurd rfl hp)
      | [a, b], h =>
        have ha := h a (by simp)
        have hb := h b (by simp)
        cases n <;> first | (exact absurd rfl h3) | (exact absurd rfl hp) | skip
        · exact P2_neg x h1 h2 hr ha hb
        · exact PMw_neg x h1 h2 hr hb
        · exact PMh_neg x h1 h2 hr ha
        · exact P2MM_neg x h1 h2 hr ha hb
        · exact P4_neg x h1 h2 hr ha hb
        · exact P4M_neg x h1 h2 hr ha hb

theorem actionOnGrid_rank (n : GroupName) {x y : Tensor α} {axs : List Int} {na : Int} {s : Option String}
    (e : n.group.actionOnGrid x na axs s = .ok y) : y.rank = x.rank + 1 := by
  obtain ⟨z, ez, e⟩ := bind_eq_ok e
  obtain ⟨is, -, e⟩ := bind_eq_ok e
  rw [take_rank e, act_rank n ez]

theorem actionOnGrid_neg (n : GroupName) (x : Tensor α) (axs : List Int) (s : Option String) {k r : Nat} (h1 : 0 < k)
    (h2 : k ≤ r) (hr : x.rank + 1 = r) (h : n.dim = 3 ∨ n = .P1 ∨ ∀ a ∈ axs, (r : Int) - k ≤ a) :
    n.group.actionOnGrid x (-(k : Int)) axs s = n.group.actionOnGrid x ((r : Int) - k) axs s := by
  unfold Group.actionOnGrid
  rw [act_neg n x axs h1 h2 hr h]
  apply bind_congr_ok
  intro y ey
  apply bind_congr_ok
  intro is _
  exact take_neg y is h1 h2 (by rw [act_rank n ey, hr])

theorem pyIndex_lt' {r : Nat} {i : Int} {a : Nat} (h : pyIndex r i = .ok a) : a < r := by
  unfold pyIndex at h
  split at h
  · cases h; omega
  · split at h
    · cases h; omega
    · cases h

theorem reshape_rank {x y : Tensor α} {s : List Int} (h : reshape x s = .ok y) : y.rank = s.length := by
  obtain ⟨l, hl, h⟩ := bind_eq_ok h
  have e : l.length = s.length := by
    unfold resolveShape at hl
    split at hl
    · cases hl; simp
    · dsimp only at hl
      split at hl
      · cases hl; simp
      · cases hl
  unfold reshapeN at h
  split at h
  · cases h
    exact e
  · cases h

theorem mergeAxes_rank {x y : Tensor α} {m t : Int} (h : mergeAxes x m t = .ok y) : y.rank + 1 = x.rank := by
  unfold mergeAxes mergeAxesS at h
  obtain ⟨s, hs, h⟩ := bind_eq_ok h
  obtain ⟨z, hz, h⟩ := bind_eq_ok h
  rw [reshape_rank h]
  unfold mergeShapes at hs
  obtain ⟨m', hm, hs⟩ := bind_eq_ok hs
  obtain ⟨t', ht, hs⟩ := bind_eq_ok hs
  have := pyIndex_lt' hm
  split at hs
  · cases hs
    simp only [formatBatchDim, List.length_eraseIdx, Tensor.rank, List.length_map, List.length_set] at this ⊢
    rw [if_pos this]
    omega
  · cases hs

theorem splitAxes_rank {x y : Tensor α} {f : Nat} {a : Int} (h : splitAxes x f a = .ok y) : y.rank = x.rank + 1 := by
  unfold splitAxes splitAxesS at h
  obtain ⟨s, hs, h⟩ := bind_eq_ok h
  rw [reshape_rank h]
  unfold splitShapes at hs
  obtain ⟨m', hm, hs⟩ := bind_eq_ok hs
  split at hs
  · split at hs
    · cases hs
    · cases hs
      simp only [formatBatchDim, sliceTo, sliceFrom, List.length_map, List.length_append, List.length_take, List.length_drop,
        List.length_set, List.length_cons, List.length_nil, Tensor.rank]
      omega
  · cases hs

theorem sub_zero_mem (n : GroupName) {d : Option String} {l : List Nat} (h : n.group.sub d = .ok l) : 0 ∈ l := by
  cases d with
  | none => cases h
  | some d =>
    have h : lookup n.group.subgroup d = .ok l := h
    unfold lookup at h
    split at h
    · rename_i e he
      cases h
      have := List.mem_of_find?_eq_some he
      have all : ∀ e ∈ n.group.subgroup, 0 ∈ e.2 := by cases n <;> decide +kernel
      exact all e this
    · cases h

theorem upsample_rank [Zero α] (n : GroupName) {x y : Tensor α} {a : Int} {d : Option String}
    (h : n.group.upsample x a d = .ok y) : y.rank = x.rank := by
  unfold GroupData.upsample at h
  obtain ⟨dom, hd, h⟩ := bind_eq_ok h
  have h0 := sub_zero_mem n hd
  obtain ⟨ps, hps, h⟩ := bind_eq_ok h
  have ho : ∃ m, List.range n.group.order = 0 :: m := by cases n <;> exact ⟨_, rfl⟩
  obtain ⟨m, ho⟩ := ho
  rw [ho, List.mapM_cons, if_pos h0] at hps
  obtain ⟨p, hp, hps⟩ := bind_eq_ok hps
  obtain ⟨qs, -, hps⟩ := bind_eq_ok hps
  cases hps
  rw [concatenate_rank h, take_rank hp]

theorem actionOnGroup_neg [Zero α] (n : GroupName) (x : Tensor α) (axs : List Int) (s d : Option String) (ga : Int) {k r : Nat}
    (h1 : 0 < k) (h2 : k ≤ r) (hr : x.rank + 1 = r) :
    n.group.actionOnGroup x (-(k : Int)) axs s ga d = n.group.actionOnGroup x ((r : Int) - k) axs s ga d := by
  unfold Group.actionOnGroup
  apply bind_congr_ok
  intro A _
  apply bind_congr_ok
  intro D _
  dsimp only
  have key : ∀ x1 : Tensor α, x1.rank = x.rank → (n.group.actionOnGrid x1 ga axs s >>= fun x => do
      let x ← mergeAxes x ga (ga + 1)
      let ci ← n.group.compositionFlatIndices s d
      let x ← take x ci ga
      let x ← splitAxes x A.length ga
      moveaxis x ga (-(k : Int))) = (n.group.actionOnGrid x1 ga axs s >>= fun x => do
      let x ← mergeAxes x ga (ga + 1)
      let ci ← n.group.compositionFlatIndices s d
      let x ← take x ci ga
      let x ← splitAxes x A.length ga
      moveaxis x ga ((r : Int) - k)) := by
    intro x1 r1
    apply bind_congr_ok
    intro x2 e2
    have r2 := actionOnGrid_rank n e2
    apply bind_congr_ok
    intro x3 e3
    have r3 := mergeAxes_rank e3
    apply bind_congr_ok
    intro ci _
    apply bind_congr_ok
    intro x4 e4
    have r4 := take_rank e4
    apply bind_congr_ok
    intro x5 e5
    have r5 := splitAxes_rank e5
    exact moveaxis_neg x5 ga h1 h2 (by omega)
  split
  · apply bind_congr_ok
    intro x1 e1
    exact key x1 (upsample_rank n e1)
  · exact key x rfl

end GroCo
