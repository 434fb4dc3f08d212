import Verif.SignalLemmas
import Verif.TransposeLemmas
import Verif.Pooling
import Verif.Layers

/-
Relating three runs of the same layer. If the entries of three inputs of the same shape are related position by position,
so are the entries of the results, for every relation the operations on single entries respect; and the three runs fail
together. Every function of the model that moves entries around is covered, once, for all relations.
-/

namespace GroCo
open Tensor

variable {α β γ : Type}

/-- three tensors of the same shape with related entries -/
structure TRel (R : α → β → γ → Prop) (x : Tensor α) (y : Tensor β) (z : Tensor γ) : Prop where
  left : x.shape = z.shape
  right : y.shape = z.shape
  get : ∀ idx, Valid z.shape idx → R (x.get idx) (y.get idx) (z.get idx)

/-- three related results, or three times the same error -/
inductive RRel {A B C : Type} (P : A → B → C → Prop) : Res A → Res B → Res C → Prop
  | ok {a : A} {b : B} {c : C} (h : P a b c) : RRel P (.ok a) (.ok b) (.ok c)
  | error (e : Err) : RRel P (.error e) (.error e) (.error e)

theorem RRel.bind {A B C A' B' C' : Type} {P : A → B → C → Prop} {Q : A' → B' → C' → Prop} {r : Res A} {s : Res B} {t : Res C}
    {f : A → Res A'} {g : B → Res B'} {h : C → Res C'} (hr : RRel P r s t)
    (hf : ∀ a b c, P a b c → RRel Q (f a) (g b) (h c)) : RRel Q (r >>= f) (s >>= g) (t >>= h) := by
  cases hr with
  | ok h => exact hf _ _ _ h
  | error e => exact .error e

theorem RRel.same {A B C A' : Type} {P : A → B → C → Prop} (r : Res A') {f : A' → Res A} {g : A' → Res B} {h : A' → Res C}
    (hf : ∀ a, r = .ok a → RRel P (f a) (g a) (h a)) : RRel P (r >>= f) (r >>= g) (r >>= h) := by
  cases r with
  | ok a => exact hf a rfl
  | error e => exact .error e

variable {R : α → β → γ → Prop} {x : Tensor α} {y : Tensor β} {z : Tensor γ}

theorem TRel.rank_left (h : TRel R x y z) : x.rank = z.rank := by unfold Tensor.rank; rw [h.left]
theorem TRel.rank_right (h : TRel R x y z) : y.rank = z.rank := by unfold Tensor.rank; rw [h.right]

/-! ### operations that only move entries -/

theorem transpose_rel (h : TRel R x y z) (perm : List Nat) :
    RRel (TRel R) (transpose x perm) (transpose y perm) (transpose z perm) := by
  unfold transpose
  simp only [h.rank_left, h.rank_right, h.left, h.right]
  split
  · rename_i hp
    refine .ok ⟨rfl, rfl, fun idx hv => h.get _ ?_⟩
    rw [valid_iff]
    refine ⟨by simp, fun i hi => ?_⟩
    rw [nth_map_range, if_pos hi]
    have hm : i ∈ perm := hp.2 i (by simpa using hi)
    have hlt := List.idxOf_lt_length_of_mem hm
    have := hv.lt (i := perm.idxOf i) (by simpa using hlt)
    rw [nth_eq_getElem (perm.map _) _ (by simpa using hlt)] at this
    simpa using this
  · exact .error _

theorem moveaxis_rel (h : TRel R x y z) (a b : Int) :
    RRel (TRel R) (moveaxis x a b) (moveaxis y a b) (moveaxis z a b) := by
  unfold moveaxis
  simp only [h.rank_left, h.rank_right]
  exact .same _ fun _ _ => .same _ fun _ _ => transpose_rel h _

theorem reshape_rel (h : TRel R x y z) (s : List Int) : RRel (TRel R) (reshape x s) (reshape y s) (reshape z s) := by
  unfold reshape
  simp only [h.left, h.right]
  refine .same _ fun t _ => ?_
  unfold reshapeN
  simp only [h.left, h.right]
  split
  · rename_i hp
    exact .ok ⟨rfl, rfl, fun idx hv => h.get _ (valid_unravel (by rw [hp]; exact ravel_lt hv))⟩
  · exact .error _

theorem splitAxes_rel (h : TRel R x y z) (f : Nat) (a : Int) :
    RRel (TRel R) (splitAxes x f a) (splitAxes y f a) (splitAxes z f a) := by
  unfold splitAxes splitAxesS
  simp only [h.left, h.right]
  exact .same _ fun _ _ => reshape_rel h _

theorem mergeAxes_rel (h : TRel R x y z) (a b : Int) :
    RRel (TRel R) (mergeAxes x a b) (mergeAxes y a b) (mergeAxes z a b) := by
  unfold mergeAxes mergeAxesS
  simp only [h.left, h.right]
  refine .same _ fun _ _ => .bind (P := TRel R) ?_ fun _ _ _ h' => reshape_rel h' _
  unfold moveAxisToLeftOf
  exact moveaxis_rel h _ _

theorem takeT_rel (h : TRel R x y z) (is : Tensor Nat) (a : Int) :
    RRel (TRel R) (takeT x is a) (takeT y is a) (takeT z is a) := by
  unfold takeT
  simp only [h.rank_left, h.rank_right, h.left, h.right]
  refine .same _ fun a ha => ?_
  have hlt : a < z.shape.length := by
    unfold normAxis Tensor.rank at ha
    split at ha
    · cases ha; omega
    · split at ha
      · cases ha; omega
      · cases ha
  split
  · rename_i hc
    refine .ok ⟨rfl, rfl, fun idx hv => h.get _ ?_⟩
    simp only [List.append_assoc] at hv
    obtain ⟨i, j, rfl, hi, hj⟩ := valid_append_split hv
    obtain ⟨j, k, rfl, hj, hk⟩ := valid_append_split hj
    have hil : i.length = a := by rw [hi.length]; simp; omega
    have hjl : j.length = is.rank := hj.length
    have e1 : (i ++ (j ++ k)).take a = i := by rw [List.take_left' hil]
    have e2 : ((i ++ (j ++ k)).drop a).take is.rank = j := by rw [List.drop_left' hil, List.take_left' hjl]
    have e3 : (i ++ (j ++ k)).drop (a + is.rank) = k := by
      rw [← List.append_assoc, List.drop_left' (by simp [hil, hjl])]
    rw [e1, e2, e3, ← List.take_append_drop a z.shape, List.append_assoc,
      valid_append _ _ _ _ hi.length]
    refine ⟨hi, ?_⟩
    rw [List.drop_eq_getElem_cons hlt]
    refine ⟨?_, hk⟩
    have := hc j ((mem_indices _ _).2 hj)
    rwa [nth_eq_getElem _ _ hlt] at this
  · exact .error _

theorem unpad_valid {s : List Nat} {ps : List (Nat × Nat)} {idx i : List Nat} (h : unpad s ps idx = some i) :
    Valid s i := by
  induction s generalizing ps idx i with
  | nil => cases ps <;> cases idx <;> simp_all [unpad]
  | cons n s ih =>
    match ps, idx with
    | [], _ => simp [unpad] at h
    | _ :: _, [] => simp [unpad] at h
    | (b, c) :: ps, j :: idx =>
      simp only [unpad] at h
      split at h
      · rename_i hc
        obtain ⟨r, hr, rfl⟩ := Option.map_eq_some_iff.1 h
        exact ⟨hc.2, ih hr⟩
      · cases h

theorem pad_rel [Zero α] [Zero β] [Zero γ] (h : TRel R x y z) (h0 : R 0 0 0) (ps : List (Nat × Nat)) :
    RRel (TRel R) (pad x ps) (pad y ps) (pad z ps) := by
  unfold pad
  simp only [h.rank_left, h.rank_right, h.left, h.right]
  split
  · refine .ok ⟨rfl, rfl, fun idx hv => ?_⟩
    simp only
    cases hu : unpad z.shape ps idx with
    | none => exact h0
    | some i => exact h.get _ (unpad_valid hu)
  · exact .error _

/-! ### convolutions -/

/-- the entries of inputs, weights and outputs of a convolution are related -/
structure MulRel [Semiring α] [Semiring β] [Semiring γ] (R W P : α → β → γ → Prop) : Prop where
  zero_in : R 0 0 0
  zero : P 0 0 0
  add : ∀ a b c a' b' c', P a b c → P a' b' c' → P (a + a') (b + b') (c + c')
  mul : ∀ a b c a' b' c', R a b c → W a' b' c' → P (a * a') (b * b') (c * c')

variable {W P : α → β → γ → Prop} {u : Tensor α} {v : Tensor β} {w : Tensor γ}

theorem MulRel.sum [Semiring α] [Semiring β] [Semiring γ] (M : MulRel R W P) {A : Type} (l : List A) {f : A → α} {g : A → β}
    {h : A → γ} (H : ∀ a ∈ l, P (f a) (g a) (h a)) : P (l.map f).sum (l.map g).sum (l.map h).sum := by
  induction l with
  | nil => simpa using M.zero
  | cons a l ih =>
    simp only [List.map_cons, List.sum_cons]
    exact M.add _ _ _ _ _ _ (H a (by simp)) (ih fun b hb => H b (by simp [hb]))

/-- the parts of a list with `d + 2` entries -/
theorem spatial_parts {s : List Nat} {d : Nat} (h : s.length = d + 2) :
    s = nth s 0 :: spatialPart d s ++ [nth s (d + 1)] ∧ (spatialPart d s).length = d := by
  have hl : (spatialPart d s).length = d := by simp [spatialPart]; omega
  refine ⟨?_, hl⟩
  apply ext_nth
  · simp [hl]; omega
  · intro i hi
    match i with
    | 0 => simp
    | i + 1 =>
      rw [List.cons_append, nth_cons_succ, nth_append, hl]
      split
      · rename_i hd
        unfold spatialPart
        rw [nth_take, if_pos hd, nth_drop, Nat.add_comm]
      · have : i = d := by omega
        subst this
        simp

theorem valid_parts {B F : Nat} {m idx : List Nat} (h : Valid (B :: m ++ [F]) idx) :
    ∃ b p f, idx = b :: p ++ [f] ∧ b < B ∧ Valid m p ∧ f < F ∧ p.length = m.length := by
  match idx, h with
  | b :: idx, h =>
    obtain ⟨p, f, rfl, hp, hf⟩ := valid_append_split h.2
    match f, hf with
    | [f], hf => exact ⟨b, p, f, rfl, h.1, hp, hf.1, hp.length⟩

theorem parts_valid {B F b f : Nat} {m p : List Nat} (hb : b < B) (hp : Valid m p) (hf : f < F) :
    Valid (B :: m ++ [F]) (b :: p ++ [f]) :=
  ⟨hb, (valid_append _ _ _ _ hp.length).2 ⟨hp, hf, trivial⟩⟩

/-- the channels read by a grouped convolution exist -/
theorem group_channel_lt {Cx C F f c : Nat} (hC : Cx = C ∨ 0 < C ∧ Cx % C = 0 ∧ F % (Cx / C) = 0 ∧ 0 < Cx) (hf : f < F)
    (hc : c < C) : groupStart Cx C F f + c < Cx := by
  unfold groupStart
  rcases hC with rfl | ⟨h1, h2, h3, h4⟩
  · rw [Nat.div_self (by omega), Nat.div_one, Nat.div_eq_of_lt hf]
    omega
  · obtain ⟨q, rfl⟩ := Nat.dvd_of_mod_eq_zero h2
    rw [Nat.mul_div_cancel_left _ h1] at h3 ⊢
    obtain ⟨r, rfl⟩ := Nat.dvd_of_mod_eq_zero h3
    have hq : 0 < q := Nat.pos_of_mul_pos_left h4
    rw [Nat.mul_div_cancel_left _ hq]
    have hr : 0 < r := by
      rcases Nat.eq_zero_or_pos r with rfl | h
      · simp at hf
      · exact h
    have hlt : f / r < q := by
      rw [Nat.div_lt_iff_lt_mul hr]
      exact hf
    have : (f / r + 1) * C ≤ q * C := Nat.mul_le_mul_right _ hlt
    rw [Nat.add_mul, Nat.one_mul] at this
    rw [Nat.mul_comm C q]
    omega

theorem convValid_rel [Semiring α] [Semiring β] [Semiring γ] (M : MulRel R W P) (h : TRel R x y z) (h' : TRel W u v w)
    (strides dil : List Nat) :
    RRel (TRel P) (convValid strides dil x u) (convValid strides dil y v) (convValid strides dil z w) := by
  unfold convValid
  simp only [h.rank_left, h.rank_right, h.left, h.right, h'.rank_left, h'.rank_right, h'.left, h'.right]
  split
  · rename_i hc
    obtain ⟨hr, hr', hd, hC, hf⟩ := hc
    refine .ok ⟨rfl, rfl, fun idx hv => ?_⟩
    obtain ⟨b, p, f, rfl, hb, hp, hF, hl⟩ := valid_parts hv
    have hl' : p.length = strides.length := by rw [hl]; simp
    have e0 : nth (b :: p ++ [f]) (strides.length + 1) = f := nth_app0 (a := b :: p) (by simp [hl'])
    have e1 : nth (b :: p ++ [f]) 0 = b := rfl
    simp only [e0, e1, spatialPart_cons hl']
    simp only [Tensor.rank] at hr hr'
    obtain ⟨e, hs⟩ := spatial_parts hr
    have hK : (w.shape.take strides.length).length = strides.length := by simp; omega
    have eK : w.shape = w.shape.take strides.length ++ [nth w.shape strides.length, nth w.shape (strides.length + 1)] := by
      apply ext_nth
      · simp; omega
      · intro i hi
        rw [nth_append, hK]
        split
        · rw [nth_take, if_pos ‹_›]
        · have : i = strides.length ∨ i = strides.length + 1 := by omega
          rcases this with rfl | rfl <;> simp
    refine M.sum _ fun k hk => M.sum _ fun c hc => M.mul _ _ _ _ _ _ (h.get _ ?_) (h'.get _ ?_)
    · rw [mem_indices] at hk
      have := parts_valid hb (windowPos_valid hs hf hp hk hK) (group_channel_lt hC hF (c := c) (by simpa using hc))
      rwa [← e] at this
    · rw [mem_indices] at hk
      rw [eK, valid_append _ _ _ _ hk.length]
      exact ⟨hk, by simpa using hc, hF, trivial⟩
  · exact .error _

theorem convLast_rel [Semiring α] [Semiring β] [Semiring γ] (M : MulRel R W P) (h : TRel R x y z) (h' : TRel W u v w)
    (padding : KerasPadding) (strides dil : List Nat) :
    RRel (TRel P) (convLast padding strides dil x u) (convLast padding strides dil y v) (convLast padding strides dil z w) := by
  unfold convLast
  simp only [h.left, h.right, h'.left, h'.right]
  exact .bind (pad_rel h M.zero_in _) fun _ _ _ g => convValid_rel M g h' _ _

theorem conv_rel [Semiring α] [Semiring β] [Semiring γ] (M : MulRel R W P) (h : TRel R x y z) (h' : TRel W u v w)
    (fmt : DataFormat) (padding : KerasPadding) (strides dil : List Nat) :
    RRel (TRel P) (conv fmt padding strides dil x u) (conv fmt padding strides dil y v) (conv fmt padding strides dil z w) := by
  cases fmt with
  | channelsLast => exact convLast_rel M h h' _ _ _
  | channelsFirst =>
    exact .bind (moveaxis_rel h _ _) fun _ _ _ g => .bind (convLast_rel M g h' _ _ _) fun _ _ _ g => moveaxis_rel g _ _

theorem convTransposeLast_rel [Semiring α] [Semiring β] [Semiring γ] (M : MulRel R W P) (h : TRel R x y z) (h' : TRel W u v w)
    (padding : KerasPadding) (strides dil : List Nat) :
    RRel (TRel P) (convTransposeLast padding strides dil x u) (convTransposeLast padding strides dil y v)
      (convTransposeLast padding strides dil z w) := by
  unfold convTransposeLast
  simp only [h.rank_left, h.rank_right, h.left, h.right, h'.rank_left, h'.rank_right, h'.left, h'.right]
  split
  · rename_i hc
    obtain ⟨hr, hr', hC, hf⟩ := hc
    refine .ok ⟨rfl, rfl, fun idx hv => ?_⟩
    obtain ⟨b, p, f, rfl, hb, hp, hF, hl⟩ := valid_parts hv
    have hl' : p.length = strides.length := by rw [hl]; simp
    have e0 : nth (b :: p ++ [f]) (strides.length + 1) = f := nth_app0 (a := b :: p) (by simp [hl'])
    have e1 : nth (b :: p ++ [f]) 0 = b := rfl
    simp only [e0, e1, spatialPart_cons hl']
    simp only [Tensor.rank] at hr hr'
    obtain ⟨e, hs⟩ := spatial_parts hr
    have hK : (w.shape.take strides.length).length = strides.length := by simp; omega
    have eK : w.shape = w.shape.take strides.length ++ [nth w.shape strides.length, nth w.shape (strides.length + 1)] := by
      apply ext_nth
      · simp; omega
      · intro i hi
        rw [nth_append, hK]
        split
        · rw [nth_take, if_pos ‹_›]
        · have : i = strides.length ∨ i = strides.length + 1 := by omega
          rcases this with rfl | rfl <;> simp
    refine M.sum _ fun k hk => M.sum _ fun c hc => M.mul _ _ _ _ _ _ ?_ (h'.get _ ?_)
    · cases hu : upPos strides dil _ p k (spatialPart strides.length z.shape) with
      | none => exact M.zero_in
      | some q =>
        refine h.get _ ?_
        rw [upPos_some fun i hi => (hf i hi).1] at hu
        rw [e, hC]
        refine parts_valid hb ?_ (by simpa using hc)
        rw [valid_iff, hs]
        exact ⟨hu.1, fun i hi => (hu.2 i hi).2⟩
    · rw [mem_indices] at hk
      rw [eK, valid_append _ _ _ _ hk.length]
      exact ⟨hk, hF, by simpa using hc, trivial⟩
  · exact .error _

theorem convTranspose_rel [Semiring α] [Semiring β] [Semiring γ] (M : MulRel R W P) (h : TRel R x y z) (h' : TRel W u v w)
    (fmt : DataFormat) (padding : KerasPadding) (strides dil : List Nat) :
    RRel (TRel P) (convTranspose fmt padding strides dil x u) (convTranspose fmt padding strides dil y v)
      (convTranspose fmt padding strides dil z w) := by
  cases fmt with
  | channelsLast => exact convTransposeLast_rel M h h' _ _ _
  | channelsFirst =>
    exact .bind (moveaxis_rel h _ _) fun _ _ _ g =>
      .bind (convTransposeLast_rel M g h' _ _ _) fun _ _ _ g => moveaxis_rel g _ _

/-! ### layers -/

theorem RRel.also {A B C : Type} {Q : A → B → C → Prop} {S : C → Prop} {r : Res A} {s : Res B} {t : Res C} (h : RRel Q r s t)
    (hs : ∀ c, t = .ok c → S c) : RRel (fun a b c => Q a b c ∧ S c) r s t := by
  cases h with
  | ok h => exact .ok ⟨h, hs _ rfl⟩
  | error e => exact .error e

theorem reshape_one {t t' : Tensor α} {n : Nat} (h : reshape t [(n : Int)] = .ok t') : t'.shape = [n] := by
  unfold reshape resolveShape at h
  simp only [List.all_cons, List.all_nil, Nat.cast_nonneg, decide_true, Bool.and_true, if_true, res_bind_ok] at h
  unfold reshapeN at h
  split at h
  · cases h; rfl
  · cases h

theorem addBias_rel [Semiring α] [Semiring β] [Semiring γ] {B O : α → β → γ → Prop} (h : TRel P x y z) (h' : TRel B u v w)
    (hr : 2 ≤ z.rank) (hO : ∀ a b c a' b' c', P a b c → B a' b' c' → O (a + a') (b + b') (c + c')) (fmt : DataFormat)
    (filters : Nat) :
    RRel (TRel O) (addBias fmt filters x u) (addBias fmt filters y v) (addBias fmt filters z w) := by
  unfold addBias
  refine .bind ((reshape_rel h' _).also fun _ => reshape_one) fun u' v' w' g => ?_
  simp only [h.rank_left, h.rank_right, h.left, h.right]
  split
  · rename_i hf
    refine .ok ⟨rfl, rfl, fun idx hv => hO _ _ _ _ _ _ (h.get _ hv) (g.1.get _ ?_)⟩
    rw [g.2]
    refine ⟨?_, trivial⟩
    rw [← hf]
    refine hv.lt ?_
    unfold Tensor.rank at *
    unfold channelAxis
    cases fmt <;> simp only <;> omega
  · exact .error _

theorem rank_transpose {t t' : Tensor α} {p : List Nat} (h : transpose t p = .ok t') : t'.rank = t.rank := by
  unfold transpose at h
  split at h
  · rename_i hp
    cases h
    simpa [Tensor.rank] using hp.1
  · cases h

theorem rank_moveaxis {t t' : Tensor α} {a b : Int} (h : moveaxis t a b = .ok t') : t'.rank = t.rank := by
  unfold moveaxis at h
  obtain ⟨_, _, h⟩ := bind_eq_ok h
  obtain ⟨_, _, h⟩ := bind_eq_ok h
  exact rank_transpose h

theorem rank_conv [Semiring α] {fmt : DataFormat} {padding : KerasPadding} {strides dil : List Nat} {t k t' : Tensor α}
    (h : conv fmt padding strides dil t k = .ok t') : 2 ≤ t'.rank := by
  have key : ∀ {t t' : Tensor α}, convLast padding strides dil t k = .ok t' → 2 ≤ t'.rank := by
    intro t t' h
    unfold convLast at h
    obtain ⟨_, _, h⟩ := bind_eq_ok h
    unfold convValid at h
    simp only at h
    split at h
    · cases h; simp [Tensor.rank]
    · cases h
  cases fmt with
  | channelsLast => exact key h
  | channelsFirst =>
    obtain ⟨_, _, h⟩ := bind_eq_ok h
    obtain ⟨_, h1, h⟩ := bind_eq_ok h
    rw [rank_moveaxis h]
    exact key h1

theorem rank_convTranspose [Semiring α] {fmt : DataFormat} {padding : KerasPadding} {strides dil : List Nat}
    {t k t' : Tensor α} (h : convTranspose fmt padding strides dil t k = .ok t') : 2 ≤ t'.rank := by
  have key : ∀ {t t' : Tensor α}, convTransposeLast padding strides dil t k = .ok t' → 2 ≤ t'.rank := by
    intro t t' h
    unfold convTransposeLast at h
    simp only at h
    split at h
    · cases h; simp [Tensor.rank]
    · cases h
  cases fmt with
  | channelsLast => exact key h
  | channelsFirst =>
    obtain ⟨_, _, h⟩ := bind_eq_ok h
    obtain ⟨_, h1, h⟩ := bind_eq_ok h
    rw [rank_moveaxis h]
    exact key h1

/-- three values that are all absent, or present and related -/
def ORel {A B C : Type} (Q : A → B → C → Prop) : Option A → Option B → Option C → Prop
  | none, none, none => True
  | some a, some b, some c => Q a b c
  | _, _, _ => False

/-- Three layers that differ in their weights and activation functions only: the entries of the inputs are related by `R`,
those of the kernels by `W`, of the biases by `B`; the results of the convolutions by `P` and of the layers by `O`. -/
structure LayersRel [Semiring α] [Semiring β] [Semiring γ] (R W B P O : α → β → γ → Prop) (l : GroupConv α) (m : GroupConv β)
    (n : GroupConv γ) : Prop where
  mul : MulRel R W P
  transforms₁ : l.transforms = n.transforms
  transforms₂ : m.transforms = n.transforms
  strides₁ : l.strides = n.strides
  strides₂ : m.strides = n.strides
  dilation₁ : l.dilation = n.dilation
  dilation₂ : m.dilation = n.dilation
  padding₁ : l.padding = n.padding
  padding₂ : m.padding = n.padding
  format₁ : l.dataFormat = n.dataFormat
  format₂ : m.dataFormat = n.dataFormat
  filters₁ : l.filters = n.filters
  filters₂ : m.filters = n.filters
  spec₁ : l.inputSpec = n.inputSpec
  spec₂ : m.inputSpec = n.inputSpec
  kernel : ORel (TRel W) l.kernel m.kernel n.kernel
  bias : ORel (TRel B) l.bias m.bias n.bias
  /-- without a bias the results of the convolutions go into the activation -/
  act : n.bias = none → ∀ a b c, P a b c → O (l.activation a) (m.activation b) (n.activation c)
  /-- with a bias it is added first -/
  act_bias : ∀ a b c a' b' c', P a b c → B a' b' c' →
    O (l.activation (a + a')) (m.activation (b + b')) (n.activation (c + c'))

theorem mapT_rel {O : α → β → γ → Prop} {f : α → α} {g : β → β} {k : γ → γ}
    (h : TRel (fun a b c => O (f a) (g b) (k c)) x y z) : TRel O (mapT f x) (mapT g y) (mapT k z) :=
  ⟨h.left, h.right, h.get⟩

theorem restoreGroupAxis_rel {O : α → β → γ → Prop} (h : TRel O x y z) (t : GroupTransforms) :
    RRel (TRel O) (t.restoreGroupAxis x) (t.restoreGroupAxis y) (t.restoreGroupAxis z) := by
  unfold GroupTransforms.restoreGroupAxis
  exact .same _ fun _ _ => .bind (splitAxes_rel h _ _) fun _ _ _ g => moveaxis_rel g _ _

theorem mergeGroupAxisAndPad_rel [Zero α] [Zero β] [Zero γ] (h : TRel R x y z) (h0 : R 0 0 0) (t : GroupTransforms) :
    RRel (TRel R) (t.mergeGroupAxisAndPad x) (t.mergeGroupAxisAndPad y) (t.mergeGroupAxisAndPad z) := by
  unfold GroupTransforms.mergeGroupAxisAndPad
  have key : ∀ {x : Tensor α} {y : Tensor β} {z : Tensor γ}, TRel R x y z →
      RRel (TRel R) (t.padState.call x) (t.padState.call y) (t.padState.call z) := by
    intro x y z h
    unfold PadState.call
    split
    · exact pad_rel h h0 _
    · exact .ok h
  split
  · exact .bind (mergeAxes_rel h _ _) fun _ _ _ g => key g
  · exact key h

/-- the result of `call` -/
theorem call_result [Semiring α] (l : GroupConv α) (t : Tensor α) : (l.call t).2 = (do
    let _ ← l.checkInput t
    match l.kernel with
    | none => .error .attribute
    | some k =>
      let p ← l.transforms.prepareCall k l.bias l.filters t
      let y ← GroupConv.superCall { l with kernel := some p.1, bias := p.2.1, filters := p.2.2.1 } p.2.2.2
      l.transforms.restoreGroupAxis y) := by
  unfold GroupConv.call
  cases l.checkInput t with
  | error e => rfl
  | ok _ =>
    simp only [res_bind_ok]
    unfold backupAndRestore GroupConv.body
    cases l.kernel with
    | none => rfl
    | some k =>
      simp only
      cases l.transforms.prepareCall k l.bias l.filters t with
      | error e => rfl
      | ok p =>
        obtain ⟨k, b, f, t⟩ := p
        simp only [res_bind_ok]
        split <;> rename_i h <;> simp only [Prod.mk.injEq] at h <;> exact h.2.symm

theorem call_rel [Semiring α] [Semiring β] [Semiring γ] {B O : α → β → γ → Prop} {l : GroupConv α} {m : GroupConv β}
    {n : GroupConv γ} (L : LayersRel R W B P O l m n) (h : TRel R x y z) :
    RRel (TRel O) (l.call x).2 (m.call y).2 (n.call z).2 := by
  have ec : l.checkInput x = n.checkInput z ∧ m.checkInput y = n.checkInput z := by
    unfold GroupConv.checkInput
    rw [L.spec₁, L.spec₂, L.format₁, L.format₂, h.rank_left, h.rank_right, h.left, h.right]
    exact ⟨rfl, rfl⟩
  rw [call_result, call_result, call_result, ec.1, ec.2]
  refine .same _ fun _ _ => ?_
  have hk := L.kernel
  have hact := L.act
  have hb := L.bias
  cases el : l.kernel <;> cases em : m.kernel <;> cases en : n.kernel <;> rw [el, em, en] at hk <;>
    simp only [ORel] at hk ⊢
  · exact .error _
  rename_i k k' k''
  unfold GroupTransforms.prepareCall
  rw [L.transforms₁, L.transforms₂]
  simp only [bind_assoc]
  refine .bind (mergeGroupAxisAndPad_rel h L.mul.zero_in _) fun x y z h => ?_
  have hK : RRel (TRel W) (n.transforms.transformKernel k) (n.transforms.transformKernel k')
      (n.transforms.transformKernel k'') := by
    unfold GroupTransforms.transformKernel
    split
    · exact .error _
    · exact .bind (reshape_rel hk _) fun _ _ _ g => takeT_rel g _ _
  refine .bind hK fun k k' k'' hk => ?_
  have hs : ∀ {b : Option (Tensor α)} {b' : Option (Tensor β)} {b'' : Option (Tensor γ)} {f : Nat},
      ORel (TRel B) b b' b'' → (b'' = none → n.bias = none) → RRel (TRel O)
        (GroupConv.superCall { l with kernel := some k, bias := b, filters := f } x)
        (GroupConv.superCall { m with kernel := some k', bias := b', filters := f } y)
        (GroupConv.superCall { n with kernel := some k'', bias := b'', filters := f } z) := by
    intro b b' b'' f hb hn
    unfold GroupConv.superCall
    simp only [L.transforms₁, L.transforms₂, L.strides₁, L.strides₂, L.dilation₁, L.dilation₂, L.padding₁, L.padding₂,
      L.format₁, L.format₂]
    have k0 : ∀ {x : Tensor α} {y : Tensor β} {z : Tensor γ}, b'' = none → TRel P x y z →
        TRel O (mapT l.activation x) (mapT m.activation y) (mapT n.activation z) := fun e h =>
      mapT_rel ⟨h.left, h.right, fun idx hv => hact (hn e) _ _ _ (h.get idx hv)⟩
    unfold baseConvTransposeCall baseConvCall
    cases b <;> cases b' <;> cases b'' <;> simp only [ORel] at hb
    · split
      · exact .bind (convTranspose_rel L.mul h hk _ _ _ _) fun _ _ _ g => .ok (k0 rfl g)
      · exact .bind (conv_rel L.mul h hk _ _ _ _) fun _ _ _ g => .ok (k0 rfl g)
    · split
      · exact .bind ((convTranspose_rel L.mul h hk _ _ _ _).also fun _ => rank_convTranspose) fun _ _ _ g =>
          .bind (addBias_rel g.1 hb g.2 L.act_bias _ _) fun _ _ _ g => .ok (mapT_rel g)
      · exact .bind ((conv_rel L.mul h hk _ _ _ _).also fun _ => rank_conv) fun _ _ _ g =>
          .bind (addBias_rel g.1 hb g.2 L.act_bias _ _) fun _ _ _ g => .ok (mapT_rel g)
  simp only [L.transforms₁, L.transforms₂] at hs
  cases bl : l.bias <;> cases bm : m.bias <;> cases bn : n.bias <;> rw [bl, bm, bn] at hb <;>
    simp only [ORel] at hb ⊢
  · simp only [res_bind_ok, bind_assoc]
    refine .same _ fun _ _ => ?_
    simp only [L.filters₁, L.filters₂, pure_bind]
    exact .bind (hs trivial fun _ => bn) fun _ _ _ g => restoreGroupAxis_rel g _
  · rename_i b b' b''
    have hB : RRel (TRel B) (n.transforms.repeatBias b) (n.transforms.repeatBias b') (n.transforms.repeatBias b'') := by
      unfold GroupTransforms.repeatBias
      split
      · exact .error _
      · exact takeT_rel hb _ _
    generalize n.transforms.repeatBias b = r at hB ⊢
    generalize n.transforms.repeatBias b' = r' at hB ⊢
    generalize n.transforms.repeatBias b'' = r'' at hB ⊢
    cases hB with
    | error e => exact .error e
    | ok hB =>
      simp only [Except.map, res_bind_ok, bind_assoc]
      refine .same _ fun _ _ => ?_
      simp only [L.filters₁, L.filters₂, pure_bind, res_bind_ok]
      exact .bind (hs hB nofun) fun _ _ _ g => restoreGroupAxis_rel g _

end GroCo
