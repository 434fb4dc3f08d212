/-
Shared vocabulary of the model: Python exceptions as values, list access, and multi-indices.
Nothing here models a particular function of /repo; it is the language the model is written in.
-/

namespace GroCo

/-- Python exceptions raised by the modelled code, as values.
`value` ValueError, `key` KeyError, `index` IndexError, `assertion` AssertionError, `attribute` AttributeError,
`typ` TypeError, `unbound` UnboundLocalError, `zeroDiv` ZeroDivisionError / invalid integer modulus. -/
inductive Err where
  | value | key | index | assertion | attribute | typ | unbound | zeroDiv
  deriving DecidableEq, Repr

abbrev Res (α : Type u) := Except Err α

deriving instance DecidableEq for Except

@[simp] theorem res_bind_ok {α β : Type u} (a : α) (f : α → Res β) : (Except.ok a >>= f) = f a := rfl
@[simp] theorem res_bind_error {α β : Type u} (e : Err) (f : α → Res β) :
    ((Except.error e : Res α) >>= f) = Except.error e := rfl
@[simp] theorem res_pure {α : Type u} (a : α) : (pure a : Res α) = Except.ok a := rfl

/-- Total list access; only ever used where the position is in range. -/
def nth (l : List Nat) (i : Nat) : Nat := l.getD i 0

/-- A multi-index addresses an entry of a tensor of this shape. -/
def Valid : List Nat → List Nat → Prop
  | [], [] => True
  | n :: s, i :: idx => i < n ∧ Valid s idx
  | _, _ => False

instance instDecidableValid : (s idx : List Nat) → Decidable (Valid s idx)
  | [], [] => isTrue trivial
  | n :: s, i :: idx => by
      unfold Valid
      have := instDecidableValid s idx
      exact inferInstance
  | [], _ :: _ => isFalse (by simp [Valid])
  | _ :: _, [] => isFalse (by simp [Valid])

/-- Number of entries of a tensor of this shape. -/
def prod (s : List Nat) : Nat := s.foldr (· * ·) 1

/-- Row-major position of a multi-index. -/
def ravel : List Nat → List Nat → Nat
  | _ :: s, i :: idx => i * prod s + ravel s idx
  | _, _ => 0

/-- Multi-index at a row-major position. -/
def unravel : List Nat → Nat → List Nat
  | [], _ => []
  | _ :: s, k => (k / prod s) :: unravel s (k % prod s)

/-- All multi-indices of a shape, in row-major order. -/
def indices : List Nat → List (List Nat)
  | [] => [[]]
  | n :: s => (List.range n).flatMap fun i => (indices s).map (i :: ·)

/-! ### `nth` -/

@[simp] theorem nth_nil (i : Nat) : nth [] i = 0 := by simp [nth]
@[simp] theorem nth_cons_zero (a : Nat) (l : List Nat) : nth (a :: l) 0 = a := by simp [nth]
@[simp] theorem nth_cons_succ (a : Nat) (l : List Nat) (i : Nat) : nth (a :: l) (i + 1) = nth l i := by simp [nth]
theorem nth_eq_getElem (l : List Nat) (i : Nat) (h : i < l.length) : nth l i = l[i] := by simp [nth, h]
theorem nth_of_le (l : List Nat) (i : Nat) (h : l.length ≤ i) : nth l i = 0 := by simp [nth, h]

theorem ext_nth {l m : List Nat} (hl : l.length = m.length) (h : ∀ i, i < l.length → nth l i = nth m i) : l = m := by
  apply List.ext_getElem hl
  intro i h1 h2
  have := h i h1
  rwa [nth_eq_getElem l i h1, nth_eq_getElem m i h2] at this

theorem nth_set (l : List Nat) (a v i : Nat) :
    nth (l.set a v) i = if i = a ∧ a < l.length then v else nth l i := by
  simp only [nth, List.getD_eq_getElem?_getD, List.getElem?_set]
  grind

theorem nth_eraseIdx (l : List Nat) (a i : Nat) :
    nth (l.eraseIdx a) i = if i < a then nth l i else nth l (i + 1) := by
  simp only [nth, List.getD_eq_getElem?_getD, List.getElem?_eraseIdx]
  grind

theorem nth_insertIdx (l : List Nat) (a v i : Nat) (ha : a ≤ l.length) :
    nth (l.insertIdx a v) i = if i < a then nth l i else if i = a then v else nth l (i - 1) := by
  simp only [nth, List.getD_eq_getElem?_getD, List.getElem?_insertIdx]
  grind

theorem nth_append (l m : List Nat) (i : Nat) :
    nth (l ++ m) i = if i < l.length then nth l i else nth m (i - l.length) := by
  simp only [nth, List.getD_eq_getElem?_getD, List.getElem?_append]
  grind

theorem nth_map_range (n i : Nat) (f : Nat → Nat) :
    nth ((List.range n).map f) i = if i < n then f i else 0 := by
  simp only [nth, List.getD_eq_getElem?_getD, List.getElem?_map]
  grind

theorem nth_range (n i : Nat) : nth (List.range n) i = if i < n then i else 0 := by
  simpa using nth_map_range n i id

theorem nth_take (l : List Nat) (n i : Nat) : nth (l.take n) i = if i < n then nth l i else 0 := by
  simp only [nth, List.getD_eq_getElem?_getD, List.getElem?_take]
  grind

theorem nth_drop (l : List Nat) (n i : Nat) : nth (l.drop n) i = nth l (n + i) := by
  simp only [nth, List.getD_eq_getElem?_getD, List.getElem?_drop]

theorem nth_replicate (n v i : Nat) : nth (List.replicate n v) i = if i < n then v else 0 := by
  simp only [nth, List.getD_eq_getElem?_getD, List.getElem?_replicate]
  grind

theorem nth_mem (l : List Nat) (i : Nat) (h : i < l.length) : nth l i ∈ l := by
  rw [nth_eq_getElem l i h]; exact List.getElem_mem h

/-! ### `Valid` -/

@[simp] theorem valid_nil : Valid [] [] := trivial
@[simp] theorem valid_cons (n : Nat) (s : List Nat) (i : Nat) (idx : List Nat) :
    Valid (n :: s) (i :: idx) ↔ i < n ∧ Valid s idx := Iff.rfl
@[simp] theorem valid_cons_nil (n : Nat) (s : List Nat) : ¬ Valid (n :: s) [] := id
@[simp] theorem valid_nil_cons (i : Nat) (idx : List Nat) : ¬ Valid [] (i :: idx) := id

theorem valid_iff (s idx : List Nat) :
    Valid s idx ↔ idx.length = s.length ∧ ∀ i, i < s.length → nth idx i < nth s i := by
  induction s generalizing idx with
  | nil => cases idx <;> simp
  | cons n s ih =>
    cases idx with
    | nil => simp
    | cons i idx =>
      simp only [valid_cons, ih, List.length_cons]
      constructor
      · rintro ⟨h1, h2, h3⟩
        refine ⟨by omega, fun j hj => ?_⟩
        cases j with
        | zero => simpa
        | succ j => simpa using h3 j (by omega)
      · rintro ⟨h1, h2⟩
        refine ⟨by simpa using h2 0 (by omega), by omega, fun j hj => by simpa using h2 (j + 1) (by omega)⟩

theorem Valid.length {s idx : List Nat} (h : Valid s idx) : idx.length = s.length := ((valid_iff s idx).1 h).1
theorem Valid.lt {s idx : List Nat} (h : Valid s idx) {i : Nat} (hi : i < s.length) : nth idx i < nth s i :=
  ((valid_iff s idx).1 h).2 i hi

theorem valid_append (s t idx jdx : List Nat) (h : idx.length = s.length) :
    Valid (s ++ t) (idx ++ jdx) ↔ Valid s idx ∧ Valid t jdx := by
  induction s generalizing idx with
  | nil => cases idx <;> simp_all
  | cons n s ih =>
    cases idx with
    | nil => simp at h
    | cons i idx =>
      simp only [List.cons_append, valid_cons]
      rw [ih idx (by simpa using h), and_assoc]

theorem valid_append_split {s t idx : List Nat} (h : Valid (s ++ t) idx) :
    ∃ i j, idx = i ++ j ∧ Valid s i ∧ Valid t j := by
  induction s generalizing idx with
  | nil => exact ⟨[], idx, by simp, trivial, by simpa using h⟩
  | cons n s ih =>
    cases idx with
    | nil => simp at h
    | cons i idx =>
      simp only [List.cons_append, valid_cons] at h
      obtain ⟨a, b, e, ha, hb⟩ := ih h.2
      exact ⟨i :: a, b, by simp [e], by simp [h.1, ha], hb⟩

/-! ### `ravel`, `unravel` -/

@[simp] theorem prod_nil : prod [] = 1 := rfl
@[simp] theorem prod_cons (n : Nat) (s : List Nat) : prod (n :: s) = n * prod s := rfl
theorem prod_append (s t : List Nat) : prod (s ++ t) = prod s * prod t := by
  induction s with
  | nil => simp
  | cons n s ih => simp [ih, Nat.mul_assoc]

theorem ravel_lt {s idx : List Nat} (h : Valid s idx) : ravel s idx < prod s := by
  induction s generalizing idx with
  | nil => cases idx <;> simp_all [ravel]
  | cons n s ih =>
    cases idx with
    | nil => simp at h
    | cons i idx =>
      simp only [valid_cons] at h
      have := ih h.2
      simp only [ravel, prod_cons]
      calc i * prod s + ravel s idx < i * prod s + prod s := by omega
        _ = (i + 1) * prod s := by rw [Nat.add_mul]; simp
        _ ≤ n * prod s := Nat.mul_le_mul_right _ h.1

theorem unravel_ravel {s idx : List Nat} (h : Valid s idx) : unravel s (ravel s idx) = idx := by
  induction s generalizing idx with
  | nil => cases idx <;> simp_all [ravel, unravel]
  | cons n s ih =>
    cases idx with
    | nil => simp at h
    | cons i idx =>
      simp only [valid_cons] at h
      have hlt := ravel_lt h.2
      have hpos : 0 < prod s := by omega
      simp only [ravel, unravel, List.cons.injEq]
      rw [Nat.mul_comm i, Nat.mul_add_div hpos, Nat.mul_add_mod, Nat.div_eq_of_lt hlt, Nat.mod_eq_of_lt hlt]
      exact ⟨by simp, ih h.2⟩

theorem valid_unravel {s : List Nat} {k : Nat} (h : k < prod s) : Valid s (unravel s k) := by
  induction s generalizing k with
  | nil => simp [unravel]
  | cons n s ih =>
    simp only [prod_cons] at h
    have hpos : 0 < prod s := by
      rcases Nat.eq_zero_or_pos (prod s) with h0 | h0
      · simp [h0] at h
      · exact h0
    simp only [unravel, valid_cons]
    exact ⟨by rw [Nat.div_lt_iff_lt_mul hpos]; exact h, ih (Nat.mod_lt _ hpos)⟩

theorem ravel_unravel {s : List Nat} {k : Nat} (h : k < prod s) : ravel s (unravel s k) = k := by
  induction s generalizing k with
  | nil => simp at h; simp [unravel, ravel, h]
  | cons n s ih =>
    simp only [prod_cons] at h
    have hpos : 0 < prod s := by
      rcases Nat.eq_zero_or_pos (prod s) with h0 | h0
      · simp [h0] at h
      · exact h0
    simp only [unravel, ravel]
    rw [ih (Nat.mod_lt _ hpos), Nat.mul_comm]
    exact Nat.div_add_mod k (prod s)

theorem ravel_append {s t i j : List Nat} (h : i.length = s.length) :
    ravel (s ++ t) (i ++ j) = ravel s i * prod t + ravel t j := by
  induction s generalizing i with
  | nil => cases i <;> simp_all [ravel]
  | cons n s ih =>
    cases i with
    | nil => simp at h
    | cons a i =>
      simp only [List.cons_append, ravel]
      rw [ih (by simpa using h), prod_append, Nat.add_mul, Nat.mul_assoc, Nat.add_assoc]

theorem mem_indices (s idx : List Nat) : idx ∈ indices s ↔ Valid s idx := by
  induction s generalizing idx with
  | nil => cases idx <;> simp [indices]
  | cons n s ih =>
    cases idx with
    | nil => simp [indices]
    | cons i idx => simp [indices, ih]

theorem nodup_indices (s : List Nat) : (indices s).Nodup := by
  induction s with
  | nil => simp [indices]
  | cons n s ih =>
    simp only [indices, List.Nodup, List.pairwise_flatMap]
    refine ⟨fun i _ => ?_, ?_⟩
    · rw [List.pairwise_map]
      exact ih.imp (fun h h' => h (by simpa using h'))
    · refine List.nodup_range.imp ?_
      intro a b hab x hx y hy hxy
      simp only [List.mem_map] at hx hy
      obtain ⟨x', _, rfl⟩ := hx
      obtain ⟨y', _, rfl⟩ := hy
      simp at hxy
      exact hab hxy.1

end GroCo
