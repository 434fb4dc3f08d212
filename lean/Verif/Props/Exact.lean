import Verif.ExactLemmas
import Verif.Props.Build
import Verif.Props.Training

/-
Property C68: which convolutions are equivariant, and whether the refused ones are not. The vocabulary (`Reads`, `WindowsMoved`,
`MovesOutput`) is in MovedSpec.
-/

namespace GroCo
open Tensor

variable {α : Type}

/-- C68: a convolution layer on images of sizes `n` moves its output with its input, whatever its weights are, exactly if element
`h` of its subgroup keeps the sizes of the output and moves the windows into each other. Nothing is assumed about
allow_non_equivariance, strides or dilation. The activation must be able to tell some value from zero. -/
theorem C68_windows [Semiring α] {a : ConvArgs α} {bt : Option Nat} {n : List Nat} {g : Option Nat} {C : Nat}
    {k0 b0 : List Nat → α} {H : List Nat} {l : GroupConv α} (hl : BuiltConv a false bt n g C k0 b0 H l)
    (hf : a.dataFormat = .channelsLast) (opt : PadOption) (hopt : formatPaddingOption a.padding = .ok opt)
    (v : α) (hv : a.activation v ≠ a.activation 0) (hC : 0 < C) (h : Nat) (hh : h ∈ H) (hn : KeepsSizes (a.group.motion h) n)
    (before after out : List Nat) (hbl : before.length = a.group.dim)
    (hpad : ∀ i, i < a.group.dim → PadsTo opt (nth n i) (nth n i) (nth a.kernelSize i) (nth a.strides i) (nth a.dilation i)
      (nth before i) (nth after i))
    (hfit : ∀ i, i < a.group.dim →
      dilated (nth a.kernelSize i) (nth a.dilation i) ≤ nth before i + nth n i + nth after i)
    (hout : out = (List.range a.group.dim).map fun i =>
      (nth before i + nth n i + nth after i - dilated (nth a.kernelSize i) (nth a.dilation i)) / nth a.strides i + 1) :
    (∀ k1 b1, MovesOutput a.group (List.range a.group.group.order) H h (fun x => ((l.assign k1 b1).call x).2) n g C a.filters) ↔
      KeepsSizes (a.group.motion h) out ∧
      WindowsMoved (a.group.motion h) n out a.kernelSize before a.strides a.dilation := by
  obtain ⟨opt', kp, hopt', hkp, f, hst⟩ := hl.facts_last hf
  rw [hopt] at hopt'
  cases hopt'
  have hagree := padding_agree hopt hkp
  obtain ⟨sH, _, hH⟩ := parse_sub hl.elements
  have hh' := a.group.sym.sub_lt hH hh
  have hpt := fun i (hi : i < a.group.dim) => padsTo_ok (dil := a.dilation) (m := n) hl.dims hl.dims f.kernelLen f.stridesLen
    f.stridesPos hagree hst hi
  have hnl : n.length = a.strides.length := by rw [hl.dims, f.stridesLen]
  have hb : before = totalBefore l.transforms.padState kp a.strides a.dilation a.kernelSize n := by
    apply ext_nth
    · rw [hbl]; simp [totalBefore, f.stridesLen]
    · intro i hi
      rw [hbl] at hi
      exact ((hpad i hi).unique (hpt i hi)).1
  have hpd : ∀ i, i < a.group.dim → nth (padded l.transforms.padState kp a.strides a.dilation a.kernelSize n) i =
      nth before i + nth n i + nth after i := by
    intro i hi
    rw [nth_padded hnl (by rw [f.stridesLen]; exact hi), ← ((hpad i hi).unique (hpt i hi)).1, ← ((hpad i hi).unique (hpt i hi)).2]
  have hF : 0 < a.filters := by
    obtain ⟨_, _, _, hz, _⟩ := (C44_convolution a hf bt n g C k0 b0 H hl.dims hl.elements).1 ⟨l, hl⟩
    exact hz.filters
  have hfit' : FitsIn a.strides a.dilation a.kernelSize (padded l.transforms.padState kp a.strides a.dilation a.kernelSize n) := by
    intro i hi
    refine ⟨?_, ?_, ?_⟩
    · exact Nat.pos_of_ne_zero fun h => f.stridesPos (h ▸ nth_mem _ _ hi)
    · rw [f.stridesLen] at hi
      exact Nat.pos_of_ne_zero fun h => f.kernelPos (h ▸ nth_mem _ _ (by rw [f.kernelLen]; exact hi))
    · rw [f.stridesLen] at hi
      rw [hpd i hi]
      exact hfit i hi
  have ho : out = outSizes a.strides a.dilation a.kernelSize
      (padded l.transforms.padState kp a.strides a.dilation a.kernelSize n) := by
    rw [hout]
    unfold outSizes
    rw [f.stridesLen]
    apply List.map_congr_left
    intro i hi
    rw [hpd i (List.mem_range.1 hi)]
  have := conv_exact hl (fun k1 b1 => C53_assign hl) hf hv hC hF hh ((keeps_iff _ hh' _).1 hn) hkp hfit' hb ho
  rw [← keeps_iff _ hh'] at this
  exact this

/-- C68: plain padding ('same' or 'valid') on a grid the group acts on, without dilation, for a subgroup that reverses every
axis: a layer is refused with allow_non_equivariance=False exactly if the layer one gets with allow_non_equivariance=True is
broken, i.e. if for some weights and some input, moving the input does not move the output. What is missing to the full
statement `RefusedIffBroken`: other subgroups and dilation, for which it is false. -/
theorem C68_refused_iff_broken_partial [Semiring α] {a : ConvArgs α} {bt : Option Nat} {n : List Nat} {g : Option Nat} {C : Nat}
    {k0 b0 : List Nat → α} {H : List Nat} {l : GroupConv α} (hl : BuiltConv a false bt n g C k0 b0 H l)
    (hf : a.dataFormat = .channelsLast) (opt : PadOption) (hopt : formatPaddingOption a.padding = .ok opt)
    (hplain : opt = .same ∨ opt = .valid) (hdil : a.dilation = List.replicate a.group.dim 1)
    (hn : a.group.Grid n) (hs : a.group.Grid a.strides)
    (v : α) (hv : a.activation v ≠ a.activation 0) (hC : 0 < C)
    (hrev : ∀ i : Fin a.group.dim, ∃ h ∈ H, a.group.motion h i i = -1)
    (hcall : ∃ x y B, x.shape = sigShape .channelsLast B n g C ∧ (l.call x).2 = .ok y) :
    (¬ ∃ l', BuiltConv { a with allowNonEquivariance := false } false bt n g C k0 b0 H l') ↔
      ∃ h k1 b1, h ∈ H ∧ ¬ MovesOutput a.group (List.range a.group.group.order) H h (fun x => ((l.assign k1 b1).call x).2) n g C a.filters := by
  have S := a.group.sym
  obtain ⟨sH, _, hH⟩ := parse_sub hl.elements
  -- the zeros and the sizes of the output
  obtain ⟨opt', kp, hopt', hkp, f, hst⟩ := hl.facts_last hf
  rw [hopt] at hopt'
  cases hopt'
  have hagree := padding_agree hopt hkp
  have hpt := fun i (hi : i < a.group.dim) => padsTo_ok (dil := a.dilation) (m := n) hl.dims hl.dims f.kernelLen f.stridesLen
    f.stridesPos hagree hst hi
  have hnl : n.length = a.strides.length := by rw [hl.dims, f.stridesLen]
  have hbl : (totalBefore l.transforms.padState kp a.strides a.dilation a.kernelSize n).length = a.group.dim := by
    simp [totalBefore, f.stridesLen]
  have hfit : ∀ i, i < a.group.dim → dilated (nth a.kernelSize i) (nth a.dilation i) ≤
      nth (totalBefore l.transforms.padState kp a.strides a.dilation a.kernelSize n) i + nth n i +
        nth (totalAfter l.transforms.padState kp a.strides a.dilation a.kernelSize n) i := by
    obtain ⟨x, y, B, hx, hy⟩ := hcall
    intro i hi
    have hi' : i < a.strides.length := by rw [f.stridesLen]; exact hi
    rw [← nth_padded hnl hi']
    exact ((conv_call_last f hf hx hl.dims).1 y hy i hi').2.2
  generalize totalBefore l.transforms.padState kp a.strides a.dilation a.kernelSize n = before at hpt hbl hfit
  generalize totalAfter l.transforms.padState kp a.strides a.dilation a.kernelSize n = after at hpt hfit
  have hone : ∀ i, i < a.group.dim → nth a.dilation i = 1 := fun i hi => by rw [hdil]; simp [nth, hi]
  have hspos : ∀ i, i < a.group.dim → 0 < nth a.strides i := fun i hi =>
    Nat.pos_of_ne_zero fun h => f.stridesPos (h ▸ nth_mem _ _ (by rw [f.stridesLen]; exact hi))
  have hkpos : ∀ i, i < a.group.dim → 0 < nth a.kernelSize i := fun i hi =>
    Nat.pos_of_ne_zero fun h => f.kernelPos (h ▸ nth_mem _ _ (by rw [f.kernelLen]; exact hi))
  have hdk : ∀ i, i < a.group.dim → dilated (nth a.kernelSize i) (nth a.dilation i) = nth a.kernelSize i := fun i hi => by
    rw [hone i hi]; have := hkpos i hi; simp [dilated]; omega
  have hd : a.group.Grid a.dilation := by
    apply a.group.grid_of (by rw [hdil]; simp)
    intro i j hi hj _
    rw [hone i hi, hone j hj]
  have hamt : ∀ i, i < a.group.dim →
      nth before i = builtIn opt (nth n i) (nth a.kernelSize i) (nth a.strides i) / 2 ∧
      nth before i + nth after i = builtIn opt (nth n i) (nth a.kernelSize i) (nth a.strides i) := by
    intro i hi
    obtain ⟨e, h1, h2, h3⟩ := hpt i hi
    have he : e = 0 := by rcases hplain with rfl | rfl <;> exact h1
    subst he
    rw [hdk i hi] at h2 h3
    constructor
    · simpa using h2
    · simpa using h3
  have hbuild := C44_convolution { a with allowNonEquivariance := false } hf bt n g C k0 b0 H hl.dims hl.elements
  obtain ⟨opt', kp', hacc, hz, hgo, hgrid, _, hkfit⟩ := (C44_convolution a hf bt n g C k0 b0 H hl.dims hl.elements).1 ⟨l, hl⟩
  have hopt' := ((accepted_iff _ _ _).2 hacc).1
  rw [hopt] at hopt'
  cases hopt'
  -- refusal in terms of symmetric padding
  have hsym : (∃ l', BuiltConv { a with allowNonEquivariance := false } false bt n g C k0 b0 H l') ↔
      ∀ i, i < a.group.dim → Symmetric (nth n i) (nth a.kernelSize i) (nth a.strides i)
        (builtIn opt (nth n i) (nth a.kernelSize i) (nth a.strides i)) := by
    rw [hbuild]
    constructor
    · rintro ⟨opt2, kp2, hacc2, _, _, _, hcan, _⟩ i hi
      have hopt2 := ((accepted_iff _ _ _).2 hacc2).1
      rw [hopt] at hopt2
      cases hopt2
      have := hcan i hi
      rcases hplain with rfl | rfl
      · exact this.resolve_left (by simp)
      · exact this.resolve_left (by simp)
    · intro hall
      refine ⟨opt, kp', hacc, ⟨hz.kernels, hz.strides, hz.dilation, hz.filters, hz.notBoth⟩, hgo, hgrid, fun i hi => ?_, hkfit⟩
      rcases hplain with rfl | rfl
      · exact Or.inr (hall i hi)
      · exact Or.inr (hall i hi)
  have key := fun h (hh : h ∈ H) => C68_windows hl hf opt hopt v hv hC h hh ((keeps_iff _ (S.sub_lt hH hh) _).2 (hn.kept (S.sub_lt hH hh)))
    before after _ hbl hpt hfit rfl
  generalize hout : ((List.range a.group.dim).map fun i =>
    (nth before i + nth n i + nth after i - dilated (nth a.kernelSize i) (nth a.dilation i)) / nth a.strides i + 1) = out at key
  suffices hmain : (∃ l', BuiltConv { a with allowNonEquivariance := false } false bt n g C k0 b0 H l') ↔
      ∀ h k1 b1, h ∈ H → MovesOutput a.group (List.range a.group.group.order) H h (fun x => ((l.assign k1 b1).call x).2) n g C a.filters by
    rw [hmain]
    constructor
    · intro hnot
      by_contra hc
      exact hnot fun h k1 b1 hh => by
        by_contra hm
        exact hc ⟨h, k1, b1, hh, hm⟩
    · rintro ⟨h, k1, b1, hh, hm⟩ hall
      exact hm (hall h k1 b1 hh)
  constructor
  · rintro ⟨l', hl'⟩ h k1 b1 hh
    have hh' := S.sub_lt hH hh
    refine (key h hh).2 ?_ k1 b1
    have key' := C68_windows hl' hf opt hopt v hv hC h hh ((keeps_iff _ hh' _).2 (hn.kept hh')) before after _ hbl hpt hfit rfl
    rw [hout] at key'
    refine key'.1 fun k2 b2 B x x' y hx hx' hy => ?_
    obtain ⟨m, y', h1, h2, h3, h4⟩ := conv_moves (C53_assign (k1 := k2) (b1 := b2) hl') hf rfl hopt hh (hn.kept hh') (hs.kept hh')
      (hd.kept hh') (fun i hi => Or.inl (hone i hi)) hx hx' hy
    exact ⟨m, y', h1, (keeps_iff _ hh' _).2 h2, h3, h4⟩
  · intro hall
    rw [hsym]
    intro i hi
    obtain ⟨h, hh, hneg⟩ := hrev ⟨i, hi⟩
    have hh' := S.sub_lt hH hh
    obtain ⟨hO, hW⟩ := (key h hh).1 fun k1 b1 => hall h k1 b1 hh
    have hO' := (keeps_iff _ hh' _).1 hO
    have hno : ∀ j, j < a.group.dim → nth out j =
        (nth before j + nth n j + nth after j - nth a.kernelSize j) / nth a.strides j + 1 := by
      intro j hj
      rw [← hout, nth_map_range, if_pos hj, hdk j hj]
    have hol : out.length = a.group.dim := by rw [← hout]; simp
    -- the first window, its offset that reads the first position, and their images
    have hp : Valid out (List.replicate a.group.dim 0) := by
      rw [valid_iff]
      refine ⟨by simp [hol], fun j hj => ?_⟩
      rw [hol] at hj
      rw [hno j hj, nth_replicate, if_pos hj]
      exact Nat.succ_pos _
    have hk : Valid a.kernelSize before := by
      rw [valid_iff]
      refine ⟨by rw [hbl, f.kernelLen], fun j hj => ?_⟩
      rw [f.kernelLen] at hj
      rw [(hamt j hj).1]
      exact builtIn_lt (hkpos j hj) (hspos j hj)
    have hw : Valid n (List.replicate a.group.dim 0) := by
      rw [valid_iff]
      refine ⟨by simp [hl.dims], fun j hj => ?_⟩
      rw [hl.dims] at hj
      rw [nth_replicate, if_pos hj]
      have h1 := hfit j hj
      have h2 := (hamt j hj).2
      have h3 := hkpos j hj
      have h4 := hspos j hj
      rw [hdk j hj] at h1
      rcases Nat.eq_zero_or_pos (nth n j) with h0 | h0
      · exfalso
        rw [h0] at h1 h2
        rcases hplain with rfl | rfl
        · simp only [builtIn, sameTotal, Nat.zero_mod, if_true] at h2
          omega
        · simp only [builtIn] at h2
          omega
      · exact h0
    obtain ⟨p', hp', ep⟩ := hO'.surj hh' hp
    obtain ⟨k', hk', ek⟩ := (f.grid.kept hh').surj hh' hk
    obtain ⟨w', hw', ew⟩ := (hn.kept hh').surj hh' hw
    have mp := Kept.moves hh' hO' hp'
    have mk := Kept.moves hh' (f.grid.kept hh') hk'
    have mw := Kept.moves hh' (hn.kept hh') hw'
    rw [ep] at mp
    rw [ek] at mk
    rw [ew] at mw
    have hr : Reads before a.strides a.dilation (List.replicate a.group.dim 0) before (List.replicate a.group.dim 0) := by
      intro j hj
      rw [f.stridesLen] at hj
      rw [nth_replicate, if_pos hj, hone j hj]
      omega
    have hr' := (hW _ _ _ _ _ _ hp hp' hk hk' hw hw' mp mk mw).1 hr i (by rw [f.stridesLen]; exact hi)
    have m1 := moves_mirror hh' hneg mp
    have m2 := moves_mirror hh' hneg mk
    have m3 := moves_mirror hh' hneg mw
    simp only [nth_replicate, if_pos hi] at m1 m2 m3
    rw [hone i hi] at hr'
    rw [hno i hi] at m1
    have h1 := hfit i hi
    rw [hdk i hi] at h1
    refine symmetric_of_mirror (hspos i hi) (hamt i hi).1 (hamt i hi).2 h1 ?_
    have : nth p' i = (nth before i + nth n i + nth after i - nth a.kernelSize i) / nth a.strides i := by omega
    rw [← this]
    omega

/-- C68: the subgroups to which `C68_refused_iff_broken_partial` applies: every subgroup of every group reverses every axis, except
'P1', 'PMw' and 'PMh'. -/
theorem C68_reversing (n : GroupName) (s : String) (H : List Nat) (hs : (s, H) ∈ n.group.subgroup)
    (hne : s ∉ ["P1", "PMw", "PMh"]) (i : Fin n.dim) : ∃ h ∈ H, n.motion h i i = -1 := by
  have key : ∀ e ∈ n.group.subgroup, e.1 ∉ ["P1", "PMw", "PMh"] → ∀ i : Fin n.dim, ∃ h ∈ e.2, n.motion h i i = -1 := by
    cases n <;> decide +kernel
  exact key (s, H) hs hne i

/-- 'same' for kernels of size 2, allowed not to be equivariant -/
def evenConv : ConvArgs Int :=
  { group := .P4, subgroup := some "", kernelSize := [2, 2], strides := [1, 1], padding := "same",
    allowNonEquivariance := true, dataFormat := .channelsLast, filters := 1, dilation := [1, 1], useBias := false,
    activation := id }

/-- The premises of C68 are met by a P4 lifting layer, which is refused if equivariance is asked for, so that it is broken for
some weights. -/
example : ∃ h k1 b1, h ∈ [0, 1, 2, 3] ∧ ∃ l, BuiltConv evenConv false none [3, 3] none 1 (fun _ => 1) (fun _ => 0) [0, 1, 2, 3] l ∧
    ¬ MovesOutput .P4 [0, 1, 2, 3] [0, 1, 2, 3] h (fun x => ((l.assign k1 b1).call x).2) [3, 3] none 1 1 := by
  have hl : BuiltConv evenConv false none [3, 3] none 1 (fun _ => 1) (fun _ => 0) [0, 1, 2, 3] _ := ⟨⟨_, rfl, rfl⟩, rfl, rfl⟩
  obtain ⟨h, k1, b1, hh, hm⟩ := (C68_refused_iff_broken_partial hl rfl .same rfl (Or.inl rfl) rfl ⟨rfl, rfl⟩ ⟨rfl, rfl⟩ 1 (by decide) (by decide)
    (C68_reversing .P4 "P4" _ (by decide) (by decide)) ⟨⟨[1, 3, 3, 1], fun _ => 1⟩, _, 1, rfl, rfl⟩).1 (by
      rintro ⟨l', ⟨l0, h0, h1⟩, _⟩
      cases h0
      cases h1)
  exact ⟨h, k1, b1, hh, _, hl, hm⟩

/-- and by one that is not refused, with windows that are moved into each other -/
example : WindowsMoved (GroupName.P4.motion 1) [7, 7] [3, 3] [3, 3] [0, 0] [2, 2] [1, 1] ∧
    ¬ WindowsMoved (GroupName.P4.motion 1) [3, 3] [3, 3] [2, 2] [0, 0] [1, 1] [1, 1] := by
  have hk : ∀ m : Nat, GroupName.P4.Kept 1 [m, m] := fun m => by
    have h : GroupName.P4.Grid [m, m] := ⟨rfl, rfl⟩
    exact h.kept (by decide)
  rw [windowsMoved_iff (by decide) (hk 7) (hk 3) (hk 3), windowsMoved_iff (by decide) (hk 3) (hk 3) (hk 2)]
  constructor
  · intro p k w hp hk hw
    revert hp hk hw
    rw [← mem_indices, ← mem_indices, ← mem_indices]
    intro hp hk hw
    have : ∀ p ∈ indices [3, 3], ∀ k ∈ indices [3, 3], ∀ w ∈ indices [7, 7],
        (Reads [0, 0] [2, 2] [1, 1] (back GroupName.P4.els [3, 3] 1 p) (back GroupName.P4.els [3, 3] 1 k) (back GroupName.P4.els [7, 7] 1 w) ↔
          Reads [0, 0] [2, 2] [1, 1] p k w) := by
      unfold Reads
      decide +kernel
    exact this p hp k hk w hw
  · intro h
    have := h [0, 0] [0, 0] [0, 0] (by decide) (by decide) (by decide)
    revert this
    unfold Reads
    decide +kernel

/-- C68 as one would like it: with plain padding, a layer is refused exactly if it would be broken. -/
def RefusedIffBroken : Prop :=
  ∀ (a : ConvArgs Int) (bt : Option Nat) (n : List Nat) (g : Option Nat) (C : Nat) (k0 b0 : List Nat → Int) (H : List Nat)
    (l : GroupConv Int), BuiltConv a false bt n g C k0 b0 H l → a.dataFormat = .channelsLast →
    (a.padding = "same" ∨ a.padding = "valid") → a.activation = id → a.group.Grid n → a.group.Grid a.strides →
    a.group.Grid a.dilation → 0 < C → (∃ x y B, x.shape = sigShape .channelsLast B n g C ∧ (l.call x).2 = .ok y) →
    ((¬ ∃ l', BuiltConv { a with allowNonEquivariance := false } false bt n g C k0 b0 H l') ↔
      ∃ h k1 b1, h ∈ H ∧ ¬ MovesOutput a.group (List.range a.group.group.order) H h (fun x => ((l.assign k1 b1).call x).2) n g C a.filters)

/-- C68 fails for subgroups that do not reverse an axis: the trivial subgroup keeps every layer equivariant, but the layer is
refused. -/
theorem C68_violation_subgroup : ¬ RefusedIffBroken := by
  intro h
  have hl : BuiltConv { evenConv with subgroup := some "P1" } false none [3, 3] none 1 (fun _ => 1) (fun _ => 0) [0] _ :=
    ⟨⟨_, rfl, rfl⟩, rfl, rfl⟩
  obtain ⟨e, k1, b1, he, hm⟩ := (h { evenConv with subgroup := some "P1" } none [3, 3] none 1 _ _ [0] _ hl rfl (Or.inl rfl) rfl ⟨rfl, rfl⟩ ⟨rfl, rfl⟩
    ⟨rfl, rfl⟩ (by decide) ⟨⟨[1, 3, 3, 1], fun _ => 1⟩, _, 1, rfl, rfl⟩).1 (by
      rintro ⟨l', ⟨l0, h0, h1⟩, _⟩
      cases h0
      cases h1)
  have he : e = 0 := by simpa using he
  subst he
  have hk : ∀ m : Nat, GroupName.P4.Kept 0 [m, m] := fun m => by
    have h : GroupName.P4.Grid [m, m] := ⟨rfl, rfl⟩
    exact h.kept (by decide)
  refine hm ((C68_windows hl rfl .same rfl 1 (by decide) (by decide) 0 (by simp) ((keeps_iff _ (by decide) _).2 (hk 3)) [0, 0] [1, 1] [3, 3] rfl ?_ ?_ rfl).2 ?_ k1 b1)
  · intro i hi
    refine ⟨0, rfl, ?_⟩
    revert i
    decide
  · decide
  · refine ⟨(keeps_iff _ (by decide) _).2 (hk 3), (windowsMoved_iff (by decide) (hk 3) (hk 3) (hk 2)).2 ?_⟩
    intro p k w hp hk hw
    rw [GroupName.P4.sym.back_one hp.length, GroupName.P4.sym.back_one hk.length, GroupName.P4.sym.back_one hw.length]

/-- C68 fails with dilation, even for the whole group: the dilated kernel has odd size and is equivariant, but the layer is
refused because the dilation rate is ignored. -/
theorem C68_violation_dilation : ¬ RefusedIffBroken := by
  intro h
  have hl : BuiltConv { evenConv with group := .P2, dilation := [2, 2] } false none [3, 3] none 1 (fun _ => 1) (fun _ => 0) [0, 1] _ :=
    ⟨⟨_, rfl, rfl⟩, rfl, rfl⟩
  obtain ⟨e, k1, b1, he, hm⟩ := (h { evenConv with group := .P2, dilation := [2, 2] } none [3, 3] none 1 _ _ [0, 1] _ hl rfl (Or.inl rfl) rfl
    ⟨rfl, trivial⟩ ⟨rfl, trivial⟩ ⟨rfl, trivial⟩ (by decide) ⟨⟨[1, 3, 3, 1], fun _ => 1⟩, _, 1, rfl, rfl⟩).1 (by
      rintro ⟨l', ⟨l0, h0, h1⟩, _⟩
      cases h0
      cases h1)
  have he' : e < 2 := by
    simp at he
    omega
  have hkeep : ∀ m : Nat, GroupName.P2.Kept e [m, m] := fun m => by
    have h : GroupName.P2.Grid [m, m] := ⟨rfl, trivial⟩
    exact h.kept he'
  refine hm ((C68_windows hl rfl .same rfl 1 (by decide) (by decide) e he ((keeps_iff _ he' _).2 (hkeep 3)) [1, 1] [1, 1] [3, 3] rfl ?_ ?_ rfl).2 ?_ k1 b1)
  · intro i hi
    refine ⟨0, rfl, ?_⟩
    revert i
    decide
  · decide
  · refine ⟨(keeps_iff _ he' _).2 (hkeep 3), (windowsMoved_iff he' (hkeep 3) (hkeep 3) (hkeep 2)).2 ?_⟩
    intro p k w
    rw [← mem_indices, ← mem_indices, ← mem_indices]
    intro hp hk hw
    have : ∀ e, e < 2 → ∀ p ∈ indices [3, 3], ∀ k ∈ indices [2, 2], ∀ w ∈ indices [3, 3],
        (Reads [1, 1] [1, 1] [2, 2] (back GroupName.P2.els [3, 3] e p) (back GroupName.P2.els [2, 2] e k) (back GroupName.P2.els [3, 3] e w) ↔
          Reads [1, 1] [1, 1] [2, 2] p k w) := by
      unfold Reads
      decide +kernel
    exact this e he' p hp k hk w hw

end GroCo
