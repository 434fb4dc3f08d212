import Verif.GroupedExactLemmas
import Verif.Props.Grouped
import Verif.Props.Exact
import Mathlib.Tactic.IntervalCases

/-
Property C48, continued: which layers constructed with the Keras argument `groups` are equivariant. The vocabulary is in
LayerSpec, Grouped and MovedSpec.
-/

namespace GroCo
open Tensor

variable {α : Type}

/-- C48: which layers constructed with `groups := q` move their output with their input for all elements of their subgroup,
whatever their weights are: those of the trivial subgroup, and those with `groups := 1` whose windows are moved into each other
(see C68). In particular, with two or more groups and a nontrivial subgroup no configuration is equivariant, for inputs with
and without group axis. -/
theorem C48_exact [Semiring α] {a : ConvArgs α} {q : Nat} {bt : Option Nat} {n : List Nat} {g : Option Nat} {C : Nat}
    {k0 b0 : List Nat → α} {H : List Nat} {l : GroupConv α} (hl : BuiltGrouped a q bt n g C k0 b0 H l)
    (hf : a.dataFormat = .channelsLast) (opt : PadOption) (hopt : formatPaddingOption a.padding = .ok opt)
    (v : α) (hv : a.activation v ≠ a.activation 0) (hC : 0 < C) (hn : ∀ h ∈ H, KeepsSizes (a.group.motion h) n)
    (before after out : List Nat) (hbl : before.length = a.group.dim)
    (hpad : ∀ i, i < a.group.dim → PadsTo opt (nth n i) (nth n i) (nth a.kernelSize i) (nth a.strides i) (nth a.dilation i)
      (nth before i) (nth after i))
    (hfit : ∀ i, i < a.group.dim →
      dilated (nth a.kernelSize i) (nth a.dilation i) ≤ nth before i + nth n i + nth after i)
    (hout : out = (List.range a.group.dim).map fun i =>
      (nth before i + nth n i + nth after i - dilated (nth a.kernelSize i) (nth a.dilation i)) / nth a.strides i + 1)
    (hsee : ∃ p k w, Valid out p ∧ Valid a.kernelSize k ∧ Valid n w ∧ Reads before a.strides a.dilation p k w) :
    (∀ h ∈ H, ∀ k1 b1,
        MovesOutput a.group (List.range a.group.group.order) H h (fun x => ((l.assign k1 b1).call x).2) n g C a.filters) ↔
      H.length = 1 ∨ q = 1 ∧ ∀ h ∈ H, KeepsSizes (a.group.motion h) out ∧
        WindowsMoved (a.group.motion h) n out a.kernelSize before a.strides a.dilation := by
  have S := a.group.sym
  have hone : q = 1 → ∀ h ∈ H, ((∀ k1 b1,
        MovesOutput a.group (List.range a.group.group.order) H h (fun x => ((l.assign k1 b1).call x).2) n g C a.filters) ↔
      KeepsSizes (a.group.motion h) out ∧ WindowsMoved (a.group.motion h) n out a.kernelSize before a.strides a.dilation) := by
    rintro rfl h hh
    obtain ⟨⟨l0, h0, h1⟩, hd, hH⟩ := hl
    rw [(C48_groups_one _ _).1] at h0
    rw [(C48_groups_one _ _).2 _ h0] at h1
    exact C68_windows ⟨⟨l0, h0, h1⟩, hd, hH⟩ hf opt hopt v hv hC h hh (hn h hh) before after out hbl hpad hfit hout
  obtain ⟨hq, hFq, hF, hCq, opt', kp, hopt', hkp, f, hspec, hst⟩ := hl.facts_last hf
  rw [hopt] at hopt'
  cases hopt'
  have hagree := padding_agree hopt hkp
  obtain ⟨sH, _, hH⟩ := parse_sub hl.elements
  have hpt := fun i (hi : i < a.group.dim) => padsTo_ok (dil := a.dilation) (m := n) hl.dims hl.dims f.kernelLen f.stridesLen
    f.stridesPos hagree hst hi
  have hnl : n.length = a.strides.length := by rw [hl.dims, f.stridesLen]
  have hb : before = totalBefore l.transforms.padState kp a.strides a.dilation a.kernelSize n := by
    apply ext_nth
    · rw [hbl]; simp [totalBefore, f.stridesLen]
    · intro i hi
      rw [hbl] at hi
      exact ((hpad i hi).unique (hpt i hi)).1
  have hpd : ∀ i, i < a.group.dim → nth (padded l.transforms.padState kp a.strides a.dilation a.kernelSize n) i =
      nth before i + nth n i + nth after i := by
    intro i hi
    rw [nth_padded hnl (by rw [f.stridesLen]; exact hi), ← ((hpad i hi).unique (hpt i hi)).1, ← ((hpad i hi).unique (hpt i hi)).2]
  have hfit' : FitsIn a.strides a.dilation a.kernelSize (padded l.transforms.padState kp a.strides a.dilation a.kernelSize n) := by
    intro i hi
    refine ⟨?_, ?_, ?_⟩
    · exact Nat.pos_of_ne_zero fun h => f.stridesPos (h ▸ nth_mem _ _ hi)
    · rw [f.stridesLen] at hi
      exact Nat.pos_of_ne_zero fun h => f.kernelPos (h ▸ nth_mem _ _ (by rw [f.kernelLen]; exact hi))
    · rw [f.stridesLen] at hi
      rw [hpd i hi]
      exact hfit i hi
  have ho : out = outSizes a.strides a.dilation a.kernelSize
      (padded l.transforms.padState kp a.strides a.dilation a.kernelSize n) := by
    rw [hout]
    unfold outSizes
    rw [f.stridesLen]
    apply List.map_congr_left
    intro i hi
    rw [hpd i (List.mem_range.1 hi)]
  constructor
  · intro hmoves
    rcases grouped_split hl hf hv hC (fun h hh => (keeps_iff _ (S.sub_lt hH hh) _).1 (hn h hh)) hkp hfit' hb ho hsee hmoves with h1 | h1
    · exact .inl h1
    · exact .inr ⟨h1, fun h hh => (hone h1 h hh).1 (hmoves h hh)⟩
  · rintro (h1 | ⟨h1, h2⟩) h hh
    · have hH0 : H = [0] := by
        obtain ⟨e, rfl⟩ := List.length_eq_one_iff.1 h1
        have := sub_first _ hH
        by_cases he : e = 0
        · rw [he]
        · rw [List.idxOf_cons_ne _ he] at this
          omega
      subst hH0
      have : h = 0 := by simpa using hh
      subst this
      have hO : a.group.Kept 0 out := by
        refine ⟨by rw [hout]; simp, ?_⟩
        rw [S.tab.one]
        intro i hi
        have hi' : i < a.group.dim := by simpa [SPerm.one] using hi
        simp [SPerm.src, SPerm.one, hi']
      have h0 := S.tab.laws.pos
      have hN := (keeps_iff _ h0 _).1 (hn 0 hh)
      intro k1 b1 B x x' y hx hmv hy
      have fh := grouped_assign (k1 := k1) (b1 := b1) hl
      obtain ⟨_, _, _, _, _, kp', _, hkp', f1, hs1, _⟩ := fh.facts_last hf
      rw [hkp] at hkp'
      cases hkp'
      have hg : ∀ g', g = some g' → g' = a.group.group.order := by simpa using f.size
      have hgp : ∀ g', g = some g' → 0 < g' := fun g' hg' => by rw [hg g' hg']; exact h0
      obtain ⟨e1, e2⟩ := movedBy_last S.tab.own (List.mem_range.2 h0) hN f.size hmv
      have hdiv := grouped_div (m := [0].length) (F := a.filters) hgp hq hCq hFq
      obtain ⟨y1, c1, c2, c3⟩ := (conv_call_groups f1 hf rfl hx hl.dims (check_sig hs1 (f1.fmt.trans hf) hx hl.dims)).2
        hdiv hfit'
      have hx' := e1.trans hx
      obtain ⟨y2, d1, d2, d3⟩ := (conv_call_groups f1 hf rfl hx' hl.dims (check_sig hs1 (f1.fmt.trans hf) hx' hl.dims)).2
        hdiv hfit'
      have hy : .ok y1 = Except.ok y := (congrArg Prod.snd c1).symm.trans hy
      cases hy
      refine ⟨out, y2, by rw [c2, ho]; rfl, (keeps_iff _ h0 _).2 hO, congrArg Prod.snd d1,
        (movedBy_group hH hh hO).2 ⟨d2.trans c2.symm, ?_⟩⟩
      intro b p j o hbB hp hj ho'
      have hp' := hp
      rw [ho] at hp'
      have ht : turn a.group.group.toGroupData [0] 0 j = j := by
        have hj0 : j = 0 := by simpa using hj
        subst hj0
        have : nth a.group.group.inverses 0 = 0 := by
          have L := S.tab.laws
          have := L.mul_inv 0 L.pos
          rwa [L.one_mul _ (S.inv_lt L.pos)] at this
        unfold turn
        rw [this]
        simp only [nth, List.getD_cons_zero]
        rw [S.tab.laws.one_mul _ h0]
        rfl
      simp only [sigIndex]
      rw [ht, S.back_one (by rw [hp.length, hO.1])]
      rw [d3 b p j o hbB hp' hj ho']
      erw [c3 b p j o hbB hp' hj ho']
      refine congrArg a.activation (congrArg (· + _) ?_)
      apply sum_congr
      intro k hk
      apply sum_congr
      intro c hc
      rw [List.mem_range] at hc
      refine congrArg (· * _) ?_
      unfold readAt
      split
      · rename_i hbx
        have hw := inBox_toNat hbx
        have hlt := groupStart_lt hdiv hc (mul_add_lt hj ho')
        rw [e2 b _ _ hbB hw hlt, S.back_one (by rw [hw.length, hl.dims]), turnChan_zero hg hlt]
      · rfl
    · exact (hone h1 h hh).2 (h2 h hh)

/-- The premises are met by a P2 layer with two groups, with and without group axis on the input: it is not equivariant. -/
example : ∀ g ∈ [none, some 2], ∃ l, BuiltGrouped groupedConv 2 none [3, 3] g 4 (fun _ => 1) (fun _ => 0) [0, 1] l ∧
    ¬ ∀ h ∈ [0, 1], ∀ k1 b1, MovesOutput .P2 [0, 1] [0, 1] h (fun x => ((l.assign k1 b1).call x).2) [3, 3] g 4 2 := by
  have key : ∀ g l, BuiltGrouped groupedConv 2 none [3, 3] g 4 (fun _ => 1) (fun _ => 0) [0, 1] l →
      ¬ ∀ h ∈ [0, 1], ∀ k1 b1, MovesOutput .P2 [0, 1] [0, 1] h (fun x => ((l.assign k1 b1).call x).2) [3, 3] g 4 2 := by
    intro g l hl h
    have hG : GroupName.P2.Grid [3, 3] := ⟨rfl, trivial⟩
    have hp1 : PadsTo .validEquiv 3 3 1 1 1 0 0 := ⟨0, ⟨by unfold Symmetric; decide, fun _ _ => Nat.zero_le _⟩, by decide, by decide⟩
    have hp : ∀ i, i < groupedConv.group.dim → PadsTo .validEquiv (nth [3, 3] i) (nth [3, 3] i) (nth groupedConv.kernelSize i)
        (nth groupedConv.strides i) (nth groupedConv.dilation i) (nth [0, 0] i) (nth [0, 0] i) := by
      intro i hi
      have : i < 2 := hi
      interval_cases i <;> exact hp1
    have := (C48_exact hl rfl .validEquiv rfl 1 (by decide) (by decide)
      (fun h hh => (keeps_iff _ (GroupName.P2.sym.sub_lt (s := "P2") rfl hh) _).2 (hG.kept (GroupName.P2.sym.sub_lt (s := "P2") rfl hh)))
      [0, 0] [0, 0] [3, 3] rfl hp (by decide) (by decide) ⟨[0, 0], [0, 0], [0, 0], by decide, by decide, by decide, by
        unfold Reads; decide⟩).1 h
    simp at this
  intro g hg
  simp only [List.mem_cons, List.not_mem_nil, or_false] at hg
  rcases hg with rfl | rfl
  · exact ⟨_, ⟨⟨_, rfl, rfl⟩, rfl, rfl⟩, key _ _ ⟨⟨_, rfl, rfl⟩, rfl, rfl⟩⟩
  · exact ⟨_, ⟨⟨_, rfl, rfl⟩, rfl, rfl⟩, key _ _ ⟨⟨_, rfl, rfl⟩, rfl, rfl⟩⟩

end GroCo
