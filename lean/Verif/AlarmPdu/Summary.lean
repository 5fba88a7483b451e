import Verif.AlarmPdu.Props

/-! Specifier and maintenance status summarise the diagnoses of the submodule (C106). -/
set_option linter.unusedVariables false
set_option linter.unusedSimpArgs false

namespace Verif.AlarmPdu
open Verif.Diag hiding St
open Verif.Wire (U32)

theorem mask_getLsbD : ∀ i : Fin 32,
    (0x0001FF80#32).getLsbD i.val = decide (7 ≤ i.val ∧ i.val < 17) ∧
    (0x07FE0000#32).getLsbD i.val = decide (17 ≤ i.val ∧ i.val < 27) ∧
    (0xF8000000#32).getLsbD i.val = decide (27 ≤ i.val) ∧
    (~~~7#32).getLsbD i.val = decide (3 ≤ i.val) ∧
    (1#32).getLsbD i.val = decide (i.val = 0) ∧
    (2#32).getLsbD i.val = decide (i.val = 1) := by decide +kernel

theorem bv_ne_zero (v : U32) : (v != 0#32) = true ↔ ∃ i, i < 32 ∧ v.getLsbD i = true := by
  rw [bne_iff_ne]
  constructor
  · intro h
    apply Classical.byContradiction
    intro hn
    apply h
    apply BitVec.eq_of_getLsbD_eq
    intro i hi
    rw [BitVec.getLsbD_zero]
    cases hv : v.getLsbD i with
    | false => rfl
    | true => exact absurd ⟨i, hi, hv⟩ hn
  · rintro ⟨i, hi, hv⟩ rfl
    simp at hv

theorem qual_getLsbD {n i : Nat} (hi : i < 32) :
    (BitVec.ofNat 32 n &&& ~~~7#32).getLsbD i = (decide (3 ≤ i) && n.testBit i) := by
  rw [BitVec.getLsbD_and, (mask_getLsbD ⟨i, hi⟩).2.2.2.1, BitVec.getLsbD_ofNat]
  simp [hi, Bool.and_comm]

theorem masked {n lo hi : Nat} {k : U32} (h3 : 3 ≤ lo) (h32 : hi ≤ 32)
    (hk : ∀ i, i < 32 → k.getLsbD i = decide (lo ≤ i ∧ i < hi)) :
    ((BitVec.ofNat 32 n &&& ~~~7#32) &&& k != 0#32) = true ↔ ∃ i, lo ≤ i ∧ i < hi ∧ n.testBit i = true := by
  rw [bv_ne_zero]
  constructor
  · rintro ⟨i, hi, h⟩
    rw [BitVec.getLsbD_and, qual_getLsbD hi, hk i hi] at h
    simp only [Bool.and_eq_true, decide_eq_true_eq] at h
    exact ⟨i, h.2.1, h.2.2, h.1.2⟩
  · rintro ⟨i, h1, h2, h⟩
    refine ⟨i, by omega, ?_⟩
    rw [BitVec.getLsbD_and, qual_getLsbD (by omega), hk i (by omega)]
    simp only [Bool.and_eq_true, decide_eq_true_eq]
    exact ⟨⟨by omega, h⟩, h1, h2⟩

theorem required_mask (n : Nat) : ((BitVec.ofNat 32 n &&& ~~~7#32) &&& 0x0001FF80#32 != 0#32) = true ↔
    ∃ i, 7 ≤ i ∧ i < 17 ∧ n.testBit i = true :=
  masked (by omega) (by omega) fun i hi => (mask_getLsbD ⟨i, hi⟩).1

theorem demanded_mask (n : Nat) : ((BitVec.ofNat 32 n &&& ~~~7#32) &&& 0x07FE0000#32 != 0#32) = true ↔
    ∃ i, 17 ≤ i ∧ i < 27 ∧ n.testBit i = true :=
  masked (by omega) (by omega) fun i hi => (mask_getLsbD ⟨i, hi⟩).2.1

theorem fault_mask (n : Nat) : ((BitVec.ofNat 32 n &&& ~~~7#32) &&& 0xF8000000#32 != 0#32) = true ↔
    ∃ i, 27 ≤ i ∧ i < 32 ∧ n.testBit i = true :=
  masked (by omega) (by omega) fun i hi => by
    rw [(mask_getLsbD ⟨i, hi⟩).2.2.1]
    exact decide_eq_decide.2 ⟨fun h => ⟨h, hi⟩, fun h => h.1⟩

theorem maint_bit {m : U32} {r d : Bool} {n i : Nat} (hi : i < 32) :
    (let a := m ||| (BitVec.ofNat 32 n &&& ~~~7#32)
     let b := if r = true then a ||| 1#32 else a
     if d = true then b ||| 2#32 else b).getLsbD i =
      (m.getLsbD i || (decide (3 ≤ i) && n.testBit i) || (decide (i = 0) && r) || (decide (i = 1) && d)) := by
  have h1 := (mask_getLsbD ⟨i, hi⟩).2.2.2.2.1
  have h2 := (mask_getLsbD ⟨i, hi⟩).2.2.2.2.2
  simp only at h1 h2
  cases r <;> cases d <;> simp only [Bool.false_eq_true, if_false, if_true, BitVec.getLsbD_or, qual_getLsbD hi, h1, h2, Bool.and_false,
    Bool.or_false, Bool.and_true]

theorem ex_snoc {α : Type} {l : List α} {e : α} {P : α → Prop} : (∃ x ∈ l ++ [e], P x) ↔ (∃ x ∈ l, P x) ∨ P e := by
  constructor
  · rintro ⟨x, hx, hp⟩
    rcases List.mem_append.1 hx with h | h
    · exact Or.inl ⟨x, h, hp⟩
    · rw [List.mem_singleton] at h
      exact Or.inr (h ▸ hp)
  · rintro (⟨x, hx, hp⟩ | h)
    · exact ⟨x, List.mem_append.2 (Or.inl hx), hp⟩
    · exact ⟨e, List.mem_append.2 (Or.inr (List.mem_singleton.2 rfl)), h⟩

theorem summarises_nil (own : Prop) : Summarises [] own ⟨false, false, false, false⟩ 0 := by
  constructor <;> simp

theorem addSummary_spec {T : Prop} {l : List (Nat × Fmt)} {own : Prop} {s : ASpec} {m : U32} {same : Bool} {it : Item}
    (h : Summarises l own s m) (hs : same = true ↔ own) (hg : GoodCont T (it.usi, it.fmt)) :
    ∃ x, addSummary same it (s, m) = some x ∧ Summarises (l ++ [(it.usi, it.fmt)]) own x.1 x.2 := by
  obtain ⟨i, u, fmt, nx⟩ := it
  rcases hg with ⟨g1, b, g2⟩ | ⟨g1, y, g2, _, g3⟩
  · simp only at g1 g2
    subst g2
    refine ⟨_, by unfold addSummary; rw [if_pos g1], ?_⟩
    obtain ⟨h1, h2, h3, h4, h5, h6, h7, h8⟩ := h
    refine ⟨?_, ?_, ?_, ?_, ?_, ?_, h7, ?_⟩
    · rw [ex_snoc, h1]; simp
    · rw [ex_snoc]; simp
    · rw [ex_snoc]; simp
    · rw [ex_snoc]
      simp only [Fmt.manuf.injEq, exists_eq', true_or, or_true, and_true]
      cases same with
      | true => simpa using hs.1 rfl
      | false =>
        have hno : ¬ own := fun h => by simpa using hs.2 h
        simp only [Bool.false_eq_true, if_false, h4, hno, false_and]
    · rw [ex_snoc, h5]; simp
    · rw [ex_snoc, h6]; simp
    · intro i a b
      rw [ex_snoc, h8 i a b]; simp
  · simp only at g1 g2
    subst g2
    have gs : y.spec = 1 := g3
    refine ⟨_, by
      unfold addSummary
      rw [if_neg (by simp only; omega)], ?_⟩
    have hr : ∀ {P : Std → Prop}, (∃ x, (u, Fmt.std y).2 = .std x ∧ P x) ↔ P y := by
      intro P
      constructor
      · rintro ⟨x, hx, hp⟩
        cases hx
        exact hp
      · exact fun hp => ⟨y, rfl, hp⟩
    have hm : ¬ ∃ b, (u, Fmt.std y).2 = .manuf b := by rintro ⟨b, hb⟩; cases hb
    have hR : (y.maint == 1 || (y.maint == 3 && (BitVec.ofNat 32 y.qualifier &&& ~~~7#32) &&& 0x0001FF80#32 != 0#32)) = true ↔ Required y := by
      rw [Bool.or_eq_true, Bool.and_eq_true, required_mask, beq_iff_eq, beq_iff_eq]; rfl
    have hD : (y.maint == 2 || (y.maint == 3 && (BitVec.ofNat 32 y.qualifier &&& ~~~7#32) &&& 0x07FE0000#32 != 0#32)) = true ↔ Demanded y := by
      rw [Bool.or_eq_true, Bool.and_eq_true, demanded_mask, beq_iff_eq, beq_iff_eq]; rfl
    have hF : (y.maint == 0 || (y.maint == 3 && (BitVec.ofNat 32 y.qualifier &&& ~~~7#32) &&& 0xF8000000#32 != 0#32)) = true ↔ Faulty y := by
      rw [Bool.or_eq_true, Bool.and_eq_true, fault_mask, beq_iff_eq, beq_iff_eq]; rfl
    generalize (y.maint == 1 || (y.maint == 3 && (BitVec.ofNat 32 y.qualifier &&& ~~~7#32) &&& 0x0001FF80#32 != 0#32)) = r at hR ⊢
    generalize (y.maint == 2 || (y.maint == 3 && (BitVec.ofNat 32 y.qualifier &&& ~~~7#32) &&& 0x07FE0000#32 != 0#32)) = dd at hD ⊢
    generalize (y.maint == 0 || (y.maint == 3 && (BitVec.ofNat 32 y.qualifier &&& ~~~7#32) &&& 0xF8000000#32 != 0#32)) = f at hF ⊢
    obtain ⟨h1, h2, h3, h4, h5, h6, h7, h8⟩ := h
    refine ⟨?_, ?_, ?_, ?_, ?_, ?_, ?_, ?_⟩
    · rw [ex_snoc]
      exact ⟨fun _ => Or.inr ⟨y, rfl⟩, fun _ => by simp [gs]⟩
    · rw [ex_snoc, ← h2]
      exact ⟨fun h => Or.inl h, fun h => h.resolve_right hm⟩
    · rw [ex_snoc, hr, ← h3, ← hF]
      cases f
      · simp
      · simp [gs]
    · rw [ex_snoc, hr, ← hF, and_or_left, ← h4]
      cases f
      · simp
      · cases same
        · have hno : ¬ own := fun h => by simpa using hs.2 h
          simp [hno]
        · have hown : own := hs.1 rfl
          simp [hown, gs]
    · rw [ex_snoc, hr, ← h5, ← hR]
      show BitVec.getLsbD _ 0 = true ↔ _
      rw [maint_bit (by omega)]
      simp
    · rw [ex_snoc, hr, ← h6, ← hD]
      show BitVec.getLsbD _ 1 = true ↔ _
      rw [maint_bit (by omega)]
      simp
    · show BitVec.getLsbD _ 2 = false
      rw [maint_bit (by omega), h7]
      simp
    · intro i a b
      rw [ex_snoc, hr, ← h8 i a b]
      show BitVec.getLsbD _ i = true ↔ _
      rw [maint_bit (by omega)]
      have e1 : i ≠ 0 := by omega
      have e2 : i ≠ 1 := by omega
      simp [a, e1, e2]

theorem summaryLoop_spec {T : Prop} {items : List Item} {own : Prop} {same : Bool} (hs : same = true ↔ own) (hn : items.length ≤ nul) :
    ∀ (ixs : List Nat) (l : List (Nat × Fmt)) (h : Nat) (f : Nat) (s : ASpec) (m : U32), Chain items h ixs → ixs.length < f →
      (∀ i ∈ ixs, ∀ it, items[i]? = some it → GoodCont T (it.usi, it.fmt)) → Summarises l own s m →
      ∃ x, summaryLoop items same f h (s, m) = some x ∧
        Summarises (l ++ ixs.filterMap (fun i => (items[i]?).map (fun it => (it.usi, it.fmt)))) own x.1 x.2 := by
  intro ixs
  induction ixs with
  | nil =>
    intro l h f s m hc hf hg hsum
    cases f with
    | zero => simp at hf
    | succ f =>
      have : items[h]? = none := by rw [List.getElem?_eq_none_iff, hc]; exact hn
      refine ⟨(s, m), by simp only [summaryLoop, this], ?_⟩
      simpa using hsum
  | cons a ixs ih =>
    intro l h f s m hc hf hg hsum
    cases f with
    | zero => simp at hf
    | succ f =>
      obtain ⟨rfl, it, hi, hl⟩ := hc
      obtain ⟨⟨s', m'⟩, hx, hsum'⟩ := addSummary_spec hsum hs (hg h (by simp) it hi)
      obtain ⟨y, hy, hfin⟩ := ih _ it.next f s' m' hl (by simpa using hf) (fun i him => hg i (by simp [him])) hsum'
      refine ⟨y, by simp only [summaryLoop, hi, hx, Option.bind_some]; exact hy, ?_⟩
      rw [List.filterMap_cons, hi]
      simp only [Option.map_some]
      rw [List.append_assoc] at hfin
      exact hfin

/--
**C106**.  For every history of diagnoses, connections and pulled and plugged submodules, every place and every connection:
the summary computed for an alarm terminates, and describes exactly the diagnoses the place has at this time.
-/
theorem C106_summary_describes_diagnoses {maxData n : Nat} (hn : n ≤ 65535) {ops : List Op} {st : Diag.St}
    (h : exec maxData (init n) ops = some st) (ar : Nat) (p : Diag.Place) :
    ∃ s m, summary st ar p = some (s, m) ∧
      Summarises (listing st p) (∃ x, st.subs p = some x ∧ x.owner = some ar) s m := by
  obtain ⟨st', F, L, h1, h2, _⟩ := run_inv False (maxData := maxData) (ops := ops) hn (fun h => h.elim)
  rw [h] at h1
  cases Option.some.inj h1
  unfold summary listing
  cases hs : st.subs p with
  | none =>
    refine ⟨_, _, rfl, ?_⟩
    exact summarises_nil _
  | some x =>
    simp only
    have hc := h2.lists.chain p x hs
    rw [h2.lists.walk hs]
    have ho : ((x.owner == some ar) = true) ↔ ∃ y, some x = some y ∧ y.owner = some ar := by
      rw [beq_iff_eq]
      exact ⟨fun h => ⟨x, rfl, h⟩, fun ⟨y, hy, h⟩ => by cases hy; exact h⟩
    obtain ⟨⟨s, m⟩, e, hsum⟩ := summaryLoop_spec (T := False) ho h2.lists.len (L p) [] x.head (st.items.length + 1) _ _ hc
      (Nat.lt_succ_of_le (nodup_length_le (h2.lists.nd p) hc.mem_lt))
      (fun i hi it hit => (h2.cont_of hi hit).2) (summarises_nil _)
    exact ⟨s, m, e, by simpa using hsum⟩

/-- The summary is determined by what it has to describe. -/
theorem C106_summary_unique {l : List (Nat × Fmt)} {own : Prop} {s s' : ASpec} {m m' : U32} (h : Summarises l own s m)
    (h' : Summarises l own s' m') : s = s' ∧ m = m' := by
  obtain ⟨a1, a2, a3, a4⟩ := s
  obtain ⟨b1, b2, b3, b4⟩ := s'
  constructor
  · have e1 := Bool.eq_iff_iff.2 (h.channel.trans h'.channel.symm)
    have e2 := Bool.eq_iff_iff.2 (h.manufacturer.trans h'.manufacturer.symm)
    have e3 := Bool.eq_iff_iff.2 (h.submodule.trans h'.submodule.symm)
    have e4 := Bool.eq_iff_iff.2 (h.ar.trans h'.ar.symm)
    simp only at e1 e2 e3 e4
    rw [e1, e2, e3, e4]
  · apply BitVec.eq_of_getLsbD_eq
    intro i hi
    have : i = 0 ∨ i = 1 ∨ i = 2 ∨ 3 ≤ i := by omega
    rcases this with rfl | rfl | rfl | h3
    · exact Bool.eq_iff_iff.2 (h.required.trans h'.required.symm)
    · exact Bool.eq_iff_iff.2 (h.demanded.trans h'.demanded.symm)
    · rw [h.reserved, h'.reserved]
    · exact Bool.eq_iff_iff.2 ((h.qualifier i h3 hi).trans (h'.qualifier i h3 hi).symm)

end Verif.AlarmPdu
