import Verif.Scheduler.Model
import Mathlib.Data.List.Perm.Subperm
/-! Index-linked lists as Lean lists. -/
set_option linter.unusedSimpArgs false
set_option linter.unusedVariables false
namespace Verif.Scheduler

/-- `L` is a doubly linked segment: entered at `q` with predecessor `p`, left with predecessor
`p'` towards `q'`. -/
def Seg (sl : Nat → Slot) : Nat → Nat → List Nat → Nat → Nat → Prop
  | p, q, [], p', q' => p = p' ∧ q = q'
  | p, q, i :: L, p', q' => q = i ∧ (sl i).prev = p ∧ Seg sl i (sl i).next L p' q'

theorem seg_append (sl : Nat → Slot) (A B : List Nat) : ∀ p q p' q',
    Seg sl p q (A ++ B) p' q' ↔ ∃ pm qm, Seg sl p q A pm qm ∧ Seg sl pm qm B p' q' := by
  induction A with
  | nil =>
    intro p q p' q'
    simp only [List.nil_append, Seg]
    exact ⟨fun h => ⟨p, q, ⟨rfl, rfl⟩, h⟩, fun ⟨_, _, ⟨h1, h2⟩, h⟩ => by subst h1 h2; exact h⟩
  | cons a A ih =>
    intro p q p' q'
    simp only [List.cons_append, Seg, ih]
    constructor
    · rintro ⟨h1, h2, pm, qm, h3, h4⟩; exact ⟨pm, qm, ⟨h1, h2, h3⟩, h4⟩
    · rintro ⟨pm, qm, ⟨h1, h2, h3⟩, h4⟩; exact ⟨h1, h2, pm, qm, h3, h4⟩

/-- A segment depends only on the links of its members. -/
theorem seg_congr {sl sl' : Nat → Slot} (L : List Nat) : ∀ {p q p' q'},
    (∀ i ∈ L, (sl' i).prev = (sl i).prev ∧ (sl' i).next = (sl i).next) →
    Seg sl p q L p' q' → Seg sl' p q L p' q' := by
  induction L with
  | nil => intro p q p' q' _ h; exact h
  | cons a L ih =>
    intro p q p' q' h hs
    have ha := h a (by simp)
    refine ⟨hs.1, ha.1 ▸ hs.2.1, ?_⟩
    rw [ha.2]
    exact ih (fun i hi => h i (by simp [hi])) hs.2.2

/-- `L` is the list headed by `q` (null pointer `N`). -/
structure Chain (N : Nat) (sl : Nat → Slot) (q : Nat) (L : List Nat) : Prop where
  seg : ∃ p', Seg sl N q L p' N
  lt : ∀ i ∈ L, i < N
  nd : L.Nodup

theorem Chain.congr {N sl sl' q L} (h : Chain N sl q L)
    (e : ∀ i ∈ L, (sl' i).prev = (sl i).prev ∧ (sl' i).next = (sl i).next) : Chain N sl' q L :=
  ⟨h.seg.imp fun _ hs => seg_congr L e hs, h.lt, h.nd⟩

theorem Chain.head_nil {N sl q} (h : Chain N sl q []) : q = N := by
  obtain ⟨p, hs⟩ := h.seg; exact hs.2

theorem Chain.head_cons {N sl q i L} (h : Chain N sl q (i :: L)) : q = i := by
  obtain ⟨p, hs⟩ := h.seg; exact hs.1

theorem Chain.lt_iff {N sl q L} (h : Chain N sl q L) : q < N ↔ L ≠ [] := by
  cases L with
  | nil => simp [h.head_nil]
  | cons i L => have := h.head_cons; have := h.lt i (by simp); simp; omega

theorem nodup_length_le {N : Nat} : ∀ {L : List Nat}, L.Nodup → (∀ i ∈ L, i < N) → L.length ≤ N := by
  intro L hnd hlt
  have hsub : L ⊆ List.range N := fun i hi => List.mem_range.2 (hlt i hi)
  have := (List.Nodup.subperm hnd hsub).length_le
  simpa using this

theorem isLinkedLoop_seg {N sl ix} (L : List Nat) : ∀ {fuel p q p'} (r : Bool),
    Seg sl p q L p' N → (∀ i ∈ L, i < N) → L.length ≤ fuel →
    isLinkedLoop N sl ix fuel q r = some (r || L.contains ix) := by
  induction L with
  | nil =>
    intro fuel p q p' r hs _ _
    have : ¬ q < N := by have := hs.2; omega
    unfold isLinkedLoop; simp [this]
  | cons a L ih =>
    intro fuel p q p' r hs hlt hf
    obtain ⟨rfl, _, hs⟩ := hs
    cases fuel with
    | zero => simp at hf
    | succ fuel =>
      unfold isLinkedLoop
      rw [if_pos (hlt _ (by simp))]
      simp only
      rw [ih _ hs (fun i hi => hlt i (by simp [hi])) (by simpa using hf)]
      rw [Bool.or_assoc, List.contains_cons, BEq.comm]

theorem isLinked_chain {N sl q L ix} (h : Chain N sl q L) (hix : ix < N) :
    isLinked N sl q ix = some (L.contains ix) := by
  obtain ⟨p', hs⟩ := h.seg
  simp [isLinked, hix, isLinkedLoop_seg L false hs h.lt (nodup_length_le h.nd h.lt)]

/-- Two slots agree on everything but the links. -/
def SameData (a b : Slot) : Prop :=
  a.inUse = b.inUse ∧ a.name = b.name ∧ a.cb = b.cb ∧ a.when = b.when

theorem SameData.rfl' {a : Slot} : SameData a a := ⟨rfl, rfl, rfl, rfl⟩

theorem seg_set_tail_next {sl : Nat → Slot} {A : List Nat} {p q a q' : Nat} {n : Nat}
    (hs : Seg sl p q (A ++ [a]) a q') (hnd : a ∉ A) (sl' : Nat → Slot)
    (e : ∀ i, i ≠ a → (sl' i).prev = (sl i).prev ∧ (sl' i).next = (sl i).next)
    (ep : (sl' a).prev = (sl a).prev) (en : (sl' a).next = n) :
    Seg sl' p q (A ++ [a]) a n := by
  rw [seg_append] at hs ⊢
  obtain ⟨pm, qm, h1, h2⟩ := hs
  refine ⟨pm, qm, seg_congr A (fun i hi => e i (fun h => hnd (h ▸ hi))) h1, ?_⟩
  simp only [Seg] at h2 ⊢
  exact ⟨h2.1, by rw [ep]; exact h2.2.1, trivial, en⟩

theorem seg_set_head_prev {sl : Nat → Slot} {B : List Nat} {p b p' q' : Nat} {m : Nat} {q : Nat}
    (hs : Seg sl p q (b :: B) p' q') (hnd : b ∉ B) (sl' : Nat → Slot)
    (e : ∀ i, i ≠ b → (sl' i).prev = (sl i).prev ∧ (sl' i).next = (sl i).next)
    (ep : (sl' b).prev = m) (en : (sl' b).next = (sl b).next) :
    Seg sl' m q (b :: B) p' q' := by
  obtain ⟨h1, h2, h3⟩ := hs
  refine ⟨h1, ep, ?_⟩
  rw [en]
  exact seg_congr B (fun i hi => e i (fun h => hnd (h ▸ hi))) h3

theorem seg_last {sl : Nat → Slot} {A : List Nat} {a p q pm qm : Nat}
    (h : Seg sl p q (A ++ [a]) pm qm) : pm = a := by
  rw [seg_append] at h
  obtain ⟨_, _, _, h2⟩ := h
  exact h2.2.2.1.symm

theorem list_snoc_cases (A : List Nat) : A = [] ∨ ∃ A' a, A = A' ++ [a] := by
  rcases List.eq_nil_or_concat A with h | ⟨A', a, h⟩
  · exact .inl h
  · exact .inr ⟨A', a, by simpa using h⟩

/-- The effect of unlinking a member of a list. -/
theorem unlink_spec {N sl q A ix B} (h : Chain N sl q (A ++ ix :: B)) :
    ∃ sl' q', unlink N sl q ix = some (sl', q') ∧ Chain N sl' q' (A ++ B) ∧
      (∀ i, SameData (sl' i) (sl i)) ∧
      (∀ i, i ∉ A ++ B → sl' i = sl i) := by
  have hix : ix < N := h.lt ix (by simp)
  have hl := isLinked_chain h hix
  have hc : (A ++ ix :: B).contains ix = true := by simp
  rw [hc] at hl
  obtain ⟨p', hs⟩ := h.seg
  obtain ⟨pm, qm, hsA, hqm, hprev, hsB⟩ := (seg_append ..).1 hs
  rw [hqm] at hsA
  have hnd := h.nd
  have hndA : A.Nodup := (List.nodup_append.1 hnd).1
  have hndB : (ix :: B).Nodup := (List.nodup_append.1 hnd).2.1
  have hixB : ix ∉ B := (List.nodup_cons.1 hndB).1
  have hB : B.Nodup := (List.nodup_cons.1 hndB).2
  have hdis : ∀ a ∈ A, ∀ b ∈ ix :: B, a ≠ b := (List.nodup_append.1 hnd).2.2
  have hixA : ix ∉ A := fun hh => hdis ix hh ix (by simp) rfl
  have hlt := h.lt
  have hlt' : ∀ i ∈ A ++ B, i < N := by
    intro i hi; apply hlt; simp at hi ⊢; rcases hi with hi | hi <;> simp [hi]
  have hnd' : (A ++ B).Nodup := by
    rw [List.nodup_append]
    exact ⟨hndA, hB, fun a ha b hb => hdis a ha b (by simp [hb])⟩
  rcases list_snoc_cases A with rfl | ⟨A', a, rfl⟩
  · -- unlink the head
    obtain ⟨hA1, hA2⟩ := hsA
    subst hA1
    have hA2 := hA2.symm
    subst hA2
    have hpN : ¬ (sl ix).prev < N := by omega
    cases B with
    | nil =>
      obtain ⟨_, hn⟩ := hsB
      have hnN : ¬ (sl ix).next < N := by omega
      refine ⟨sl, (sl ix).next, ?_, ⟨⟨N, rfl, hn⟩, by simp, by simp⟩, fun i => SameData.rfl', fun i _ => rfl⟩
      simp [unlink, Nat.not_le.2 hix, hl, rd, hix, hnN, hpN]
    | cons b B' =>
      have hb : (sl ix).next = b := hsB.1
      have hbN : b < N := hlt b (by simp)
      refine ⟨fun j => if j = b then { sl j with prev := (sl ix).prev } else sl j, b, ?_, ?_, ?_, ?_⟩
      · simp [unlink, Nat.not_le.2 hix, hl, rd, hix, hpN, hb, hbN, wr]
      · refine ⟨⟨p', ?_⟩, hlt', hnd'⟩
        have hbB : b ∉ B' := (List.nodup_cons.1 hB).1
        have := seg_set_head_prev (m := N) hsB hbB
          (fun j => if j = b then { sl j with prev := (sl ix).prev } else sl j)
          (fun i hi => by simp [hi]) (by simp [hprev]) (by simp)
        rw [hb] at this
        simpa using this
      · intro i; by_cases hi : i = b <;> simp [hi, SameData]
      · intro i hi
        have : i ≠ b := by rintro rfl; exact hi (by simp)
        simp [this]
  · have hpm : pm = a := seg_last hsA
    subst hpm
    have haN : pm < N := hlt pm (by simp)
    have hqne : q ≠ ix := by
      rintro rfl
      cases A' with
      | nil => exact hixA (by have := hsA.1; simp [this])
      | cons c A'' => exact hixA (by have := hsA.1; simp [this])
    have haA' : pm ∉ A' := by
      have := (List.nodup_append.1 hndA).2.2
      intro hh; exact this pm hh pm (by simp) rfl
    cases B with
    | nil =>
      obtain ⟨_, hn⟩ := hsB
      have hnN : ¬ (sl ix).next < N := by omega
      refine ⟨fun j => if j = pm then { sl j with next := (sl ix).next } else sl j, q, ?_, ?_, ?_, ?_⟩
      · simp [unlink, Nat.not_le.2 hix, hl, rd, hix, hnN, hprev, haN, wr, hqne]
      · refine ⟨⟨pm, ?_⟩, hlt', hnd'⟩
        have := seg_set_tail_next (n := N) hsA haA'
          (fun j => if j = pm then { sl j with next := (sl ix).next } else sl j)
          (fun i hi => by simp [hi]) (by simp) (by simp [hn])
        simpa using this
      · intro i; by_cases hi : i = pm <;> simp [hi, SameData]
      · intro i hi
        have : i ≠ pm := by rintro rfl; exact hi (by simp)
        simp [this]
    | cons b B' =>
      have hb : (sl ix).next = b := hsB.1
      have hbN : b < N := hlt b (by simp)
      have hbB : b ∉ B' := (List.nodup_cons.1 hB).1
      have hab : pm ≠ b := hdis pm (by simp) b (by simp)
      have hbA : b ∉ A' ++ [pm] := fun hh => hdis b hh b (by simp) rfl
      have hpmB : pm ∉ B' := fun hh => hdis pm (by simp) pm (by simp [hh]) rfl
      refine ⟨fun j => if j = pm then { (if j = b then { sl j with prev := pm } else sl j) with next := b }
          else (if j = b then { sl j with prev := pm } else sl j), q, ?_, ?_, ?_, ?_⟩
      · simp [unlink, Nat.not_le.2 hix, hl, rd, hix, hprev, haN, wr, hqne, hb, hbN]
      · refine ⟨⟨p', ?_⟩, hlt', hnd'⟩
        rw [seg_append]
        refine ⟨pm, b, ?_, ?_⟩
        · have h1 : Seg (fun j => if j = b then { sl j with prev := pm } else sl j) N q (A' ++ [pm]) pm ix :=
            seg_congr _ (fun i hi => by
              have : i ≠ b := fun hh => hbA (hh ▸ hi)
              simp [this]) hsA
          exact seg_set_tail_next (n := b) h1 haA' _
            (fun i hi => by simp [hi]) (by simp) (by simp)
        · have h1 := seg_set_head_prev (m := pm) hsB hbB
            (fun j => if j = b then { sl j with prev := pm } else sl j)
            (fun i hi => by simp [hi]) (by simp) (by simp)
          rw [hb] at h1
          exact seg_congr _ (fun i hi => by
            have : i ≠ pm := by
              rintro rfl
              rcases List.mem_cons.1 hi with h | h
              · exact hab h
              · exact hpmB h
            simp [this]) h1
      · intro i
        by_cases hi : i = pm <;> by_cases hi2 : i = b <;> simp [hi, hi2, SameData] <;> split <;> simp
      · intro i hi
        have h1 : i ≠ pm := by rintro rfl; exact hi (by simp)
        have h2 : i ≠ b := by rintro rfl; exact hi (by simp)
        simp [h1, h2]

/-- Unlinking with the null index (empty free list) does nothing. -/
theorem unlink_null {N sl q} (ix : Nat) (h : N ≤ ix) : unlink N sl q ix = some (sl, q) := by
  simp [unlink, h]

theorem pushFront_spec {N sl q L ix} (h : Chain N sl q L) (hix : ix < N) (hn : ix ∉ L) :
    ∃ sl', pushFront N sl q ix = some (sl', ix) ∧ Chain N sl' ix (ix :: L) ∧
      (∀ i, SameData (sl' i) (sl i)) ∧ (∀ i, i ∉ ix :: L → sl' i = sl i) := by
  obtain ⟨p', hs⟩ := h.seg
  cases L with
  | nil =>
    obtain ⟨_, hq⟩ := hs
    refine ⟨_, by simp [pushFront, wr, hix, hq]; rfl, ?_, ?_, ?_⟩
    · exact ⟨⟨ix, by simp [Seg, hq]⟩, by simp [hix], by simp⟩
    · intro i; by_cases hi : i = ix <;> simp [hi, SameData]
    · intro i hi
      have : i ≠ ix := by simpa using hi
      simp [this]
  | cons b B =>
    have hb : q = b := hs.1
    subst hb
    have hbN : q < N := h.lt q (by simp)
    have hbi : q ≠ ix := fun e => hn (by simp [e])
    have hqB : q ∉ B := (List.nodup_cons.1 h.nd).1
    have hixB : ix ∉ B := fun e => hn (by simp [e])
    refine ⟨_, by simp [pushFront, wr, hix, hbN]; rfl, ?_, ?_, ?_⟩
    · refine ⟨⟨p', ?_⟩, ?_, ?_⟩
      · refine ⟨rfl, by simp [hbi.symm], ?_⟩
        simp only [if_neg hbi.symm, if_true]
        have h1 := seg_set_head_prev (m := ix) hs hqB
            (fun j => if j = q then { sl j with prev := ix } else sl j)
            (fun i hi => by simp [hi]) (by simp) (by simp)
        refine seg_congr _ (fun i hi => ?_) h1
        have : i ≠ ix := by
          rintro rfl
          exact hn hi
        by_cases h2 : i = q <;> simp [this, h2, hbi]
      · intro i hi
        rcases List.mem_cons.1 hi with rfl | hi
        · exact hix
        · exact h.lt i hi
      · exact List.nodup_cons.2 ⟨hn, h.nd⟩
    · intro i; by_cases hi : i = ix <;> by_cases h2 : i = q <;> simp [hi, h2, SameData] <;> split <;> simp
    · intro i hi
      have h1 : i ≠ ix := by rintro rfl; exact hi (by simp)
      have h2 : i ≠ q := by rintro rfl; exact hi (by simp)
      simp [h1, h2]

/-- `link_before (q, ix, q)`: the way the code pushes to the front. -/
theorem linkBefore_front {N sl q L ix} (h : Chain N sl q L) (hix : ix < N) (hn : ix ∉ L) :
    ∃ sl', linkBefore N sl q ix q = some (sl', ix) ∧ Chain N sl' ix (ix :: L) ∧
      (∀ i, SameData (sl' i) (sl i)) ∧ (∀ i, i ∉ ix :: L → sl' i = sl i) := by
  have hl := isLinked_chain h hix
  have hc : L.contains ix = false := by simpa using hn
  rw [hc] at hl
  by_cases hq : q ≥ N
  · obtain ⟨sl', e, r⟩ := pushFront_spec h hix hn
    exact ⟨sl', by simp [linkBefore, Nat.not_le.2 hix, hl, hq, e], r⟩
  · have hq' : q < N := by omega
    cases L with
    | nil => exact absurd (h.lt_iff.1 hq') (by simp)
    | cons b B =>
      obtain ⟨p', hs⟩ := h.seg
      have hb : q = b := hs.1
      subst hb
      have hpv : (sl q).prev = N := hs.2.1
      have hbi : q ≠ ix := fun e => hn (by simp [e])
      have hqB : q ∉ B := (List.nodup_cons.1 h.nd).1
      refine ⟨_, by
        simp [linkBefore, Nat.not_le.2 hix, hl, hq, rd, hq', hpv, wr, hix]; rfl, ?_, ?_, ?_⟩
      · refine ⟨⟨p', ?_⟩, ?_, ?_⟩
        · refine ⟨rfl, by simp, ?_⟩
          simp only [if_true]
          have h1 := seg_set_head_prev (m := ix) hs hqB
            (fun j => if j = q then { sl j with prev := ix } else sl j)
            (fun i hi => by simp [hi]) (by simp) (by simp)
          refine seg_congr _ (fun i hi => ?_) h1
          have : i ≠ ix := by
            rintro rfl
            exact hn hi
          by_cases h2 : i = q <;> simp [this, h2, hbi]
        · intro i hi
          rcases List.mem_cons.1 hi with rfl | hi
          · exact hix
          · exact h.lt i hi
        · exact List.nodup_cons.2 ⟨hn, h.nd⟩
      · intro i; by_cases hi : i = ix <;> by_cases h2 : i = q <;> simp [hi, h2, SameData] <;> split <;> simp
      · intro i hi
        have h1 : i ≠ ix := by rintro rfl; exact hi (by simp)
        have h2 : i ≠ q := by rintro rfl; exact hi (by simp)
        simp [h1, h2]

/-- `link_before (q, ix, N)` on an empty list. -/
theorem linkBefore_null {N sl q L ix} (h : Chain N sl q L) (hix : ix < N) (hn : ix ∉ L) :
    ∃ sl', linkBefore N sl q ix N = some (sl', ix) ∧ Chain N sl' ix (ix :: L) ∧
      (∀ i, SameData (sl' i) (sl i)) ∧ (∀ i, i ∉ ix :: L → sl' i = sl i) := by
  have hl := isLinked_chain h hix
  have hc : L.contains ix = false := by simpa using hn
  rw [hc] at hl
  obtain ⟨sl', e, r⟩ := pushFront_spec h hix hn
  exact ⟨sl', by simp [linkBefore, Nat.not_le.2 hix, hl, e], r⟩

/-- `link_after (q, ix, pos)` with `pos` a member. -/
theorem linkAfter_spec {N sl q A pos B ix} (h : Chain N sl q (A ++ pos :: B)) (hix : ix < N)
    (hn : ix ∉ A ++ pos :: B) :
    ∃ sl', linkAfter N sl q ix pos = some (sl', q) ∧ Chain N sl' q (A ++ pos :: ix :: B) ∧
      (∀ i, SameData (sl' i) (sl i)) ∧ (∀ i, i ∉ A ++ pos :: ix :: B → sl' i = sl i) := by
  have hl := isLinked_chain h hix
  have hc : (A ++ pos :: B).contains ix = false := by simpa using hn
  rw [hc] at hl
  have hpN : pos < N := h.lt pos (by simp)
  have hqN : q < N := h.lt_iff.2 (by simp)
  obtain ⟨p', hs⟩ := h.seg
  obtain ⟨pm, qm, hsA, hqm, hprev, hsB⟩ := (seg_append ..).1 hs
  subst hqm
  have hnd := h.nd
  have hndB : (qm :: B).Nodup := (List.nodup_append.1 hnd).2.1
  have hqB : qm ∉ B := (List.nodup_cons.1 hndB).1
  have hB : B.Nodup := (List.nodup_cons.1 hndB).2
  have hdis : ∀ a ∈ A, ∀ b ∈ qm :: B, a ≠ b := (List.nodup_append.1 hnd).2.2
  have hixq : ix ≠ qm := fun e => hn (by simp [e])
  have hixA : ix ∉ A := fun e => hn (by simp [e])
  have hixB : ix ∉ B := fun e => hn (by simp [e])
  have hlt' : ∀ i ∈ A ++ qm :: ix :: B, i < N := by
    intro i hi
    simp only [List.mem_append, List.mem_cons] at hi
    rcases hi with hi | rfl | rfl | hi
    · exact h.lt i (by simp [hi])
    · exact hpN
    · exact hix
    · exact h.lt i (by simp [hi])
  have hnd' : (A ++ qm :: ix :: B).Nodup := by
    rw [List.nodup_append]
    refine ⟨(List.nodup_append.1 hnd).1, ?_, ?_⟩
    · simp only [List.nodup_cons, List.mem_cons, not_or]
      exact ⟨⟨hixq.symm, hqB⟩, hixB, hB⟩
    · intro a ha b hb
      simp only [List.mem_cons] at hb
      rcases hb with rfl | rfl | hb
      · exact hdis a ha b (by simp)
      · rintro rfl; exact hixA ha
      · exact hdis a ha b (by simp [hb])
  cases B with
  | nil =>
    obtain ⟨_, hnN⟩ := hsB
    have hnN' : ¬ (sl qm).next < N := by omega
    refine ⟨_, by
      simp [linkAfter, Nat.not_le.2 hix, hl, Nat.not_le.2 hpN, Nat.not_le.2 hqN, rd, hpN, hnN', wr, hix]; rfl,
      ?_, ?_, ?_⟩
    · refine ⟨⟨ix, (seg_append ..).2 ⟨pm, qm, ?_, ?_⟩⟩, hlt', hnd'⟩
      · refine seg_congr _ (fun i hi => ?_) hsA
        have h1 : i ≠ ix := fun e => hixA (e ▸ hi)
        have h2 : i ≠ qm := hdis i hi qm (by simp)
        simp [h1, h2]
      · simp [Seg, hixq.symm, hprev, hnN]
    · intro i; by_cases hi : i = ix <;> by_cases h2 : i = qm <;> simp [hi, h2, SameData] <;> split <;> simp
    · intro i hi
      have h1 : i ≠ ix := by rintro rfl; exact hi (by simp)
      have h2 : i ≠ qm := by rintro rfl; exact hi (by simp)
      simp [h1, h2]
  | cons b B' =>
    have hb : (sl qm).next = b := hsB.1
    have hbN : b < N := h.lt b (by simp)
    have hbq : b ≠ qm := fun e => hqB (by simp [e])
    have hbix : b ≠ ix := fun e => hixB (by simp [e])
    have hbB : b ∉ B' := (List.nodup_cons.1 hB).1
    have hixB' : ix ∉ B' := fun e => hixB (by simp [e])
    have hqB' : qm ∉ B' := fun e => hqB (by simp [e])
    refine ⟨_, by
      simp [linkAfter, Nat.not_le.2 hix, hl, Nat.not_le.2 hpN, Nat.not_le.2 hqN, rd, hpN, hb, hbN, wr, hix]; rfl,
      ?_, ?_, ?_⟩
    · refine ⟨⟨p', (seg_append ..).2 ⟨pm, qm, ?_, ?_⟩⟩, hlt', hnd'⟩
      · refine seg_congr _ (fun i hi => ?_) hsA
        have h1 : i ≠ ix := fun e => hixA (e ▸ hi)
        have h2 : i ≠ qm := hdis i hi qm (by simp)
        have h3 : i ≠ b := hdis i hi b (by simp)
        simp [h1, h2, h3]
      · refine ⟨rfl, by simp [hixq.symm, hbq.symm, hprev], ?_⟩
        simp only [hixq.symm, hbq.symm, if_false, if_true]
        refine ⟨rfl, by simp, ?_⟩
        simp only [if_true]
        have h1 := seg_set_head_prev (m := ix) hsB hbB
            (fun j => if j = b then { sl j with prev := ix } else sl j)
            (fun i hi => by simp [hi]) (by simp) (by simp)
        rw [hb] at h1
        refine seg_congr _ (fun i hi => ?_) h1
        have h2 : i ≠ ix := fun e => hixB (e ▸ hi)
        have h3 : i ≠ qm := fun e => hqB (e ▸ hi)
        simp [h2, h3]
    · intro i
      by_cases hi : i = ix <;> by_cases h2 : i = qm <;> by_cases h3 : i = b <;>
        simp [hi, h2, h3, SameData] <;> (repeat' split) <;> simp
    · intro i hi
      have h1 : i ≠ ix := by rintro rfl; exact hi (by simp)
      have h2 : i ≠ qm := by rintro rfl; exact hi (by simp)
      have h3 : i ≠ b := by rintro rfl; exact hi (by simp)
      simp [h1, h2, h3]

/-- The search loop stops behind the maximal prefix of earlier timers. -/
theorem findPos_spec {N sl w} (L : List Nat) : ∀ {fuel p q p'},
    Seg sl p q L p' N → (∀ i ∈ L, i < N) → L.length ≤ fuel →
    findPos N sl w fuel p q =
      some ((L.takeWhile (fun i => decide (sdiff w (sl i).when > 0))).getLast?.getD p) := by
  induction L with
  | nil =>
    intro fuel p q p' hs _ _
    have : ¬ q < N := by have := hs.2; omega
    unfold findPos; simp [this]
  | cons a L ih =>
    intro fuel p q p' hs hlt hf
    obtain ⟨rfl, _, hs⟩ := hs
    have hqN : q < N := hlt q (by simp)
    by_cases hc : sdiff w (sl q).when > 0
    · cases fuel with
      | zero => simp at hf
      | succ fuel =>
        unfold findPos
        rw [if_pos ⟨hqN, hc⟩]
        simp only
        rw [ih hs (fun i hi => hlt i (by simp [hi])) (by simpa using hf)]
        rw [List.takeWhile_cons_of_pos (by simpa using hc)]
        simp [List.getLast?_cons]
    · unfold findPos
      rw [if_neg (fun h => hc h.2)]
      rw [List.takeWhile_cons_of_neg (by simpa using hc)]
      simp

end Verif.Scheduler
