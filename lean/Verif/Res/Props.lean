import Verif.Res.Model
import Mathlib.Data.List.Nodup
/-!
C152: the resources of a connection are returned when it ends.
-/
set_option linter.unusedSimpArgs false
set_option linter.unusedVariables false
namespace Verif.Res

/-! ## Specification -/

/-- Buffers that belong to a CR. -/
def held (c : Cr) : List Nat := c.send.toList ++ c.cpm.toList ++ c.app.toList

/-- The timer of a CR. -/
def timerOf (c : Cr) : List Timer := c.timer.toList.map fun t => ⟨t, c.ar, c.k, c.kind = .input⟩

/-- No start fails for want of memory or timers. -/
def NoFail : Op → Prop
  | .start _ l => ∀ x ∈ l, x.2 = true
  | _ => True

/-! ## Proof -/

def Wf (c : Cr) : Prop :=
  match c.kind with
  | .input => c.send ≠ none ∧ c.cpm = none ∧ c.app = none ∧ (c.run = false → c.timer = none)
  | .output => c.send = none ∧ c.timer ≠ none
  | .other => c.send = none ∧ c.cpm = none ∧ c.app = none ∧ c.timer = none

/-- The resources taken are those of the CRs `cs`. -/
structure I (st : St) (cs : List Cr) : Prop where
  b : st.bufs.Perm (cs.flatMap held)
  bn : st.bufs.Nodup
  bf : ∀ b ∈ st.bufs, b < st.next
  t : st.timers.Perm (cs.flatMap timerOf)
  tn : (st.timers.map (·.id)).Nodup
  tf : ∀ t ∈ st.timers, t.id < st.next
  pc : st.ppmCnt = cs.countP fun c => c.kind = .input
  cc : st.cpmCnt = cs.countP fun c => c.kind = .output
  pl : st.ppmLock = decide (0 < st.ppmCnt)
  cl : st.cpmLock = decide (0 < st.cpmCnt)
  wf : ∀ c ∈ cs, Wf c

theorem I.perm {st : St} {a b : List Cr} (h : I st a) (p : a.Perm b) : I st b where
  b := h.b.trans (p.flatMap_right _)
  bn := h.bn
  bf := h.bf
  t := h.t.trans (p.flatMap_right _)
  tn := h.tn
  tf := h.tf
  pc := h.pc.trans (p.countP_eq _)
  cc := h.cc.trans (p.countP_eq _)
  pl := h.pl
  cl := h.cl
  wf := fun c hc => h.wf c (p.mem_iff.2 hc)

theorem I.setCrs {st : St} {cs : List Cr} (h : I st cs) (x : List Cr) : I { st with crs := x } cs :=
  ⟨h.b, h.bn, h.bf, h.t, h.tn, h.tf, h.pc, h.cc, h.pl, h.cl, h.wf⟩

theorem startCr_ok (st : St) (cs : List Cr) (ar k : Nat) (kind : Kind) (h : I st cs) :
    ∃ st' c, startCr st ar k kind true = (st', some c) ∧ I st' (c :: cs) ∧ st'.crs = st.crs ∧
      c.ar = ar ∧ c.k = k ∧ c.kind = kind := by
  cases kind with
  | input =>
    refine ⟨_, _, rfl, ?_, rfl, rfl, rfl, rfl⟩
    constructor
    · simpa [held] using h.b
    · show (st.next :: st.bufs).Nodup
      rw [List.nodup_cons]
      exact ⟨fun hm => Nat.lt_irrefl _ (h.bf _ hm), h.bn⟩
    · intro b hb
      rcases List.mem_cons.1 hb with rfl | hb
      · exact Nat.lt_succ_self _
      · exact Nat.lt_succ_of_lt (h.bf b hb)
    · simpa [timerOf] using h.t
    · exact h.tn
    · exact fun t ht => Nat.lt_succ_of_lt (h.tf t ht)
    · show st.ppmCnt + 1 = _
      rw [h.pc]; simp
    · show st.cpmCnt = _
      rw [h.cc]; simp
    · show (if st.ppmCnt = 0 then true else st.ppmLock) = decide (0 < st.ppmCnt + 1)
      rw [h.pl]
      by_cases h0 : st.ppmCnt = 0
      · simp [h0]
      · simp [h0]; omega
    · exact h.cl
    · intro c hc
      rcases List.mem_cons.1 hc with rfl | hc
      · exact ⟨by simp, rfl, rfl, fun _ => rfl⟩
      · exact h.wf c hc
  | output =>
    refine ⟨_, _, rfl, ?_, rfl, rfl, rfl, rfl⟩
    constructor
    · simpa [held] using h.b
    · exact h.bn
    · exact fun b hb => Nat.lt_succ_of_lt (h.bf b hb)
    · simpa [timerOf] using h.t
    · show (st.next :: st.timers.map (·.id)).Nodup
      rw [List.nodup_cons]
      refine ⟨fun hm => ?_, h.tn⟩
      obtain ⟨t, ht, e⟩ := List.mem_map.1 hm
      have := h.tf t ht
      omega
    · intro t ht
      rcases List.mem_cons.1 ht with rfl | ht
      · exact Nat.lt_succ_self _
      · exact Nat.lt_succ_of_lt (h.tf t ht)
    · show st.ppmCnt = _
      rw [h.pc]; simp
    · show st.cpmCnt + 1 = _
      rw [h.cc]; simp
    · exact h.pl
    · show (if st.cpmCnt = 0 then true else st.cpmLock) = decide (0 < st.cpmCnt + 1)
      rw [h.cl]
      by_cases h0 : st.cpmCnt = 0
      · simp [h0]
      · simp [h0]; omega
    · intro c hc
      rcases List.mem_cons.1 hc with rfl | hc
      · exact ⟨rfl, by simp⟩
      · exact h.wf c hc
  | other =>
    refine ⟨st, _, rfl, ?_, rfl, rfl, rfl, rfl⟩
    constructor
    · simpa [held] using h.b
    · exact h.bn
    · exact h.bf
    · simpa [timerOf] using h.t
    · exact h.tn
    · exact h.tf
    · rw [h.pc]; simp
    · rw [h.cc]; simp
    · exact h.pl
    · exact h.cl
    · intro c hc
      rcases List.mem_cons.1 hc with rfl | hc
      · exact ⟨rfl, rfl, rfl, rfl⟩
      · exact h.wf c hc

theorem startCrs_ok (ar : Nat) : ∀ (l : List (Kind × Bool)) (k : Nat) (st : St) (cs : List Cr),
    (∀ x ∈ l, x.2 = true) → I st cs →
    ∃ st' new, startCrs ar k l st = (st', some new) ∧ I st' (new ++ cs) ∧ st'.crs = st.crs ∧
      (∀ c ∈ new, c.ar = ar ∧ k ≤ c.k) ∧ (new.map fun c => (c.ar, c.k)).Nodup ∧
      new.map (·.kind) = l.map (·.1)
  | [], k, st, cs, _, h => ⟨st, [], rfl, h, rfl, by simp, by simp, rfl⟩
  | (kind, ok) :: l, k, st, cs, hl, h => by
    have hok : ok = true := hl _ List.mem_cons_self
    subst hok
    obtain ⟨s1, c, e1, i1, q1, a1, k1, d1⟩ := startCr_ok st cs ar k kind h
    obtain ⟨s2, new, e2, i2, q2, a2, n2, d2⟩ := startCrs_ok ar l (k + 1) s1 (c :: cs)
      (fun x hx => hl x (List.mem_cons_of_mem _ hx)) i1
    refine ⟨s2, c :: new, by simp [startCrs, e1, e2], i2.perm List.perm_middle, q2.trans q1, ?_, ?_, by simp [d1, d2]⟩
    · intro x hx
      rcases List.mem_cons.1 hx with rfl | hx
      · exact ⟨a1, by omega⟩
      · exact ⟨(a2 x hx).1, by have := (a2 x hx).2; omega⟩
    · rw [List.map_cons, List.nodup_cons]
      refine ⟨fun hm => ?_, n2⟩
      obtain ⟨x, hx, e⟩ := List.mem_map.1 hm
      have h2 := (a2 x hx).2
      have : x.k = c.k := (Prod.mk.inj e).2
      omega

theorem freeBuf_ok (st : St) (b : Nat) (L : List Nat) (h : st.bufs.Perm (b :: L)) (hn : st.bufs.Nodup)
    (hf : ∀ b ∈ st.bufs, b < st.next) :
    ∃ bs, freeBuf st b = some { st with bufs := bs } ∧ bs.Perm L ∧ bs.Nodup ∧ ∀ b ∈ bs, b < st.next := by
  have hm : b ∈ st.bufs := h.mem_iff.2 List.mem_cons_self
  refine ⟨st.bufs.erase b, by simp [freeBuf, hm], ?_, hn.erase _, fun x hx => hf x (List.mem_of_mem_erase hx)⟩
  have := h.erase b
  simpa using this

theorem freeOpt_ok (st : St) (o : Option Nat) (L : List Nat) (h : st.bufs.Perm (o.toList ++ L)) (hn : st.bufs.Nodup)
    (hf : ∀ b ∈ st.bufs, b < st.next) :
    ∃ bs, freeOpt st o = some { st with bufs := bs } ∧ bs.Perm L ∧ bs.Nodup ∧ ∀ b ∈ bs, b < st.next := by
  cases o with
  | none => exact ⟨st.bufs, rfl, by simpa using h, hn, hf⟩
  | some b => exact freeBuf_ok st b L (by simpa using h) hn hf

theorem dropTimer_eq (st : St) (o : Option Nat) :
    ∃ ts, dropTimer st o = { st with timers := ts } := by
  cases o with
  | none => exact ⟨st.timers, rfl⟩
  | some t => exact ⟨_, rfl⟩

theorem dropTimer_ok (st : St) (c : Cr) (L : List Timer) (h : st.timers.Perm (timerOf c ++ L))
    (hn : (st.timers.map (·.id)).Nodup) (hf : ∀ t ∈ st.timers, t.id < st.next) :
    ∃ ts, dropTimer st c.timer = { st with timers := ts } ∧ ts.Perm L ∧ (ts.map (·.id)).Nodup ∧
      ∀ t ∈ ts, t.id < st.next := by
  cases ht : c.timer with
  | none => exact ⟨st.timers, rfl, by simpa [timerOf, ht] using h, hn, hf⟩
  | some t =>
    refine ⟨_, rfl, ?_, hn.sublist (List.filter_sublist.map _), fun x hx => hf x (List.mem_filter.1 hx).1⟩
    have hp : st.timers.Perm (⟨t, c.ar, c.k, c.kind = .input⟩ :: L) := by simpa [timerOf, ht] using h
    have hn' : ((⟨t, c.ar, c.k, c.kind = .input⟩ :: L).map (·.id)).Nodup := (hp.map _).nodup_iff.1 hn
    have hL : ∀ x ∈ L, x.id ≠ t := by
      intro x hx e
      rw [List.map_cons, List.nodup_cons] at hn'
      exact hn'.1 (List.mem_map.2 ⟨x, hx, e⟩)
    have h2 := hp.filter fun x => x.id ≠ t
    have h3 : (⟨t, c.ar, c.k, c.kind = .input⟩ :: L).filter (fun x : Timer => x.id ≠ t) = L := by
      rw [List.filter_cons]
      simp only [ne_eq, not_true, decide_false, Bool.false_eq_true, if_false]
      rw [List.filter_eq_self]
      intro x hx
      simpa using hL x hx
    rw [h3] at h2
    exact h2

theorem closeCr_ok (st : St) (c : Cr) (cs : List Cr) (h : I st (c :: cs)) :
    ∃ st', closeCr st c = some st' ∧ I st' cs ∧ st'.crs = st.crs := by
  have hw := h.wf c List.mem_cons_self
  obtain ⟨ts, d1, d2, d3, d4⟩ := dropTimer_ok st c (cs.flatMap timerOf) (by simpa using h.t) h.tn h.tf
  have hb : st.bufs.Perm (held c ++ cs.flatMap held) := by simpa using h.b
  unfold closeCr
  unfold Wf at hw
  cases hk : c.kind with
  | input =>
    rw [hk] at hw
    obtain ⟨-, w2, w3, -⟩ := hw
    obtain ⟨bs, f1, f2, f3, f4⟩ := freeOpt_ok { st with timers := ts } c.send (cs.flatMap held)
      (by simpa [held, w2, w3] using hb) h.bn h.bf
    simp only [closePpm, d1, f1]
    refine ⟨_, rfl, ?_, rfl⟩
    have hpc := h.pc
    have hcc := h.cc
    simp only [List.countP_cons, hk, decide_true, if_true] at hpc
    simp [List.countP_cons, hk] at hcc
    constructor
    · exact f2
    · exact f3
    · exact f4
    · exact d2
    · exact d3
    · exact d4
    · show st.ppmCnt - 1 = _
      rw [hpc]; simp
    · exact hcc
    · show (if st.ppmCnt = 1 then false else st.ppmLock) = decide (0 < st.ppmCnt - 1)
      rw [h.pl]
      by_cases h1 : st.ppmCnt = 1
      · simp [h1]
      · simp only [h1, if_false, decide_eq_decide]; omega
    · exact h.cl
    · exact fun x hx => h.wf x (List.mem_cons_of_mem _ hx)
  | output =>
    rw [hk] at hw
    obtain ⟨w1, -⟩ := hw
    obtain ⟨bs, f1, f2, f3, f4⟩ := freeOpt_ok { st with timers := ts } c.cpm (c.app.toList ++ cs.flatMap held)
      (by simpa [held, w1] using hb) h.bn h.bf
    obtain ⟨bs', g1, g2, g3, g4⟩ := freeOpt_ok { st with timers := ts, bufs := bs } c.app (cs.flatMap held)
      f2 f3 f4
    simp only [closeCpm, d1, f1, g1]
    refine ⟨_, rfl, ?_, rfl⟩
    have hpc := h.pc
    have hcc := h.cc
    simp only [List.countP_cons, hk, decide_true, if_true] at hcc
    simp [List.countP_cons, hk] at hpc
    constructor
    · exact g2
    · exact g3
    · exact g4
    · exact d2
    · exact d3
    · exact d4
    · exact hpc
    · show st.cpmCnt - 1 = _
      rw [hcc]; simp
    · exact h.pl
    · show (if st.cpmCnt = 1 then false else st.cpmLock) = decide (0 < st.cpmCnt - 1)
      rw [h.cl]
      by_cases h1 : st.cpmCnt = 1
      · simp [h1]
      · simp only [h1, if_false, decide_eq_decide]; omega
    · exact fun x hx => h.wf x (List.mem_cons_of_mem _ hx)
  | other =>
    rw [hk] at hw
    obtain ⟨w1, w2, w3, w4⟩ := hw
    refine ⟨st, rfl, ?_, rfl⟩
    have hpc := h.pc
    have hcc := h.cc
    simp [List.countP_cons, hk] at hpc hcc
    exact ⟨by simpa [held, w1, w2, w3] using hb, h.bn, h.bf, by simpa [timerOf, w4] using h.t, h.tn, h.tf,
      hpc, hcc, h.pl, h.cl, fun x hx => h.wf x (List.mem_cons_of_mem _ hx)⟩

theorem closeCrs_ok : ∀ (l : List Cr) (cs : List Cr) (st : St), I st (l ++ cs) →
    ∃ st', closeCrs l st = some st' ∧ I st' cs ∧ st'.crs = st.crs
  | [], cs, st, h => ⟨st, rfl, h, rfl⟩
  | c :: l, cs, st, h => by
    obtain ⟨s1, e1, i1, q1⟩ := closeCr_ok st c (l ++ cs) h
    obtain ⟨s2, e2, i2, q2⟩ := closeCrs_ok l cs s1 i1
    exact ⟨s2, by simp [closeCrs, e1, e2], i2, q2.trans q1⟩

def Keys (cs : List Cr) : Prop := (cs.map fun c => (c.ar, c.k)).Nodup

/-- The state is in order. -/
def Inv (st : St) : Prop := I st st.crs ∧ Keys st.crs

theorem split {cs : List Cr} (hk : Keys cs) {ar k : Nat} {c : Cr}
    (h : cs.find? (fun c => c.ar = ar ∧ c.k = k) = some c) (f : Cr → Cr) :
    ∃ l1 l2, cs = l1 ++ c :: l2 ∧ c.ar = ar ∧ c.k = k ∧
      cs.map (fun c => if c.ar = ar ∧ c.k = k then f c else c) = l1 ++ f c :: l2 := by
  have hp := List.find?_some h
  simp only [decide_eq_true_eq] at hp
  obtain ⟨l1, l2, e⟩ := List.append_of_mem (List.mem_of_find?_eq_some h)
  refine ⟨l1, l2, e, hp.1, hp.2, ?_⟩
  subst e
  unfold Keys at hk
  rw [List.map_append, List.map_cons, List.nodup_append, List.nodup_cons] at hk
  obtain ⟨-, ⟨n2, -⟩, n3⟩ := hk
  have id1 : ∀ l : List Cr, (∀ x ∈ l, ¬ (x.ar = ar ∧ x.k = k)) →
      l.map (fun c => if c.ar = ar ∧ c.k = k then f c else c) = l := by
    intro l hl
    rw [List.map_congr_left (g := id) fun x hx => by rw [if_neg (hl x hx)]; rfl]
    simp
  rw [List.map_append, List.map_cons, if_pos hp, id1 l1, id1 l2]
  · rintro x hx ⟨e1, e2⟩
    exact n2 (List.mem_map.2 ⟨x, hx, by rw [e1, e2, hp.1, hp.2]⟩)
  · rintro x hx ⟨e1, e2⟩
    exact n3 (x.ar, x.k) (List.mem_map.2 ⟨x, hx, rfl⟩) (c.ar, c.k) List.mem_cons_self (by rw [e1, e2, hp.1, hp.2])

theorem keys_same {l1 l2 : List Cr} {c d : Cr} (h : Keys (l1 ++ c :: l2)) (ha : d.ar = c.ar) (hk : d.k = c.k) :
    Keys (l1 ++ d :: l2) := by
  unfold Keys at h ⊢
  rw [List.map_append, List.map_cons] at h ⊢
  rw [ha, hk]; exact h

theorem inv_start (st : St) (ar : Nat) (l : List (Kind × Bool)) (hl : ∀ x ∈ l, x.2 = true) (h : Inv st) :
    Inv (start st ar l) := by
  unfold start
  by_cases ha : st.crs.any (·.ar == ar) = true
  · rw [if_pos ha]; exact h
  · rw [if_neg ha]
    obtain ⟨s1, new, e1, i1, q1, a1, n1, -⟩ := startCrs_ok ar l 0 st st.crs hl h.1
    rw [e1]
    refine ⟨?_, ?_⟩
    · show I { s1 with crs := new ++ s1.crs } (new ++ s1.crs)
      rw [q1]; exact i1.setCrs _
    · show Keys (new ++ s1.crs)
      rw [q1]
      unfold Keys
      rw [List.map_append, List.nodup_append]
      refine ⟨n1, h.2, ?_⟩
      intro x hx y hy e
      obtain ⟨c, hc, rfl⟩ := List.mem_map.1 hx
      obtain ⟨d, hd, rfl⟩ := List.mem_map.1 hy
      apply ha
      rw [List.any_eq_true]
      exact ⟨d, hd, by rw [← (Prod.mk.inj e).1, (a1 c hc).1]; simp⟩

theorem inv_close (st : St) (ar : Nat) (h : Inv st) : ∃ st', close st ar = some st' ∧ Inv st' ∧
    st'.crs = st.crs.filter (·.ar != ar) := by
  have hp : (st.crs.filter (·.ar == ar) ++ st.crs.filter (·.ar != ar)).Perm st.crs :=
    List.filter_append_perm _ _
  obtain ⟨s1, e1, i1, q1⟩ := closeCrs_ok (st.crs.filter (·.ar == ar)) (st.crs.filter (·.ar != ar))
    { st with crs := st.crs.filter (·.ar != ar) } ((h.1.perm hp.symm).setCrs _)
  refine ⟨s1, e1, ⟨by rw [q1]; exact i1, ?_⟩, q1⟩
  rw [q1]
  exact h.2.sublist (List.filter_sublist.map _)

theorem inv_activate (st : St) (ar k : Nat) (h : Inv st) : Inv (activate st ar k) := by
  unfold activate
  cases hf : st.crs.find? fun c => c.ar = ar ∧ c.k = k with
  | none => exact h
  | some c =>
    dsimp only
    split
    · rename_i hc
      obtain ⟨l1, l2, e, ha, hk, hm⟩ := split h.2 hf fun c => { c with timer := some st.next, run := true }
      have i0 : I st (c :: (l1 ++ l2)) := by
        have := h.1; rw [e] at this; exact this.perm List.perm_middle
      have hw := i0.wf c List.mem_cons_self
      unfold Wf at hw
      rw [hc.1] at hw
      refine ⟨?_, ?_⟩
      · show I _ (st.crs.map _)
        rw [hm]
        refine I.perm ?_ List.perm_middle.symm
        refine I.setCrs (st := { st with timers := ⟨st.next, ar, k, true⟩ :: st.timers, next := st.next + 1 }) ?_ _
        constructor
        · simpa [held] using i0.b
        · exact i0.bn
        · exact fun b hb => Nat.lt_succ_of_lt (i0.bf b hb)
        · have := i0.t
          simp only [List.flatMap_cons, timerOf, hw.2.2.2 hc.2, Option.toList_none, List.map_nil, List.nil_append] at this
          simp only [List.flatMap_cons, timerOf, Option.toList_some, List.map_cons, List.map_nil, ha, hk, hc.1, decide_true]
          exact List.Perm.cons _ this
        · show (st.next :: st.timers.map (·.id)).Nodup
          rw [List.nodup_cons]
          refine ⟨fun hm => ?_, i0.tn⟩
          obtain ⟨t, ht, e⟩ := List.mem_map.1 hm
          have := i0.tf t ht
          omega
        · intro t ht
          rcases List.mem_cons.1 ht with rfl | ht
          · exact Nat.lt_succ_self _
          · exact Nat.lt_succ_of_lt (i0.tf t ht)
        · simpa [List.countP_cons] using i0.pc
        · simpa [List.countP_cons] using i0.cc
        · exact i0.pl
        · exact i0.cl
        · intro x hx
          rcases List.mem_cons.1 hx with rfl | hx
          · unfold Wf; simp only [hc.1]; exact ⟨hw.1, hw.2.1, hw.2.2.1, fun e => by cases e⟩
          · exact i0.wf x (List.mem_cons_of_mem _ hx)
      · show Keys (st.crs.map _)
        rw [hm]
        have := h.2
        rw [e] at this
        exact keys_same this rfl rfl
    · exact h

theorem inv_getOut (st : St) (ar k : Nat) (h : Inv st) : ∃ st', getOut st ar k = some st' ∧ Inv st' := by
  unfold getOut
  cases hf : st.crs.find? fun c => c.ar = ar ∧ c.k = k with
  | none => exact ⟨st, rfl, h⟩
  | some c =>
    dsimp only
    by_cases hc : c.kind = .output
    · rw [if_pos hc]
      obtain ⟨l1, l2, e, ha, hk, hm⟩ := split h.2 hf fun c => { c with app := c.cpm, cpm := c.app, new := false }
      have i0 : I st (c :: (l1 ++ l2)) := by
        have := h.1; rw [e] at this; exact this.perm List.perm_middle
      have hl : st.cpmLock = true := by
        rw [i0.cl, i0.cc]; simp [List.countP_cons, hc]
      rw [if_pos hl]
      refine ⟨_, rfl, ?_⟩
      split
      · refine ⟨?_, ?_⟩
        · show I _ (st.crs.map _)
          rw [hm]
          refine I.perm ?_ List.perm_middle.symm
          refine I.setCrs (st := st) ?_ _
          have hw := i0.wf c List.mem_cons_self
          unfold Wf at hw
          rw [hc] at hw
          constructor
          · have := i0.b
            simp only [List.flatMap_cons, held] at this ⊢
            refine this.trans (List.Perm.append_right _ ?_)
            rw [List.append_assoc, List.append_assoc]
            exact List.Perm.append_left _ List.perm_append_comm
          · exact i0.bn
          · exact i0.bf
          · exact i0.t
          · exact i0.tn
          · exact i0.tf
          · simpa [List.countP_cons] using i0.pc
          · simpa [List.countP_cons] using i0.cc
          · exact i0.pl
          · exact i0.cl
          · intro x hx
            rcases List.mem_cons.1 hx with rfl | hx
            · unfold Wf; simp only [hc]; exact hw
            · exact i0.wf x (List.mem_cons_of_mem _ hx)
        · show Keys (st.crs.map _)
          rw [hm]
          have := h.2
          rw [e] at this
          exact keys_same this rfl rfl
      · exact h
    · rw [if_neg hc]; exact ⟨st, rfl, h⟩

theorem inv_setIn (st : St) (ar k : Nat) (h : Inv st) : setIn st ar k = some st := by
  unfold setIn
  cases hf : st.crs.find? fun c => c.ar = ar ∧ c.k = k with
  | none => rfl
  | some c =>
    dsimp only
    rw [if_neg]
    rintro ⟨hc, hl⟩
    have hm := List.mem_of_find?_eq_some hf
    rw [h.1.pl, h.1.pc] at hl
    have : 0 < st.crs.countP fun c => c.kind = .input := List.countP_pos_iff.2 ⟨c, hm, by simp [hc]⟩
    simp [this] at hl

theorem inv_frame (st : St) (ar k : Nat) (v : Bool) (h : Inv st) : ∃ st', frame st ar k v = some st' ∧ Inv st' := by
  unfold frame
  cases hf : st.crs.find? fun c => c.ar = ar ∧ c.k = k with
  | none => exact ⟨st, rfl, h⟩
  | some c =>
    dsimp only
    by_cases hc : c.kind = .output
    · rw [if_pos hc]
      have hfresh : st.next ∉ st.bufs := fun hm => Nat.lt_irrefl _ (h.1.bf _ hm)
      cases v with
      | false =>
        refine ⟨{ st with next := st.next + 1 }, by simp [freeBuf], ⟨?_, h.2⟩⟩
        exact ⟨h.1.b, h.1.bn, fun b hb => Nat.lt_succ_of_lt (h.1.bf b hb), h.1.t, h.1.tn,
          fun b hb => Nat.lt_succ_of_lt (h.1.tf b hb), h.1.pc, h.1.cc, h.1.pl, h.1.cl, h.1.wf⟩
      | true =>
        obtain ⟨l1, l2, e, ha, hk, hm⟩ := split h.2 hf fun c => { c with cpm := some st.next, new := true }
        have i0 : I st (c :: (l1 ++ l2)) := by
          have := h.1; rw [e] at this; exact this.perm List.perm_middle
        have hl : st.cpmLock = true := by
          rw [i0.cl, i0.cc]; simp [List.countP_cons, hc]
        have hw := i0.wf c List.mem_cons_self
        unfold Wf at hw
        rw [hc] at hw
        rw [if_pos rfl, if_pos hl]
        have hb := i0.b
        simp only [List.flatMap_cons, held, hw.1, Option.toList_none, List.nil_append] at hb
        obtain ⟨bs, f1, f2, f3, f4⟩ := freeOpt_ok
          (modCr { st with bufs := st.next :: st.bufs, next := st.next + 1 } ar k fun c => { c with cpm := some st.next, new := true })
          c.cpm (st.next :: (c.app.toList ++ (l1 ++ l2).flatMap held))
          (by
            show (st.next :: st.bufs).Perm _
            refine (List.Perm.cons _ hb).trans ?_
            rw [List.append_assoc]
            exact List.perm_middle.symm)
          (by
            show (st.next :: st.bufs).Nodup
            rw [List.nodup_cons]; exact ⟨hfresh, h.1.bn⟩)
          (by
            intro b hb
            rcases List.mem_cons.1 hb with rfl | hb
            · exact Nat.lt_succ_self _
            · exact Nat.lt_succ_of_lt (h.1.bf b hb))
        rw [f1]
        refine ⟨_, rfl, ?_, ?_⟩
        · show I _ (st.crs.map _)
          rw [hm]
          refine I.perm ?_ List.perm_middle.symm
          constructor
          · simp only [List.flatMap_cons, held, hw.1, Option.toList_none, List.nil_append, Option.toList_some]
            simpa using f2
          · exact f3
          · exact f4
          · exact i0.t
          · exact i0.tn
          · exact fun t ht => Nat.lt_succ_of_lt (i0.tf t ht)
          · have := i0.pc
            simp only [List.countP_cons] at this ⊢
            exact this
          · have := i0.cc
            simp only [List.countP_cons] at this ⊢
            exact this
          · exact i0.pl
          · exact i0.cl
          · intro x hx
            rcases List.mem_cons.1 hx with rfl | hx
            · unfold Wf; simp only [hc]; exact hw
            · exact i0.wf x (List.mem_cons_of_mem _ hx)
        · show Keys (st.crs.map _)
          rw [hm]
          have := h.2
          rw [e] at this
          exact keys_same this rfl rfl
    · rw [if_neg hc]; exact ⟨st, rfl, h⟩

theorem find_of_mem {cs : List Cr} (hk : Keys cs) {c : Cr} (hc : c ∈ cs) :
    cs.find? (fun x => x.ar = c.ar ∧ x.k = c.k) = some c := by
  induction cs with
  | nil => cases hc
  | cons d cs ih =>
    unfold Keys at hk
    rw [List.map_cons, List.nodup_cons] at hk
    rcases List.mem_cons.1 hc with rfl | hc
    · simp
    · rw [List.find?_cons_of_neg]
      · exact ih hk.2 hc
      · simp only [decide_eq_true_eq]
        rintro ⟨a, b⟩
        exact hk.1 (List.mem_map.2 ⟨c, hc, by rw [a, b]⟩)

/-- The timer of a CR is exchanged. -/
theorem I.retimer {st : St} {c d : Cr} {cs : List Cr} {t : Nat} (h : I st (c :: cs)) (ht : c.timer = some t)
    (o : Bool) (hd : d = { c with timer := if o then some st.next else none }) (hw : Wf d) :
    I { dropTimer st (some t) with
        timers := (if o then [⟨st.next, c.ar, c.k, c.kind = .input⟩] else []) ++ (dropTimer st (some t)).timers,
        next := if o then st.next + 1 else st.next } (d :: cs) := by
  obtain ⟨ts, d1, d2, d3, d4⟩ := dropTimer_ok st c (cs.flatMap timerOf) (by simpa using h.t) h.tn h.tf
  rw [ht] at d1
  rw [d1]
  have hb := h.b
  have hpc := h.pc
  have hcc := h.cc
  have hwf : ∀ x ∈ d :: cs, Wf x := by
    intro x hx
    rcases List.mem_cons.1 hx with rfl | hx
    · exact hw
    · exact h.wf x (List.mem_cons_of_mem _ hx)
  subst hd
  simp only [List.flatMap_cons, List.countP_cons] at hb hpc hcc
  cases o with
  | false =>
    exact ⟨by simpa [held] using hb, h.bn, h.bf, by simpa [timerOf] using d2, by simpa using d3, d4,
      by simpa [List.countP_cons] using hpc, by simpa [List.countP_cons] using hcc, h.pl, h.cl, hwf⟩
  | true =>
    refine ⟨by simpa [held] using hb, h.bn, fun b hb => Nat.lt_succ_of_lt (h.bf b hb), by simpa [timerOf] using d2, ?_, ?_,
      by simpa [List.countP_cons] using hpc, by simpa [List.countP_cons] using hcc, h.pl, h.cl, hwf⟩
    · show (st.next :: ts.map (·.id)).Nodup
      rw [List.nodup_cons]
      refine ⟨fun hm => ?_, d3⟩
      obtain ⟨x, hx, e⟩ := List.mem_map.1 hm
      have := d4 x hx
      omega
    · intro x hx
      rcases List.mem_cons.1 hx with rfl | hx
      · exact Nat.lt_succ_self _
      · exact Nat.lt_succ_of_lt (d4 x hx)

theorem inv_expire (st : St) (id : Nat) (sent : Bool) (h : Inv st) : Inv (expire st id sent) := by
  unfold expire
  cases hf : st.timers.find? fun t => t.id = id with
  | none => exact h
  | some t =>
    have hid : t.id = id := by have := List.find?_some hf; simpa using this
    obtain ⟨c, hc, ht⟩ := List.mem_flatMap.1 (h.1.t.mem_iff.1 (List.mem_of_find?_eq_some hf))
    unfold timerOf at ht
    obtain ⟨x, hx, rfl⟩ := List.mem_map.1 ht
    simp only at hid
    subst hid
    have hx' : c.timer = some x := by simpa using hx
    dsimp only
    have hfind : (dropTimer st (some x)).crs.find? (fun d => d.ar = c.ar ∧ d.k = c.k) = some c := find_of_mem h.2 hc
    rw [hfind]
    dsimp only
    have hw := h.1.wf c hc
    unfold Wf at hw
    have go : ∀ (o : Bool), Wf { c with timer := if o then some st.next else none } →
        Inv (modCr { dropTimer st (some x) with
          timers := (if o then [⟨st.next, c.ar, c.k, c.kind = .input⟩] else []) ++ (dropTimer st (some x)).timers,
          next := if o then st.next + 1 else st.next } c.ar c.k fun c => { c with timer := if o then some st.next else none }) := by
      intro o hwo
      obtain ⟨l1, l2, e, ha, hk, hm⟩ := split h.2 (find_of_mem h.2 hc) fun c => { c with timer := if o then some st.next else none }
      have i0 : I st (c :: (l1 ++ l2)) := by
        have := h.1; rw [e] at this; exact this.perm List.perm_middle
      refine ⟨?_, ?_⟩
      · show I _ (st.crs.map _)
        rw [hm]
        exact ((i0.retimer hx' o rfl hwo).perm List.perm_middle.symm).setCrs _
      · show Keys (st.crs.map _)
        rw [hm]
        have := h.2
        rw [e] at this
        exact keys_same this rfl rfl
    cases hk : c.kind with
    | input =>
      rw [hk] at hw
      simp only [decide_true, if_true, Bool.not_true, Bool.false_or]
      by_cases hs : (c.run && sent) = true
      · rw [if_pos hs]
        have hr : c.run = true := by simp at hs; exact hs.1
        have := go true (by unfold Wf; simp only [hk]; exact ⟨hw.1, hw.2.1, hw.2.2.1, fun e => by rw [hr] at e; cases e⟩)
        simpa [hk, dropTimer] using this
      · rw [if_neg hs]
        have := go false (by unfold Wf; simp only [hk]; exact ⟨hw.1, hw.2.1, hw.2.2.1, fun _ => rfl⟩)
        simpa [hk, dropTimer] using this
    | output =>
      rw [hk] at hw
      have := go true (by unfold Wf; simp only [hk]; exact ⟨hw.1, by simp⟩)
      simpa [hk, dropTimer] using this
    | other =>
      rw [hk] at hw
      rw [hw.2.2.2] at hx'; cases hx'

theorem inv_step (st : St) (o : Op) (h : Inv st) (ho : NoFail o) : ∃ st', step st o = some st' ∧ Inv st' := by
  cases o with
  | start ar l => exact ⟨_, rfl, inv_start st ar l ho h⟩
  | activate ar k => exact ⟨_, rfl, inv_activate st ar k h⟩
  | frame ar k v => exact inv_frame st ar k v h
  | getOut ar k => exact inv_getOut st ar k h
  | expire id sent => exact ⟨_, rfl, inv_expire st id sent h⟩
  | setIn ar k => exact ⟨st, inv_setIn st ar k h, h⟩
  | close ar =>
    obtain ⟨s, e, i, -⟩ := inv_close st ar h
    exact ⟨s, e, i⟩

theorem inv_exec : ∀ (ops : List Op) (st : St), Inv st → (∀ o ∈ ops, NoFail o) →
    ∃ st', exec st ops = some st' ∧ Inv st'
  | [], st, h, _ => ⟨st, rfl, h⟩
  | o :: ops, st, h, ho => by
    obtain ⟨s1, e1, i1⟩ := inv_step st o h (ho o List.mem_cons_self)
    obtain ⟨s2, e2, i2⟩ := inv_exec ops s1 i1 fun x hx => ho x (List.mem_cons_of_mem _ hx)
    exact ⟨s2, by simp [exec, e1, e2], i2⟩

theorem inv_init : Inv init :=
  ⟨⟨by simp [init], by simp [init], by simp [init], by simp [init], by simp [init], by simp [init], rfl, rfl, rfl, rfl,
    by simp [init]⟩, by simp [Keys, init]⟩

/-- **C152** (partial) As long as no start fails: no lock is used that does not exist, no buffer is freed
twice; at any time the buffers and timers taken are exactly those of the running connections, each once, a
lock exists exactly while there is a CR that needs it. Missing: failed starts, for which it is false
(`C152_fails_leak`, `C152_fails_two_timers`). -/
theorem C152_returned_partial (ops : List Op) (hno : ∀ o ∈ ops, NoFail o) :
    ∃ st, exec init ops = some st ∧ st.bufs.Nodup ∧ st.bufs.Perm (st.crs.flatMap held) ∧
      st.timers.Perm (st.crs.flatMap timerOf) ∧
      (st.ppmLock = true ↔ ∃ c ∈ st.crs, c.kind = .input) ∧
      (st.cpmLock = true ↔ ∃ c ∈ st.crs, c.kind = .output) ∧
      st.ppmCnt = st.crs.countP (fun c => c.kind = .input) ∧
      st.cpmCnt = st.crs.countP (fun c => c.kind = .output) := by
  obtain ⟨st, e, i⟩ := inv_exec ops init inv_init hno
  refine ⟨st, e, i.1.bn, i.1.b, i.1.t, ?_, ?_, i.1.pc, i.1.cc⟩
  · rw [i.1.pl, decide_eq_true_eq, i.1.pc, List.countP_pos_iff]; simp
  · rw [i.1.cl, decide_eq_true_eq, i.1.cc, List.countP_pos_iff]; simp

/-- **C152** (partial, as above) The end of a connection returns all its resources: when the last one has
ended nothing is left. -/
theorem C152_all_ended_partial (ops : List Op) (hno : ∀ o ∈ ops, NoFail o) (st : St) (h : exec init ops = some st) :
    (∀ ar, ∃ st', close st ar = some st' ∧ st'.crs = st.crs.filter (·.ar != ar) ∧
      (∀ t ∈ st'.timers, t.ar ≠ ar)) ∧
    (st.crs = [] → st.bufs = [] ∧ st.timers = [] ∧ st.ppmLock = false ∧ st.cpmLock = false ∧
      st.ppmCnt = 0 ∧ st.cpmCnt = 0) := by
  obtain ⟨st1, e, i⟩ := inv_exec ops init inv_init hno
  rw [h] at e; cases e
  refine ⟨fun ar => ?_, fun hc => ?_⟩
  · obtain ⟨s, e1, i1, q1⟩ := inv_close st ar i
    refine ⟨s, e1, q1, fun t ht => ?_⟩
    have hm := i1.1.t.mem_iff.1 ht
    obtain ⟨c, hc, ht'⟩ := List.mem_flatMap.1 hm
    rw [q1] at hc
    have := (List.mem_filter.1 hc).2
    unfold timerOf at ht'
    obtain ⟨x, -, rfl⟩ := List.mem_map.1 ht'
    simpa using this
  · have hb := i.1.b; have ht := i.1.t; have hp := i.1.pc; have hq := i.1.cc
    rw [hc] at hb ht hp hq
    refine ⟨by simpa using hb, by simpa using ht, ?_, ?_, by simpa using hp, by simpa using hq⟩
    · rw [i.1.pl, hp]; rfl
    · rw [i.1.cl, hq]; rfl

/-- **C152** (partial, as above) Each output CR of a running connection is supervised by one timer. -/
theorem C152_one_timer_partial (ops : List Op) (hno : ∀ o ∈ ops, NoFail o) (st : St) (h : exec init ops = some st)
    (c : Cr) (hc : c ∈ st.crs) (ho : c.kind = .output) :
    (st.timers.filter fun t => t.ar = c.ar ∧ t.k = c.k).length = 1 := by
  obtain ⟨st1, e, i⟩ := inv_exec ops init inv_init hno
  rw [h] at e; cases e
  have hw := i.1.wf c hc
  unfold Wf at hw
  rw [ho] at hw
  obtain ⟨l1, l2, e⟩ := List.append_of_mem hc
  have hk := i.2
  have ht := i.1.t
  rw [e] at hk ht
  unfold Keys at hk
  rw [List.map_append, List.map_cons, List.nodup_append, List.nodup_cons] at hk
  obtain ⟨-, ⟨n2, -⟩, n3⟩ := hk
  rw [(ht.filter _).length_eq, List.flatMap_append, List.flatMap_cons, List.filter_append, List.filter_append]
  have hz : ∀ l : List Cr, (∀ x ∈ l, (x.ar, x.k) ≠ (c.ar, c.k)) →
      (l.flatMap timerOf).filter (fun t => t.ar = c.ar ∧ t.k = c.k) = [] := by
    intro l hl
    rw [List.filter_eq_nil_iff]
    intro t htm
    obtain ⟨x, hx, hx'⟩ := List.mem_flatMap.1 htm
    unfold timerOf at hx'
    obtain ⟨y, -, rfl⟩ := List.mem_map.1 hx'
    have := hl x hx
    simp only [ne_eq, Prod.mk.injEq] at this
    simpa using this
  rw [hz l1 fun x hx e => n3 (x.ar, x.k) (List.mem_map.2 ⟨x, hx, rfl⟩) (c.ar, c.k) List.mem_cons_self e,
    hz l2 fun x hx e => n2 (List.mem_map.2 ⟨x, hx, e⟩)]
  cases ht : c.timer with
  | none => exact absurd ht hw.2
  | some t => simp [timerOf, ht]

/-- The start of a connection with an output CR and two input CRs for which the last buffer cannot be allocated. -/
def failing (ar : Nat) : Op := .start ar [(.output, true), (.input, true), (.input, false)]

/-- **C152 is false**: each failed start keeps a buffer and counts, for ever. -/
theorem C152_fails_leak (n : Nat) : ∃ st, exec init (List.replicate n (failing 0)) = some st ∧
    st.crs = [] ∧ st.bufs.length = n ∧ st.ppmCnt = 2 * n ∧ st.cpmCnt = n := by
  have key : ∀ (n : Nat) (st : St), st.crs = [] → ∃ st', exec st (List.replicate n (failing 0)) = some st' ∧
      st'.crs = [] ∧ st'.bufs.length = st.bufs.length + n ∧
      st'.ppmCnt = st.ppmCnt + 2 * n ∧ st'.cpmCnt = st.cpmCnt + n := by
    intro n
    induction n with
    | zero => intro st h; exact ⟨st, rfl, h, rfl, rfl, rfl⟩
    | succ n ih =>
      intro st h
      have e : ∃ s, step st (failing 0) = some s ∧ s.crs = [] ∧ s.bufs.length = st.bufs.length + 1 ∧
          s.ppmCnt = st.ppmCnt + 2 ∧ s.cpmCnt = st.cpmCnt + 1 := by
        simp [step, failing, start, h, startCrs, startCr, startCpm, startPpm]
      obtain ⟨s, e1, q1, q2, q4, q5⟩ := e
      obtain ⟨s', e2, p1, p2, p4, p5⟩ := ih s q1
      refine ⟨s', by rw [List.replicate_succ]; simp [exec, e1, e2], p1, ?_, ?_, ?_⟩ <;> omega
  obtain ⟨st, h⟩ := key n init rfl
  exact ⟨st, by simpa [init] using h⟩

/-- Timers for CR `k` of entry `ar`. -/
def timersOf (st : St) (ar k : Nat) : Nat := (st.timers.filter fun t => t.ar = ar ∧ t.k = k).length

/-- A CR that is running with only timers of the supervision keeps their number. -/
theorem expire_keeps (st : St) (id : Nat) (sent : Bool) (ar k : Nat)
    (hn : (st.timers.map (·.id)).Nodup) (hf : ∀ t ∈ st.timers, t.id < st.next)
    (ht : ∀ t ∈ st.timers, t.ar = ar → t.k = k → t.ppm = false)
    (hc : ∃ c, st.crs.find? (fun c => c.ar = ar ∧ c.k = k) = some c ∧ c.kind = .output) :
    let st' := expire st id sent
    timersOf st' ar k = timersOf st ar k ∧ (st'.timers.map (·.id)).Nodup ∧ (∀ t ∈ st'.timers, t.id < st'.next) ∧
    (∀ t ∈ st'.timers, t.ar = ar → t.k = k → t.ppm = false) ∧
    ∃ c, st'.crs.find? (fun c => c.ar = ar ∧ c.k = k) = some c ∧ c.kind = .output := by
  obtain ⟨c, hc, hko⟩ := hc
  have hmod : ∀ (l : List Cr) (a b : Nat) (f : Cr → Cr), (∀ c, (f c).ar = c.ar ∧ (f c).k = c.k ∧ (f c).kind = c.kind) →
      ∀ c, l.find? (fun c => c.ar = ar ∧ c.k = k) = some c →
        ∃ d, (l.map fun c => if c.ar = a ∧ c.k = b then f c else c).find? (fun c => c.ar = ar ∧ c.k = k) = some d ∧
          d.kind = c.kind := by
    intro l a b f hff c h
    induction l with
    | nil => cases h
    | cons x l ih =>
      obtain ⟨f1, f2, f3⟩ := hff x
      rw [List.map_cons]
      by_cases hx : x.ar = ar ∧ x.k = k
      · rw [List.find?_cons_of_pos (by simpa using hx)] at h
        have hxc : x = c := Option.some.inj h
        subst hxc
        by_cases hy : x.ar = a ∧ x.k = b
        · rw [if_pos hy, List.find?_cons_of_pos (by simpa [f1, f2] using hx)]
          exact ⟨_, rfl, f3⟩
        · rw [if_neg hy, List.find?_cons_of_pos (by simpa using hx)]
          exact ⟨_, rfl, rfl⟩
      · rw [List.find?_cons_of_neg (by simpa using hx)] at h
        by_cases hy : x.ar = a ∧ x.k = b
        · rw [if_pos hy, List.find?_cons_of_neg (by simpa [f1, f2] using hx)]
          exact ih h
        · rw [if_neg hy, List.find?_cons_of_neg (by simpa using hx)]
          exact ih h
  intro st'
  show _ ∧ _
  simp only [st']
  unfold expire
  cases hft : st.timers.find? fun t => t.id = id with
  | none => exact ⟨rfl, hn, hf, ht, c, hc, hko⟩
  | some t =>
    have hid : t.id = id := by have := List.find?_some hft; simpa using this
    have hmem := List.mem_of_find?_eq_some hft
    dsimp only
    have hn' : ((st.timers.filter fun x => x.id ≠ id).map (·.id)).Nodup := hn.sublist (List.filter_sublist.map _)
    have hf' : ∀ x ∈ st.timers.filter (fun x => x.id ≠ id), x.id < st.next := fun x hx => hf x (List.mem_filter.1 hx).1
    have ht' : ∀ x ∈ st.timers.filter (fun x => x.id ≠ id), x.ar = ar → x.k = k → x.ppm = false :=
      fun x hx => ht x (List.mem_filter.1 hx).1
    -- number after removal
    have hcount : ((st.timers.filter fun x => x.id ≠ id).filter fun x => x.ar = ar ∧ x.k = k).length +
        (if t.ar = ar ∧ t.k = k then 1 else 0) = timersOf st ar k := by
      unfold timersOf
      obtain ⟨l1, l2, e⟩ := List.append_of_mem hmem
      have hn2 := hn
      rw [e, List.map_append, List.map_cons, List.nodup_append, List.nodup_cons] at hn2
      obtain ⟨-, ⟨n2, -⟩, n3⟩ := hn2
      have e1 : l1.filter (fun x => x.id ≠ id) = l1 := by
        rw [List.filter_eq_self]
        intro x hx
        have := n3 x.id (List.mem_map.2 ⟨x, hx, rfl⟩) t.id List.mem_cons_self
        rw [hid] at this; simpa using this
      have e2 : l2.filter (fun x => x.id ≠ id) = l2 := by
        rw [List.filter_eq_self]
        intro x hx
        have : x.id ≠ id := fun e => n2 (List.mem_map.2 ⟨x, hx, by rw [e, hid]⟩)
        simpa using this
      rw [e, List.filter_append, List.filter_cons, e1, e2]
      simp only [hid, ne_eq, not_true, decide_false, Bool.false_eq_true, if_false]
      rw [List.filter_append, List.filter_append, List.filter_cons]
      by_cases hq : t.ar = ar ∧ t.k = k
      · simp [hq]; omega
      · simp [hq]
    have hnx : st.next ∉ (st.timers.filter fun x => x.id ≠ id).map (·.id) := by
      intro hm
      obtain ⟨x, hx, e⟩ := List.mem_map.1 hm
      have := hf' x hx
      omega
    by_cases hq : t.ar = ar ∧ t.k = k
    · have hppm := ht t hmem hq.1 hq.2
      have hfind : (dropTimer st (some id)).crs.find? (fun c => c.ar = t.ar ∧ c.k = t.k) = some c := by
        rw [hq.1, hq.2]; exact hc
      rw [hfind]
      simp only [hppm, hko, if_false, Bool.false_eq_true, if_true, Bool.not_false, Bool.true_or]
      refine ⟨?_, ?_, ?_, ?_, ?_⟩
      · rw [← hcount, if_pos hq]
        simp [timersOf, modCr, dropTimer, hq]
      · show (st.next :: (st.timers.filter fun x => x.id ≠ id).map (·.id)).Nodup
        rw [List.nodup_cons]
        exact ⟨hnx, hn'⟩
      · intro x hx
        rcases List.mem_cons.1 hx with rfl | hx
        · exact Nat.lt_succ_self _
        · exact Nat.lt_succ_of_lt (hf' x hx)
      · intro x hx
        rcases List.mem_cons.1 hx with rfl | hx
        · exact fun _ _ => rfl
        · exact ht' x hx
      · obtain ⟨d, d1, d2⟩ := hmod st.crs t.ar t.k (fun c => { c with timer := some st.next }) (fun c => ⟨rfl, rfl, rfl⟩) c hc
        exact ⟨d, d1, d2.trans hko⟩
    · rw [if_neg hq, Nat.add_zero] at hcount
      have same : timersOf (dropTimer st (some id)) ar k = timersOf st ar k := hcount
      cases hfo : (dropTimer st (some id)).crs.find? fun c => c.ar = t.ar ∧ c.k = t.k with
      | none => exact ⟨same, hn', hf', ht', c, hc, hko⟩
      | some e =>
        dsimp only
        by_cases h1 : e.kind = (if t.ppm then Kind.input else Kind.output)
        · rw [if_pos h1]
          by_cases h2 : (!t.ppm || (e.run && sent)) = true
          · rw [if_pos h2]
            refine ⟨?_, ?_, ?_, ?_, ?_⟩
            · rw [← same]
              simp [timersOf, modCr, dropTimer, hq]
            · show (st.next :: (st.timers.filter fun x => x.id ≠ id).map (·.id)).Nodup
              rw [List.nodup_cons]
              exact ⟨hnx, hn'⟩
            · intro x hx
              rcases List.mem_cons.1 hx with rfl | hx
              · exact Nat.lt_succ_self _
              · exact Nat.lt_succ_of_lt (hf' x hx)
            · intro x hx
              rcases List.mem_cons.1 hx with rfl | hx
              · exact fun a b => absurd ⟨a, b⟩ hq
              · exact ht' x hx
            · obtain ⟨d, d1, d2⟩ := hmod st.crs t.ar t.k (fun c => { c with timer := some st.next }) (fun c => ⟨rfl, rfl, rfl⟩) c hc
              exact ⟨d, d1, d2.trans hko⟩
          · rw [if_neg h2]
            refine ⟨same, hn', hf', ht', ?_⟩
            obtain ⟨d, d1, d2⟩ := hmod st.crs t.ar t.k (fun c => { c with timer := none }) (fun c => ⟨rfl, rfl, rfl⟩) c hc
            exact ⟨d, d1, d2.trans hko⟩
        · rw [if_neg h1]
          exact ⟨same, hn', hf', ht', c, hc, hko⟩

/-- **C152 is false**: a connection that starts in the entry of a failed start, before the timer of that one has expired, has
two timers for its output CR and keeps them: each interval the data hold time is counted twice, and the connection is aborted
after half of it. With `n` failed starts there are `n + 1` timers. -/
theorem C152_fails_two_timers (n ar : Nat) (later : List (Nat × Bool)) :
    ∃ st, exec init (List.replicate n (failing ar) ++ .start ar [(.output, true), (.input, true)] ::
      later.map (fun x => .expire x.1 x.2)) = some st ∧ timersOf st ar 0 = n + 1 := by
  -- what holds before the last start
  have pre : ∀ (n : Nat) (st : St), st.crs = [] → (st.timers.map (·.id)).Nodup → (∀ t ∈ st.timers, t.id < st.next) →
      (∀ t ∈ st.timers, t.ppm = false) → ∀ rest,
      ∃ st', exec st (List.replicate n (failing ar) ++ rest) = exec st' rest ∧ st'.crs = [] ∧
        (st'.timers.map (·.id)).Nodup ∧ (∀ t ∈ st'.timers, t.id < st'.next) ∧ (∀ t ∈ st'.timers, t.ppm = false) ∧
        timersOf st' ar 0 = timersOf st ar 0 + n := by
    intro n
    induction n with
    | zero => intro st h1 h2 h3 h4 rest; exact ⟨st, rfl, h1, h2, h3, h4, rfl⟩
    | succ n ih =>
      intro st h1 h2 h3 h4 rest
      have e : ∃ s, step st (failing ar) = some s ∧ s.crs = [] ∧ s.timers = ⟨st.next, ar, 0, false⟩ :: st.timers ∧
          s.next = st.next + 2 := by
        simp [step, failing, start, h1, startCrs, startCr, startCpm, startPpm]
      obtain ⟨s, e1, q1, q2, q3⟩ := e
      obtain ⟨s', e2, p1, p2, p3, p4, p5⟩ := ih s q1
        (by
          rw [q2, List.map_cons, List.nodup_cons]
          refine ⟨fun hm => ?_, h2⟩
          obtain ⟨x, hx, e⟩ := List.mem_map.1 hm
          have := h3 x hx
          simp only at e; omega)
        (by
          rw [q2, q3]
          intro t ht
          rcases List.mem_cons.1 ht with rfl | ht
          · show st.next < st.next + 2; omega
          · have := h3 t ht; omega)
        (by
          rw [q2]
          intro t ht
          rcases List.mem_cons.1 ht with rfl | ht
          · rfl
          · exact h4 t ht) rest
      refine ⟨s', by rw [List.replicate_succ, List.cons_append]; simp [exec, e1, e2], p1, p2, p3, p4, ?_⟩
      rw [p5]
      unfold timersOf
      rw [q2]
      simp; omega
  have post : ∀ (later : List (Nat × Bool)) (st : St), (st.timers.map (·.id)).Nodup → (∀ t ∈ st.timers, t.id < st.next) →
      (∀ t ∈ st.timers, t.ar = ar → t.k = 0 → t.ppm = false) →
      (∃ c, st.crs.find? (fun c => c.ar = ar ∧ c.k = 0) = some c ∧ c.kind = .output) →
      ∃ st', exec st (later.map (fun x => Op.expire x.1 x.2)) = some st' ∧ timersOf st' ar 0 = timersOf st ar 0 := by
    intro later
    induction later with
    | nil => intro st _ _ _ _; exact ⟨st, rfl, rfl⟩
    | cons x later ih =>
      intro st h1 h2 h3 h4
      obtain ⟨q1, q2, q3, q4, q5⟩ := expire_keeps st x.1 x.2 ar 0 h1 h2 h3 h4
      obtain ⟨s', e, p⟩ := ih _ q2 q3 q4 q5
      exact ⟨s', by simpa [exec, step] using e, p.trans q1⟩
  obtain ⟨s, e, h1, h2, h3, h4, h5⟩ := pre n init rfl (by simp [init]) (by simp [init]) (by simp [init])
    (.start ar [(.output, true), (.input, true)] :: later.map (fun x => .expire x.1 x.2))
  have e1 : ∃ s1, step s (.start ar [(.output, true), (.input, true)]) = some s1 ∧
      s1.timers = ⟨s.next, ar, 0, false⟩ :: s.timers ∧ s1.next = s.next + 2 ∧
      ∃ c, s1.crs.find? (fun c => c.ar = ar ∧ c.k = 0) = some c ∧ c.kind = .output := by
    simp [step, start, h1, startCrs, startCr, startCpm, startPpm]
  obtain ⟨s1, f1, f2, f3, f4⟩ := e1
  obtain ⟨s2, g1, g2⟩ := post later s1
    (by
      rw [f2, List.map_cons, List.nodup_cons]
      refine ⟨fun hm => ?_, h2⟩
      obtain ⟨x, hx, e⟩ := List.mem_map.1 hm
      have := h3 x hx
      simp only at e; omega)
    (by
      rw [f2, f3]
      intro t ht
      rcases List.mem_cons.1 ht with rfl | ht
      · show s.next < s.next + 2; omega
      · have := h3 t ht; omega)
    (by
      rw [f2]
      intro t ht _ _
      rcases List.mem_cons.1 ht with rfl | ht
      · rfl
      · exact h4 t ht) f4
  refine ⟨s2, by rw [e]; simp [exec, f1, g1], ?_⟩
  rw [g2]
  unfold timersOf
  rw [f2]
  have : timersOf init ar 0 = 0 := rfl
  unfold timersOf at h5 this
  rw [this] at h5
  simp only [List.filter_cons, true_and, and_self, decide_true, if_true, List.length_cons]
  omega

/-- Two connections run, frames arrive, data is read; one ends, then the other. -/
def exampleOps : List Op :=
  [.start 0 [(.output, true), (.input, true)], .activate 0 1, .start 1 [(.input, true), (.output, true)],
   .frame 0 0 true, .getOut 0 0, .frame 0 0 true, .frame 0 0 true, .frame 1 1 true, .frame 1 1 false, .setIn 0 1]

theorem C152_example : (∀ o ∈ exampleOps ++ [.close 0], NoFail o) ∧
    (exec init exampleOps).map (fun s => (s.bufs, s.timers.length, s.ppmCnt, s.cpmCnt)) = some ([8, 7, 5, 3, 1], 3, 2, 2) ∧
    (exec init (exampleOps ++ [.close 0])).map (fun s => (s.bufs, s.timers.length, s.ppmLock)) = some ([8, 3], 1, true) ∧
    (exec init (exampleOps ++ [.close 0, .close 1])).map (fun s => (s.bufs, s.timers, s.ppmLock, s.cpmLock)) =
      some ([], [], false, false) := by
  refine ⟨?_, by decide, by decide, by decide⟩
  simp [exampleOps, NoFail]

end Verif.Res
