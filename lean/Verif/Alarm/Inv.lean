import Verif.Alarm.Lemmas
import Mathlib.Data.List.Induction
/-!
# The invariant holds in every reachable state
-/
set_option linter.unusedSimpArgs false
set_option linter.unusedVariables false
namespace Verif.Alarm

variable {α : Type}

section Pr
variable {c : Cfg} {x : Pr α} {r : Rx} {pd : Option (Pending α)}

theorem recv_spec (hl : Live c x r pd) (f : Frame α) (tx : Tx) (p : Bool) (buf : Bool) :
    ((recv x f tx).2.2 = false →
      Live c (recv x f tx).1 (rxStep p r (.recv p f tx)) (pdAfter buf pd (recv x f tx).2.1)) ∧
    Ev.abort ∉ (recv x f tx).2.1 ∧
    (∀ a, .deliver a ∈ (recv x f tx).2.1 →
      r.blocked = false ∧ f.isData ∧ f.sendSeq = seqNo r.accepted ∧ f.body = .notify a ∧ tx = .ok ∧
      (recv x f tx).2.1.filter Ev.isDeliver = [.deliver a]) ∧
    (∀ g, .wire g ∈ (recv x f tx).2.1 → g.pdu ≠ .data) ∧
    (∀ g, .started g ∉ (recv x f tx).2.1) ∧ Ev.fired ∉ (recv x f tx).2.1 := by
  have hc : x.apmr ≠ .closed := by rw [hl.apmr]; split <;> simp
  have hnd : f.pdu ≠ .data → rxStep p r (.recv p f tx) = r := by
    intro h; simp [rxStep, Frame.isData, h]
  cases hp : f.pdu with
  | data =>
    have e : recv x f tx = apmrInd x f tx := by simp [recv, hc, hp]
    rw [e]
    obtain ⟨a1, a2, a3, a4⟩ := apmrInd_spec hl f tx p hp buf
    refine ⟨a1, a2, fun a ha => ?_, a4⟩
    obtain ⟨b1, b2, b3⟩ := a3 a ha
    exact ⟨b1, ⟨hp, b2⟩, b3⟩
  | ack =>
    have e : recv x f tx = ((apmsInd x f).1, (apmsInd x f).2, false) := by simp [recv, hc, hp]
    rw [e, hnd (by simp [hp])]
    obtain ⟨l1, n1, n2, n3, n4, n5⟩ := live_apmsInd hl f buf
    exact ⟨fun _ => l1, n1, fun a ha => absurd ha (n3 a), fun g hg => absurd hg (n2 g), n4, n5⟩
  | nack =>
    have e : recv x f tx = (x, [], false) := by simp [recv, hc, hp]
    rw [e, hnd (by simp [hp])]
    exact ⟨fun _ => hl, by simp⟩
  | err =>
    have e : recv x f tx = (x, [], true) := by simp [recv, hc, hp]
    rw [e]
    exact ⟨by simp, by simp⟩
  | ignored =>
    have e : recv x f tx = (x, [], false) := by simp [recv, hc, hp]
    rw [e, hnd (by simp [hp])]
    exact ⟨fun _ => hl, by simp⟩

theorem apmsReq_spec (hl : Live c x r pd) (b : Body α) (tx : Tx) (sched : Bool) (now : Nat) :
    ((apmsReq c x b tx sched now).2.2.2 = false →
      pd = none ∧
      Live c (apmsReq c x b tx sched now).1 r
        (pdAfter (decide (tx ≠ .noBuf)) pd (apmsReq c x b tx sched now).2.1) ∧
      (apmsReq c x b tx sched now).1.alpmi = x.alpmi ∧ (apmsReq c x b tx sched now).1.alpmr = x.alpmr) ∧
    ((apmsReq c x b tx sched now).2.2.2 = true → pd ≠ none ∧ (apmsReq c x b tx sched now).2.1 = []) ∧
    Ev.abort ∉ (apmsReq c x b tx sched now).2.1 ∧
    (∀ a, .deliver a ∉ (apmsReq c x b tx sched now).2.1) ∧
    (∀ g, .wire g ∈ (apmsReq c x b tx sched now).2.1 → .started g ∈ (apmsReq c x b tx sched now).2.1) ∧
    Ev.fired ∉ (apmsReq c x b tx sched now).2.1 := by
  by_cases ho : x.apms = .open
  · have hpd : pd = none := by
      cases hpd : pd with
      | none => rfl
      | some P => have := (hl.pend P hpd).1; rw [ho] at this; cases this
    obtain ⟨_, hrta⟩ := hl.idle hpd
    subst hpd
    have e1 : (apmsReq c x b tx sched now).2.1 = .started (dataFrame x b) ::
        (if tx = .ok then [.wire (dataFrame x b)] else []) := by
      cases tx <;> simp [apmsReq, ho, apmsSend]
    have e2 : (apmsReq c x b tx sched now).1 = startTimer c { x with
        resend := c.retries, apms := .wtack
        rta := if tx = .noBuf then none else some (dataFrame x b) } now sched := by
      cases tx <;> simp [apmsReq, ho, apmsSend, dataFrame, hrta]
    have e3 : (apmsReq c x b tx sched now).2.2.2 = false := by simp [apmsReq, ho]
    have hp : pdAfter (decide (tx ≠ .noBuf)) none (.started (dataFrame x b) ::
        (if tx = .ok then [Ev.wire (dataFrame x b)] else [])) =
        some ⟨dataFrame x b, decide (tx ≠ .noBuf), if tx = .ok then 1 else 0, 0⟩ := by
      cases tx <;> simp [pdAfter, txEvent, dataFrame]
    rw [e1, e2, e3, hp]
    refine ⟨fun _ => ⟨rfl, ?_, ?_, ?_⟩, by simp, by split <;> simp, by intro a; split <;> simp,
      by intro g; split <;> simp, by split <;> simp⟩
    · have hst : ∀ y : Pr α, Live c y r (some ⟨dataFrame x b, decide (tx ≠ .noBuf), if tx = .ok then 1 else 0, 0⟩) →
          Live c (startTimer c y now sched) r
            (some ⟨dataFrame x b, decide (tx ≠ .noBuf), if tx = .ok then 1 else 0, 0⟩) := by
        intro y hy
        unfold startTimer
        split
        · exact { hy with }
        · exact hy
      apply hst
      exact { apmr := hl.apmr, exp := hl.exp, expO := hl.expO, alpmi := hl.alpmi, alpmr := hl.alpmr
              idle := by simp
              pend := by
                intro P hP
                cases hP
                refine ⟨rfl, rfl, rfl, ?_, ?_, ?_⟩
                · cases tx <;> simp
                · cases tx <;> simp
                · cases tx <;> simp }
    · unfold startTimer; split <;> rfl
    · unfold startTimer; split <;> rfl
  · have e : apmsReq c x b tx sched now = (x, [], false, true) := by simp [apmsReq, ho]
    rw [e]
    refine ⟨by simp, fun _ => ⟨?_, rfl⟩, by simp⟩
    intro h; exact ho (hl.idle h).1

theorem timeout_spec (hl : Live c x r pd) (tx : Tx) (sched : Bool) (now : Nat) (buf : Bool) :
    ((apmsTimeout c x tx sched now).2.2 = false →
      Live c (apmsTimeout c x tx sched now).1 r
        (pdAfter buf pd (.fired :: (apmsTimeout c x tx sched now).2.1))) ∧
    ((apmsTimeout c x tx sched now).2.2 = true ↔ ∃ P, pd = some P ∧ P.saved = true ∧ P.fired = c.retries) ∧
    ((apmsTimeout c x tx sched now).2.1 = [] ∨
      ∃ P, pd = some P ∧ P.saved = true ∧ P.fired < c.retries ∧ (apmsTimeout c x tx sched now).2.1 = [.wire P.frame]) ∧
    (∀ P, pd = some P → P.saved = true → P.fired < c.retries → tx = .ok →
      (apmsTimeout c x tx sched now).2.1 = [.wire P.frame]) := by
  cases pd with
  | none =>
    obtain ⟨h1, h2⟩ := hl.idle rfl
    have e : apmsTimeout c x tx sched now = (x, [], false) := by
      simp only [apmsTimeout, h1]
      cases x; simp_all
    rw [e]
    exact ⟨fun _ => hl, by simp, by simp, by simp⟩
  | some P =>
    obtain ⟨h1, h2, h3, h4, h5, h6⟩ := hl.pend P rfl
    cases hs : P.saved with
    | false =>
      rw [hs] at h4
      have e : apmsTimeout c x tx sched now = (x, [], false) := by simp [apmsTimeout, h1, h4]
      rw [e]
      refine ⟨fun _ => ?_, by simp [hs], by simp, by simp [hs]⟩
      refine { hl with idle := by simp [pdAfter, txEvent], pend := ?_ }
      intro Q hQ
      simp [pdAfter, txEvent] at hQ
      subst hQ
      refine ⟨h1, h2, h3, by simp [hs, h4], by simp [hs], fun _ => h6 hs⟩
    | true =>
      rw [hs] at h4
      simp at h4
      obtain ⟨q1, q2⟩ := h5 hs
      by_cases hr : x.resend > 0
      · have e : apmsTimeout c x tx sched now = (startTimer c { x with resend := x.resend - 1 } now sched,
            (if tx = .ok then [.wire P.frame] else []), false) := by simp [apmsTimeout, h1, h4, hr]
        rw [e]
        have hp : pdAfter buf (some P) (.fired :: if tx = .ok then [.wire P.frame] else []) =
            some { P with fired := P.fired + 1, sent := P.sent + if tx = .ok then 1 else 0 } := by
          cases tx <;> simp [pdAfter, txEvent, h2]
        refine ⟨fun _ => ?_, ?_, ?_, ?_⟩
        · rw [hp]
          have hlv : Live c { x with resend := x.resend - 1 } r
              (some { P with fired := P.fired + 1, sent := P.sent + if tx = .ok then 1 else 0 }) := by
            refine { hl with idle := by simp, pend := ?_ }
            intro Q hQ
            cases hQ
            refine ⟨h1, h2, h3, by simp [hs, h4], fun _ => ?_, by simp [hs]⟩
            constructor
            · simp only; omega
            · simp only; split <;> omega
          unfold startTimer
          split
          · exact { hlv with }
          · exact hlv
        · simp [hs]; omega
        · by_cases htx : tx = .ok
          · right; exact ⟨P, rfl, hs, by omega, by simp [htx]⟩
          · left; simp [htx]
        · intro Q hQ _ _ htx
          cases hQ
          simp [htx]
      · have e : apmsTimeout c x tx sched now = ({ x with apms := .open }, [], true) := by
          simp [apmsTimeout, h1, h4, hr]
        rw [e]
        refine ⟨by simp, ?_, by simp, ?_⟩
        · simp [hs]; omega
        · intro Q hQ _ hf
          cases hQ
          omega

end Pr

/-- A live connection matches its history. -/
def AllLive (c : Cfg) (s : Ar α) (h : Hist α) : Prop := ∀ p, Live c (s.pr p) (rx p h) (pending p h)

/-- An aborted connection. -/
def AllDead (s : Ar α) (h : Hist α) : Prop := ∀ p, Dead (s.pr p) ∧ pending p h = none

/-- Invariant. -/
def Inv (c : Cfg) (s : Ar α) (h : Hist α) : Prop :=
  (¬ aborted h ∧ AllLive c s h) ∨ (aborted h ∧ AllDead s h)

theorem rx_append (p : Bool) (h : Hist α) (e) : rx p (h ++ [e]) = rxStep p (rx p h) e.1 := by simp [rx]

theorem pending_append (p : Bool) (h : Hist α) (e) : pending p (h ++ [e]) = txStep p (pending p h) e := by
  simp [pending]

theorem aborted_append (h : Hist α) (e) : aborted (h ++ [e]) ↔ aborted h ∨ ∃ p, (p, Ev.abort) ∈ e.2 := by
  unfold aborted
  constructor
  · rintro ⟨d, hd, p, hp⟩
    rcases List.mem_append.1 hd with hd | hd
    · exact Or.inl ⟨d, hd, p, hp⟩
    · simp at hd; subst hd; exact Or.inr ⟨p, hp⟩
  · rintro (⟨d, hd, p, hp⟩ | ⟨p, hp⟩)
    · exact ⟨d, by simp [hd], p, hp⟩
    · exact ⟨e, by simp, p, hp⟩

theorem txStep_same (p : Bool) (s : Option (Pending α)) (op : Op α) (evs : List (Ev α)) :
    txStep p s (op, evs.map fun e => (p, e)) = pdAfter op.hasBuf s evs := by
  unfold txStep pdAfter
  simp only [List.foldl_map, true_or, if_true]

theorem txStep_other {p q : Bool} (hq : q ≠ p) (s : Option (Pending α)) (op : Op α) (evs : List (Ev α))
    (hn : Ev.abort ∉ evs) : txStep q s (op, evs.map fun e => (p, e)) = s := by
  unfold txStep
  induction evs generalizing s with
  | nil => rfl
  | cons e es ih =>
    simp only [List.map_cons, List.foldl_cons]
    rw [if_neg]
    · exact ih s (fun h => hn (by simp [h]))
    · rintro (h | h)
      · exact hq h.symm
      · cases e <;> simp at h hn

theorem txStep_abort (p q : Bool) (s : Option (Pending α)) (op : Op α) (evs : List (Ev α)) :
    txStep q s (op, (evs ++ [Ev.abort]).map fun e => (p, e)) = none := by
  unfold txStep
  simp [txEvent]

theorem finish_inv {c : Cfg} {s : Ar α} {h : Hist α} (hna : ¬ aborted h) (hl : AllLive c s h) (op : Op α) (p : Bool)
    (x : Pr α) (evs : List (Ev α)) (ab : Bool)
    (hr : ∀ q, q ≠ p → ∀ r, rxStep q r op = r)
    (hg : ab = false → Live c x (rxStep p (rx p h) op) (pdAfter op.hasBuf (pending p h) evs))
    (hn : Ev.abort ∉ evs) :
    Inv c (finish s p x evs ab).1 (h ++ [(op, (finish s p x evs ab).2)]) ∧
    (aborted (h ++ [(op, (finish s p x evs ab).2)]) ↔ ab = true) := by
  cases ab with
  | false =>
    have e : finish s p x evs false = (s.set p x, evs.map fun e => (p, e)) := by simp [finish]
    rw [e]
    have hna' : ¬ aborted (h ++ [(op, evs.map fun e => (p, e))]) := by
      rw [aborted_append]
      rintro (h1 | ⟨q, hq⟩)
      · exact hna h1
      · simp at hq; exact hn hq.1
    refine ⟨Or.inl ⟨hna', ?_⟩, by simp [hna']⟩
    intro q
    rw [rx_append, pending_append]
    by_cases hq : q = p
    · subst hq
      rw [txStep_same]
      simpa [Ar.set] using hg rfl
    · rw [txStep_other hq _ _ _ hn, hr q hq]
      simpa [Ar.set, hq] using hl q
  | true =>
    have e : finish s p x evs true = ((s.set p x).close, (evs ++ [Ev.abort]).map fun e => (p, e)) := by
      simp [finish]
    rw [e]
    have ha : aborted (h ++ [(op, (evs ++ [Ev.abort]).map fun e => (p, e))]) := by
      rw [aborted_append]; right; exact ⟨p, by simp⟩
    refine ⟨Or.inr ⟨ha, ?_⟩, ⟨fun _ => rfl, fun _ => ha⟩⟩
    intro q
    refine ⟨dead_close _, ?_⟩
    rw [pending_append, txStep_abort]

theorem step_dead {c : Cfg} {s : Ar α} {h : Hist α} (hd : AllDead s h) (op : Op α) :
    (step c s op).2 = [] ∧ ∀ p, Dead ((step c s op).1.pr p) := by
  have hset : ∀ p, s.set p (s.pr p) = s := by
    intro p; cases s; simp [Ar.set]; funext q; split <;> simp_all
  cases op with
  | recv p f tx =>
    have := (hd p).1.apmr
    have e : recv (s.pr p) f tx = (s.pr p, [], false) := by simp [recv, this]
    have e2 : step c s (.recv p f tx) = (s, []) := by simp [step, e, finish, hset]
    rw [e2]; exact ⟨rfl, fun p => (hd p).1⟩
  | poll p a tx sched =>
    have := (hd p).1.alpmi
    have e2 : step c s (.poll p a tx sched) = (s, []) := by simp [step, this]
    rw [e2]; exact ⟨rfl, fun p => (hd p).1⟩
  | userAck st tx sched =>
    have := (hd true).1.alpmr.1
    have e2 : step c s (.userAck st tx sched) = (s, []) := by simp [step, this]
    rw [e2]; exact ⟨rfl, fun p => (hd p).1⟩
  | expire p tx sched =>
    have := (hd p).1.timers
    have e2 : step c s (.expire p tx sched) = (s, []) := by simp [step, this]
    rw [e2]; exact ⟨rfl, fun p => (hd p).1⟩
  | tick d => exact ⟨rfl, fun p => (hd p).1⟩

theorem live_timers {c : Cfg} {x : Pr α} {r : Rx} {pd} (hl : Live c x r pd) (ts : List Nat) :
    Live c { x with timers := ts } r pd := { hl with }

theorem step_inv {c : Cfg} {s : Ar α} {h : Hist α} (hi : Inv c s h) (op : Op α) :
    Inv c (step c s op).1 (h ++ [(op, (step c s op).2)]) := by
  have hnil : ∀ (h : Hist α) (op : Op α), (aborted (h ++ [(op, [])]) ↔ aborted h) := by
    intro h op; rw [aborted_append]; simp
  have hnp : ∀ (p : Bool) (op : Op α), pending p (h ++ [(op, [])]) = pending p h := by
    intro p op; rw [pending_append]; rfl
  rcases hi with ⟨hna, hl⟩ | ⟨ha, hd⟩
  · -- unchanged state
    have hsame : ∀ op : Op α, (∀ p r, rxStep p r op = r) → ∀ s' : Ar α, s'.pr = s.pr → Inv c s' (h ++ [(op, [])]) := by
      intro op hr s' hs'
      refine Or.inl ⟨by rw [hnil]; exact hna, fun p => ?_⟩
      rw [rx_append, hnp, hr, hs']
      exact hl p
    cases op with
    | recv p f tx =>
      obtain ⟨a1, a2, a3, a4⟩ := recv_spec (hl p) f tx p (Op.hasBuf (.recv p f tx))
      exact (finish_inv hna hl (.recv p f tx) p _ _ _ (by intro q hq r; simp [rxStep, hq.symm]) a1 a2).1
    | poll p a tx sched =>
      by_cases hw : (s.pr p).alpmi = .wAlarm
      · obtain ⟨a1, a2, a3, a4⟩ := apmsReq_spec (hl p) (.notify a) tx sched s.now
        simp only [step, hw, if_true]
        refine (finish_inv hna hl (.poll p a tx sched) p _ _ _ (by intro q hq r; rfl) ?_ a3).1
        intro hab
        obtain ⟨_, b2, _⟩ := a1 hab
        show Live c _ (rx p h) _
        split
        · exact { b2 with alpmi := by simp }
        · exact b2
      · simp only [step, hw, if_false]
        exact hsame _ (by intro p r; rfl) s rfl
    | userAck st tx sched =>
      by_cases hw : (s.pr true).alpmr = .wUserAck
      · obtain ⟨a1, a2, a3, a4⟩ := apmsReq_spec (hl true) (.alarmAck st) tx sched s.now
        simp only [step, hw, if_true]
        cases hab : (apmsReq c (s.pr true) (.alarmAck st) tx sched s.now).2.2.2 with
        | false =>
          obtain ⟨_, b2, _⟩ := a1 hab
          have := (finish_inv hna hl (.userAck st tx sched) true
            { (apmsReq c (s.pr true) (.alarmAck st) tx sched s.now).1 with alpmr := .wTack } _ false
            (by intro q hq r; rfl) (fun _ => { b2 with alpmr := by simp }) a3).1
          convert this using 1
          · simp [finish, Ar.set]
            funext q; split <;> rfl
          · simp [finish]
        | true =>
          have := finish_inv hna hl (.userAck st tx sched) true
            (apmsReq c (s.pr true) (.alarmAck st) tx sched s.now).1 _ true (by intro q hq r; rfl) (by simp) a3
          obtain ⟨h1, h2⟩ := this
          rcases h1 with ⟨h1, _⟩ | ⟨h1, h3⟩
          · exact absurd (h2.2 rfl) h1
          · refine Or.inr ⟨h1, fun q => ⟨?_, (h3 q).2⟩⟩
            have hq := (h3 q).1
            by_cases hqt : q = true
            · subst hqt
              simp only [Ar.set, if_true]
              exact { hq with alpmr := by simp }
            · simpa [Ar.set, hqt] using hq
      · simp only [step, hw, if_false]
        exact hsame _ (by intro p r; rfl) s rfl
    | expire p tx sched =>
      cases ht : (s.pr p).timers with
      | nil =>
        simp only [step, ht]
        exact hsame _ (by intro p r; rfl) s rfl
      | cons t ts =>
        by_cases hw : t ≤ s.now
        · simp only [step, ht, hw, if_true]
          obtain ⟨a1, a2, a3, a4⟩ := timeout_spec (live_timers (hl p) ts) tx sched s.now (Op.hasBuf (.expire p tx sched))
          refine (finish_inv hna hl (.expire p tx sched) p _ _ _ (by intro q hq r; rfl) a1 ?_).1
          rcases a3 with a3 | ⟨P, _, _, _, a3⟩ <;> rw [a3] <;> simp
        · simp only [step, ht, hw, if_false]
          exact hsame _ (by intro p r; rfl) s rfl
    | tick d => exact hsame _ (by intro p r; rfl) _ rfl
  · obtain ⟨e1, e2⟩ := step_dead (c := c) hd op
    rw [e1]
    refine Or.inr ⟨by rw [hnil]; exact ha, fun p => ⟨e2 p, ?_⟩⟩
    rw [hnp]; exact (hd p).2

theorem exec_inv (c : Cfg) (ops : List (Op α)) : Inv c (exec c ops).1 (exec c ops).2 := by
  induction ops using List.reverseRecOn with
  | nil =>
    refine Or.inl ⟨by simp [aborted, exec], fun p => ?_⟩
    exact live_init c
  | append_singleton ops op ih => rw [exec_append]; exact step_inv ih op

end Verif.Alarm
