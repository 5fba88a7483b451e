import Verif.Alarm.Props
/-!
# Retransmission
-/
set_option linter.unusedSimpArgs false
set_option linter.unusedVariables false
namespace Verif.Alarm

variable {α : Type}

theorem apmsInd_timers (x : Pr α) (f : Frame α) : (apmsInd x f).1.timers = x.timers := by
  unfold apmsInd; split
  · split
    · split <;> rfl
    · rfl
  · rfl

theorem recv_timers (x : Pr α) (f : Frame α) (tx : Tx) : (recv x f tx).1.timers = x.timers := by
  unfold recv
  split
  · rfl
  · split
    · exact apmsInd_timers x f
    · rfl
    · unfold apmrInd
      split
      · split
        · rfl
        · split
          · have h1 := apmsInd_timers x f
            split
            · rfl
            · simp only [apmsSend_plain _ (ackFrame _) rfl]
              split
              · unfold alpmiInd; split <;> exact h1
              · exact h1
            · simp only [apmsSend_plain _ (ackFrame _) rfl]
              split <;> exact h1
            · simp only [apmsSend_plain _ (ackFrame _) rfl]
              split
              · unfold alpmrInd
                split
                · exact h1
                · split <;> exact h1
              · exact h1
          · split
            · simp only [apmsSend_plain _ (ackFrame _) rfl]
              exact apmsInd_timers x f
            · simp only [apmsSend_plain _ (nackFrame _) rfl]
      · rfl
    · rfl
    · rfl

/-- **C14** An unacknowledged alarm has been put on the wire at most 1 + RTARetries times. -/
theorem C14_bounded (c : Cfg) (ops : List (Op α)) (p : Bool) (P : Pending α)
    (hp : pending p (exec c ops).2 = some P) : P.sent ≤ 1 + c.retries := by
  rcases exec_inv c ops with ⟨_, hl⟩ | ⟨_, hd⟩
  · obtain ⟨_, _, _, _, h5, h6⟩ := (hl p).pend P hp
    cases hs : P.saved with
    | true => have := h5 hs; omega
    | false => rw [h6 hs]; omega
  · rw [(hd p).2] at hp; cases hp

/-- **C14** A data frame is put on the wire only as the first transmission of an alarm that was just
handed to the transport, or as the identical repetition of the alarm that is still unacknowledged, and
the latter only if a retry is left. In particular nothing is sent again after the acknowledgement. -/
theorem C14_only_unacknowledged (c : Cfg) (ops : List (Op α)) (op : Op α) (p : Bool) (g : Frame α)
    (hg : g.pdu = .data) (hw : (p, Ev.wire g) ∈ (step c (exec c ops).1 op).2) :
    (p, Ev.started g) ∈ (step c (exec c ops).1 op).2 ∨
    ∃ P, pending p (exec c ops).2 = some P ∧ g = P.frame ∧ P.saved = true ∧ P.fired < c.retries ∧
      ∃ tx sched, op = .expire p tx sched := by
  rcases exec_inv c ops with ⟨_, hl⟩ | ⟨_, hd⟩
  · cases op with
    | recv q f tx =>
      rw [step_recv, mem_finish (by simp)] at hw
      obtain ⟨rfl, hw⟩ := hw
      exact absurd hg ((recv_spec (hl p) f tx p true).2.2.2.1 g hw)
    | poll q b tx sched =>
      left
      simp only [step] at hw ⊢
      split at hw
      · rename_i h
        rw [if_pos h]
        rw [mem_finish (by simp)] at hw ⊢
        obtain ⟨rfl, hw⟩ := hw
        exact ⟨rfl, (apmsReq_spec (hl p) _ _ _ _).2.2.2.2.1 g hw⟩
      · simp at hw
    | userAck st tx sched =>
      left
      simp only [step] at hw ⊢
      split at hw
      · rename_i h
        rw [if_pos h]
        rw [mem_finish (by simp)] at hw ⊢
        obtain ⟨rfl, hw⟩ := hw
        exact ⟨rfl, (apmsReq_spec (hl true) _ _ _ _).2.2.2.2.1 g hw⟩
      · simp at hw
    | expire q tx sched =>
      right
      simp only [step] at hw
      split at hw
      · simp at hw
      · rename_i t ts ht
        split at hw
        · rw [mem_finish (by simp)] at hw
          obtain ⟨rfl, hw⟩ := hw
          obtain ⟨_, _, a3, _⟩ := timeout_spec (live_timers (hl p) ts) tx sched (exec c ops).1.now true
          rcases a3 with a3 | ⟨P, h1, h2, h3, a3⟩ <;> rw [a3] at hw <;> simp at hw
          exact ⟨P, h1, hw, h2, h3, tx, sched, rfl⟩
        · simp at hw
    | tick d => simp [step] at hw
  · rw [(step_dead (c := c) hd op).1] at hw
    simp at hw

/-- **C14** The transport acknowledgement of the unacknowledged alarm is recognised and ends it. -/
theorem C14_acknowledged (c : Cfg) (ops : List (Op α)) (p : Bool) (P : Pending α) (f : Frame α) (tx : Tx)
    (hp : pending p (exec c ops).2 = some P) (hf : f.pdu = .ack) (hs : f.ackSeq = P.frame.sendSeq) :
    (p, Ev.confirmed) ∈ (step c (exec c ops).1 (.recv p f tx)).2 ∧
    pending p (exec c (ops ++ [.recv p f tx])).2 = none := by
  rcases exec_inv c ops with ⟨hna, hl⟩ | ⟨_, hd⟩
  · obtain ⟨h1, h2, h3, h4, h5, h6⟩ := (hl p).pend P hp
    have hc : ((exec c ops).1.pr p).apmr ≠ .closed := by rw [(hl p).apmr]; split <;> simp
    have e : recv ((exec c ops).1.pr p) f tx = ((apmsInd ((exec c ops).1.pr p) f).1,
        (apmsInd ((exec c ops).1.pr p) f).2, false) := by simp [recv, hc, hf]
    have e2 : (apmsInd ((exec c ops).1.pr p) f).2 = .confirmed ::
        if ((exec c ops).1.pr p).alpmr = .wTack then [.ackCnf] else [] := by
      simp [apmsInd, hf, h1, hs, h3]
    constructor
    · rw [step_recv, mem_finish (by simp), e, e2]
      simp
    · rw [exec_append, pending_append, step_recv, e, e2]
      simp only [finish]
      rw [if_neg (by simp), txStep_same]
      split <;> simp [pdAfter, txEvent]
  · rw [(hd p).2] at hp; cases hp

/-- All timers could be started. -/
def Op.schedOk : Op α → Bool
  | .poll _ _ _ sched | .userAck _ _ sched | .expire _ _ sched => sched
  | _ => true

/-- Timer invariant. -/
def TimerInv (c : Cfg) (s : Ar α) (h : Hist α) : Prop :=
  ∀ p, (∀ t ∈ (s.pr p).timers, t ≤ s.now + c.timeout) ∧
    (∀ P, pending p h = some P → P.saved = true → (s.pr p).timers ≠ [])

theorem startTimer_timers (c : Cfg) (x : Pr α) (now : Nat) :
    (startTimer c x now true).timers = x.timers ++ [now + c.timeout] := by simp [startTimer]

theorem apmsReq_timers {c : Cfg} {x : Pr α} {b tx now} (ho : x.apms = .open) :
    (apmsReq c x b tx true now).1.timers = x.timers ++ [now + c.timeout] := by
  simp only [apmsReq, ho, if_true, startTimer]
  cases tx <;> simp [apmsSend]
  · split <;> (try split) <;> rfl
  · split <;> (try split) <;> rfl

theorem timer_step {c : Cfg} {s : Ar α} {h : Hist α} (hi : Inv c s h) (ht : TimerInv c s h) (op : Op α)
    (hs : op.schedOk = true) : TimerInv c (step c s op).1 (h ++ [(op, (step c s op).2)]) := by
  rcases hi with ⟨hna, hl⟩ | ⟨ha, hd⟩
  · -- a finished operation on priority p
    have key : ∀ (p : Bool) (op : Op α) (x : Pr α) (evs : List (Ev α)) (ab : Bool), Ev.abort ∉ evs →
        (ab = false → (∀ t ∈ x.timers, t ≤ s.now + c.timeout) ∧
          (∀ P, pdAfter op.hasBuf (pending p h) evs = some P → P.saved = true → x.timers ≠ [])) →
        TimerInv c (finish s p x evs ab).1 (h ++ [(op, (finish s p x evs ab).2)]) := by
      intro p op x evs ab hn hx q
      cases ab with
      | true =>
        have e : finish s p x evs true = ((s.set p x).close, (evs ++ [Ev.abort]).map fun e => (p, e)) := by
          simp [finish]
        rw [e, pending_append, txStep_abort]
        simp [Ar.close, Pr.close]
      | false =>
        have e : finish s p x evs false = (s.set p x, evs.map fun e => (p, e)) := by simp [finish]
        rw [e, pending_append]
        by_cases hq : q = p
        · subst hq
          rw [txStep_same]
          simpa [Ar.set] using hx rfl
        · rw [txStep_other hq _ _ _ hn]
          simpa [Ar.set, hq] using ht q
    have hsame : ∀ op : Op α, TimerInv c s (h ++ [(op, [])]) := by
      intro op p
      rw [pending_append]
      exact ht p
    cases op with
    | recv p f tx =>
      rw [step_recv]
      obtain ⟨a1, a2, a3, a4, a5, a6⟩ := recv_spec (hl p) f tx p (Op.hasBuf (.recv p f tx))
      refine key p _ _ _ _ a2 (fun hab => ?_)
      rw [recv_timers]
      refine ⟨(ht p).1, fun P hP hsv => ?_⟩
      have hlv := a1 hab
      obtain ⟨h1, _⟩ := hlv.pend P hP
      -- the pending alarm is the old one
      cases hpd : pending p h with
      | none =>
        rw [hpd] at hP
        exfalso
        have hno : ∀ evs : List (Ev α), (∀ g, .started g ∉ evs) → pdAfter (Op.hasBuf (.recv p f tx)) none evs = none := by
          intro evs
          induction evs with
          | nil => intro _; rfl
          | cons e es ih =>
            intro hn
            have : txEvent (Op.hasBuf (.recv p f tx)) none e = none := by
              cases e <;> simp [txEvent]
              exact absurd (List.mem_cons_self) (hn _)
            simp only [pdAfter, List.foldl_cons, this]
            exact ih (fun g hg => hn g (List.mem_cons_of_mem _ hg))
        rw [hno _ a5] at hP
        cases hP
      | some Q =>
        have hsQ : Q.saved = true := by
          rw [hpd] at hP
          have hk : ∀ (evs : List (Ev α)) (pd : Option (Pending α)), (∀ g, .started g ∉ evs) →
              (∀ R, pd = some R → R.saved = Q.saved) →
              ∀ P, pdAfter (Op.hasBuf (.recv p f tx)) pd evs = some P → P.saved = Q.saved := by
            intro evs
            induction evs with
            | nil => intro pd _ hR P hP; exact hR P hP
            | cons e es ih =>
              intro pd hn hR P hP
              simp only [pdAfter, List.foldl_cons] at hP
              refine ih _ (fun g hg => hn g (List.mem_cons_of_mem _ hg)) ?_ P hP
              intro R hRe
              cases e with
              | started g => exact absurd (List.mem_cons_self) (hn _)
              | wire g =>
                simp only [txEvent] at hRe
                split at hRe
                · cases pd with
                  | none => cases hRe
                  | some S => simp at hRe; subst hRe; exact hR S rfl
                · exact hR R hRe
              | fired =>
                cases pd with
                | none => simp [txEvent] at hRe
                | some S => simp [txEvent] at hRe; subst hRe; exact hR S rfl
              | confirmed => simp [txEvent] at hRe
              | abort => simp [txEvent] at hRe
              | deliver a => exact hR R hRe
              | alarmCnf a => exact hR R hRe
              | ackCnf => exact hR R hRe
          rw [← hk _ _ a5 (fun R hR => by cases hR; rfl) P hP]; exact hsv
        exact (ht p).2 Q hpd hsQ
    | poll p a tx sched =>
      simp only [Op.schedOk] at hs
      subst hs
      simp only [step]
      split
      · obtain ⟨a1, a2, a3, a4⟩ := apmsReq_spec (hl p) (.notify a) tx true s.now
        refine key p _ _ _ _ a3 (fun hab => ?_)
        obtain ⟨b1, _⟩ := a1 hab
        have ho := ((hl p).idle b1).1
        have e : ∀ y : Pr α, (if (apmsReq c (s.pr p) (.notify a) tx true s.now).2.2.1 = true then
            { y with alpmi := .wAck } else y).timers = y.timers := by intro y; split <;> rfl
        rw [e, apmsReq_timers ho]
        refine ⟨?_, by simp⟩
        intro t ht'
        rcases List.mem_append.1 ht' with ht' | ht'
        · exact (ht p).1 t ht'
        · simp at ht'; omega
      · exact hsame _
    | userAck st tx sched =>
      simp only [Op.schedOk] at hs
      subst hs
      simp only [step]
      split
      · obtain ⟨a1, a2, a3, a4⟩ := apmsReq_spec (hl true) (.alarmAck st) tx true s.now
        have := key true (.userAck st tx true) (apmsReq c (s.pr true) (.alarmAck st) tx true s.now).1
          (apmsReq c (s.pr true) (.alarmAck st) tx true s.now).2.1
          (apmsReq c (s.pr true) (.alarmAck st) tx true s.now).2.2.2 a3 (fun hab => by
            obtain ⟨b1, _⟩ := a1 hab
            have ho := ((hl true).idle b1).1
            rw [apmsReq_timers ho]
            refine ⟨?_, by simp⟩
            intro t ht'
            rcases List.mem_append.1 ht' with ht' | ht'
            · exact (ht true).1 t ht'
            · simp at ht'; omega)
        intro q
        have hq := this q
        have hn : ((finish s true (apmsReq c (s.pr true) (.alarmAck st) tx true s.now).1
          (apmsReq c (s.pr true) (.alarmAck st) tx true s.now).2.1
          (apmsReq c (s.pr true) (.alarmAck st) tx true s.now).2.2.2).1).now = s.now := by
          unfold finish; split <;> rfl
        by_cases hqt : q = true
        · subst hqt; simpa [Ar.set] using hq
        · simpa [Ar.set, hqt] using hq
      · exact hsame _
    | expire p tx sched =>
      simp only [Op.schedOk] at hs
      subst hs
      cases htm : (s.pr p).timers with
      | nil => simp only [step, htm]; exact hsame _
      | cons t ts =>
        by_cases hw : t ≤ s.now
        · simp only [step, htm, hw, if_true]
          obtain ⟨a1, a2, a3, a4⟩ := timeout_spec (live_timers (hl p) ts) tx true s.now
            (Op.hasBuf (.expire p tx true : Op α))
          refine key p _ _ _ _ (by rcases a3 with a3 | ⟨P, _, _, _, a3⟩ <;> rw [a3] <;> simp) (fun hab => ?_)
          have hts : ∀ t' ∈ ts, t' ≤ s.now + c.timeout := fun t' h' => (ht p).1 t' (by rw [htm]; simp [h'])
          cases hpd : pending p h with
          | none =>
            have hap := ((hl p).idle hpd).1
            have e : (apmsTimeout c { s.pr p with timers := ts } tx true s.now).1.timers = ts := by
              simp [apmsTimeout, hap]
            have e2 : (apmsTimeout c { s.pr p with timers := ts } tx true s.now).2.1 = [] := by
              simp [apmsTimeout, hap]
            rw [e, e2]
            exact ⟨hts, by simp [pdAfter, txEvent]⟩
          | some P =>
            obtain ⟨h1, h2, h3, h4, h5, h6⟩ := (hl p).pend P hpd
            cases hsv : P.saved with
            | false =>
              rw [hsv] at h4
              simp at h4
              have e : (apmsTimeout c { s.pr p with timers := ts } tx true s.now).1.timers = ts := by
                simp [apmsTimeout, h1, h4]
              have e2 : (apmsTimeout c { s.pr p with timers := ts } tx true s.now).2.1 = [] := by
                simp [apmsTimeout, h1, h4]
              rw [e, e2]
              refine ⟨hts, ?_⟩
              intro Q hQ hQs
              simp [pdAfter, txEvent] at hQ
              subst hQ
              simp [hsv] at hQs
            | true =>
              rw [hsv] at h4
              simp at h4
              have hr : (s.pr p).resend > 0 := by
                have := a2.not.1 (by simp [hab])
                have h7 := h5 hsv
                by_contra hcon
                exact this ⟨P, hpd, hsv, by omega⟩
              have e : (apmsTimeout c { s.pr p with timers := ts } tx true s.now).1.timers =
                  ts ++ [s.now + c.timeout] := by
                simp [apmsTimeout, h1, h4, hr, startTimer]
              rw [e]
              refine ⟨?_, by simp⟩
              intro t' ht'
              rcases List.mem_append.1 ht' with ht' | ht'
              · exact hts t' ht'
              · simp at ht'; omega
        · simp only [step, htm, hw, if_false]; exact hsame _
    | tick d =>
      intro p
      rw [pending_append]
      refine ⟨fun t h' => ?_, (ht p).2⟩
      have := (ht p).1 t h'
      show t ≤ s.now + d + c.timeout
      omega
  · intro p
    have h2 := (step_dead (c := c) hd op).2 p
    rw [h2.timers]
    refine ⟨by simp, ?_⟩
    rw [pending_append, (step_dead (c := c) hd op).1]
    intro P hP
    have : pending p h = some P := hP
    rw [(hd p).2] at this; cases this

theorem timer_inv (c : Cfg) (ops : List (Op α)) (hs : ∀ op ∈ ops, op.schedOk = true) :
    TimerInv c (exec c ops).1 (exec c ops).2 := by
  induction ops using List.reverseRecOn with
  | nil => intro p; simp [exec, Ar.init, Pr.init, pending]
  | append_singleton ops op ih =>
    rw [exec_append]
    exact timer_step (exec_inv c ops) (ih (fun o ho => hs o (by simp [ho]))) op (hs op (by simp))

/-- One retransmission interval passes, and the timer expires. -/
def round (c : Cfg) (p : Bool) (tx : Tx) : List (Op α) := [.tick c.timeout, .expire p tx true]

theorem round_step (c : Cfg) (ops : List (Op α)) (hs : ∀ op ∈ ops, op.schedOk = true) (p : Bool) (tx : Tx)
    (P : Pending α) (hp : pending p (exec c ops).2 = some P) (hsv : P.saved = true) :
    (P.fired = c.retries ∧ aborted (exec c (ops ++ round c p tx)).2) ∨
    (P.fired < c.retries ∧ ∃ Q, pending p (exec c (ops ++ round c p tx)).2 = some Q ∧ Q.saved = true ∧
      Q.fired = P.fired + 1) := by
  have e : ops ++ round c p tx = (ops ++ [.tick c.timeout]) ++ [.expire p tx true] := by simp [round]
  rw [e, exec_append]
  have hs1 : ∀ op ∈ ops ++ [.tick c.timeout], op.schedOk = true := by
    intro op ho
    rcases List.mem_append.1 ho with ho | ho
    · exact hs op ho
    · simp at ho; subst ho; rfl
  have hp1 : pending p (exec c (ops ++ [.tick c.timeout])).2 = some P := by
    rw [exec_append, pending_append]; exact hp
  have hnow : ∀ t ∈ ((exec c (ops ++ [.tick c.timeout])).1.pr p).timers, t ≤ (exec c (ops ++ [.tick c.timeout])).1.now := by
    rw [exec_append]
    intro t ht
    exact (timer_inv c ops hs p).1 t ht
  have hne := (timer_inv c _ hs1 p).2 P hp1 hsv
  rcases exec_inv c (ops ++ [.tick c.timeout]) with ⟨hna, hl⟩ | ⟨_, hd⟩
  · set s := (exec c (ops ++ [.tick c.timeout])).1
    set h := (exec c (ops ++ [.tick c.timeout])).2
    cases htm : (s.pr p).timers with
    | nil => exact absurd htm hne
    | cons t ts =>
      have hw : t ≤ s.now := hnow t (by rw [htm]; simp)
      obtain ⟨a1, a2, a3, a4⟩ := timeout_spec (live_timers (hl p) ts) tx true s.now
        (Op.hasBuf (.expire p tx true : Op α))
      obtain ⟨h1, h2, h3, h4, h5, h6⟩ := (hl p).pend P hp1
      have h7 := (h5 hsv).1
      have est : step c s (.expire p tx true) = finish s p
          (apmsTimeout c { s.pr p with timers := ts } tx true s.now).1
          (.fired :: (apmsTimeout c { s.pr p with timers := ts } tx true s.now).2.1)
          (apmsTimeout c { s.pr p with timers := ts } tx true s.now).2.2 := by
        simp only [step, htm, hw, if_true]
      have hn : Ev.abort ∉ (.fired :: (apmsTimeout c { s.pr p with timers := ts } tx true s.now).2.1) := by
        rcases a3 with a3 | ⟨P, _, _, _, a3⟩ <;> rw [a3] <;> simp
      rw [est]
      have hf := finish_inv hna hl (.expire p tx true) p _ _ _ (by intro q hq r; rfl) a1 hn
      by_cases hr : P.fired = c.retries
      · left
        refine ⟨hr, ?_⟩
        rw [hf.2, a2]
        exact ⟨P, hp1, hsv, hr⟩
      · right
        refine ⟨by omega, ?_⟩
        have hab : (apmsTimeout c { s.pr p with timers := ts } tx true s.now).2.2 = false := by
          cases hab : (apmsTimeout c { s.pr p with timers := ts } tx true s.now).2.2 with
          | false => rfl
          | true =>
            obtain ⟨Q, q1, q2, q3⟩ := a2.1 hab
            rw [hp1] at q1; cases q1; exact absurd q3 hr
        have hpend : pending p (h ++ [(.expire p tx true, (finish s p
          (apmsTimeout c { s.pr p with timers := ts } tx true s.now).1
          (.fired :: (apmsTimeout c { s.pr p with timers := ts } tx true s.now).2.1)
          (apmsTimeout c { s.pr p with timers := ts } tx true s.now).2.2).2)]) =
          pdAfter (Op.hasBuf (.expire p tx true : Op α)) (some P)
            (.fired :: (apmsTimeout c { s.pr p with timers := ts } tx true s.now).2.1) := by
          rw [pending_append, hab]
          simp only [finish]
          rw [if_neg (by simp), txStep_same, hp1]
        rw [hpend]
        rcases a3 with a3 | ⟨Q, q1, q2, q3, a3⟩
        · rw [a3]; exact ⟨_, rfl, hsv, rfl⟩
        · rw [hp1] at q1; cases q1
          rw [a3]
          exact ⟨{ P with fired := P.fired + 1, sent := P.sent + 1 }, by simp [pdAfter, txEvent, h2], hsv, rfl⟩
  · have := (hd p).2; rw [hp1] at this; cases this

theorem exec_append' (c : Cfg) (a b : List (Op α)) :
    (exec c (a ++ b)).2.length = (exec c a).2.length + b.length := by
  induction b using List.reverseRecOn with
  | nil => simp
  | append_singleton b op ih => rw [← List.append_assoc, exec_append]; simp [ih]; omega

/-- **C14 (partial)** If the alarm is never acknowledged the connection is aborted: after exactly as many
further timer expiries as there are retries left, plus one. This holds for every interleaving before,
provided that timers could be started and a buffer was available when the alarm was handed to the
transport (`P.saved`).

Partial: without a buffer the alarm is neither retransmitted nor the connection aborted, see
`C14_lost_without_buffer`. -/
theorem C14_aborted_partial (c : Cfg) (ops : List (Op α)) (hs : ∀ op ∈ ops, op.schedOk = true) (p : Bool)
    (tx : Tx) (P : Pending α) (hp : pending p (exec c ops).2 = some P) (hsv : P.saved = true) :
    aborted (exec c (ops ++ (List.replicate (c.retries + 1 - P.fired) (round c p tx)).flatten)).2 ∧
    ∀ n, n < c.retries + 1 - P.fired →
      ¬ aborted (exec c (ops ++ (List.replicate n (round c p tx)).flatten)).2 := by
  have hle : P.fired ≤ c.retries := by
    rcases exec_inv c ops with ⟨_, hl⟩ | ⟨_, hd⟩
    · have := (((hl p).pend P hp).2.2.2.2.1 hsv).1; omega
    · rw [(hd p).2] at hp; cases hp
  generalize hk : c.retries - P.fired = k
  induction k generalizing ops P with
  | zero =>
    have e : c.retries + 1 - P.fired = 1 := by omega
    rw [e]
    constructor
    · rcases round_step c ops hs p tx P hp hsv with ⟨_, h⟩ | ⟨h, _⟩
      · simpa using h
      · omega
    · intro n hn
      have : n = 0 := by omega
      subst this
      intro ha
      simp at ha
      rcases exec_inv c ops with ⟨h, _⟩ | ⟨_, hd⟩
      · exact h ha
      · rw [(hd p).2] at hp; cases hp
  | succ k ih =>
    rcases round_step c ops hs p tx P hp hsv with ⟨h, _⟩ | ⟨h, Q, q1, q2, q3⟩
    · omega
    · have hs' : ∀ op ∈ ops ++ round c p tx, op.schedOk = true := by
        intro op ho
        rcases List.mem_append.1 ho with ho | ho
        · exact hs op ho
        · simp [round] at ho; rcases ho with rfl | rfl <;> rfl
      obtain ⟨i1, i2⟩ := ih (ops ++ round c p tx) hs' Q q1 q2 (by omega) (by omega)
      have e : c.retries + 1 - P.fired = (c.retries + 1 - Q.fired) + 1 := by omega
      rw [e]
      constructor
      · rw [List.replicate_succ, List.flatten_cons, ← List.append_assoc]; exact i1
      · intro n hn
        cases n with
        | zero =>
          intro ha
          simp at ha
          rcases exec_inv c ops with ⟨h, _⟩ | ⟨_, hd⟩
          · exact h ha
          · rw [(hd p).2] at hp; cases hp
        | succ n =>
          rw [List.replicate_succ, List.flatten_cons, ← List.append_assoc]
          exact i2 n (by omega)

/-- **C14 (finding)** If no buffer was available when the alarm was handed to the transport, it is never
put on the wire and the connection is never aborted, however many timers expire. -/
theorem C14_lost_without_buffer (c : Cfg) (ops : List (Op α)) (p : Bool) (P : Pending α)
    (hp : pending p (exec c ops).2 = some P) (hsv : P.saved = false) (ops' : List (Op α))
    (ho : ∀ op ∈ ops', (∃ d, op = .tick d) ∨ ∃ tx sched, op = .expire p tx sched) :
    ¬ aborted (exec c (ops ++ ops')).2 ∧
    ∃ Q, pending p (exec c (ops ++ ops')).2 = some Q ∧ Q.saved = false ∧ Q.sent = 0 := by
  induction ops' using List.reverseRecOn with
  | nil =>
    simp only [List.append_nil]
    rcases exec_inv c ops with ⟨hna, hl⟩ | ⟨_, hd⟩
    · exact ⟨hna, P, hp, hsv, ((hl p).pend P hp).2.2.2.2.2 hsv⟩
    · rw [(hd p).2] at hp; cases hp
  | append_singleton ops' op ih =>
    obtain ⟨hna, Q, q1, q2, q3⟩ := ih (fun o h => ho o (by simp [h]))
    have hl := live_of hna
    rw [← List.append_assoc, exec_append]
    rcases ho op (by simp) with ⟨d, rfl⟩ | ⟨tx, sched, rfl⟩
    · refine ⟨?_, Q, ?_, q2, q3⟩
      · rw [aborted_append]; simp [step]; exact hna
      · rw [pending_append]; exact q1
    · set s := (exec c (ops ++ ops')).1
      set h := (exec c (ops ++ ops')).2
      have hsame : ¬ aborted (h ++ [(Op.expire p tx sched, [])]) ∧
          ∃ Q, pending p (h ++ [(Op.expire p tx sched, [])]) = some Q ∧ Q.saved = false ∧ Q.sent = 0 := by
        refine ⟨by rw [aborted_append]; simp; exact hna, Q, by rw [pending_append]; exact q1, q2, q3⟩
      cases htm : (s.pr p).timers with
      | nil => simp only [step, htm]; exact hsame
      | cons t ts =>
        by_cases hw : t ≤ s.now
        · obtain ⟨h1, h2, h3, h4, h5, h6⟩ := (hl p).pend Q q1
          rw [q2] at h4
          simp at h4
          have e : apmsTimeout c { s.pr p with timers := ts } tx sched s.now =
              ({ s.pr p with timers := ts }, [], false) := by simp [apmsTimeout, h1, h4]
          have est : (step c s (.expire p tx sched)).2 = [Ev.fired].map fun e => (p, e) := by
            simp only [step, htm, hw, if_true, e, finish]
            rfl
          rw [est]
          refine ⟨?_, { Q with fired := Q.fired + 1 }, ?_, q2, q3⟩
          · rw [aborted_append]; simp; exact hna
          · rw [pending_append, txStep_same, q1]; rfl
        · simp only [step, htm, hw, if_false]; exact hsame

/-- Non-vacuity: an alarm sent with two retries is put on the wire three times, then the connection is
aborted; the hypotheses of the C14 theorems hold on the way. -/
theorem C14_example :
    let c : Cfg := ⟨2, 100⟩
    let ops : List (Op Nat) := [.poll true 7 .ok true, .tick 100, .expire true .ok true]
    (∃ P, pending true (exec c ops).2 = some P ∧ P.saved = true ∧ P.sent = 2 ∧ P.fired = 1) ∧
    ((exec c (ops ++ round c true .ok ++ round c true .ok)).2.flatMap (·.2)).map (·.2) =
      [.started ⟨.data, true, 0xffff, 0xfffe, .notify 7⟩, .wire ⟨.data, true, 0xffff, 0xfffe, .notify 7⟩,
       .fired, .wire ⟨.data, true, 0xffff, 0xfffe, .notify 7⟩,
       .fired, .wire ⟨.data, true, 0xffff, 0xfffe, .notify 7⟩, .fired, .abort] := by
  refine ⟨⟨_, rfl, by decide, by decide, by decide⟩, by decide⟩

/-- Non-vacuity of `C14_lost_without_buffer`. -/
theorem C14_lost_example :
    ∃ P, pending true (exec ⟨2, 100⟩ [(.poll true 7 .noBuf true : Op Nat)]).2 = some P ∧ P.saved = false :=
  ⟨_, rfl, by decide⟩

end Verif.Alarm
