import Verif.Alarm.Retry
/-!
# C49 Every received alarm can be acknowledged
# C55 Retransmissions keep the negotiated distance
# C56 An acknowledged alarm was handed to the application
# C57 Sending an alarm does not abort a healthy connection
-/
set_option linter.unusedSimpArgs false
set_option linter.unusedVariables false
namespace Verif.Alarm

variable {α : Type}

/-! ## C49 -/

/-- Does the application owe an acknowledgement for an alarm of priority `p`? It does from the delivery
until it calls the acknowledgement function (which has no priority argument; the code sends high
priority acknowledgements). -/
def owesStep (p : Bool) (b : Bool) (e : Op α × List (Bool × Ev α)) : Bool :=
  if e.2.any (fun ev => ev.1 == p && ev.2.isDeliver) then true
  else match e.1 with
    | .userAck _ _ _ => if p = true then false else b
    | _ => b

/-- See `owesStep`. -/
def owes (p : Bool) (h : Hist α) : Bool := h.foldl (owesStep p) false

theorem apmsInd_wUserAck (x : Pr α) (f : Frame α) : (apmsInd x f).1.alpmr = .wUserAck ↔ x.alpmr = .wUserAck := by
  unfold apmsInd
  split
  · split
    · split
      · simp only
        split
        · rename_i h; simp [h]
        · rfl
      · rfl
    · rfl
  · rfl

theorem apmrInd_wUserAck {c : Cfg} {x : Pr α} {r pd} (hl : Live c x r pd) (f : Frame α) (tx : Tx) (hpdu : f.pdu = .data)
    (hab : (apmrInd x f tx).2.2 = false) :
    (apmrInd x f tx).1.alpmr = .wUserAck ↔
      (x.alpmr = .wUserAck ∨ ∃ a, .deliver a ∈ (apmrInd x f tx).2.1) := by
  obtain ⟨_, n1, n2, n3, n4, n5⟩ := live_apmsInd hl f true
  have h1 := apmsInd_wUserAck x f
  unfold apmrInd at hab ⊢
  split at hab
  · rename_i ho
    rw [if_pos ho]
    split at hab
    · rename_i ht
      rw [if_pos ht]; simp
    · rename_i ht
      rw [if_neg ht]
      split at hab
      · rename_i hs
        rw [if_pos hs]
        cases hb : f.body with
        | other => simp [hb] at hab
        | alarmAck st =>
          simp only [apmsSend_plain _ (ackFrame _) rfl]
          by_cases htx : tx = .ok
          · simp only [htx, if_true, decide_true]
            unfold alpmiInd
            split
            · simp [n3]; exact h1
            · simp [n3]; exact h1
          · simp [htx, n3]; exact h1
        | badNotify =>
          simp only [apmsSend_plain _ (ackFrame _) rfl]
          by_cases htx : tx = .ok
          · simp [htx, n3]; exact h1
          · simp [htx, n3]; exact h1
        | notify a =>
          simp only [apmsSend_plain _ (ackFrame _) rfl]
          by_cases htx : tx = .ok
          · simp only [htx, if_true, decide_true]
            unfold alpmrInd
            have e : ∀ y : Pr α, (advance y).alpmr = y.alpmr := fun _ => rfl
            by_cases hst : (advance (apmsInd x f).1).alpmr = .wStart
            · simp [hst, n3]; rw [e] at hst; intro hx; rw [h1.2 hx] at hst; cases hst
            · by_cases hno : (advance (apmsInd x f).1).alpmr = .wNotify
              · simp [hno]
              · simp [hb, htx, apmsSend_plain _ (ackFrame _) rfl, alpmrInd, hst, hno] at hab
          · simp [htx, n3]; exact h1
      · rename_i hs
        rw [if_neg hs]
        split at hab
        · rename_i ho
          rw [if_pos ho]
          simp only [apmsSend_plain _ (ackFrame _) rfl]
          rw [h1]
          constructor
          · intro h; exact Or.inl h
          · rintro (h | ⟨a, ha⟩)
            · exact h
            · simp only [List.mem_append] at ha
              rcases ha with ha | ha
              · exact absurd ha (n3 a)
              · split at ha <;> simp at ha
        · rename_i ho
          rw [if_neg ho]
          simp only [apmsSend_plain _ (nackFrame _) rfl]
          constructor
          · intro h; exact Or.inl h
          · rintro (h | ⟨a, ha⟩)
            · exact h
            · split at ha <;> simp at ha
  · rename_i ho
    rw [if_neg ho]; simp

theorem recv_wUserAck {c : Cfg} {x : Pr α} {r pd} (hl : Live c x r pd) (f : Frame α) (tx : Tx)
    (hab : (recv x f tx).2.2 = false) :
    (recv x f tx).1.alpmr = .wUserAck ↔ (x.alpmr = .wUserAck ∨ ∃ a, .deliver a ∈ (recv x f tx).2.1) := by
  have hc : x.apmr ≠ .closed := by rw [hl.apmr]; split <;> simp
  cases hp : f.pdu with
  | data =>
    have e : recv x f tx = apmrInd x f tx := by simp [recv, hc, hp]
    rw [e] at hab ⊢
    exact apmrInd_wUserAck hl f tx hp hab
  | ack =>
    have e : recv x f tx = ((apmsInd x f).1, (apmsInd x f).2, false) := by simp [recv, hc, hp]
    rw [e]
    obtain ⟨_, n1, n2, n3, n4, n5⟩ := live_apmsInd hl f true
    simp [n3, apmsInd_wUserAck]
  | nack =>
    have e : recv x f tx = (x, [], false) := by simp [recv, hc, hp]
    simp [e]
  | err =>
    have e : recv x f tx = (x, [], true) := by simp [recv, hc, hp]
    rw [e] at hab; simp at hab
  | ignored =>
    have e : recv x f tx = (x, [], false) := by simp [recv, hc, hp]
    simp [e]

theorem any_deliver (p : Bool) (evs : List (Bool × Ev α)) :
    evs.any (fun ev => ev.1 == p && ev.2.isDeliver) = true ↔ ∃ a, (p, Ev.deliver a) ∈ evs := by
  rw [List.any_eq_true]
  constructor
  · rintro ⟨⟨q, e⟩, hm, h⟩
    simp at h
    obtain ⟨rfl, h⟩ := h
    cases e <;> simp [Ev.isDeliver] at h
    exact ⟨_, hm⟩
  · rintro ⟨a, ha⟩
    exact ⟨_, ha, by simp [Ev.isDeliver]⟩

theorem owes_append (p : Bool) (h : Hist α) (e) : owes p (h ++ [e]) = owesStep p (owes p h) e := by simp [owes]

/-- The responder waits for the application exactly when the application owes an acknowledgement. -/
theorem owes_inv (c : Cfg) (ops : List (Op α)) (p : Bool) (hna : ¬ aborted (exec c ops).2) :
    ((exec c ops).1.pr p).alpmr = .wUserAck ↔ owes p (exec c ops).2 = true := by
  induction ops using List.reverseRecOn generalizing p with
  | nil => simp [exec, owes, Ar.init, Pr.init]
  | append_singleton ops op ih =>
    rw [exec_append] at hna ⊢
    have hna0 : ¬ aborted (exec c ops).2 := fun h => hna (by rw [aborted_append]; exact Or.inl h)
    have hl := live_of hna0
    have ih := fun p => ih p hna0
    rw [owes_append]
    set s := (exec c ops).1
    set h := (exec c ops).2
    have nodel : ∀ (op : Op α), (∀ f tx, op ≠ .recv p f tx) → ¬ ∃ a, (p, Ev.deliver a) ∈ (step c s op).2 := by
      rintro op hop ⟨a, ha⟩
      obtain ⟨_, _, f, tx, he, _⟩ := deliver_recv (exec_inv c ops) ha
      exact hop f tx he
    cases op with
    | recv q f tx =>
      have hf := finish_inv hna0 hl (.recv q f tx) q (recv (s.pr q) f tx).1 (recv (s.pr q) f tx).2.1
        (recv (s.pr q) f tx).2.2 (by intro q' hq r; simp [rxStep, hq.symm])
        (recv_spec (hl q) f tx q _).1 (recv_spec (hl q) f tx q true).2.1
      have hab : (recv (s.pr q) f tx).2.2 = false := by
        cases hab : (recv (s.pr q) f tx).2.2 with
        | false => rfl
        | true => exact absurd (hf.2.2 hab) hna
      by_cases hq : p = q
      · subst hq
        have h1 := recv_wUserAck (hl p) f tx hab
        have e1 : ((step c s (.recv p f tx)).1.pr p).alpmr = (recv (s.pr p) f tx).1.alpmr := by
          rw [step_recv]; simp [finish, hab, Ar.set]
        have e2 : (∃ a, (p, Ev.deliver a) ∈ (step c s (.recv p f tx)).2) ↔
            ∃ a, .deliver a ∈ (recv (s.pr p) f tx).2.1 := by
          rw [step_recv]
          exact exists_congr fun a => by rw [mem_finish (by simp)]; simp
        rw [e1, h1, ih p, owesStep]
        by_cases hd : ∃ a, (p, Ev.deliver a) ∈ (step c s (.recv p f tx)).2
        · rw [if_pos ((any_deliver p _).2 hd)]
          simp [e2.1 hd]
        · rw [if_neg (by rw [any_deliver]; exact hd)]
          have hd' : ¬ ∃ a, .deliver a ∈ (recv (s.pr p) f tx).2.1 := fun h => hd (e2.2 h)
          simp [hd']
      · have hno : ¬ ∃ a, (p, Ev.deliver a) ∈ (step c s (.recv q f tx)).2 := by
          apply nodel; intro f' tx' he; injection he with h1; exact hq h1.symm
        rw [owesStep, if_neg (by rw [any_deliver]; exact hno)]
        show _ ↔ owes p h = true
        rw [← ih p, step_recv]
        simp [finish, hab, Ar.set, hq]
    | poll q a tx sched =>
      rw [owesStep, if_neg (by rw [any_deliver]; exact nodel _ (by simp))]
      show _ ↔ owes p h = true
      rw [← ih p]
      simp only [step] at hna ⊢
      by_cases hw : (s.pr q).alpmi = .wAlarm
      · rw [if_pos hw] at hna ⊢
        obtain ⟨a1, a2, a3, a4⟩ := apmsReq_spec (hl q) (.notify a) tx sched s.now
        cases hab : (apmsReq c (s.pr q) (.notify a) tx sched s.now).2.2.2 with
        | true =>
          exfalso; apply hna
          rw [aborted_append]; right; refine ⟨q, ?_⟩; simp [finish, hab]
        | false =>
          obtain ⟨_, _, _, b4⟩ := a1 hab
          by_cases hq : p = q
          · subst hq
            simp only [finish, Ar.set, if_neg (show ¬ (false = true) by simp), if_true]
            rw [← b4]
            split <;> rfl
          · simp [finish, Ar.set, hq]
      · rw [if_neg hw]
    | userAck st tx sched =>
      rw [owesStep, if_neg (by rw [any_deliver]; exact nodel _ (by simp))]
      simp only [step] at hna ⊢
      by_cases hw : (s.pr true).alpmr = .wUserAck
      · rw [if_pos hw] at hna ⊢
        cases p with
        | true => simp [Ar.set]
        | false =>
          obtain ⟨a1, a2, a3, a4⟩ := apmsReq_spec (hl true) (.alarmAck st) tx sched s.now
          cases hab : (apmsReq c (s.pr true) (.alarmAck st) tx sched s.now).2.2.2 with
          | true =>
            exfalso; apply hna
            rw [aborted_append]; right; refine ⟨true, ?_⟩; simp [finish, hab]
          | false =>
            have := ih false
            simp [finish, Ar.set]
            exact this
      · rw [if_neg hw]
        cases p with
        | true => simp [hw]
        | false => have := ih false; simpa using this
    | expire q tx sched =>
      rw [owesStep, if_neg (by rw [any_deliver]; exact nodel _ (by simp))]
      show _ ↔ owes p h = true
      rw [← ih p]
      cases htm : (s.pr q).timers with
      | nil => simp only [step, htm]
      | cons t ts =>
        by_cases hw : t ≤ s.now
        · simp only [step, htm, hw, if_true] at hna ⊢
          cases hab : (apmsTimeout c { s.pr q with timers := ts } tx sched s.now).2.2 with
          | true =>
            exfalso; apply hna
            rw [aborted_append]; right; refine ⟨q, ?_⟩; simp [finish, hab]
          | false =>
            by_cases hq : p = q
            · subst hq
              have e : (apmsTimeout c { s.pr p with timers := ts } tx sched s.now).1.alpmr = (s.pr p).alpmr := by
                unfold apmsTimeout startTimer
                split
                · split
                  · rfl
                  · split
                    · split <;> rfl
                    · rfl
                · rfl
              simp [finish, Ar.set, e]
            · simp [finish, Ar.set, hq]
        · simp only [step, htm, hw, if_false]
    | tick d =>
      rw [owesStep, if_neg (by rw [any_deliver]; exact nodel _ (by simp))]
      show _ ↔ owes p h = true
      rw [← ih p]; rfl

/-- **C49 (partial)** If the application owes an acknowledgement for a *high priority* alarm and no own
high priority data frame is unacknowledged, its acknowledgement call succeeds (when the frame can be sent) and
the acknowledgement is sent at high priority.

Partial: low priority alarms can not be acknowledged (`C49_low_refused`), and the call aborts the
connection if an own high priority frame is unacknowledged (`C49_busy_aborts`). -/
theorem C49_high_accepted_partial (c : Cfg) (ops : List (Op α)) (status : Nat)
    (ha : ¬ aborted (exec c ops).2) (ho : owes true (exec c ops).2 = true)
    (hp : pending true (exec c ops).2 = none) :
    userAckRet c (exec c ops).1 status .ok true = true ∧
    ∃ g, (true, Ev.wire g) ∈ (step c (exec c ops).1 (.userAck status .ok true)).2 ∧
      g.pdu = .data ∧ g.body = .alarmAck status := by
  have hw := (owes_inv c ops true ha).2 ho
  have hl := live_of ha true
  have hop := (hl.idle hp).1
  constructor
  · simp [userAckRet, hw, apmsReq, hop, apmsSend]
  · refine ⟨dataFrame ((exec c ops).1.pr true) (.alarmAck status), ?_, rfl, rfl⟩
    simp [step, hw, apmsReq, hop, apmsSend, finish, dataFrame]

/-- **C49 (finding)** Without an owed high priority acknowledgement the call is refused; so a low priority alarm
can not be acknowledged: after a low priority alarm was delivered, every acknowledgement call fails,
and the next low priority alarm aborts the connection. -/
theorem C49_low_refused :
    ∃ (c : Cfg) (ops : List (Op Nat)), ¬ aborted (exec c ops).2 ∧ owes false (exec c ops).2 = true ∧
      (∀ status tx sched, userAckRet c (exec c ops).1 status tx sched = false) ∧
      (∀ status tx sched,
        aborted (exec c (ops ++ [.userAck status tx sched, .recv false (note 0 11) .ok])).2) := by
  refine ⟨⟨3, 100⟩, [.recv false (note 0xffff 10) .ok], ?_, by decide, ?_, ?_⟩
  · rintro ⟨e, he, p, hp⟩
    simp [exec, step, recv, apmrInd, apmsInd, Ar.init, Pr.init, advance, apmsSend, ackFrame, finish, note,
      alpmrInd] at he
    subst he
    simp at hp
  · intro status tx sched
    simp [userAckRet, exec, step, recv, apmrInd, apmsInd, Ar.init, Pr.init, advance, apmsSend, ackFrame, finish,
      note, alpmrInd, Ar.set]
  · intro status tx sched
    rw [show [Op.recv false (note 0xffff 10) .ok] ++ [.userAck status tx sched, .recv false (note 0 11) .ok] =
      ([.recv false (note 0xffff 10) .ok, .userAck status tx sched] ++ [.recv false (note 0 11) .ok] : List (Op Nat))
      from rfl, exec_append, aborted_append]
    right
    refine ⟨false, ?_⟩
    simp [exec, step, recv, apmrInd, apmsInd, Ar.init, Pr.init, advance, apmsSend, ackFrame, finish,
        note, alpmrInd, Ar.set]

theorem apmsReq_busy {c : Cfg} {x : Pr α} {r pd b tx sched now} (hl : Live c x r pd) (hp : pd ≠ none) :
    apmsReq c x b tx sched now = (x, [], false, true) := by
  cases pd with
  | none => exact absurd rfl hp
  | some P =>
    have := (hl.pend P rfl).1
    simp [apmsReq, this]

/-- **C49 (finding)** If an own high priority frame is still unacknowledged when the application
acknowledges an alarm, the call fails and aborts the connection. -/
theorem C49_busy_aborts (c : Cfg) (ops : List (Op α)) (status : Nat) (tx : Tx) (sched : Bool)
    (ha : ¬ aborted (exec c ops).2) (ho : owes true (exec c ops).2 = true)
    (hp : pending true (exec c ops).2 ≠ none) :
    userAckRet c (exec c ops).1 status tx sched = false ∧
    (true, Ev.abort) ∈ (step c (exec c ops).1 (.userAck status tx sched)).2 := by
  have hw := (owes_inv c ops true ha).2 ho
  have e := apmsReq_busy (b := .alarmAck status) (tx := tx) (sched := sched) (now := (exec c ops).1.now)
    (live_of ha true) hp
  constructor
  · simp [userAckRet, hw, e]
  · simp [step, hw, e, finish]

/-- Non-vacuity of `C49_busy_aborts` and `C49_high_accepted_partial`. -/
theorem C49_examples :
    (owes true (exec ⟨3, 100⟩ [(.recv true (note 0xffff 10) .ok : Op Nat)]).2 = true ∧
     (pending true (exec ⟨3, 100⟩ [(.recv true (note 0xffff 10) .ok : Op Nat)]).2).isNone = true) ∧
    (owes true (exec ⟨3, 100⟩ [(.recv true (note 0xffff 10) .ok : Op Nat), .poll true 7 .ok true]).2 = true ∧
     (pending true (exec ⟨3, 100⟩ [(.recv true (note 0xffff 10) .ok : Op Nat), .poll true 7 .ok true]).2).isSome = true) := by
  decide

/-! ## C57 -/

/-- **C57 (partial)** Taking an alarm of the application from the send queue does not abort the connection
if no data frame of that priority is unacknowledged.

Partial: otherwise it does, see `C57_alarm_after_ack_aborts`. -/
theorem C57_no_abort_partial (c : Cfg) (ops : List (Op α)) (p : Bool) (a : α) (tx : Tx) (sched : Bool)
    (ha : ¬ aborted (exec c ops).2) (hp : pending p (exec c ops).2 = none) :
    ¬ aborted (exec c (ops ++ [.poll p a tx sched])).2 := by
  rw [exec_append, aborted_append]
  rintro (h | ⟨q, hq⟩)
  · exact ha h
  · have hl := live_of ha p
    have hop := (hl.idle hp).1
    simp only [step] at hq
    split at hq
    · obtain ⟨a1, a2, a3, a4⟩ := apmsReq_spec hl (.notify a) tx sched (exec c ops).1.now
      have e : (apmsReq c ((exec c ops).1.pr p) (.notify a) tx sched (exec c ops).1.now).2.2.2 = false := by
        simp [apmsReq, hop]
      simp [finish, e] at hq
      exact a3 hq.1
    · simp at hq

/-- **C57 (finding)** A controller alarm is delivered and acknowledged by the application; before the transport
acknowledgement of that acknowledgement arrives, the application's own process alarm is taken from the queue:
the connection is aborted, although no frame was lost and nobody misbehaved. -/
theorem C57_alarm_after_ack_aborts (c : Cfg) (a b : α) (status : Nat) :
    let f : Frame α := ⟨.data, true, 0xffff, 0xfffe, .notify a⟩
    let h := (exec c [.recv true f .ok, .userAck status .ok true, .poll true b .ok true]).2
    aborted h ∧ h.flatMap (fun e => e.2.map (·.2)) =
      [.wire ⟨.ack, false, 0xfffe, 0xffff, .other⟩, .deliver a,
       .started ⟨.data, true, 0xffff, 0xffff, .alarmAck status⟩,
       .wire ⟨.data, true, 0xffff, 0xffff, .alarmAck status⟩, .abort] := by
  refine ⟨⟨(.poll true b .ok true, [(true, .abort)]), ?_, true, by simp⟩, ?_⟩
  · simp [exec, step, recv, apmrInd, apmsInd, Ar.init, Pr.init, advance, apmsSend, ackFrame, finish, alpmrInd, Ar.set,
      apmsReq, dataFrame, startTimer]
  · simp [exec, step, recv, apmrInd, apmsInd, Ar.init, Pr.init, advance, apmsSend, ackFrame, finish, alpmrInd, Ar.set,
      apmsReq, dataFrame, startTimer]

/-! ## C56 -/

/-- **C56 (partial)** When a well-formed notification with the next expected number arrives and its
acknowledgement can be sent, the acknowledgement with its number is sent, and in the same step the
alarm is delivered to the application or the connection aborted.

Partial: if sending the acknowledgement fails locally, the alarm is lost although its repetition is
acknowledged, see `C56_acknowledged_not_delivered`. -/
theorem C56_acknowledged_delivered_partial (c : Cfg) (ops : List (Op α)) (p : Bool) (f : Frame α) (a : α)
    (ha : ¬ aborted (exec c ops).2) (hb : (rx p (exec c ops).2).blocked = false) (hf : f.isData)
    (hbody : f.body = .notify a) (hs : f.sendSeq = seqNo (rx p (exec c ops).2).accepted) :
    (∃ g, (p, Ev.wire g) ∈ (step c (exec c ops).1 (.recv p f .ok)).2 ∧ g.pdu = .ack ∧ g.ackSeq = f.sendSeq) ∧
    ((p, Ev.deliver a) ∈ (step c (exec c ops).1 (.recv p f .ok)).2 ∨
     (p, Ev.abort) ∈ (step c (exec c ops).1 (.recv p f .ok)).2) := by
  have hl := live_of ha p
  set x := (exec c ops).1.pr p
  have hx : x.apmr = .open := by rw [hl.apmr, hb]; rfl
  have hse : f.sendSeq = x.expSeq := by rw [hs, hl.exp]
  obtain ⟨l1, n1, n2, n3, n4, n5⟩ := live_apmsInd hl f true
  have hexp : (apmsInd x f).1.expSeq = x.expSeq := by
    unfold apmsInd; split
    · split
      · split <;> rfl
      · rfl
    · rfl
  have e : (recv x f .ok).2.1 = (apmsInd x f).2 ++ [.wire (ackFrame (advance (apmsInd x f).1))] ++
      (alpmrInd { advance (apmsInd x f).1 with apmr := .wcnf } a).2.1 := by
    simp only [recv, hx, hf.1, apmrInd, hf.2]
    rw [if_neg (by simp), if_pos trivial, if_neg (by simp), if_pos hse, hbody]
    simp [apmsSend_plain _ (ackFrame _) rfl]
  have e2 : (recv x f .ok).2.2 = (alpmrInd { advance (apmsInd x f).1 with apmr := .wcnf } a).2.2.2 := by
    simp only [recv, hx, hf.1, apmrInd, hf.2]
    rw [if_neg (by simp), if_pos trivial, if_neg (by simp), if_pos hse, hbody]
    simp [apmsSend_plain _ (ackFrame _) rfl]
  constructor
  · refine ⟨ackFrame (advance (apmsInd x f).1), ?_, rfl, ?_⟩
    · rw [step_recv, mem_finish (by simp), e]; simp
    · simp [ackFrame, advance, hexp, hse]
  · by_cases hn : (advance (apmsInd x f).1).alpmr = .wNotify
    · left
      rw [step_recv, mem_finish (by simp), e]
      simp [alpmrInd, hn]
    · right
      have hns : (advance (apmsInd x f).1).alpmr ≠ .wStart := l1.alpmr
      have e3 : (recv x f .ok).2.2 = true := by rw [e2]; simp [alpmrInd, hn, hns]
      rw [step_recv]
      simp only [finish]
      rw [if_pos e3]
      simp

/-- **C56 (finding)** The acknowledgement of an alarm can not be sent (for example no buffer); the
controller repeats the alarm; the repetition is acknowledged, but the alarm is never delivered. -/
theorem C56_acknowledged_not_delivered (c : Cfg) (a : α) (tx : Tx) (htx : tx ≠ .ok) :
    let f : Frame α := ⟨.data, true, 0xffff, 0xfffe, .notify a⟩
    (exec c [.recv true f tx, .recv true f .ok]).2.flatMap (fun e => e.2.map (·.2)) =
      [.wire ⟨.ack, false, 0xfffe, 0xffff, .other⟩] := by
  simp [exec, step, recv, apmrInd, apmsInd, Ar.init, Pr.init, advance, apmsSend_plain _ (ackFrame _) rfl, finish,
    Ar.set, htx]
  simp [apmsSend, ackFrame]

/-! ## C55 -/

/-- Time after a history. -/
def time (h : Hist α) : Nat := h.foldl (fun t e => match e.1 with | .tick d => t + d | _ => t) 0

/-- The time of the last transmission of a data frame of priority `p`. -/
def lastSentStep (p : Bool) (t : Nat) (s : Option Nat) (e : Op α × List (Bool × Ev α)) : Option Nat :=
  if e.2.any (fun ev => match ev with | (q, .wire g) => q == p && g.pdu == .data | _ => false) then some t else s

/-- See `lastSentStep`. -/
def lastSent (p : Bool) (h : Hist α) : Option Nat :=
  (h.foldl (fun (s : Hist α × Option Nat) e => (s.1 ++ [e], lastSentStep p (time s.1) s.2 e)) ([], none)).2

/-- **C55 (finding)** The timer of an acknowledged alarm keeps running, and its expiry retransmits a
later alarm: with a retransmission time of 100, the first alarm is sent at time 0 and acknowledged, the second is sent
at time 90 and retransmitted at time 100 already. -/
theorem C55_stale_timer :
    let c : Cfg := ⟨3, 100⟩
    let ops : List (Op Nat) :=
      [.poll true 1 .ok true, .recv true ⟨.data, true, 0xffff, 0xffff, .alarmAck 0⟩ .ok, .tick 90,
       .poll true 2 .ok true, .tick 10]
    lastSent true (exec c ops).2 = some 90 ∧ time (exec c ops).2 = 100 ∧
    (step c (exec c ops).1 (.expire true .ok true)).2.map (·.2) =
      [.fired, .wire ⟨.data, true, 0, 0xffff, .notify 2⟩] := by
  decide +kernel

theorem time_append (h : Hist α) (e : Op α × List (Bool × Ev α)) :
    time (h ++ [e]) = (match e.1 with | .tick d => time h + d | _ => time h) := by simp [time]

theorem lastSent_fst (p : Bool) (h : Hist α) :
    (h.foldl (fun (s : Hist α × Option Nat) e => (s.1 ++ [e], lastSentStep p (time s.1) s.2 e)) ([], none)).1 = h := by
  induction h using List.reverseRecOn with
  | nil => rfl
  | append_singleton h e ih => simp [ih]

theorem lastSent_append (p : Bool) (h : Hist α) (e) :
    lastSent p (h ++ [e]) = lastSentStep p (time h) (lastSent p h) e := by
  unfold lastSent
  rw [List.foldl_append, List.foldl_cons, List.foldl_nil, lastSent_fst]

theorem exec_now (c : Cfg) (ops : List (Op α)) : (exec c ops).1.now = time (exec c ops).2 := by
  induction ops using List.reverseRecOn with
  | nil => rfl
  | append_singleton ops op ih =>
    rw [exec_append, time_append, ← ih]
    have e : ∀ (s : Ar α) p x evs ab, (finish s p x evs ab).1.now = s.now := by
      intro s p x evs ab; unfold finish; split <;> rfl
    cases op <;> simp only [step]
    · rw [e]
    · split
      · rw [e]
      · rfl
    · split
      · simp only [Ar.set]; rw [e]
      · rfl
    · split
      · rfl
      · split
        · rw [e]
        · rfl

/-- The operation hands a frame of priority `p` to the transport. -/
def Op.sendsAt (p : Bool) : Op α → Bool
  | .poll q _ _ _ => q == p
  | .userAck _ _ _ => p
  | _ => false

theorem finish_timers (s : Ar α) (p q : Bool) (x : Pr α) (evs ab) :
    ((finish s q x evs ab).1.pr p).timers = [] ∨
    ((finish s q x evs ab).1.pr p).timers = if p = q then x.timers else (s.pr p).timers := by
  unfold finish
  split
  · left; rfl
  · right; simp only [Ar.set]; split <;> rfl

theorem apmsReq_timers' (c : Cfg) (x : Pr α) (b tx sched now) (hx : x.timers = []) :
    (apmsReq c x b tx sched now).1.timers = [] ∨ (apmsReq c x b tx sched now).1.timers = [now + c.timeout] := by
  unfold apmsReq
  split
  · have e : ∀ y : Pr α, (apmsSend y (dataFrame x b) tx).1.timers = y.timers := by
      intro y; unfold apmsSend; split
      · rfl
      · simp only; split
        · split <;> rfl
        · rfl
    simp only [startTimer]
    split
    · right; simp [e, hx]
    · left; simp [e, hx]
  · left; exact hx

theorem apmsTimeout_timers (c : Cfg) (x : Pr α) (tx sched now) (hx : x.timers = []) :
    (apmsTimeout c x tx sched now).1.timers = [] ∨ (apmsTimeout c x tx sched now).1.timers = [now + c.timeout] := by
  unfold apmsTimeout
  split
  · split
    · left; exact hx
    · split
      · simp only [startTimer]
        split
        · right; simp [hx]
        · left; exact hx
      · left; exact hx
  · left; exact hx

theorem step_timers (c : Cfg) (s : Ar α) (op : Op α) (p : Bool) (h1 : (s.pr p).timers.length ≤ 1)
    (h2 : op.sendsAt p = true → (s.pr p).timers = []) :
    ((step c s op).1.pr p).timers = [] ∨ ((step c s op).1.pr p).timers = [s.now + c.timeout] ∨
    ((∀ tx sched, op ≠ .expire p tx sched) ∧ op.sendsAt p = false ∧
      ((step c s op).1.pr p).timers = (s.pr p).timers) ∨
    ((step c s op).2 = [] ∧ ((step c s op).1.pr p).timers = (s.pr p).timers) := by
  cases op with
  | recv q f tx =>
    rcases finish_timers s p q (recv (s.pr q) f tx).1 (recv (s.pr q) f tx).2.1 (recv (s.pr q) f tx).2.2 with h | h
    · left; exact h
    · right; right; left
      refine ⟨by simp, rfl, ?_⟩
      rw [step_recv, h]
      split
      · rename_i e; subst e; exact recv_timers _ _ _
      · rfl
  | poll q a tx sched =>
    simp only [step]
    split
    · have := finish_timers s p q (if (apmsReq c (s.pr q) (.notify a) tx sched s.now).2.2.1 = true then
          { (apmsReq c (s.pr q) (.notify a) tx sched s.now).1 with alpmi := .wAck } else
          (apmsReq c (s.pr q) (.notify a) tx sched s.now).1)
        (apmsReq c (s.pr q) (.notify a) tx sched s.now).2.1 (apmsReq c (s.pr q) (.notify a) tx sched s.now).2.2.2
      rcases this with h | h
      · left; exact h
      · by_cases hq : p = q
        · subst hq
          rw [if_pos rfl] at h
          have e : (if (apmsReq c (s.pr p) (.notify a) tx sched s.now).2.2.1 = true then
            { (apmsReq c (s.pr p) (.notify a) tx sched s.now).1 with alpmi := .wAck } else
            (apmsReq c (s.pr p) (.notify a) tx sched s.now).1).timers =
              (apmsReq c (s.pr p) (.notify a) tx sched s.now).1.timers := by split <;> rfl
          rw [e] at h
          rw [h]
          rcases apmsReq_timers' c (s.pr p) (.notify a) tx sched s.now (h2 (by simp [Op.sendsAt])) with h | h
          · left; exact h
          · right; left; exact h
        · right; right; left
          rw [if_neg hq] at h
          exact ⟨by simp, by simp [Op.sendsAt]; exact fun h => hq h.symm, h⟩
    · right; right; right; exact ⟨rfl, rfl⟩
  | userAck st tx sched =>
    simp only [step]
    split
    · cases p with
      | true =>
        rcases finish_timers s true true (apmsReq c (s.pr true) (.alarmAck st) tx sched s.now).1
          (apmsReq c (s.pr true) (.alarmAck st) tx sched s.now).2.1
          (apmsReq c (s.pr true) (.alarmAck st) tx sched s.now).2.2.2 with h | h
        · left; simp only [Ar.set, if_true]; exact h
        · rw [if_pos rfl] at h
          simp only [Ar.set, if_true, h]
          rcases apmsReq_timers' c (s.pr true) (.alarmAck st) tx sched s.now (h2 rfl) with h | h
          · left; exact h
          · right; left; exact h
      | false =>
        rcases finish_timers s false true (apmsReq c (s.pr true) (.alarmAck st) tx sched s.now).1
          (apmsReq c (s.pr true) (.alarmAck st) tx sched s.now).2.1
          (apmsReq c (s.pr true) (.alarmAck st) tx sched s.now).2.2.2 with h | h
        · left; simp only [Ar.set]; exact h
        · right; right; left
          refine ⟨by simp, rfl, ?_⟩
          simp only [Ar.set]
          simpa using h
    · right; right; right; exact ⟨rfl, rfl⟩
  | expire q tx sched =>
    cases ht : (s.pr q).timers with
    | nil => right; right; right; simp [step, ht]
    | cons t ts =>
      by_cases hle : t ≤ s.now
      · simp only [step, ht, hle, if_true]
        rcases finish_timers s p q (apmsTimeout c { s.pr q with timers := ts } tx sched s.now).1
          (.fired :: (apmsTimeout c { s.pr q with timers := ts } tx sched s.now).2.1)
          (apmsTimeout c { s.pr q with timers := ts } tx sched s.now).2.2 with h | h
        · left; exact h
        · by_cases hq : p = q
          · subst hq
            rw [if_pos rfl] at h
            rw [h]
            have hts : ts = [] := by
              rw [ht] at h1; simp at h1; exact h1
            subst hts
            rcases apmsTimeout_timers c { s.pr p with timers := [] } tx sched s.now rfl with h | h
            · left; exact h
            · right; left; exact h
          · right; right; left
            rw [if_neg hq] at h
            refine ⟨?_, rfl, h⟩
            intro tx sched e; injection e with e; exact hq e.symm
      · right; right; right; simp [step, ht, hle]
  | tick d => right; right; left; exact ⟨by simp, rfl, rfl⟩

theorem lastSent_same {c : Cfg} {ops : List (Op α)} {op : Op α} {p : Bool}
    (h1 : (∀ tx sched, op ≠ .expire p tx sched) ∧ op.sendsAt p = false ∨ (step c (exec c ops).1 op).2 = []) :
    lastSent p (exec c (ops ++ [op])).2 = lastSent p (exec c ops).2 := by
  rw [exec_append, lastSent_append, lastSentStep]
  rw [if_neg]
  simp only [List.any_eq_true, not_exists, not_and, Prod.forall]
  intro q ev hm
  cases ev <;> simp
  rename_i g
  intro hq hg
  subst hq
  rcases h1 with ⟨h1, h2⟩ | h1
  · rcases C14_only_unacknowledged c ops op q g hg hm with h | ⟨P, _, _, _, _, tx, sched, h⟩
    · cases op with
      | recv q' f tx =>
        rw [step_recv, mem_finish (by simp)] at hm
        rcases exec_inv c ops with ⟨_, hl⟩ | ⟨_, hd⟩
        · obtain ⟨rfl, hm⟩ := hm
          exact absurd hg ((recv_spec (hl q) f tx q true).2.2.2.1 g hm)
        · rw [(step_dead (c := c) hd _).1] at h; simp at h
      | poll q' a tx sched =>
        simp only [step] at hm
        split at hm
        · rw [mem_finish (by simp)] at hm
          simp [Op.sendsAt, hm.1] at h2
        · simp at hm
      | userAck st tx sched =>
        simp only [step] at hm
        split at hm
        · rw [mem_finish (by simp)] at hm
          simp [Op.sendsAt, hm.1] at h2
        · simp at hm
      | expire q' tx sched =>
        have : q' ≠ q := fun e => h1 tx sched (by rw [e])
        simp only [step] at hm
        split at hm
        · simp at hm
        · split at hm
          · rw [mem_finish (by simp)] at hm
            exact this hm.1.symm
          · simp at hm
      | tick d => simp [step] at hm
    · exact h1 _ _ h
  · rw [h1] at hm; simp at hm

theorem c55_inv (c : Cfg) (ops : List (Op α)) (p : Bool)
    (hq : ∀ pre op, pre ++ [op] <+: ops → op.sendsAt p = true → ((exec c pre).1.pr p).timers = []) :
    ((exec c ops).1.pr p).timers.length ≤ 1 ∧
    (∀ t0, lastSent p (exec c ops).2 = some t0 → t0 ≤ (exec c ops).1.now ∧
      ∀ t ∈ ((exec c ops).1.pr p).timers, t0 + c.timeout ≤ t) := by
  induction ops using List.reverseRecOn with
  | nil => simp [exec, Ar.init, Pr.init, lastSent]
  | append_singleton ops op ih =>
    obtain ⟨i1, i2⟩ := ih fun pre o h => hq pre o (h.trans (List.prefix_append _ _))
    have hnow : (exec c ops).1.now ≤ (exec c (ops ++ [op])).1.now := by
      rw [exec_now, exec_now, exec_append, time_append]
      cases op <;> simp
    have hle : ∀ t0, lastSent p (exec c (ops ++ [op])).2 = some t0 → t0 ≤ (exec c ops).1.now := by
      intro t0 h
      rw [exec_append, lastSent_append, lastSentStep] at h
      split at h
      · injection h with h; rw [exec_now]; omega
      · exact (i2 t0 h).1
    have h := step_timers c (exec c ops).1 op p i1 (hq ops op (List.prefix_refl _))
    have e : (exec c (ops ++ [op])).1 = (step c (exec c ops).1 op).1 := by rw [exec_append]
    rcases h with h | h | ⟨ha, hb, h⟩ | ⟨ha, h⟩
    · rw [e, h]
      refine ⟨by simp, fun t0 ht => ⟨?_, by simp⟩⟩
      rw [← e]; exact Nat.le_trans (hle t0 ht) hnow
    · rw [e, h]
      refine ⟨by simp, fun t0 ht => ⟨?_, ?_⟩⟩
      · rw [← e]; exact Nat.le_trans (hle t0 ht) hnow
      · intro t hm
        simp at hm
        have := hle t0 ht
        omega
    · rw [lastSent_same (Or.inl ⟨ha, hb⟩)]
      rw [e, h, ← e]
      exact ⟨i1, fun t0 ht => ⟨Nat.le_trans (i2 t0 ht).1 hnow, (i2 t0 ht).2⟩⟩
    · rw [lastSent_same (Or.inr ha)]
      rw [e, h, ← e]
      exact ⟨i1, fun t0 ht => ⟨Nat.le_trans (i2 t0 ht).1 hnow, (i2 t0 ht).2⟩⟩

/-- **C55 (partial)** If no retransmission timer of priority `p` is running whenever a new alarm of that
priority is handed to the transport, then every retransmission comes at least the negotiated
retransmission time after the previous transmission of that priority.

Partial: without the hypothesis the claim is false (`C55_stale_timer`), because the timer of an
acknowledged alarm is not stopped. -/
theorem C55_spaced_partial (c : Cfg) (ops : List (Op α)) (p : Bool) (tx : Tx) (sched : Bool) (g : Frame α)
    (hq : ∀ pre op, pre ++ [op] <+: ops → op.sendsAt p = true → ((exec c pre).1.pr p).timers = [])
    (hw : (p, Ev.wire g) ∈ (step c (exec c ops).1 (.expire p tx sched)).2)
    (t0 : Nat) (ht : lastSent p (exec c ops).2 = some t0) :
    t0 + c.timeout ≤ time (exec c ops).2 := by
  obtain ⟨i1, i2⟩ := c55_inv c ops p hq
  rw [← exec_now]
  simp only [step] at hw
  split at hw
  · simp at hw
  · rename_i t ts htm
    split at hw
    · rename_i hle
      have := (i2 t0 ht).2 t (by rw [htm]; simp)
      omega
    · simp at hw

/-- Non-vacuity of `C55_spaced_partial`: an alarm sent once, then retransmitted after 100. -/
theorem C55_example :
    let c : Cfg := ⟨3, 100⟩
    let ops : List (Op Nat) := [.poll true 1 .ok true, .tick 100]
    lastSent true (exec c ops).2 = some 0 ∧ time (exec c ops).2 = 100 ∧
    ((exec c []).1.pr true : Pr Nat).timers = [] ∧
    (step c (exec c ops).1 (.expire true .ok true)).2 =
      [(true, .fired), (true, .wire ⟨.data, true, 0xffff, 0xfffe, .notify 1⟩)] := by
  decide +kernel

end Verif.Alarm
