import Verif.Alarm.Inv
import Mathlib.Tactic.Tauto
/-!
# C12 A received alarm is delivered at most once and in order
# C14 Bounded alarm retransmission, then abort
# C49 Every received alarm can be acknowledged
# C55 Retransmissions keep the negotiated distance
# C56 An acknowledged alarm was handed to the application
# C57 Sending an alarm does not abort a healthy connection
-/
set_option linter.unusedSimpArgs false
set_option linter.unusedVariables false
namespace Verif.Alarm

variable {α : Type}

theorem live_of {c : Cfg} {ops : List (Op α)} (ha : ¬ aborted (exec c ops).2) :
    AllLive c (exec c ops).1 (exec c ops).2 := by
  rcases exec_inv c ops with ⟨_, h⟩ | ⟨h, _⟩
  · exact h
  · exact absurd h ha

theorem mem_finish {s : Ar α} {p q : Bool} {x evs ab} {e : Ev α} (he : e ≠ .abort) :
    (q, e) ∈ (finish s p x evs ab).2 ↔ q = p ∧ e ∈ evs := by
  cases ab <;> simp [finish, he] <;> tauto

/-! ## C12 -/

theorem step_recv {c : Cfg} {s : Ar α} {p f tx} :
    step c s (.recv p f tx) = finish s p (recv (s.pr p) f tx).1 (recv (s.pr p) f tx).2.1 (recv (s.pr p) f tx).2.2 := rfl

/-- An alarm is delivered only in reaction to a received data frame. -/
theorem deliver_recv {c : Cfg} {s : Ar α} {h : Hist α} (hi : Inv c s h) {op : Op α} {p : Bool} {a : α}
    (hd : (p, Ev.deliver a) ∈ (step c s op).2) :
    ¬ aborted h ∧ AllLive c s h ∧ ∃ f tx, op = .recv p f tx ∧ .deliver a ∈ (recv (s.pr p) f tx).2.1 := by
  rcases hi with ⟨hna, hl⟩ | ⟨ha, hdd⟩
  · refine ⟨hna, hl, ?_⟩
    cases op with
    | recv q f tx =>
      rw [step_recv, mem_finish (by simp)] at hd
      obtain ⟨rfl, hd⟩ := hd
      exact ⟨f, tx, rfl, hd⟩
    | poll q b tx sched =>
      simp only [step] at hd
      split at hd
      · rw [mem_finish (by simp)] at hd
        obtain ⟨rfl, hd⟩ := hd
        exact absurd hd ((apmsReq_spec (hl p) _ _ _ _).2.2.2.1 a)
      · simp at hd
    | userAck st tx sched =>
      simp only [step] at hd
      split at hd
      · rw [mem_finish (by simp)] at hd
        obtain ⟨rfl, hd⟩ := hd
        exact absurd hd ((apmsReq_spec (hl true) _ _ _ _).2.2.2.1 a)
      · simp at hd
    | expire q tx sched =>
      simp only [step] at hd
      split at hd
      · simp at hd
      · rename_i t ts ht
        split at hd
        · rw [mem_finish (by simp)] at hd
          obtain ⟨rfl, hd⟩ := hd
          obtain ⟨_, _, a3, _⟩ := timeout_spec (live_timers (hl p) ts) tx sched s.now true
          rcases a3 with a3 | ⟨P, _, _, _, a3⟩ <;> rw [a3] at hd <;> simp at hd
        · simp at hd
    | tick d => simp [step] at hd
  · rw [(step_dead (c := c) hdd op).1] at hd
    simp at hd

/-- **C12** An alarm is delivered to the application only in reaction to a data frame that carries the
next expected number and contains that alarm; nothing is delivered after an abort. -/
theorem C12_only_next (c : Cfg) (ops : List (Op α)) (op : Op α) (p : Bool) (a : α)
    (hd : (p, Ev.deliver a) ∈ (step c (exec c ops).1 op).2) :
    ¬ aborted (exec c ops).2 ∧
    ∃ f tx, op = .recv p f tx ∧ f.isData ∧ f.body = .notify a ∧
      f.sendSeq = seqNo (rx p (exec c ops).2).accepted ∧
      (step c (exec c ops).1 op).2.filter (fun e => e.2.isDeliver) =
        [(p, .deliver a)] := by
  obtain ⟨hna, hl, f, tx, rfl, hm⟩ := deliver_recv (exec_inv c ops) hd
  obtain ⟨_, _, a3, _⟩ := recv_spec (hl p) f tx p true
  obtain ⟨b1, b2, b3, b4, b5, b6⟩ := a3 a hm
  refine ⟨hna, f, tx, rfl, b2, b4, b3, ?_⟩
  rw [step_recv]
  have hab : (recv ((exec c ops).1.pr p) f tx).2.2 = true ∨ (recv ((exec c ops).1.pr p) f tx).2.2 = false := by
    cases (recv ((exec c ops).1.pr p) f tx).2.2 <;> simp
  have key : ∀ evs : List (Ev α),
      (evs.map fun e => (p, e)).filter (fun e => e.2.isDeliver) =
        (evs.filter Ev.isDeliver).map fun e => (p, e) := by
    intro evs
    rw [List.filter_map]; rfl
  rcases hab with hab | hab
  · simp only [finish, hab, if_true]
    rw [key, List.filter_append, b6]; simp [Ev.isDeliver]
  · simp only [finish, hab]
    rw [if_neg (by simp), key, b6]; simp

theorem apmrInd_again {c : Cfg} {x : Pr α} {r : Rx} {pd} (hl : Live c x r pd) (hb : r.blocked = false)
    (f : Frame α) (hf : f.isData) (hs : f.sendSeq = prevNo r.accepted) (tx : Tx) :
    recv x f tx = ((apmsInd x f).1, (apmsInd x f).2 ++
      (if tx = .ok then [.wire (ackFrame (apmsInd x f).1)] else []), false) ∧
    (ackFrame (apmsInd x f).1).ackSeq = f.sendSeq := by
  have hx : x.apmr = .open := by rw [hl.apmr, hb]; rfl
  have hse : f.sendSeq ≠ x.expSeq := by
    rw [hl.exp, hs]; exact (seqNo_ne_prevNo _).symm
  have ho : f.sendSeq = x.expSeqO := by rw [hs, hl.expO]
  have hc : x.apmr ≠ .closed := by simp [hx]
  refine ⟨?_, ?_⟩
  · have e : recv x f tx = apmrInd x f tx := by simp [recv, hc, hf.1]
    rw [e]
    simp only [apmrInd, hx, hf.2]
    rw [if_pos trivial, if_neg (by simp), if_neg hse, if_pos ho]
    simp [apmsSend_plain, ackFrame]
  · have : (apmsInd x f).1.expSeqO = x.expSeqO := by
      unfold apmsInd; split
      · split
        · split <;> rfl
        · rfl
      · rfl
    simp [ackFrame, this, ho]

/-- **C12** A repetition of the last accepted data frame is acknowledged again (if the acknowledgement
can be sent) with its own number, and not delivered. -/
theorem C12_repeated (c : Cfg) (ops : List (Op α)) (p : Bool) (f : Frame α) (tx : Tx)
    (ha : ¬ aborted (exec c ops).2) (hb : (rx p (exec c ops).2).blocked = false) (hf : f.isData)
    (hs : f.sendSeq = prevNo (rx p (exec c ops).2).accepted) :
    (∀ a, (p, Ev.deliver a) ∉ (step c (exec c ops).1 (.recv p f tx)).2) ∧
    (tx = .ok → ∃ g, (p, Ev.wire g) ∈ (step c (exec c ops).1 (.recv p f tx)).2 ∧ g.pdu = .ack ∧
      g.ackSeq = f.sendSeq) := by
  have hl := live_of ha
  obtain ⟨e, e2⟩ := apmrInd_again (hl p) hb f hf hs tx
  obtain ⟨_, _, _, n3, _⟩ := live_apmsInd (hl p) f true
  rw [step_recv]
  constructor
  · intro a
    rw [mem_finish (by simp), e]
    simp only [List.mem_append, not_and]
    rintro _ (h | h)
    · exact n3 a h
    · split at h <;> simp at h
  · intro htx
    refine ⟨ackFrame (apmsInd ((exec c ops).1.pr p) f).1, ?_, rfl, e2⟩
    rw [mem_finish (by simp), e]
    simp [htx]

/-- **C12** Any other data frame is answered with a NACK that names the last accepted number, and has no
other effect. -/
theorem C12_otherwise_nack_partial (c : Cfg) (ops : List (Op α)) (p : Bool) (f : Frame α) (tx : Tx)
    (ha : ¬ aborted (exec c ops).2) (hb : (rx p (exec c ops).2).blocked = false) (hf : f.isData)
    (hs : f.sendSeq ≠ seqNo (rx p (exec c ops).2).accepted)
    (hs2 : f.sendSeq ≠ prevNo (rx p (exec c ops).2).accepted) :
    ∃ g : Frame α, g.pdu = .nack ∧ g.ackSeq = prevNo (rx p (exec c ops).2).accepted ∧
      (step c (exec c ops).1 (.recv p f tx)).2 = if tx = .ok then [(p, .wire g)] else [] := by
  have hl := live_of ha p
  have hx : ((exec c ops).1.pr p).apmr = .open := by rw [hl.apmr, hb]; rfl
  have e : recv ((exec c ops).1.pr p) f tx = ((exec c ops).1.pr p,
      (if tx = .ok then [.wire (nackFrame ((exec c ops).1.pr p))] else []), false) := by
    have hc : ((exec c ops).1.pr p).apmr ≠ .closed := by simp [hx]
    have e : recv ((exec c ops).1.pr p) f tx = apmrInd ((exec c ops).1.pr p) f tx := by simp [recv, hc, hf.1]
    rw [e]
    simp only [apmrInd, hx, hf.2]
    rw [if_pos trivial, if_neg (by simp), if_neg (by rw [hl.exp]; exact hs), if_neg (by rw [hl.expO]; exact hs2)]
    simp [apmsSend_plain, nackFrame]
  refine ⟨nackFrame ((exec c ops).1.pr p), rfl, hl.expO, ?_⟩
  rw [step_recv, e]
  by_cases htx : tx = .ok <;> simp [finish, htx]

theorem deliveries_append (p : Bool) (h : Hist α) (e : Op α × List (Bool × Ev α)) :
    deliveries p (h ++ [e]) = deliveries p h ++ e.2.filterMap (pick p (rx p h).accepted) := by
  have key : ∀ (h : Hist α) (s : Rx × List (Nat × α)),
      (h.foldl (fun (s : Rx × List (Nat × α)) e =>
        (rxStep p s.1 e.1,
         s.2 ++ e.2.filterMap (pick p s.1.accepted))) s).1 = h.foldl (fun r e => rxStep p r e.1) s.1 := by
    intro h
    induction h with
    | nil => intro s; rfl
    | cons e es ih => intro s; simp only [List.foldl_cons]; rw [ih]
  simp only [deliveries, List.foldl_append, List.foldl_cons, List.foldl_nil, key]
  rfl

theorem rxStep_le (p : Bool) (r : Rx) (op : Op α) : r.accepted ≤ (rxStep p r op).accepted := by
  unfold rxStep
  split
  · split
    · split <;> simp
    · simp
  · simp

theorem deliveries_inv (c : Cfg) (ops : List (Op α)) (p : Bool) :
    (deliveries p (exec c ops).2).Pairwise (fun d e => d.1 < e.1) ∧
    ∀ d ∈ deliveries p (exec c ops).2, d.1 < (rx p (exec c ops).2).accepted := by
  induction ops using List.reverseRecOn with
  | nil => simp [exec, deliveries]
  | append_singleton ops op ih =>
    obtain ⟨ih1, ih2⟩ := ih
    rw [exec_append, deliveries_append, rx_append]
    set s := (exec c ops).1
    set h := (exec c ops).2
    by_cases hd : ∃ a, (p, Ev.deliver a) ∈ (step c s op).2
    · obtain ⟨a, hd⟩ := hd
      obtain ⟨hna, f, tx, rfl, hf, hbody, hseq, hfil⟩ := C12_only_next c ops op p a hd
      obtain ⟨_, hl, f', tx', he, hm⟩ := deliver_recv (exec_inv c ops) hd
      injection he with _ he1 he2
      subst he1 he2
      obtain ⟨_, _, a3, _⟩ := recv_spec (hl p) f tx p true
      obtain ⟨b1, _⟩ := a3 a hm
      have e1 : (step c s (.recv p f tx)).2.filterMap (pick p (rx p h).accepted) = [((rx p h).accepted, a)] := by
        have : ∀ l : List (Bool × Ev α), l.filter (fun e => e.2.isDeliver) =
            [(p, .deliver a)] → l.filterMap (pick p (rx p h).accepted) = [((rx p h).accepted, a)] := by
          intro l hl
          have e2 : l.filterMap (pick p (rx p h).accepted) = (l.filter (fun e => e.2.isDeliver)).filterMap
                (pick p (rx p h).accepted) := by
            clear hl
            induction l with
            | nil => rfl
            | cons e es ih =>
              obtain ⟨q, e⟩ := e
              rw [List.filter_cons]
              cases hd : e.isDeliver with
              | true => simp only [if_true, List.filterMap_cons]; rw [ih]
              | false =>
                have : pick p (rx p h).accepted (q, e) = none := by
                  cases e <;> first | rfl | simp [Ev.isDeliver] at hd
                rw [if_neg (by simp), List.filterMap_cons, this, ih]
          rw [e2, hl]; simp [pick]
        exact this _ hfil
      rw [e1]
      have e2 : rxStep p (rx p h) (.recv p f tx) = ⟨(rx p h).accepted + 1, false⟩ := by
        simp only [rxStep]
        rw [if_pos ⟨trivial, b1, hf, hseq⟩, hbody]
      rw [e2]
      constructor
      · rw [List.pairwise_append]
        refine ⟨ih1, by simp, ?_⟩
        intro d hd' e he
        simp at he; subst he
        exact ih2 d hd'
      · intro d hd'
        rcases List.mem_append.1 hd' with hd' | hd'
        · have := ih2 d hd'; show d.1 < (rx p h).accepted + 1; omega
        · simp at hd'; subst hd'; simp
    · have e1 : (step c s op).2.filterMap (pick p (rx p h).accepted) = [] := by
        rw [List.filterMap_eq_nil_iff]
        rintro ⟨q, e⟩ hm
        cases e <;> simp [pick]
        rintro rfl
        exact absurd ⟨_, hm⟩ hd
      rw [e1, List.append_nil]
      refine ⟨ih1, fun d hd' => ?_⟩
      exact Nat.lt_of_lt_of_le (ih2 d hd') (rxStep_le _ _ _)

/-- **C12** In every history the delivered alarms stem from different data frames, and are delivered in
the order of these frames: the running numbers of the frames are strictly increasing. -/
theorem C12_once_in_order (c : Cfg) (ops : List (Op α)) (p : Bool) :
    (deliveries p (exec c ops).2).Pairwise (fun d e => d.1 < e.1) := (deliveries_inv c ops p).1

/-- A notification frame with the given number. -/
def note (n : Seq) (a : Nat) : Frame Nat := ⟨.data, true, n, 0xfffe, .notify a⟩

/-- **C12 (finding)** A malformed notification that carries the next expected number blocks the
endpoint: it is acknowledged, and from then on every data frame is ignored, without ACK or NACK. -/
theorem C12_blocked_not_answered :
    ∃ (c : Cfg) (ops : List (Op Nat)), ¬ aborted (exec c ops).2 ∧
      (rx true (exec c ops).2).accepted = 1 ∧
      ∀ a, (step c (exec c ops).1 (.recv true (note 0 a) .ok)).2 = [] ∧
           (step c (exec c ops).1 (.recv true (note 0xffff a) .ok)).2 = [] := by
  refine ⟨⟨3, 100⟩, [.recv true ⟨.data, true, 0xffff, 0xfffe, .badNotify⟩ .ok], ?_, by decide +kernel, ?_⟩
  · rintro ⟨e, he, p, hp⟩
    simp [exec, step, recv, apmrInd, apmsInd, Ar.init, Pr.init, advance, apmsSend, ackFrame, finish] at he
    subst he
    simp at hp
  · intro a
    constructor <;>
    simp [exec, step, recv, apmrInd, apmsInd, Ar.init, Pr.init, advance, apmsSend, ackFrame, finish, Ar.set, note]

/-- Non-vacuity of the C12 theorems: a history with two deliveries (the application acknowledges in
between), a repetition and a frame out of order. -/
def c12Run : List (Op Nat) :=
  [.recv true (note 0xffff 10) .ok, .recv true (note 0xffff 10) .ok, .recv true (note 5 99) .ok,
   .userAck 0 .ok true, .recv true ⟨.ack, false, 0, 0xffff, .other⟩ .ok, .recv true (note 0 11) .ok]

theorem C12_example : deliveries true (exec ⟨3, 100⟩ c12Run).2 = [(0, 10), (1, 11)] ∧
    (rx true (exec ⟨3, 100⟩ c12Run).2).accepted = 2 := by decide +kernel

end Verif.Alarm
