import Verif.Alarm.Spec
import Mathlib.Tactic.Set
/-!
# Invariant of the alarm machines
-/
set_option linter.unusedSimpArgs false
set_option linter.unusedVariables false
namespace Verif.Alarm

variable {α : Type}

theorem seqNo_succ (k : Nat) : (seqNo k + 1) &&& 0x7fff = seqNo (k + 1) := by
  have hm : ∀ n : Nat, n &&& 0x7fff = n % 0x8000 := fun n => Nat.and_two_pow_sub_one_eq_mod n 15
  cases k with
  | zero => decide
  | succ k =>
    apply BitVec.eq_of_toNat_eq
    simp only [seqNo, BitVec.toNat_and, BitVec.toNat_add, BitVec.toNat_ofNat]
    have e1 : (1 : BitVec 16).toNat = 1 := rfl
    have e2 : (0x7fff : BitVec 16).toNat = 0x7fff := rfl
    rw [e1, e2, hm]
    omega

theorem seqNo_ne_prevNo (k : Nat) : seqNo k ≠ prevNo k := by
  match k with
  | 0 => decide
  | 1 => decide
  | k + 2 =>
    intro h
    have := congrArg BitVec.toNat h
    simp only [seqNo, prevNo, BitVec.toNat_ofNat] at this
    omega

/-- Effect of the events of one operation on the unacknowledged alarm. -/
def pdAfter (buf : Bool) (pd : Option (Pending α)) (evs : List (Ev α)) : Option (Pending α) :=
  evs.foldl (txEvent buf) pd

/-- A priority of a live connection. -/
structure Live (c : Cfg) (x : Pr α) (r : Rx) (pd : Option (Pending α)) : Prop where
  apmr : x.apmr = if r.blocked = true then .wcnf else .open
  exp : x.expSeq = seqNo r.accepted
  expO : x.expSeqO = prevNo r.accepted
  alpmi : x.alpmi ≠ .wStart
  alpmr : x.alpmr ≠ .wStart
  idle : pd = none → x.apms = .open ∧ x.rta = none
  pend : ∀ P, pd = some P → x.apms = .wtack ∧ P.frame.pdu = .data ∧ P.frame.sendSeq = x.sendSeq ∧
    x.rta = (if P.saved = true then some P.frame else none) ∧
    (P.saved = true → x.resend + P.fired = c.retries ∧ P.sent ≤ 1 + P.fired) ∧
    (P.saved = false → P.sent = 0)

/-- A priority of an aborted connection. -/
structure Dead (x : Pr α) : Prop where
  apms : x.apms = .closed
  apmr : x.apmr = .closed
  alpmi : x.alpmi = .wStart
  alpmr : x.alpmr ≠ .wUserAck ∧ x.alpmr ≠ .wNotify
  timers : x.timers = []
  rta : x.rta = none

theorem live_init (c : Cfg) : Live c (Pr.init : Pr α) ⟨0, false⟩ none := by
  constructor <;> simp [Pr.init, seqNo, prevNo]

theorem dead_close (x : Pr α) : Dead x.close := by
  constructor <;> simp [Pr.close]

section Recv
variable {c : Cfg} {x : Pr α} {r : Rx} {pd : Option (Pending α)}

theorem live_apmsInd (hl : Live c x r pd) (f : Frame α) (buf : Bool) :
    Live c (apmsInd x f).1 r (pdAfter buf pd (apmsInd x f).2) ∧
    Ev.abort ∉ (apmsInd x f).2 ∧ (∀ g, .wire g ∉ (apmsInd x f).2) ∧ (∀ a, .deliver a ∉ (apmsInd x f).2) ∧
    (∀ g, .started g ∉ (apmsInd x f).2) ∧ Ev.fired ∉ (apmsInd x f).2 := by
  unfold apmsInd
  split
  · split
    · split
      · rename_i h1 h2 h3
        refine ⟨?_, by split <;> simp, by intro g; split <;> simp, by intro a; split <;> simp,
          by intro g; split <;> simp, by split <;> simp⟩
        have e : pdAfter buf pd (Ev.confirmed :: if x.alpmr = .wTack then [Ev.ackCnf] else []) = none := by
          split <;> simp [pdAfter, txEvent]
        rw [e]
        exact { apmr := hl.apmr, exp := hl.exp, expO := hl.expO, alpmi := hl.alpmi,
                alpmr := by show (if x.alpmr = .wTack then Alpmr.wNotify else x.alpmr) ≠ _; split
                            · simp
                            · exact hl.alpmr
                idle := fun _ => ⟨rfl, rfl⟩, pend := by intro P hP; cases hP }
      · exact ⟨hl, by simp⟩
    · exact ⟨hl, by simp⟩
  · exact ⟨hl, by simp⟩

theorem live_advance (hl : Live c x r pd) : Live c (advance x) ⟨r.accepted + 1, r.blocked⟩ pd where
  apmr := hl.apmr
  exp := by show (x.expSeq + 1) &&& 0x7fff = _; rw [hl.exp, seqNo_succ]
  expO := by show x.expSeq = _; rw [hl.exp]; rfl
  alpmi := hl.alpmi
  alpmr := hl.alpmr
  idle := hl.idle
  pend := hl.pend

theorem apmsSend_plain (x : Pr α) (g : Frame α) (hg : g.tack = false) (tx : Tx) :
    apmsSend x g tx = (x, (if tx = .ok then [.wire g] else []), decide (tx = .ok)) := by
  cases tx <;> simp [apmsSend, hg]

theorem pdAfter_append (buf : Bool) (pd : Option (Pending α)) (a b : List (Ev α)) :
    pdAfter buf pd (a ++ b) = pdAfter buf (pdAfter buf pd a) b := by simp [pdAfter]

theorem pdAfter_ack (buf : Bool) (pd : Option (Pending α)) (x : Pr α) (tx : Tx) :
    pdAfter buf pd (if tx = .ok then [.wire (ackFrame x)] else []) = pd := by
  split <;> simp [pdAfter, txEvent, ackFrame]

theorem pdAfter_nack (buf : Bool) (pd : Option (Pending α)) (x : Pr α) (tx : Tx) :
    pdAfter buf pd (if tx = .ok then [.wire (nackFrame x)] else []) = pd := by
  split <;> simp [pdAfter, txEvent, nackFrame]

/-- What one received data frame does. -/
theorem apmrInd_spec (hl : Live c x r pd) (f : Frame α) (tx : Tx) (p : Bool) (hpdu : f.pdu = .data)
    (buf : Bool) :
    ((apmrInd x f tx).2.2 = false →
      Live c (apmrInd x f tx).1 (rxStep p r (.recv p f tx)) (pdAfter buf pd (apmrInd x f tx).2.1)) ∧
    Ev.abort ∉ (apmrInd x f tx).2.1 ∧
    (∀ a, .deliver a ∈ (apmrInd x f tx).2.1 →
      r.blocked = false ∧ f.tack = true ∧ f.sendSeq = seqNo r.accepted ∧ f.body = .notify a ∧ tx = .ok ∧
      (apmrInd x f tx).2.1.filter Ev.isDeliver = [.deliver a]) ∧
    (∀ g, .wire g ∈ (apmrInd x f tx).2.1 → g.pdu ≠ .data) ∧
    (∀ g, .started g ∉ (apmrInd x f tx).2.1) ∧ Ev.fired ∉ (apmrInd x f tx).2.1 := by
  have hr : r = ⟨r.accepted, r.blocked⟩ := rfl
  cases hb : r.blocked with
  | true =>
    have hx : x.apmr = .wcnf := by rw [hl.apmr, if_pos hb]
    have e : apmrInd x f tx = (x, [], false) := by simp [apmrInd, hx]
    have e2 : rxStep p r (.recv p f tx) = r := by simp [rxStep, hb]
    rw [e, e2]
    exact ⟨fun _ => hl, by simp⟩
  | false =>
    have hx : x.apmr = .open := by rw [hl.apmr, hb]; rfl
    cases ht : f.tack with
    | false =>
      have e : apmrInd x f tx = (x, [], false) := by simp [apmrInd, hx, ht]
      have e2 : rxStep p r (.recv p f tx) = r := by simp [rxStep, Frame.isData, ht]
      rw [e, e2]
      exact ⟨fun _ => hl, by simp⟩
    | true =>
      by_cases hs : f.sendSeq = seqNo r.accepted
      · have hse : f.sendSeq = x.expSeq := by rw [hs, hl.exp]
        obtain ⟨l1, n1, n2, n3, n4, n5⟩ := live_apmsInd hl f buf
        have l2 := live_advance l1
        set y := apmsInd x f with hy
        cases hbd : f.body with
        | other =>
          have e : apmrInd x f tx = (x, [], true) := by simp [apmrInd, hx, ht, hse, hbd]
          rw [e]
          exact ⟨by simp, by simp⟩
        | alarmAck st =>
          have e2 : rxStep p r (.recv p f tx) = ⟨r.accepted + 1, false⟩ := by
            simp [rxStep, Frame.isData, ht, hpdu, hb, hs, hbd]
          rw [e2]
          by_cases htx : tx = .ok
          · have e : apmrInd x f tx = ({ (alpmiInd (advance y.1) st).1 with apmr := .open },
                y.2 ++ [.wire (ackFrame (advance y.1))] ++ (alpmiInd (advance y.1) st).2, false) := by
              simp [apmrInd, hx, ht, hse, hbd, apmsSend_plain, ackFrame, htx, ← hy]
            rw [e]
            have e3 : pdAfter buf pd (y.2 ++ [.wire (ackFrame (advance y.1))] ++
                (alpmiInd (advance y.1) st).2) = pdAfter buf pd y.2 := by
              rw [pdAfter_append, pdAfter_append]
              unfold alpmiInd
              split <;> simp [pdAfter, txEvent, ackFrame]
            refine ⟨fun _ => ?_, ?_, ?_, ?_, ?_, ?_⟩
            · rw [e3]
              unfold alpmiInd
              split
              · exact { l2 with apmr := by simp, alpmi := by simp }
              · exact { l2 with apmr := by simp }
            · unfold alpmiInd; split <;> simp [n1]
            · intro a ha
              unfold alpmiInd at ha
              split at ha <;> simp [n3] at ha
            · intro g hg
              unfold alpmiInd at hg
              split at hg <;> simp [n2] at hg <;> simp [hg, ackFrame]
            · intro g; unfold alpmiInd; split <;> simp [n4]
            · unfold alpmiInd; split <;> simp [n5]
          · have e : apmrInd x f tx = (advance y.1, y.2, false) := by
              simp [apmrInd, hx, ht, hse, hbd, apmsSend_plain, ackFrame, htx, ← hy]
            rw [e]
            refine ⟨fun _ => ?_, n1, fun a ha => absurd ha (n3 a), fun g hg => absurd hg (n2 g), n4, n5⟩
            rw [hb] at l2; exact l2
        | badNotify =>
          have e2 : rxStep p r (.recv p f tx) = ⟨r.accepted + 1, decide (tx = .ok)⟩ := by
            simp [rxStep, Frame.isData, ht, hpdu, hb, hs, hbd]
          rw [e2]
          by_cases htx : tx = .ok
          · have e : apmrInd x f tx = ({ advance y.1 with apmr := .wcnf },
                y.2 ++ [.wire (ackFrame (advance y.1))], false) := by
              simp [apmrInd, hx, ht, hse, hbd, apmsSend_plain, ackFrame, htx, ← hy]
            rw [e]
            refine ⟨fun _ => ?_, by simp [n1], ?_, ?_, by simp [n4], by simp [n5]⟩
            · have : pdAfter buf pd (y.2 ++ [.wire (ackFrame (advance y.1))]) = pdAfter buf pd y.2 := by
                rw [pdAfter_append]; simp [pdAfter, txEvent, ackFrame]
              rw [this]
              exact { l2 with apmr := by simp [htx] }
            · intro a ha; simp [n3] at ha
            · intro g hg; simp [n2] at hg; simp [hg, ackFrame]
          · have e : apmrInd x f tx = (advance y.1, y.2, false) := by
              simp [apmrInd, hx, ht, hse, hbd, apmsSend_plain, ackFrame, htx, ← hy]
            rw [e]
            refine ⟨fun _ => ?_, n1, fun a ha => absurd ha (n3 a), fun g hg => absurd hg (n2 g), n4, n5⟩
            rw [hb] at l2
            rw [show decide (tx = Tx.ok) = false by simp [htx]]; exact l2
        | notify a =>
          have e2 : rxStep p r (.recv p f tx) = ⟨r.accepted + 1, false⟩ := by
            simp [rxStep, Frame.isData, ht, hpdu, hb, hs, hbd]
          rw [e2]
          by_cases htx : tx = .ok
          · by_cases hn : (advance y.1).alpmr = .wNotify
            · have e : apmrInd x f tx = ({ advance y.1 with apmr := .open, alpmr := .wUserAck },
                  y.2 ++ [.wire (ackFrame (advance y.1))] ++ [.deliver a], false) := by
                simp [apmrInd, hx, ht, hse, hbd, apmsSend_plain, ackFrame, htx, ← hy, alpmrInd, hn]
              rw [e]
              refine ⟨fun _ => ?_, by simp [n1], ?_, ?_, by simp [n4], by simp [n5]⟩
              · have : pdAfter buf pd (y.2 ++ [.wire (ackFrame (advance y.1))] ++ [.deliver a]) =
                    pdAfter buf pd y.2 := by
                  rw [pdAfter_append, pdAfter_append]; simp [pdAfter, txEvent, ackFrame]
                rw [this]
                exact { l2 with apmr := by simp, alpmr := by simp }
              · intro a' ha'
                simp [n3] at ha'
                subst ha'
                refine ⟨rfl, rfl, hs, rfl, htx, ?_⟩
                have hf : y.2.filter Ev.isDeliver = [] := by
                  rw [List.filter_eq_nil_iff]
                  intro e he
                  cases e <;> simp [Ev.isDeliver]
                  exact absurd he (n3 _)
                simp [List.filter_append, hf, Ev.isDeliver]
              · intro g hg; simp [n2] at hg; simp [hg, ackFrame]
            · have hns : (advance y.1).alpmr ≠ .wStart := l2.alpmr
              have e : apmrInd x f tx = ({ advance y.1 with apmr := .wcnf },
                  y.2 ++ [.wire (ackFrame (advance y.1))], true) := by
                simp [apmrInd, hx, ht, hse, hbd, apmsSend_plain, ackFrame, htx, ← hy, alpmrInd, hn, hns]
              rw [e]
              refine ⟨by simp, by simp [n1], ?_, ?_, by simp [n4], by simp [n5]⟩
              · intro a ha; simp [n3] at ha
              · intro g hg; simp [n2] at hg; simp [hg, ackFrame]
          · have e : apmrInd x f tx = (advance y.1, y.2, false) := by
              simp [apmrInd, hx, ht, hse, hbd, apmsSend_plain, ackFrame, htx, ← hy]
            rw [e]
            refine ⟨fun _ => ?_, n1, fun a ha => absurd ha (n3 a), fun g hg => absurd hg (n2 g), n4, n5⟩
            rw [hb] at l2; exact l2
      · have hse : f.sendSeq ≠ x.expSeq := by rw [hl.exp]; exact hs
        have e2 : rxStep p r (.recv p f tx) = r := by simp [rxStep, hs]
        rw [e2]
        by_cases ho : f.sendSeq = x.expSeqO
        · obtain ⟨l1, n1, n2, n3, n4, n5⟩ := live_apmsInd hl f buf
          have e : apmrInd x f tx = ((apmsInd x f).1, (apmsInd x f).2 ++
              (if tx = .ok then [.wire (ackFrame (apmsInd x f).1)] else []), false) := by
            simp only [apmrInd, hx, ht]
            rw [if_pos trivial, if_neg (by simp), if_neg hse, if_pos ho]
            simp [apmsSend_plain, ackFrame]
          rw [e]
          refine ⟨fun _ => ?_, ?_, ?_, ?_, ?_, ?_⟩
          · rw [pdAfter_append, pdAfter_ack]; exact l1
          · split <;> simp [n1]
          · intro a ha; split at ha <;> simp [n3] at ha
          · intro g hg; split at hg <;> simp [n2] at hg; simp [hg, ackFrame]
          · intro g; split <;> simp [n4]
          · split <;> simp [n5]
        · have e : apmrInd x f tx = (x, (if tx = .ok then [.wire (nackFrame x)] else []), false) := by
            simp only [apmrInd, hx, ht]
            rw [if_pos trivial, if_neg (by simp), if_neg hse, if_neg ho]
            simp [apmsSend_plain, nackFrame]
          rw [e]
          refine ⟨fun _ => ?_, ?_, ?_, ?_, ?_, ?_⟩
          · rw [pdAfter_nack]; exact hl
          · split <;> simp
          · intro a ha; split at ha <;> simp at ha
          · intro g hg; split at hg <;> simp at hg; simp [hg, nackFrame]
          · intro g; split <;> simp
          · split <;> simp

end Recv

end Verif.Alarm
