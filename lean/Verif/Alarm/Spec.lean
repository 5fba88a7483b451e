import Verif.Alarm.Model
/-!
# Specification of the alarm transport

Everything here is computed from the history alone: which frames came in, which timers fired, and what
the connection emitted.
-/
namespace Verif.Alarm

variable {α : Type}

/-- The number of the `k`-th (from 0) data frame of one direction: 0xffff, 0, 1, 2, …, 0x7fff, 0, … -/
def seqNo : Nat → Seq
  | 0 => 0xffff
  | k + 1 => BitVec.ofNat 16 (k % 0x8000)

/-- The number before `seqNo k`: that of the previous frame, 0xfffe if there was none. -/
def prevNo : Nat → Seq
  | 0 => 0xfffe
  | k + 1 => seqNo k

/-- Was the connection aborted? -/
def aborted (h : Hist α) : Prop := ∃ e ∈ h, ∃ p, (p, Ev.abort) ∈ e.2

/-- What the receiving side of one priority has seen so far: how many data frames were accepted, and
whether it is blocked by a malformed notification. -/
structure Rx where
  accepted : Nat
  blocked : Bool

/-- A data frame that asks for a transport acknowledgement. -/
def Frame.isData (f : Frame α) : Prop := f.pdu = .data ∧ f.tack = true

instance (f : Frame α) : Decidable f.isData := inferInstanceAs (Decidable (_ ∧ _))

/-- Effect of one operation on the receiving side: a data frame with the next number and a known block
type is accepted. -/
def rxStep (p : Bool) (r : Rx) : Op α → Rx
  | .recv q f tx =>
    if q = p ∧ r.blocked = false ∧ f.isData ∧ f.sendSeq = seqNo r.accepted then
      match f.body with
      | .other => r
      | .badNotify => ⟨r.accepted + 1, decide (tx = .ok)⟩
      | _ => ⟨r.accepted + 1, false⟩
    else r
  | _ => r

/-- The receiving side of priority `p` after a history. -/
def rx (p : Bool) (h : Hist α) : Rx := h.foldl (fun r e => rxStep p r e.1) ⟨0, false⟩

/-- An alarm that was handed to the transport and is not yet acknowledged: its frame, whether a copy
could be saved for retransmission, how often it was put on the wire and how many timers fired since. -/
structure Pending (α : Type) where
  frame : Frame α
  saved : Bool
  sent : Nat
  fired : Nat

/-- Did the operation get a buffer for the frame it had to send? -/
def Op.hasBuf : Op α → Bool
  | .recv _ _ tx | .poll _ _ tx _ | .userAck _ tx _ | .expire _ tx _ => decide (tx ≠ .noBuf)
  | .tick _ => true

/-- Effect of one event of priority `p` on the unacknowledged alarm. -/
def txEvent (buf : Bool) (s : Option (Pending α)) : Ev α → Option (Pending α)
  | .started f => some ⟨f, buf, 0, 0⟩
  | .wire g => if g.pdu = .data then s.map (fun P => { P with sent := P.sent + 1 }) else s
  | .fired => s.map (fun P => { P with fired := P.fired + 1 })
  | .confirmed => none
  | .abort => none
  | _ => s

/-- Effect of the events of one operation on the unacknowledged alarm of priority `p`; an abort
concerns both priorities. -/
def txStep (p : Bool) (s : Option (Pending α)) (e : Op α × List (Bool × Ev α)) : Option (Pending α) :=
  e.2.foldl (fun s ev => if ev.1 = p ∨ ev.2 matches .abort then txEvent e.1.hasBuf s ev.2 else s) s

/-- The unacknowledged alarm of priority `p` after a history. -/
def pending (p : Bool) (h : Hist α) : Option (Pending α) := h.foldl (txStep p) none

/-- Is the event a delivery to the application? -/
def Ev.isDeliver : Ev α → Bool
  | .deliver _ => true
  | .wire _ | .started _ | .confirmed | .fired | .alarmCnf _ | .ackCnf | .abort => false

/-- The delivery of priority `p` described by an event, with a running number. -/
def pick (p : Bool) (k : Nat) : Bool × Ev α → Option (Nat × α)
  | (q, .deliver a) => if q = p then some (k, a) else none
  | (_, .wire _) | (_, .started _) | (_, .confirmed) | (_, .fired) | (_, .alarmCnf _) | (_, .ackCnf)
  | (_, .abort) => none

/-- The alarms delivered to the application at priority `p`, each with the number of data frames that
were accepted before it. -/
def deliveries (p : Bool) : Hist α → List (Nat × α) := fun h =>
  (h.foldl (fun (s : Rx × List (Nat × α)) e =>
    (rxStep p s.1 e.1,
     s.2 ++ e.2.filterMap (pick p s.1.accepted))) (⟨0, false⟩, [])).2

end Verif.Alarm
