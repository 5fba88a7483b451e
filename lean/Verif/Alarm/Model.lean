/-!
# Alarm transport and alarm state machines of one connection

Models the alarm machines of one connection (AR) in `src/common/pf_alarm.c`: for each of the two
priorities the transport sender (APMS), transport receiver (APMR), the alarm initiator (ALPMI) and the
alarm responder (ALPMR).

Simplifications
* Frames are modelled after decoding: PDU type, TACK flag, the two sequence numbers and the decoded
  variable part. The block and frame codecs are not part of this model.
* `α` is the contents of an alarm notification as seen by the application.
* Operating system calls that can fail (buffer allocation, Ethernet transmission, timer allocation) are
  arguments of the operations, so that every combination of failures is covered.
* An application callback does not itself call back into the stack.
* The timer wheel is a list of deadlines per priority, started with the same delay, so that they expire
  in the order in which they were started.
* An abort is modelled by its effect on the alarm machines (`pf_alarm_close`); the ERR frame sent then
  is not modelled. A later re-use of the same connection slot is modelled in `Reuse.lean`.
-/
namespace Verif.Alarm

/-- Sequence numbers, `uint16_t`. -/
abbrev Seq := BitVec 16

/-- The kinds of incoming frames that `pf_alarm_apmr_periodic` tells apart (src/common/pf_alarm.c:2073-2278).
`ignored` stands for all frames that are dropped there: wrong version, unknown type, ACK or NACK with
a variable part, ERR with a wrong length. -/
inductive Pdu where
  | data | ack | nack | err | ignored
  deriving DecidableEq, Repr

/-- The variable part of a DATA frame as `pf_alarm_apmr_a_data_ind` sees it (src/common/pf_alarm.c:1783-1966):
an alarm notification of the endpoint's priority, one with the right block type that can not be
parsed, an alarm acknowledgement (with PNIO status), or another block type. -/
inductive Body (α : Type) where
  | notify (a : α) | badNotify | alarmAck (status : Nat) | other
  deriving DecidableEq, Repr

/-- A decoded alarm frame: `pf_alarm_fixed_t` and the variable part (src/pf_types.h, used at
src/common/pf_alarm.c:2073-2278). -/
structure Frame (α : Type) where
  pdu : Pdu
  tack : Bool
  sendSeq : Seq
  ackSeq : Seq
  body : Body α
  deriving DecidableEq, Repr

/-- APMS states, `pf_apms_state_values_t` (src/common/pf_alarm.c:194-212). -/
inductive Apms where | closed | open | wtack
  deriving DecidableEq, Repr
/-- APMR states, `pf_apmr_state_values_t` (src/common/pf_alarm.c:220-238). -/
inductive Apmr where | closed | open | wcnf
  deriving DecidableEq, Repr
/-- ALPMI states, `pf_alpmi_state_values_t` (src/common/pf_alarm.c:137-156). -/
inductive Alpmi where | wStart | wAlarm | wAck
  deriving DecidableEq, Repr
/-- ALPMR states, `pf_alpmr_state_values_t` (src/common/pf_alarm.c:164-186). -/
inductive Alpmr where | wStart | wNotify | wUserAck | wTack
  deriving DecidableEq, Repr

/-- The machines of one priority: the parts of `pf_apmx_t` and `pf_alpmx_t` that decide behaviour.
`rta` is the frame saved for retransmission, `timers` the deadlines of the running retransmission
timers (src/common/pf_alarm.c:849-954). -/
structure Pr (α : Type) where
  apms : Apms
  apmr : Apmr
  alpmi : Alpmi
  alpmr : Alpmr
  sendSeq : Seq
  sendSeqO : Seq
  expSeq : Seq
  expSeqO : Seq
  rta : Option (Frame α)
  resend : Nat
  timers : List Nat
  deriving DecidableEq, Repr

/-- The observable events. `started`: an alarm (or alarm acknowledgement) was handed to the transport.
`confirmed`: its transport acknowledgement was accepted. `wire`: a frame was put on the wire.
`fired`: a retransmission timer expired. `deliver`, `alarmCnf`, `ackCnf`: the three alarm callbacks to the application. `abort`: the connection
is aborted. -/
inductive Ev (α : Type) where
  | wire (f : Frame α) | started (f : Frame α) | confirmed | fired
  | deliver (a : α) | alarmCnf (status : Nat) | ackCnf | abort
  deriving DecidableEq, Repr

/-- Outcome of an attempt to build and send a frame: `ok`; `sendFail`: the buffer was built but
`pf_eth_send_on_management_port` failed; `noBuf`: nothing built (allocation failed, or UDP transport
selected, for which the code is a ToDo) (src/common/pf_alarm.c:1232-1467). -/
inductive Tx where | ok | sendFail | noBuf
  deriving DecidableEq, Repr

/-- Negotiated parameters: number of retries and the retransmission time
(`alarm_cr_request.rta_retries`, `timeout_us`, src/common/pf_alarm.c:974-1088). -/
structure Cfg where
  retries : Nat
  timeout : Nat

/-- Activation of one priority: `pf_alarm_alpmx_activate` (src/common/pf_alarm.c:366-408) and
`pf_alarm_apmx_activate` (src/common/pf_alarm.c:974-1088). -/
def Pr.init {α : Type} : Pr α where
  apms := .open
  apmr := .open
  alpmi := .wAlarm
  alpmr := .wNotify
  sendSeq := 0xffff
  sendSeqO := 0xfffe
  expSeq := 0xffff
  expSeqO := 0xfffe
  rta := none
  resend := 0
  timers := []

/-- `pf_alarm_alpmx_close` (src/common/pf_alarm.c:423-463) and `pf_alarm_apmx_close`
(src/common/pf_alarm.c:1576-1679) for one priority. Simplified: timers whose handle was overwritten keep
running in the code, but have no effect in state CLOSED. -/
def Pr.close {α : Type} (x : Pr α) : Pr α :=
  { x with
    apms := .closed
    apmr := .closed
    alpmi := .wStart
    alpmr := .wStart
    rta := none
    timers := [] }

/-- `pf_alarm_apms_a_data_ind` (src/common/pf_alarm.c:1104-1187) with the positive confirmations
`pf_alarm_alpmi_apms_a_data_cnf` (src/common/pf_alarm.c:476-499, no effect for `res = 0`) and
`pf_alarm_alpmr_apms_a_data_cnf` (src/common/pf_alarm.c:553-602). The retransmission timer is not stopped. -/
def apmsInd {α : Type} (x : Pr α) (f : Frame α) : Pr α × List (Ev α) :=
  if f.pdu = .ack ∨ f.pdu = .data then
    if x.apms = .wtack then
      if f.ackSeq = x.sendSeq then
        ({ x with
            sendSeqO := x.sendSeq
            sendSeq := (x.sendSeq + 1) &&& 0x7fff
            rta := none
            alpmr := if x.alpmr = .wTack then .wNotify else x.alpmr
            apms := .open },
         .confirmed :: if x.alpmr = .wTack then [.ackCnf] else [])
      else (x, [])
    else (x, [])
  else (x, [])

/-- `pf_alarm_apms_a_data_req` (src/common/pf_alarm.c:1232-1467): send the frame, save it if it is to be
acknowledged and nothing is saved. Third component: return value 0. -/
def apmsSend {α : Type} (x : Pr α) (f : Frame α) (tx : Tx) : Pr α × List (Ev α) × Bool :=
  if tx = .noBuf then (x, [], false)
  else
    ((if f.tack = true then (if x.rta = none then { x with rta := some f } else x) else x),
     (if tx = .ok then [.wire f] else []), decide (tx = .ok))

/-- Start of a retransmission timer, `pf_scheduler_add` (src/common/pf_scheduler.c:299-396). A timer that is already
running is not stopped; only its handle is overwritten. -/
def startTimer {α : Type} (c : Cfg) (x : Pr α) (now : Nat) (sched : Bool) : Pr α :=
  if sched = true then { x with timers := x.timers ++ [now + c.timeout] } else x

/-- The frame sent for an alarm notification or acknowledgement
(`pf_alarm_apms_apms_a_data_req`, src/common/pf_alarm.c:1491-1556). -/
def dataFrame {α : Type} (x : Pr α) (b : Body α) : Frame α :=
  { pdu := .data, tack := true, sendSeq := x.sendSeq, ackSeq := x.expSeqO, body := b }

/-- `pf_alarm_apms_apms_a_data_req` (src/common/pf_alarm.c:1491-1556). Results: new state, events, "returns 0",
"aborted". If the transport is not OPEN the negative confirmation to ALPMI aborts the connection
(src/common/pf_alarm.c:476-499). The function goes on with the negative confirmation to ALPMR, which uses a pointer of the
connection cleared by the abort: that this crashes the device is modelled in `Null.lean`. -/
def apmsReq {α : Type} (c : Cfg) (x : Pr α) (b : Body α) (tx : Tx) (sched : Bool) (now : Nat) :
    Pr α × List (Ev α) × Bool × Bool :=
  if x.apms = .open then
    let f := dataFrame x b
    let r := apmsSend { x with resend := c.retries } f tx
    (startTimer c { r.1 with apms := .wtack } now sched, .started f :: r.2.1, r.2.2 && sched, false)
  else (x, [], false, true)

/-- `pf_alarm_apms_timeout` (src/common/pf_alarm.c:849-954), called when the oldest timer expires. Third
component: aborted. -/
def apmsTimeout {α : Type} (c : Cfg) (x : Pr α) (tx : Tx) (sched : Bool) (now : Nat) :
    Pr α × List (Ev α) × Bool :=
  if x.apms = .wtack then
    match x.rta with
    | none => (x, [], false)
    | some f =>
      if x.resend > 0 then
        (startTimer c { x with resend := x.resend - 1 } now sched, (if tx = .ok then [.wire f] else []), false)
      else ({ x with apms := .open }, [], true)
  else ({ x with rta := none }, [], false)

/-- The ACK frame of `pf_alarm_apmr_send_ack` (src/common/pf_alarm.c:1694-1721). -/
def ackFrame {α : Type} (x : Pr α) : Frame α :=
  { pdu := .ack, tack := false, sendSeq := x.sendSeqO, ackSeq := x.expSeqO, body := .other }

/-- The NACK frame of `pf_alarm_apmr_send_nack` (src/common/pf_alarm.c:1736-1763). -/
def nackFrame {α : Type} (x : Pr α) : Frame α :=
  { pdu := .nack, tack := false, sendSeq := x.sendSeqO, ackSeq := x.expSeqO, body := .other }

/-- `pf_alarm_alpmi_apmr_a_data_ind` (src/common/pf_alarm.c:514-537): the controller acknowledged our alarm.
Always returns 0. -/
def alpmiInd {α : Type} (x : Pr α) (status : Nat) : Pr α × List (Ev α) :=
  if x.alpmi = .wAck then ({ x with alpmi := .wAlarm }, [.alarmCnf status]) else (x, [])

/-- `pf_alarm_alpmr_apmr_a_data_ind` (src/common/pf_alarm.c:625-682): an alarm of the controller is handed to
the application. Third component: returns 0; fourth: aborted. -/
def alpmrInd {α : Type} (x : Pr α) (a : α) : Pr α × List (Ev α) × Bool × Bool :=
  if x.alpmr = .wStart then (x, [], true, false)
  else if x.alpmr = .wNotify then ({ x with alpmr := .wUserAck }, [.deliver a], true, false)
  else (x, [], false, true)

/-- Advance of the expected sequence number (src/common/pf_alarm.c:1783-1966). -/
def advance {α : Type} (x : Pr α) : Pr α :=
  { x with expSeqO := x.expSeq, expSeq := (x.expSeq + 1) &&& 0x7fff }

/-- `pf_alarm_apmr_a_data_ind` (src/common/pf_alarm.c:1783-1966). `tx` is the outcome of sending the ACK or
NACK. Third component: aborted. -/
def apmrInd {α : Type} (x : Pr α) (f : Frame α) (tx : Tx) : Pr α × List (Ev α) × Bool :=
  if x.apmr = .open then
    if f.tack = false then (x, [], false)
    else if f.sendSeq = x.expSeq then
      match f.body with
      | .other => (x, [], true)
      | .alarmAck status =>
        let r1 := apmsInd x f
        let y := advance r1.1
        let r2 := apmsSend y (ackFrame y) tx
        if r2.2.2 = true then
          let r3 := alpmiInd r2.1 status
          ({ r3.1 with apmr := .open }, r1.2 ++ r2.2.1 ++ r3.2, false)
        else (r2.1, r1.2 ++ r2.2.1, false)
      | .badNotify =>
        let r1 := apmsInd x f
        let y := advance r1.1
        let r2 := apmsSend y (ackFrame y) tx
        if r2.2.2 = true then ({ r2.1 with apmr := .wcnf }, r1.2 ++ r2.2.1, false)
        else (r2.1, r1.2 ++ r2.2.1, false)
      | .notify a =>
        let r1 := apmsInd x f
        let y := advance r1.1
        let r2 := apmsSend y (ackFrame y) tx
        if r2.2.2 = true then
          let r3 := alpmrInd { r2.1 with apmr := .wcnf } a
          (if r3.2.2.1 = true then { r3.1 with apmr := .open } else r3.1, r1.2 ++ r2.2.1 ++ r3.2.1, r3.2.2.2)
        else (r2.1, r1.2 ++ r2.2.1, false)
    else if f.sendSeq = x.expSeqO then
      let r1 := apmsInd x f
      let r2 := apmsSend r1.1 (ackFrame r1.1) tx
      (r2.1, r1.2 ++ r2.2.1, false)
    else
      let r2 := apmsSend x (nackFrame x) tx
      (r2.1, r2.2.1, false)
  else (x, [], false)

/-- Handling of one received frame in `pf_alarm_apmr_periodic` (src/common/pf_alarm.c:2073-2278). Third
component: aborted. -/
def recv {α : Type} (x : Pr α) (f : Frame α) (tx : Tx) : Pr α × List (Ev α) × Bool :=
  if x.apmr = .closed then (x, [], false)
  else match f.pdu with
    | .ack => let r := apmsInd x f; (r.1, r.2, false)
    | .nack => (x, [], false)
    | .data => apmrInd x f tx
    | .err => (x, [], true)
    | .ignored => (x, [], false)

/-- The alarm machines of one connection; priority `true` is high (index 1 in the code), `false` low
(`p_ar->apmx[2]`, `p_ar->alpmx[2]`, src/common/pf_alarm.c:366-408). `now` is the time. -/
structure Ar (α : Type) where
  pr : Bool → Pr α
  now : Nat

/-- `pf_alarm_activate` (src/common/pf_alarm.c:2770-2794). -/
def Ar.init {α : Type} : Ar α := { pr := fun _ => Pr.init, now := 0 }

/-- Change the machines of one priority (array element `p_ar->apmx[p]`, src/common/pf_alarm.c:2073-2278). -/
def Ar.set {α : Type} (s : Ar α) (p : Bool) (x : Pr α) : Ar α :=
  { s with pr := fun q => if q = p then x else s.pr q }

/-- `pf_alarm_close` (src/common/pf_alarm.c:2796-2827): both priorities. -/
def Ar.close {α : Type} (s : Ar α) : Ar α := { s with pr := fun q => (s.pr q).close }

/-- The operations: a frame is fetched from the receive queue of priority `p`; an alarm queued by the
application is taken by `pf_alarm_almpi_periodic`; the application acknowledges an alarm; the oldest
timer of priority `p` expires; time passes. -/
inductive Op (α : Type) where
  | recv (p : Bool) (f : Frame α) (tx : Tx)
  | poll (p : Bool) (a : α) (tx : Tx) (sched : Bool)
  | userAck (status : Nat) (tx : Tx) (sched : Bool)
  | expire (p : Bool) (tx : Tx) (sched : Bool)
  | tick (d : Nat)

/-- Complete an operation on priority `p`: store the result, and on abort
(`pf_alarm_error_ind`, src/common/pf_alarm.c:330-351, which ends in `pf_alarm_close`,
src/common/pf_alarm.c:2796-2827) close both priorities. -/
def finish {α : Type} (s : Ar α) (p : Bool) (x : Pr α) (evs : List (Ev α)) (aborted : Bool) :
    Ar α × List (Bool × Ev α) :=
  if aborted = true then ((s.set p x).close, (evs ++ [Ev.abort]).map fun e => (p, e))
  else (s.set p x, evs.map fun e => (p, e))

/-- One operation.
* `recv`: `pf_alarm_apmr_periodic` (src/common/pf_alarm.c:2073-2278), one frame.
* `poll`: `pf_alarm_almpi_periodic` (src/common/pf_alarm.c:2721-2750) and `pf_alarm_send_internal`
  (src/common/pf_alarm.c:2294-2341) for one alarm taken from the send queue.
* `userAck`: `pf_alarm_alpmr_alarm_ack` (src/common/pf_alarm.c:3004-3057), which always uses high priority
  and sets the ALPMR state after the request, even if that aborted the connection.
* `expire`: `pf_alarm_apms_timeout` (src/common/pf_alarm.c:849-954), once the deadline is reached. -/
def step {α : Type} (c : Cfg) (s : Ar α) : Op α → Ar α × List (Bool × Ev α)
  | .recv p f tx =>
    let r := recv (s.pr p) f tx
    finish s p r.1 r.2.1 r.2.2
  | .poll p a tx sched =>
    if (s.pr p).alpmi = .wAlarm then
      let r := apmsReq c (s.pr p) (.notify a) tx sched s.now
      finish s p (if r.2.2.1 = true then { r.1 with alpmi := .wAck } else r.1) r.2.1 r.2.2.2
    else (s, [])
  | .userAck status tx sched =>
    if (s.pr true).alpmr = .wUserAck then
      let r := apmsReq c (s.pr true) (.alarmAck status) tx sched s.now
      let t := finish s true r.1 r.2.1 r.2.2.2
      (t.1.set true { t.1.pr true with alpmr := .wTack }, t.2)
    else (s, [])
  | .expire p tx sched =>
    match (s.pr p).timers with
    | [] => (s, [])
    | t :: ts =>
      if t ≤ s.now then
        let r := apmsTimeout c { s.pr p with timers := ts } tx sched s.now
        finish s p r.1 (.fired :: r.2.1) r.2.2
      else (s, [])
  | .tick d => ({ s with now := s.now + d }, [])

/-- The value returned to the application by `pnet_alarm_send_ack`: true for success
(`pf_alarm_alpmr_alarm_ack`, src/common/pf_alarm.c:3004-3057). -/
def userAckRet {α : Type} (c : Cfg) (s : Ar α) (status : Nat) (tx : Tx) (sched : Bool) : Bool :=
  if (s.pr true).alpmr = .wUserAck then (apmsReq c (s.pr true) (.alarmAck status) tx sched s.now).2.2.1
  else false

/-- What happened: operations and their events, oldest first. -/
abbrev Hist (α : Type) := List (Op α × List (Bool × Ev α))

/-- Run a sequence of operations from activation. -/
def exec {α : Type} (c : Cfg) (ops : List (Op α)) : Ar α × Hist α :=
  ops.foldl (fun s op => ((step c s.1 op).1, s.2 ++ [(op, (step c s.1 op).2)])) (Ar.init, [])

theorem exec_append {α : Type} {c : Cfg} {ops : List (Op α)} {op : Op α} :
    exec c (ops ++ [op]) =
      ((step c (exec c ops).1 op).1, (exec c ops).2 ++ [(op, (step c (exec c ops).1 op).2)]) := by
  simp [exec]

end Verif.Alarm
