/-!
# The number of timers

All timers of the stack are entries of one table with PF_MAX_TIMEOUTS entries (area Scheduler: a start fails exactly if all
entries are running). This model has all users of the table, with what starts and what stops their timers.

A running timer is written as the handle with which it was started. A handle may have several running timers: starting one
overwrites the handle, and the older timer is not stopped. The second component of a step is whether every timer that was wanted
was available.

Simplified: moments of time and everything that the machines do besides starting and stopping timers. Which timers of a connection
may run depends on its phase. Only the software driver for cyclic data.
-/
namespace Verif.Budget

/-- PNET_MAX_AR, PNET_MAX_CR, PNET_MAX_PHYSICAL_PORTS -/
structure Lim where
  ars : Nat
  crs : Nat
  ports : Nat

/-- PF_MAX_SESSION (src/pf_types.h:1042) -/
def Lim.sess (l : Lim) : Nat := 2 * l.ars + 1

/-- PF_MAX_TIMEOUTS (src/pf_types.h:1060-1061) -/
def Lim.cap (l : Lim) : Nat := 2 * l.ars * l.crs + 2 * l.ports + 9

/-- The members of type pf_scheduler_handle_t. -/
inductive Handle where
  /-- `lldp.tx_timeout`, `lldp.rx_timeout` of a port -/
  | tx (p : Nat)
  | rx (p : Nat)
  /-- `link_monitor_timeout`, `cmina_hello_timeout`, `dcp_led_timeout`, `dcp_sam_timeout`, `dcp_identresp_timeout` -/
  | link
  | hello
  | led
  | sam
  | ident
  /-- `ppm.ci_timeout` or `cpm.ci_timeout` of `p_ar->iocrs[k]` -/
  | cr (a k : Nat)
  /-- `cmsm_timeout`, `cmio_timeout`, `apmx[].resend_timeout` of an AR -/
  | cmsm (a : Nat)
  | cmio (a : Nat)
  | apmx (a : Nat) (high : Bool)
  /-- `resend_timeout`, `epm_timeout` of a session -/
  | resend (s : Nat)
  | epm (s : Nat)
deriving DecidableEq

/-- How far a connection is: none, connect request accepted, end of parameterisation received, data exchange. -/
inductive Phase where
  | idle | startup | prm | data
deriving DecidableEq

/-- An entry of `net->cmrpc_ar`: phase, whether each CR is an output CR, and for each priority whether an alarm waits for its
acknowledgement (`apms_state == PF_APMS_STATE_WTACK`). -/
structure Ar where
  phase : Phase
  outs : List Bool
  wait : Bool → Bool

/-- An entry of `net->cmrpc_session_info`. -/
inductive Ses where
  | free
  /-- Opened by a request, without connection. -/
  | incoming
  /-- Session of the connect request of AR `a`. -/
  | ofAr (a : Nat)
  /-- Opened for the application ready request of AR `a`. -/
  | fromMe (a : Nat)
deriving DecidableEq

structure St where
  timers : List Handle
  ars : Nat → Ar
  ses : Nat → Ses

def Ar.none : Ar := ⟨.idle, [], fun _ => false⟩

/-- After pnet_init: the link monitor runs (pf_pdport_start_linkmonitor (src/device/pf_pdport.c:1094-1109)). -/
def init : St := ⟨[.link], fun _ => Ar.none, fun _ => .free⟩

/-- pf_scheduler_add (src/common/pf_scheduler.c:299-384) -/
def add (l : Lim) (h : Handle) (st : St) : St × Bool :=
  if st.timers.length < l.cap then ({ st with timers := h :: st.timers }, true) else (st, false)

/-- pf_scheduler_remove_if_running (src/common/pf_scheduler.c:249-257): the timer started last with this handle. -/
def remove (h : Handle) (st : St) : St := { st with timers := st.timers.erase h }

/-- pf_scheduler_restart (src/common/pf_scheduler.c:259-268) -/
def restart (l : Lim) (h : Handle) (st : St) : St × Bool := add l h (remove h st)

/-- Start several timers, until one fails. -/
def addAll (l : Lim) : List Handle → St → St × Bool
  | [], st => (st, true)
  | h :: hs, st =>
    match add l h st with
    | (st, true) => addAll l hs st
    | (st, false) => (st, false)

/-- Start several timers; a failure is only logged. -/
def addEach (l : Lim) : List Handle → St → St × Bool
  | [], st => (st, true)
  | h :: hs, st =>
    let r := add l h st
    let q := addEach l hs r.1
    (q.1, r.2 && q.2)

def removeAll : List Handle → St → St
  | [], st => st
  | h :: hs, st => removeAll hs (remove h st)

def setAr (st : St) (a : Nat) (x : Ar) : St := { st with ars := fun b => if b = a then x else st.ars b }
def setSes (st : St) (s : Nat) (x : Ses) : St := { st with ses := fun r => if r = s then x else st.ses r }

/-- The handles of the CRs of AR `a` that are output CRs (`b = true`) or not. -/
def crHandles (a : Nat) (b : Bool) (outs : List Bool) : List Handle :=
  ((List.range outs.length).filter fun k => outs[k]? = some b).map (Handle.cr a)

inductive Op where
  | txOn (p : Nat)
  | txOff (p : Nat)
  | rxOn (p : Nat)
  | rxOff (p : Nat)
  | hello
  | helloOff
  | led
  | sam
  | ident
  | lookup (s : Nat)
  | release (s : Nat)
  | heard (s : Nat)
  | connect (a s : Nat) (outs : List Bool)
  | read (s : Nat)
  | write (s a : Nat)
  | touch (a : Nat)
  | prmEnd (a : Nat)
  | ready (a s : Nat)
  | confirmed (s : Nat)
  | data (a : Nat)
  | alarm (a : Nat) (high : Bool)
  | ack (a : Nat) (high : Bool)
  | abort (a : Nat)
  | fire (h : Handle) (again : Bool)

/-- pf_session_release (src/device/pf_cmrpc.c:560-597) -/
def releaseSes (s : Nat) (st : St) : St := setSes (removeAll [.resend s, .epm s] st) s .free

/-- A connect request that passes the checks: pf_cmsu_start_req (src/device/pf_cmsu.c:179-274) starts the supervision of each output CR
(pf_cpm_activate_req (src/common/pf_cpm.c:212-308)); then pf_cmsm_cmdev_state_ind (src/device/pf_cmsm.c:157-231) starts the supervision of the start-up,
ignoring a failure. If the former fails the connection is not made, and its session ends. -/
def connect (l : Lim) (a s : Nat) (outs : List Bool) (st : St) : St × Bool :=
  match addAll l (crHandles a true outs) (setSes (setAr st a ⟨.startup, outs, fun _ => false⟩) s (.ofAr a)) with
  | (st, false) => (releaseSes s (setAr st a Ar.none), false)
  | (st, true) => restart l (.cmsm a) st

/-- The event PRMEND: pf_cmsu_cmdev_state_ind (src/device/pf_cmsu.c:94-177) starts the sending of each input CR, pf_cmio_cmdev_state_ind
(src/device/pf_cmio.c:164-274) the supervision of the outputs. Failures are ignored. -/
def prmEnd (l : Lim) (a : Nat) (st : St) : St × Bool :=
  addEach l (crHandles a false (st.ars a).outs ++ [.cmio a]) (setAr st a { st.ars a with phase := .prm })

/-- The event ABORT: pf_cmsu_cmdev_state_ind (src/device/pf_cmsu.c:94-177) closes the CRs and the alarm machines (pf_alarm_apmx_close
(src/common/pf_alarm.c:1576-1679)), pf_cmsm_cmdev_state_ind (src/device/pf_cmsm.c:157-231) stops its timer, pf_cmio_cmdev_state_ind
(src/device/pf_cmio.c:164-274) does not, pf_cmrpc_cmdev_state_ind (src/device/pf_cmrpc.c:5222-5276) releases the sessions. -/
def abort (a : Nat) (st : St) : St :=
  let st := removeAll (((List.range (st.ars a).outs.length).map (Handle.cr a)) ++
    [.apmx a false, .apmx a true, .cmsm a]) st
  let mine (s : Nat) : Bool := st.ses s == .ofAr a || st.ses s == .fromMe a
  { (setAr st a Ar.none) with
    timers := st.timers.filter fun h => match h with
      | .resend s => !mine s
      | .epm s => !mine s
      | _ => true
    ses := fun s => if mine s then .free else st.ses s }

/-- Whether the callback of an expired timer starts the timer again, if what the callback sees besides allows it (`again` of `fire`):
pf_lldp_trigger_sending (src/common/pf_lldp.c:1089-1111), pf_lldp_trigger_linkmonitor (src/device/pf_pdport.c:1066-1092), pf_cmina_send_hello (src/device/pf_cmina.c:59-81),
pf_dcp_control_signal_led (src/common/pf_dcp.c:588-634), pf_ppm_drv_sw_send (src/common/pf_ppm_driver_sw.c:37-77), pf_cpm_control_interval_expired
(src/common/pf_cpm_driver_sw.c:46-116), pf_cmio_timer_expired (src/device/pf_cmio.c:122-162), pf_alarm_apms_timeout (src/common/pf_alarm.c:849-954),
pf_cmrpc_send_with_timeout (src/device/pf_cmrpc.c:1065-1154). The others (pf_lldp_receive_timeout, pf_dcp_clear_sam, pf_dcp_responder, pf_cmsm_timeout) do not. -/
def reloads (st : St) : Handle → Bool
  | .tx _ | .link | .hello | .led => true
  | .rx _ | .sam | .ident | .cmsm _ | .epm _ => false
  | .cr a k => (st.ars a).phase != .idle && decide (k < (st.ars a).outs.length)
  | .cmio a => (st.ars a).phase == .prm
  | .apmx a high => (st.ars a).phase != .idle && (st.ars a).wait high
  | .resend s => st.ses s != .free

/-- One event. An event that cannot occur in the state has no effect.
* `txOn`, `txOff`: pf_lldp_tx_restart (src/common/pf_lldp.c:1122-1145), pf_lldp_send_disable (src/common/pf_lldp.c:1180-1190).
* `rxOn`, `rxOff`: pf_lldp_restart_peer_timeout (src/common/pf_lldp.c:508-545), pf_lldp_stop_peer_timeout (src/common/pf_lldp.c:547-552).
* `hello`, `helloOff`: pf_cmina_init (src/device/pf_cmina.c:451-578) when hello messages are wanted, pf_cmina_dcp_set_ind (src/device/pf_cmina.c:628-1103).
* `led`: pf_dcp_trigger_signal_led (src/common/pf_dcp.c:646-671); `sam`: pf_dcp_restart_sam_timeout (src/common/pf_dcp.c:228-244);
  `ident`: the answer to an Identify request, pf_dcp_identify_req (src/common/pf_dcp.c:1445-1998).
* `lookup`: an endpoint mapper request (src/device/pf_cmrpc.c:4664-4704). `release`: a session without connection ends.
  `heard`: any message on a session stops resending (src/device/pf_cmrpc.c:4480-4482).
* `read`: a read request with an answer in fragments (src/device/pf_cmrpc.c:4757-4765); without connection it ends its session.
  `write`: a request that writes many records of AR `a`, which has an answer in fragments too; also in a session without connection, which stays.
* `touch`: a read or write request during the start-up: pf_cmsm_cm_read_ind (src/device/pf_cmsm.c:270-301), pf_cmsm_cm_write_ind
  (src/device/pf_cmsm.c:303-339).
* `ready`: pf_cmrpc_rm_ccontrol_req (src/device/pf_cmrpc.c:3741-4000); `confirmed`: its answer.
* `data`: the event DATA (pf_cmsm_cmdev_state_ind, pf_cmio_cmdev_state_ind).
* `alarm`: pf_alarm_apms_apms_a_data_req (src/common/pf_alarm.c:1491-1556), possible once alarms are enabled at the end of parameterisation
  (src/device/pf_cmdev.c:5046). `ack`: pf_alarm_apms_a_data_ind (src/common/pf_alarm.c:1104-1187): the timer is not stopped.
* `fire`: a timer expires; its entry is free when the callback is called. The lookup timer ends its session
  (pf_session_epm_timeout (src/device/pf_cmrpc.c:608-616)). -/
def step (l : Lim) (st : St) : Op → St × Bool
  | .txOn p => if p < l.ports then restart l (.tx p) st else (st, true)
  | .txOff p => (remove (.tx p) st, true)
  | .rxOn p => if p < l.ports then restart l (.rx p) st else (st, true)
  | .rxOff p => (remove (.rx p) st, true)
  | .hello => if .hello ∈ st.timers then (st, true) else add l .hello st
  | .helloOff => (remove .hello st, true)
  | .led => if .led ∈ st.timers then (st, true) else add l .led st
  | .sam => restart l .sam st
  | .ident => if .ident ∈ st.timers then (st, true) else add l .ident st
  | .lookup s =>
    if s < l.sess then
      match st.ses s with
      | .free => restart l (.epm s) (setSes st s .incoming)
      | .incoming | .ofAr _ => restart l (.epm s) st
      | .fromMe _ => (st, true)
    else (st, true)
  | .release s => if st.ses s = .incoming then (releaseSes s st, true) else (st, true)
  | .heard s => (remove (.resend s) st, true)
  | .connect a s outs =>
    if a < l.ars ∧ (st.ars a).phase = .idle ∧ s < l.sess ∧ (st.ses s = .free ∨ st.ses s = .incoming) ∧
        outs.length ≤ l.crs then connect l a s outs st
    else (st, true)
  | .read s =>
    if s < l.sess then
      match st.ses s with
      | .ofAr _ => restart l (.resend s) st
      | _ => (st, true)
    else (st, true)
  | .write s a =>
    if s < l.sess ∧ (st.ars a).phase ≠ .idle then
      match st.ses s with
      | .incoming | .ofAr _ => restart l (.resend s) st
      | _ => (st, true)
    else (st, true)
  | .touch a =>
    if (st.ars a).phase = .startup ∨ (st.ars a).phase = .prm then restart l (.cmsm a) st else (st, true)
  | .prmEnd a => if (st.ars a).phase = .startup then prmEnd l a st else (st, true)
  | .ready a s =>
    if ((st.ars a).phase = .prm ∨ (st.ars a).phase = .data) ∧ s < l.sess ∧ st.ses s = .free then
      restart l (.resend s) (setSes st s (.fromMe a))
    else (st, true)
  | .confirmed s =>
    match st.ses s with
    | .fromMe _ => (releaseSes s st, true)
    | _ => (st, true)
  | .data a =>
    if (st.ars a).phase = .prm then
      (removeAll [.cmsm a, .cmio a] (setAr st a { st.ars a with phase := .data }), true)
    else (st, true)
  | .alarm a high =>
    if ((st.ars a).phase = .prm ∨ (st.ars a).phase = .data) ∧ (st.ars a).wait high = false then
      add l (.apmx a high) (setAr st a { st.ars a with wait := fun q => if q = high then true else (st.ars a).wait q })
    else (st, true)
  | .ack a high =>
    (setAr st a { st.ars a with wait := fun q => if q = high then false else (st.ars a).wait q }, true)
  | .abort a => if (st.ars a).phase = .idle then (st, true) else (abort a st, true)
  | .fire h again =>
    if h ∈ st.timers then
      let st := remove h st
      match h with
      | .epm s => (releaseSes s st, true)
      | h => if again && reloads st h then add l h st else (st, true)
    else (st, true)

/-- Whether in a run every wanted timer was available. -/
def allOk (l : Lim) (st : St) : List Op → Bool
  | [] => true
  | o :: os => (step l st o).2 && allOk l (step l st o).1 os

end Verif.Budget
