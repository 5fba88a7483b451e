import Verif.Startup.AbortAll
/-!
# The reason for the end of a connection

A connection has two numbers, `err_cls` and `err_code` of `pf_ar_t`.  They are set where something goes wrong.  When the connection
is aborted, the application can ask for them in its callback (`pnet_get_ar_error_codes`), and the alarm machine tells the code to
the controller in an error frame.  The model wraps the operations of area Startup.
-/
set_option linter.unusedVariables false
namespace Verif.Reason

open Verif.Startup (Cfg Event Entry)

/-- `err_cls` and `err_code`. -/
structure Codes where
  cls : Nat
  code : Nat
deriving DecidableEq

/-- The codes of a cleared entry. -/
def Codes.zero : Codes := ⟨0, 0⟩

/-- `PNET_ERROR_CODE_1_*` (include/pnet_api.h:200-229). -/
def clsAlpmi : Nat := 0x41
def clsApmr : Nat := 0x46
def clsApms : Nat := 0x47
def clsCpm : Nat := 0x48
def clsPpm : Nat := 0x49
def clsProtocol : Nat := 0xFD

/-- Errors of the machines of a connection that end it. -/
inductive Failure where
  /-- All repetitions of an alarm are unacknowledged: pf_alarm_apms_timeout (src/common/pf_alarm.c:849-954). -/
  | alarmUnacked
  /-- An alarm of the controller arrives before the application has acknowledged the last one: pf_alarm_alpmr_apmr_a_data_ind (src/common/pf_alarm.c:625-682). -/
  | alarmTooEarly
  /-- A data frame with an unknown block: pf_alarm_apmr_a_data_ind (src/common/pf_alarm.c:1783-1966). -/
  | alarmUnknown
  /-- An error frame of the controller with these codes: pf_alarm_apmr_periodic (src/common/pf_alarm.c:2073-2278); `busy`: the receiver is not in state OPEN. -/
  | errorFrame (cls code : Nat) (busy : Bool)
  /-- No timer is left to supervise outputs: pf_cpm_control_interval_expired (src/common/pf_cpm_driver_sw.c:46-116). -/
  | noCpmTimer
  /-- No timer is left to send inputs: pf_ppm_drv_sw_send (src/common/pf_ppm_driver_sw.c:37-77), pf_ppm_state_ind (src/common/pf_ppm.c:89-99). -/
  | noPpmTimer
deriving DecidableEq

/-- The codes set before the connection is aborted, see `Failure`. -/
def Failure.codes : Failure → Codes
  | .alarmUnacked => ⟨clsApms, 0x08⟩
  | .alarmTooEarly => ⟨clsProtocol, 0x12⟩
  | .alarmUnknown => ⟨clsProtocol, 0x0b⟩
  | .errorFrame cls code busy => if busy then ⟨clsApmr, 0x00⟩ else ⟨cls, code⟩
  | .noCpmTimer => ⟨clsCpm, 0x01⟩
  | .noPpmTimer => ⟨clsPpm, 0x01⟩

/-- Events that set the codes and do not end the connection. -/
inductive Mishap where
  /-- Outputs are asked for, or arrive, while the consumer is not started: pf_cpm_get_data_and_iops (src/common/pf_cpm.c:398-499), pf_cpm_get_iocs (src/common/pf_cpm.c:501-584),
  pf_cpm_c_data_ind (src/common/pf_cpm_driver_sw.c:257-400). -/
  | consumerNotStarted
  /-- Inputs are asked for while the provider is not started: pf_ppm_get_data_and_iops (src/common/pf_ppm.c:661-752), pf_ppm_get_iocs (src/common/pf_ppm.c:754-831). -/
  | providerNotStarted
  /-- The application acknowledges an alarm that it has not been given: pf_alarm_alpmr_alarm_ack (src/common/pf_alarm.c:3004-3057). -/
  | ackWithoutAlarm
  /-- An alarm frame with a wrong sequence number: pf_alarm_apmr_a_data_ind (src/common/pf_alarm.c:1783-1966). -/
  | alarmSequence
deriving DecidableEq

/-- The codes set, see `Mishap`. -/
def Mishap.codes : Mishap → Codes
  | .consumerNotStarted => ⟨clsCpm, 0x00⟩
  | .providerNotStarted => ⟨clsPpm, 0x00⟩
  | .ackWithoutAlarm => ⟨clsAlpmi, 0x03⟩
  | .alarmSequence => ⟨clsProtocol, 0x01⟩

/-- What happens to the stack. -/
inductive Op where
  /-- An operation of area Startup.  `abort` is pnet_ar_abort; `release` is a release to which the application agrees; `cpmState`
  with `start = false` is the end of the data hold time of outputs. -/
  | base (o : Startup.Op)
  /-- A release for which the callback of the application returns an error with this code. -/
  | releaseError (s u code : Nat)
  | failure (i : Nat) (f : Failure)
  /-- No answer to a request or fragment sent to the controller: pf_cmrpc_send_with_timeout (src/device/pf_cmrpc.c:1065-1154). -/
  | noAnswer (i : Nat)
  /-- A DCP request changes the name, removes the IP address (`reset = false`) or resets the device: pf_cmina_dcp_set_ind (src/device/pf_cmina.c:628-1103). -/
  | dcp (reset : Bool)
  /-- `pnet_factory_reset`. -/
  | factoryReset
  | mishap (i : Nat) (m : Mishap)

/-- Why a connection ended. -/
inductive Cause where
  | released
  | releasedError (code : Nat)
  | startupTimeout
  | outputsLost
  | noPort
  | failure (f : Failure)
  | noAnswer
  | nameChanged
  | dcpReset
  | appAbort
  | appReset
  | newConnect
  | cancelled
  | controlRefused
  | readyRefused
deriving DecidableEq

/-- What is told when a connection ends.  `app`: what pnet_get_ar_error_codes (pnet_get_ar_error_codes (src/device/pnet_api.c:543-561)) gives in the callback;
`frame`: class and code in the error frame to the controller, if one is sent. -/
structure Told where
  i : Nat
  cause : Cause
  app : Codes
  frame : Option Codes

/-- The stack. -/
structure St where
  s : Startup.St
  codes : Nat → Codes
  told : List Told

/-- After initialisation. -/
def init : St := ⟨Startup.init, fun _ => Codes.zero, []⟩

/-- The port check at the end of parameterisation fails for connection `i`: the path through pf_cmrpc_rm_dcontrol_ind (src/device/pf_cmrpc.c:2702-2784) and pf_cmdev_rm_dcontrol_ind (src/device/pf_cmdev.c:4941-5014) to
the error of `pf_cmdev_check_pdev`. -/
def portFails (c : Cfg) (s : Startup.St) (q : Startup.DcReq) (i : Nat) : Bool :=
  q.parseOk && !decide (((Startup.useSess s q.s).sess q.s).dcSeq = q.seq) && decide (Startup.findUuid c s q.u = some i) && !q.plug &&
    !(s.ars i).access && decide ((s.ars i).cmdev = .wPeind) && decide (q.cmd = Startup.cmdPrmEnd) && q.appOk && !q.pdevOk

/-- A release reaches the code that ends connection `i` (pf_cmdev_rm_release_ind (src/device/pf_cmdev.c:4893-4939)). -/
def releases (c : Cfg) (s : Startup.St) (u i : Nat) : Bool :=
  decide (Startup.findUuid c s u = some i) &&
    (if (s.ars i).access then decide ((s.ars i).cmdev = .data)
     else match (s.ars i).cmdev with
       | .wPeind | .wArdy | .wArdycnf | .wdata | .data => true
       | _ => false)

/-- The codes that the operation sets for connection `i` before anything else happens to it.
* `connect`: no timer for the supervision of the outputs, pf_cpm_activate_req (src/common/pf_cpm.c:212-308), for the entry that is allocated;
* `release`: pf_cmdev_rm_release_ind (src/device/pf_cmdev.c:4893-4939); the class stays, the code is replaced if the application returns an error;
* `dcontrol`: pf_cmdev_rm_dcontrol_ind (src/device/pf_cmdev.c:4941-5014);
* `cmsmTimer`: pf_cmsm_timeout (src/device/pf_cmsm.c:129-153);
* `cpmState`: pf_cpm_control_interval_expired (src/common/pf_cpm_driver_sw.c:46-116), before it is known whether this ends the connection;
* `noAnswer`: pf_cmrpc_send_with_timeout (src/device/pf_cmrpc.c:1065-1154);
* `dcp`: pf_cmina_abort_active_ars (src/device/pf_cmina.c:586-604). -/
def records (c : Cfg) (s : Startup.St) (o : Op) (i : Nat) : Option Codes :=
  match o with
  | .base (.connect n u access legacy factor iocrs (.accept .noTimer)) =>
    if Startup.findUuid c s u = none ∧ Startup.findFree c s = some i ∧ access = false then some ⟨clsCpm, 0x01⟩ else none
  | .base (.release _ u) => if releases c s u i then some ⟨clsProtocol, 0x0f⟩ else none
  | .releaseError _ u code =>
    if releases c s u i then some ⟨clsProtocol, if (s.ars i).access then 0x0f else code⟩ else none
  | .base (.dcontrol q) => if portFails c s q i then some ⟨clsProtocol, 0x24⟩ else none
  | .base (.cmsmTimer j) =>
    if i = j ∧ (s.ars j).cmsm = .run ∧ (∃ d ∈ (s.ars j).deadline, d ≤ s.now) then some ⟨clsProtocol, 0x06⟩ else none
  | .base (.cpmState j _ false) => if i = j then some ⟨clsProtocol, 0x05⟩ else none
  | .failure j f => if i = j ∧ (s.ars j).inUse = true then some f.codes else none
  | .noAnswer j => if i = j ∧ (s.ars j).inUse = true then some ⟨clsProtocol, 0x18⟩ else none
  | .dcp reset => if i < c.maxAr ∧ (s.ars i).inUse = true then some ⟨clsProtocol, if reset then 0x20 else 0x1f⟩ else none
  | .mishap j m => if i = j ∧ (s.ars j).inUse = true then some m.codes else none
  | _ => none

/-- The effect of the operation on the connections.  Failures of the machines call pf_cmsu_alarm_error_ind (src/device/pf_cmsu.c:309-318), pf_cmsu_cpm_error_ind (src/device/pf_cmsu.c:287-296)
or pf_cmsu_ppm_error_ind (src/device/pf_cmsu.c:298-307); `noAnswer` calls pf_cmdev_cm_abort (src/device/pf_cmdev.c:1469-1510). -/
def effect (c : Cfg) (s : Startup.St) : Op → Option Startup.St
  | .base o => Startup.step c s o
  | .releaseError n u _ => some (Startup.release c s n u)
  | .failure i _ => some (if (s.ars i).inUse then Startup.stateInd s i .abort else s)
  | .noAnswer i => some (if (s.ars i).inUse then Startup.cmAbort s i else s)
  | .dcp _ => some (Startup.abortActive c s).1
  | .factoryReset => some (Startup.abortAll c s)
  | .mishap _ _ => some s

/-- Why connection `i` ends, if the operation ends it.  A fact about the operation, used to say what the codes should be; the stack
does not compute it. -/
def why (c : Cfg) (s : Startup.St) (o : Op) (i : Nat) : Cause :=
  match o with
  | .base (.connect _ u _ _ _ _ _) => if Startup.findUuid c s u = none then .failure .noCpmTimer else .newConnect
  | .base (.release _ _) => .released
  | .releaseError _ _ code => if (s.ars i).access then .released else .releasedError code
  | .base (.dcontrol q) => if portFails c s q i then .noPort else .controlRefused
  | .base (.cancel _) => .cancelled
  | .base (.appReady _ _ _) => .readyRefused
  | .base (.cmsmTimer _) => .startupTimeout
  | .base (.cpmState _ _ _) => .outputsLost
  | .base _ => .appAbort
  | .failure _ f => .failure f
  | .noAnswer _ => .noAnswer
  | .dcp reset => if reset then .dcpReset else .nameChanged
  | .factoryReset => .appReset
  | .mishap _ _ => .appAbort

/-- The connections that the application was told the end of, in entries of the log, latest first. -/
def abortsIn (l : List Entry) : List Nat :=
  l.filterMap fun e => match e with
    | .event i .abort _ => some i
    | _ => none

/-- The connections that end in a step: new entries of the log. -/
def newAborts (s s' : Startup.St) : List Nat := abortsIn (s'.log.take (s'.log.length - s.log.length))

/-- The alarm machines of a connection are open: they are opened in pf_cmsu_start_req (src/device/pf_cmsu.c:179-274), just before the event STARTUP, with which CMWRR
leaves its state IDLE, and closed in an abort (pf_cmsu_cmdev_state_ind (src/device/pf_cmsu.c:94-177)).  Connections for device access have none. -/
def alarmOpen (a : Startup.Ar) : Bool := a.inUse && !a.access && decide (a.cmwrr ≠ .idle)

/-- The error frame of pf_alarm_apmx_close (src/common/pf_alarm.c:1576-1679), called by pf_alarm_close (src/common/pf_alarm.c:2796-2827) with `err_code`: the class is always PROTOCOL.  `tx`: the frame can be sent (there is
a buffer, and the transport is not UDP). -/
def errorFrame (a : Startup.Ar) (k : Codes) (tx : Bool) : Option Codes :=
  if alarmOpen a && tx then some ⟨clsProtocol, k.code⟩ else none

/-- What is told of the connections that end in an operation, latest first.  A second end in the same operation finds the entry
cleared. -/
def tell (c : Cfg) (s : Startup.St) (o : Op) (tx : Bool) (codes : Nat → Codes) : List Nat → List Told
  | [] => []
  | i :: earlier =>
    ⟨i, why c s o i, if i ∈ earlier then Codes.zero else codes i, if i ∈ earlier then none else errorFrame (s.ars i) (codes i) tx⟩ ::
      tell c s o tx codes earlier

/-- One operation: the codes are set, then the operation is done; at each abort the application is called first (pf_cmdev_state_ind (src/device/pf_cmdev.c:1394-1435)),
then the alarm machines are closed, then the entry is cleared, with its codes (pf_ar_release (src/device/pf_cmrpc.c:758-802)). -/
def step (c : Cfg) (x : St) (o : Op) (tx : Bool) : Option St :=
  (effect c x.s o).map fun s' =>
    let codes := fun i => (records c x.s o i).getD (x.codes i)
    let ends := newAborts x.s s'
    { s := s'
      codes := fun i => if i ∈ ends ∨ (s'.ars i).inUse = false then Codes.zero else codes i
      told := tell c x.s o tx codes ends ++ x.told }

/-- A sequence of operations. -/
def exec (c : Cfg) (x : St) : List (Op × Bool) → Option St
  | [] => some x
  | (o, tx) :: os => (step c x o tx).bind fun x => exec c x os

end Verif.Reason
