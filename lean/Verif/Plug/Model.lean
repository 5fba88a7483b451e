import Verif.Device.Diff
/-!
Model of the state machine for submodules that were released by another connection (PLUGSM), and of the report about
one such submodule.  Source: src/device/pf_plugsm.c, src/device/pf_cmdev.c.

Simplified: sending an alarm, calling the application and sending the request "application ready" are events; whether
the alarm and the request can be sent is part of the operation.  A result `none` is an access outside an array.
-/
set_option linter.unusedVariables false
set_option linter.dupNamespace false

namespace Verif.Plug

/-- An entry of the queue (src/pf_types.h:2108-2115): which submodule was released. -/
structure Req where
  api : Nat
  slot : Nat
  subslot : Nat
  modIdent : Nat
  subIdent : Nat
deriving DecidableEq

/-- `pf_plugsm_state_t` (src/pf_types.h:2095-2101). -/
inductive Mode where
  | idle | wfPrmInd | wfDataUpdate | wfAplRdyCnf
deriving DecidableEq

/-- `pf_ar_plug_t` (src/pf_types.h:2103-2116). -/
structure Plug where
  mode : Mode
  current : Nat
  count : Nat
  queue : List Req
deriving DecidableEq

/-- A zeroed `pf_ar_plug_t` with room for `n` entries. -/
def Plug.zero (n : Nat) : Plug := ⟨.idle, 0, 0, List.replicate n ⟨0, 0, 0, 0, 0⟩⟩

/-- What can be seen from outside. -/
inductive Event where
  /-- The queue is full: message in the log. -/
  | full (r : Req)
  /-- The alarm was sent, or could not be sent (`ok = false`). -/
  | alarm (r : Req) (ok : Bool)
  /-- The application is told that the submodule was parameterised, and accepts or refuses. -/
  | told (r : Req) (accepts : Bool)
  /-- The request "application ready" for the submodule was sent, or could not be sent. -/
  | ready (r : Req) (ok : Bool)
deriving DecidableEq

/-- Send the released alarm for the current entry. -/
def sendAlarm (ok : Bool) (p : Plug) : Option (Plug × List Event) :=
  (p.queue[p.current]?).map fun r => (p, [.alarm r ok])

/-- The first part of pf_plugsm_released_alarm_req (src/device/pf_plugsm.c:28-98): put the request in the queue. -/
def enqueue (r : Req) (p : Plug) : Option (Plug × List Event) :=
  if p.count ≥ p.queue.length then some (p, [.full r])
  else
    let i := p.current + p.count
    let i := if i ≥ p.queue.length then i - p.queue.length else i
    if i < p.queue.length then some ({ p with queue := p.queue.set i r, count := p.count + 1 }, []) else none

/-- pf_plugsm_released_alarm_req (src/device/pf_plugsm.c:28-98); `ok`: the alarm can be sent. -/
def released (r : Req) (ok : Bool) (p : Plug) : Option (Plug × List Event) :=
  (enqueue r p).bind fun x =>
    if x.1.mode = .idle then
      (sendAlarm ok { x.1 with mode := .wfPrmInd }).map fun y => (y.1, x.2 ++ y.2)
    else some x

/-- pf_plugsm_application_ready_cnf (src/device/pf_plugsm.c:179-233); `ok`: the next alarm can be sent. -/
def readyCnf (ok : Bool) (p : Plug) : Option (Plug × List Event) :=
  if p.mode = .wfAplRdyCnf then
    let c := if p.current + 1 ≥ p.queue.length then 0 else p.current + 1
    if p.count - 1 > 0 then sendAlarm ok ⟨.wfPrmInd, c, p.count - 1, p.queue⟩
    else some (⟨.idle, c, p.count - 1, p.queue⟩, [])
  else some (p, [])

/-- pf_plugsm_application_ready_req (src/device/pf_plugsm.c:148-177); `ok`: the request can be sent. -/
def readyReq (ok : Bool) (p : Plug) : Option (Plug × List Event) :=
  if p.mode = .wfDataUpdate then
    (p.queue[p.current]?).map fun r => ({ p with mode := .wfAplRdyCnf }, [.ready r ok])
  else some (p, [])

/-- The callback `sm_released_cb` of the application: there may be none; otherwise it accepts or refuses, and may
confirm by pnet_sm_released_cnf before it returns. -/
inductive Cb where
  | none
  | some (accepts : Bool) (confirms : Bool)
deriving DecidableEq

/-- What is done if the callback accepts (or there is none), and if it refuses. -/
def afterTold (accepts ok : Bool) (p : Plug) : Option (Plug × List Event) :=
  if accepts then some ({ p with mode := .wfDataUpdate }, []) else readyCnf ok { p with mode := .wfAplRdyCnf }

/-- The callback is called for the current entry. -/
def callCb (cb : Cb) (okReady : Bool) (p : Plug) : Option (Plug × List Event) :=
  match cb with
  | .none => some (p, [])
  | .some a confirms => (p.queue[p.current]?).bind fun r =>
      if confirms then (readyReq okReady p).map fun x => (x.1, x.2 ++ [.told r a]) else some (p, [.told r a])

def Cb.accepts : Cb → Bool
  | .none => true
  | .some a _ => a

/-- pf_plugsm_prmend_ind (src/device/pf_plugsm.c:100-146).  The last member says whether the request of the controller is answered without error. -/
def prmEnd (cb : Cb) (ok okReady : Bool) (p : Plug) : Option ((Plug × List Event) × Bool) :=
  if p.mode = .wfPrmInd then
    (callCb cb okReady p).bind fun x =>
      (afterTold cb.accepts ok x.1).map fun y => ((y.1, x.2 ++ y.2), cb.accepts)
  else some ((p, []), true)

/-- What can happen: pf_device_clear of another connection, "PrmEnd" for a plug alarm from the controller,
pnet_sm_released_cnf by the application, and the confirmation of "application ready" by the controller. -/
inductive Op where
  | released (r : Req) (ok : Bool)
  | prmEnd (cb : Cb) (ok okReady : Bool)
  | confirm (ok : Bool)
  | done (ok : Bool)

def step (p : Plug) : Op → Option (Plug × List Event)
  | .released r ok => released r ok p
  | .prmEnd cb ok okr => (prmEnd cb ok okr p).map (·.1)
  | .confirm ok => readyReq ok p
  | .done ok => readyCnf ok p

/-- A history of operations, with all events. -/
def run (p : Plug) : List Op → Option (Plug × List Event)
  | [] => some (p, [])
  | o :: l => (step p o).bind fun x => (run x.1 l).map fun y => (y.1, x.2 ++ y.2)

end Verif.Plug
