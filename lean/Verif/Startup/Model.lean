/-!
Model of connection start-up: the product of the state machines CMDEV, CMIO, CMWRR, CMSM and CMPBE of
every connection (AR), the RPC sessions over which requests arrive, and the access check of record
writes.
Source: src/device/pf_cmdev.c, pf_cmio.c, pf_cmwrr.c, pf_cmsm.c, pf_cmpbe.c, pf_cmrpc.c.

Not modelled here: parsing and the checks of a connect request (area Connect), creation of cyclic
data and alarm machines (areas Cpm, Ppm, Alarm), the contents of answers, the plug state machine.
What these parts decide is part of the operation (for instance whether a connect request passes the
checks).  The application is assumed not to call the stack from inside a callback.
A result `none` is a failed assertion.
-/
set_option linter.unusedVariables false

namespace Verif.Startup

/-! ## Data -/

/-- `pnet_event_values_t` (include/pnet_api.h:241-248). -/
inductive Event where
  | abort | startup | prmend | applrdy | data
deriving DecidableEq

/-- `pf_cmdev_state_values_t` (src/pf_types.h:562-575). -/
inductive Cmdev where
  | powerOn | wCind | wCres | wSucnf | wPeind | wPeres | wArdy | wArdycnf | wdata | data | abort
deriving DecidableEq

/-- `pf_cmio_state_values_t`. -/
inductive Cmio where
  | idle | startup | wdata | data
deriving DecidableEq

/-- `pf_cmwrr_state_values_t`. -/
inductive Cmwrr where
  | idle | startup | prmend | data
deriving DecidableEq

/-- `pf_cmsm_state_values_t`. -/
inductive Cmsm where
  | idle | run
deriving DecidableEq

/-- `pf_cmpbe_state_values_t`. -/
inductive Cmpbe where
  | idle | wfind | wfrsp | wfpei | wfper | wfreq | wfcnf
deriving DecidableEq

/-- The members of `pf_iocr_t` that CMIO uses: whether the relation carries output data (types
OUTPUT and MC_CONSUMER) and `cpm.cmio_start`. -/
structure Iocr where
  isOut : Bool
  start : Bool
deriving DecidableEq

/-- The members of `pf_ar_t` used here.  `legacy` is `startup_mode == false`, `factor` is
`cm_initiator_activity_timeout_factor`, `deadline` is the time for which the timer `cmsm_timeout` is
scheduled.  `ar_state` is omitted: it is always PRIMARY (no code sets it to BACKUP). -/
structure Ar where
  inUse : Bool
  uuid : Nat
  access : Bool
  legacy : Bool
  factor : Nat
  cmdev : Cmdev
  cmio : Cmio
  cmwrr : Cmwrr
  cmsm : Cmsm
  cmpbe : Cmpbe
  stored : Nat
  ready : Bool
  resched : Bool
  iocrs : List Iocr
  deadline : Option Nat
  sess : Option Nat
deriving DecidableEq

/-- The AR after `memset (p_ar, 0, sizeof (*p_ar))`. -/
def Ar.zero : Ar :=
  ⟨false, 0, false, false, 0, .powerOn, .idle, .idle, .idle, .idle, 0, false, false, [], none, none⟩

/-- The members of `pf_session_info_t` used here.  `release_in_progress` and `kill_session` are not
members: they only postpone the release of the session to the end of the same packet. -/
structure Sess where
  inUse : Bool
  fromMe : Bool
  ar : Option Nat
  dcSeq : Nat
  dcRes : Nat
deriving DecidableEq

/-- The session after `memset`. -/
def Sess.zero : Sess := ⟨false, false, none, 0, 0⟩

/-- API, slot, subslot. -/
abbrev Place := Nat × Nat × Nat

/-- What can be observed from outside, with the time where it matters. -/
inductive Entry where
  /-- The application is told event `e` of connection `i` (`pnet_state_ind`) at time `t`. -/
  | event (i : Nat) (e : Event) (t : Nat)
  /-- A connect request is accepted as connection `i` with this supervision factor. -/
  | connected (i : Nat) (factor : Nat)
  /-- The application called `pnet_application_ready` for connection `i`. -/
  | readyCall (i : Nat)
  /-- The controller answered the application ready request of connection `i`: status of the answer,
  and whether its control block says "done". -/
  | readyRsp (i : Nat) (status : Nat) (done : Bool)
  /-- A record of connection `i` was read or written by the controller at time `t`. -/
  | activity (i : Nat) (t : Nat)
  /-- The application is given a DControl command (`pnet_dcontrol_ind`). -/
  | dcCallback (i : Nat) (cmd : Nat)
  /-- A session is opened. -/
  | opened (s : Nat)
  /-- A DControl request with this sequence number is answered on session `s`; `wellFormed` tells
  whether its blocks could be parsed. -/
  | dcAnswer (s : Nat) (seq : Nat) (res : Nat) (wellFormed : Bool)
  /-- A record read with AR UUID `u` is executed, for this connection or for none. -/
  | readServed (i : Option Nat) (u : Nat) (index : Nat)
  /-- A record write is forwarded to the application or to the I&M data. -/
  | wrote (i : Nat) (p : Place) (index : Nat)
  /-- A record write is forwarded to the port parameters. -/
  | wrotePort (i : Nat) (p : Place) (index : Nat)
  /-- A record write of connection `i` is answered. -/
  | writeAnswer (i : Nat) (p : Place) (index : Nat) (ok : Bool)
deriving DecidableEq

/-- The state.  `subs p` is `none` if no submodule is plugged at `p`, otherwise the owner. -/
structure St where
  ars : Nat → Ar
  sess : Nat → Sess
  subs : Place → Option (Option Nat)
  now : Nat
  log : List Entry

/-- Size of the AR table `PNET_MAX_AR`, the tables being cleared by pf_cmrpc_init. -/
structure Cfg where
  maxAr : Nat

/-- State after initialisation. -/
def init : St := ⟨fun _ => Ar.zero, fun _ => Sess.zero, fun _ => none, 0, []⟩

def St.setAr (st : St) (i : Nat) (a : Ar) : St :=
  { st with ars := fun j => if j = i then a else st.ars j }

def St.setSess (st : St) (s : Nat) (x : Sess) : St :=
  { st with sess := fun j => if j = s then x else st.sess j }

def St.note (st : St) (e : Entry) : St := { st with log := e :: st.log }

/-! ## State machines of one connection -/

/-- Effect of pf_cmio_cmdev_state_ind (src/device/pf_cmio.c:164-274).  The timer is not a member: the timer operation below may
fire at any time and checks the state. -/
def cmioInd (a : Ar) (e : Event) : Ar :=
  let clear := a.iocrs.map (fun c => if c.isOut then ⟨c.isOut, false⟩ else c)
  match a.cmio, e with
  | .idle, .abort => { a with resched := false, cmio := .startup }
  | .idle, .startup => { a with iocrs := clear, resched := false, cmio := .startup }
  | .startup, .abort => { a with resched := false, cmio := .idle }
  | .startup, .startup => { a with iocrs := clear, cmio := .wdata }
  | .startup, .prmend => { a with resched := true, cmio := .wdata }
  | .wdata, .abort => { a with resched := false, cmio := .idle }
  | .wdata, .data => { a with resched := false, cmio := .data }
  | .data, .abort => { a with resched := false, cmio := .idle }
  | _, _ => a

/-- pf_cmwrr_cmdev_state_ind (src/device/pf_cmwrr.c:77-152). -/
def cmwrrInd (a : Ar) (e : Event) : Ar :=
  match a.cmwrr, e with
  | .idle, .startup => { a with cmwrr := .startup }
  | .startup, .prmend => { a with cmwrr := .prmend }
  | .startup, .abort => { a with cmwrr := .idle }
  | .prmend, .abort => { a with cmwrr := .idle }
  | .prmend, .applrdy => { a with cmwrr := .data }
  | .data, .abort => { a with cmwrr := .idle }
  | _, _ => a

/-- Microseconds in the argument of `pf_scheduler_restart` (src/device/pf_cmsm.c:189-196). -/
def superviseUs (factor : Nat) : Nat := factor * 100 * 1000

/-- pf_cmsm_cmdev_state_ind (src/device/pf_cmsm.c:157-231).  `pf_scheduler_restart` is assumed to find a free timer (its result is
ignored by the code). -/
def cmsmInd (now : Nat) (a : Ar) (e : Event) : Ar :=
  match a.cmsm, e with
  | .idle, .startup => { a with cmsm := .run, deadline := some (now + superviseUs a.factor) }
  | .run, .data => { a with cmsm := .idle, deadline := none }
  | .run, .abort => { a with cmsm := .idle, deadline := none }
  | _, _ => a

/-- pf_cmpbe_cmdev_state_ind (src/device/pf_cmpbe.c:99-135). -/
def cmpbeInd (a : Ar) (e : Event) : Ar :=
  match a.cmpbe, e with
  | .idle, .data => { a with cmpbe := .wfind }
  | .idle, _ => a
  | _, .abort => { a with cmpbe := .idle }
  | _, _ => a

/-- All state machines of one connection in the order of pf_cmdev_state_ind (src/device/pf_cmdev.c:1394-1435).  CMSU (which starts
and stops cyclic data and alarms) is not modelled. -/
def arInd (now : Nat) (a : Ar) (e : Event) : Ar :=
  cmpbeInd (cmsmInd now (cmwrrInd (cmioInd a e) e) e) e

/-- pf_session_release (src/device/pf_cmrpc.c:560-597). -/
def sessRelease (st : St) (s : Nat) : St :=
  if (st.sess s).inUse then st.setSess s Sess.zero else st

/-- Release the session of AR `i` (src/device/pf_cmrpc.c:5249-5259). -/
def releaseArSess (st : St) (i : Nat) : St :=
  match (st.ars i).sess with
  | none => st
  | some s => sessRelease st s

/-- pf_cmrpc_cmdev_state_ind (src/device/pf_cmrpc.c:5222-5276) for ABORT: release the session of the AR, then every session that was
opened by the device for this AR (the loop over `pf_session_locate_by_ar`), then clear the AR. -/
def rpcAbort (st : St) (i : Nat) : St :=
  let st := releaseArSess st i
  let st := { st with sess := fun s =>
    let x := st.sess s
    if x.inUse && x.fromMe && x.ar == some i then Sess.zero else x }
  st.setAr i Ar.zero

/-- pf_cmdev_state_ind (src/device/pf_cmdev.c:1394-1435): the application is told first.  For ABORT the AR is cleared by
`pf_cmrpc_cmdev_state_ind` and its submodules are given up by pf_device_clear (src/device/pf_cmdev.c:933-1005) (which may hand them
to another AR: operation `own`). -/
def stateInd (st : St) (i : Nat) (e : Event) : St :=
  let st := st.note (.event i e st.now)
  let st := st.setAr i (arInd st.now (st.ars i) e)
  if e = .abort then
    let st := rpcAbort st i
    { st with subs := fun p => if st.subs p = some (some i) then some none else st.subs p }
  else st

/-- pf_cmdev_set_state (src/device/pf_cmdev.c:1362-1390). -/
def setState (st : St) (i : Nat) (s : Cmdev) : St :=
  let st := st.setAr i { st.ars i with cmdev := s }
  if s = .abort then stateInd st i .abort else st

/-- pf_cmdev_cm_abort (src/device/pf_cmdev.c:1469-1510). -/
def cmAbort (st : St) (i : Nat) : St :=
  let a := st.ars i
  if a.access then
    match a.cmdev with
    | .wCres => setState st i .abort
    | .data => setState st i .abort
    | _ => st
  else setState st i .abort

/-- pf_cmdev_cmio_info_ind (src/device/pf_cmdev.c:1437-1467). -/
def infoInd (st : St) (i : Nat) (possible : Bool) : St :=
  let a := st.ars i
  match a.cmdev with
  | .wArdy => st.setAr i { a with ready := possible }
  | .wArdycnf => st.setAr i { a with ready := possible }
  | .wdata =>
    let st := st.setAr i { a with ready := possible }
    if possible then setState (stateInd st i .data) i .data else st
  | _ => st

/-- pf_cmio_timer_expired (src/device/pf_cmio.c:122-162), without the timer. -/
def cmioTimer (st : St) (i : Nat) : St :=
  let a := st.ars i
  if a.cmio = .wdata ∧ a.resched = true then
    infoInd st i (a.iocrs.all (fun c => !c.isOut || c.start))
  else st.setAr i { a with resched := false }

/-- pf_cmio_cpm_state_ind (src/device/pf_cmio.c:276-343). -/
def cpmStateInd (st : St) (i crep : Nat) (start : Bool) : St :=
  let a := st.ars i
  match a.cmio with
  | .idle => st
  | .startup => if a.legacy && !start then stateInd st i .abort else st
  | .wdata =>
    if crep < a.iocrs.length then
      st.setAr i { a with iocrs := a.iocrs.modify crep (fun c => ⟨c.isOut, start⟩) }
    else st
  | .data => if start then st else stateInd st i .abort

/-- pf_cmio_cpm_new_data_ind (src/device/pf_cmio.c:345-381). -/
def newDataInd (st : St) (i crep : Nat) (new : Bool) : St :=
  let a := st.ars i
  match a.cmio with
  | .wdata =>
    if crep < a.iocrs.length then
      st.setAr i { a with iocrs := a.iocrs.modify crep (fun c => ⟨c.isOut, new⟩) }
    else st
  | _ => st

/-- pf_cmsm_timeout (src/device/pf_cmsm.c:129-153); the scheduler calls it when the time has come. -/
def cmsmTimer (st : St) (i : Nat) : St :=
  let a := st.ars i
  match a.deadline with
  | none => st
  | some d =>
    if st.now < d then st
    else
      let a := { a with deadline := none }
      let st := st.setAr i a
      match a.cmsm with
      | .idle => st
      | .run =>
        let st := stateInd st i .abort
        st.setAr i { st.ars i with cmsm := .idle }

/-- pf_cmsm_cm_read_ind (src/device/pf_cmsm.c:270-301) and pf_cmsm_cm_write_ind (src/device/pf_cmsm.c:303-339): restart the supervision. -/
def cmsmRestart (st : St) (i : Nat) : St :=
  let a := st.ars i
  match a.cmsm with
  | .idle => st
  | .run => st.setAr i { a with deadline := some (st.now + superviseUs a.factor) }

/-! ## Sessions and requests -/

/-- Look up or allocate the session of a packet (src/device/pf_cmrpc.c:4326-4350).  Session `s` is the
one found by the activity UUID or, if it is not in use, the free one that is allocated. -/
def useSess (st : St) (s : Nat) : St :=
  if (st.sess s).inUse then st
  else (st.setSess s ⟨true, false, none, 0xFFFFFFFF, 0⟩).note (.opened s)

/-- pf_ar_find_by_uuid (src/device/pf_cmrpc.c:813-840). -/
def findUuid (c : Cfg) (st : St) (u : Nat) : Option Nat :=
  (List.range c.maxAr).find? fun i =>
    (st.ars i).inUse && (st.ars i).cmdev ≠ .powerOn && (st.ars i).uuid == u

/-- The search loop in pf_ar_allocate (src/device/pf_cmrpc.c:704-751).  The additional AR that only serves to parse a request when
the table is full is omitted; it is always free at this point. -/
def findFree (c : Cfg) (st : St) : Option Nat :=
  (List.range c.maxAr).find? fun i => !(st.ars i).inUse

/-- A refused connect: `pf_ar_release`, then the session is killed (src/device/pf_cmrpc.c:2094-2104). -/
def refuse (st : St) (i s : Nat) : St :=
  let st := st.setAr i Ar.zero
  sessRelease (st.setSess s { st.sess s with ar := none }) s

/-- What comes of pf_cmsu_start_req (src/device/pf_cmsu.c:179-274): the connection starts; no timer is left for the supervision of an output CR, so that
pf_cpm_activate_req (src/common/pf_cpm.c:212-308) reports an error to CMSU with pf_cmsu_cpm_error_ind (src/device/pf_cmsu.c:287-296); or it fails in another way (no buffer for the data). -/
inductive Start where
  | ok
  | noTimer
  | failed
deriving DecidableEq

/-- What the checks decide about a connect request: `accept` (with what comes of the start by CMSU), or refused
with an error code (0: none was set; this can be the application's doing, and the checks do it in two cases, see C154). -/
inductive Verdict where
  | accept (start : Start)
  | refused (code : Nat)
deriving DecidableEq

/-- pf_cmdev_rm_connect_ind (src/device/pf_cmdev.c:4822-4891) with pf_cmdev_cm_connect_rsp_pos (src/device/pf_cmdev.c:4741-4799) and
pf_cmdev_cm_connect_rsp_neg (src/device/pf_cmdev.c:4712-4730), followed by the end of pf_cmrpc_rm_connect_ind (src/device/pf_cmrpc.c:1974-2117): after a refusal
without error code the function returns 0 and the AR is kept.  If no timer is left, the error indication of the CPM aborts the
connection before the application has been told of a start: its session and its entry are cleared, and what follows (a state
written into the cleared entry, the release of the entry and the session) does no more.  Simplified: that state. -/
def connectInd (st : St) (i s : Nat) (v : Verdict) : St :=
  match v with
  | .refused code =>
    let st := setState st i .wCind
    if code = 0 then st else refuse st i s
  | .accept start =>
    let st := setState st i .wCres
    if (st.ars i).access then
      setState (stateInd (st.note (.connected i (st.ars i).factor)) i .startup) i .data
    else
      match start with
      | .ok =>
        setState (stateInd ((setState st i .wSucnf).note (.connected i ((setState st i .wSucnf).ars i).factor)) i .startup) i .wPeind
      | .noTimer => stateInd st i .abort
      | .failed => refuse (setState st i .wSucnf) i s

/-- pf_cmrpc_rm_connect_ind (src/device/pf_cmrpc.c:1974-2117) on session `s` for AR UUID `u`. -/
def connect (c : Cfg) (st : St) (s u : Nat) (access legacy : Bool) (factor : Nat) (iocrs : List Bool)
    (v : Verdict) : St :=
  let st := useSess st s
  match findUuid c st u with
  | some j => sessRelease (cmAbort st j) s
  | none =>
    match findFree c st with
    | none => sessRelease st s
    | some i =>
      let a : Ar := { Ar.zero with
        inUse := true, uuid := u, access := access, legacy := legacy, factor := factor,
        iocrs := iocrs.map (fun o => ⟨o, false⟩), sess := some s }
      let st := st.setAr i a
      let st := st.setSess s { st.sess s with ar := some i }
      connectInd st i s v

/-- pf_cmrpc_rm_release_ind (src/device/pf_cmrpc.c:2357-2450) with pf_cmdev_rm_release_ind (src/device/pf_cmdev.c:4893-4939).  The session is killed in any case. -/
def release (c : Cfg) (st : St) (s u : Nat) : St :=
  let st := useSess st s
  let st := match findUuid c st u with
    | none => st
    | some i =>
      let a := st.ars i
      if a.access then (if a.cmdev = .data then stateInd st i .abort else st)
      else
        match a.cmdev with
        | .wPeind => setState st i .abort
        | .wArdy => setState st i .abort
        | .wArdycnf => setState st i .abort
        | .wdata => setState st i .abort
        | .data => setState st i .abort
        | _ => st
  sessRelease st s

/-- Bits of the control command (src/pf_types.h: `PF_CONTROL_COMMAND_BIT_*`). -/
def cmdPrmBegin : Nat := 64
def cmdPrmEnd : Nat := 1

/-- pf_cmpbe_rm_dcontrol_ind (src/device/pf_cmpbe.c:137-239); returns whether the result is 0.  The stored command is always 0
(it is only set in state WFCNF, which is never reached), the branch is kept. -/
def cmpbeDcontrol (st : St) (i cmd : Nat) (appOk : Bool) : St × Bool :=
  let a := st.ars i
  match a.cmpbe with
  | .idle => (st, true)
  | .wfrsp => (st, false)
  | .wfind =>
    if a.stored ≠ 0 then
      let st := (st.setAr i { a with stored := 0 }).note (.dcCallback i cmdPrmBegin)
      if appOk then (st.setAr i { st.ars i with cmpbe := .wfpei }, true) else (st, false)
    else if cmd = cmdPrmBegin then
      let st := st.note (.dcCallback i cmdPrmBegin)
      (st.setAr i { a with cmpbe := .wfrsp }, appOk)
    else (st, false)
  | .wfpei =>
    if cmd = cmdPrmEnd then
      let st := st.note (.dcCallback i cmdPrmEnd)
      (st.setAr i { a with cmpbe := .wfreq }, true)
    else (st, false)
  | .wfper =>
    if cmd = cmdPrmEnd then (st.setAr i { a with cmpbe := .wfreq }, true) else (st, false)
  | .wfreq =>
    if cmd = cmdPrmBegin then
      let st := stateInd st i .abort
      (st.setAr i { st.ars i with cmpbe := .idle }, false)
    else (st, false)
  | .wfcnf =>
    if cmd = cmdPrmBegin then (st.setAr i { a with stored := cmd }, false) else (st, false)

/-- pf_cmdev_rm_dcontrol_ind (src/device/pf_cmdev.c:4941-5014); the second result is `*p_set_state_prmend`. -/
def cmdevDcontrol (st : St) (i cmd : Nat) (appOk pdevOk : Bool) : St × Bool :=
  let a := st.ars i
  if a.access then (stateInd st i .abort, false)
  else
    match a.cmdev with
    | .wPeind =>
      if cmd = cmdPrmEnd then
        let st := (setState st i .wPeres).note (.dcCallback i cmdPrmEnd)
        if appOk then
          let st := setState st i .wArdy
          if pdevOk then (st, true) else (stateInd st i .abort, false)
        else (stateInd st i .abort, false)
      else (stateInd st i .abort, false)
    | .data =>
      let r := cmpbeDcontrol st i cmd appOk
      if r.2 then (r.1, false) else (stateInd r.1 i .abort, false)
    | _ => (st, false)

/-- A DControl request.  `parseOk`: the blocks could be parsed; `plug`: the block is a PrmEnd of a
plug alarm (handled by the plug state machine); `appOk`, `appRes`: what the application returns and
sets as result; `pdevOk`: result of the check of the ports. -/
structure DcReq where
  s : Nat
  seq : Nat
  u : Nat
  cmd : Nat
  parseOk : Bool
  plug : Bool
  appOk : Bool
  appRes : Nat
  pdevOk : Bool
deriving DecidableEq

/-- Result codes: no error, and the errors set by the RPC layer (any distinct numbers). -/
def resOk : Nat := 0
def resParse : Nat := 1
def resUnknownAr : Nat := 2

def isCallback : Entry → Bool
  | .dcCallback _ _ => true
  | _ => false

/-- `rpc_result` after `cmdevDcontrol`: the application's if its DControl callback was called and the
session still exists, else no error (an abort clears the session). -/
def dcResult (before after : St) (q : DcReq) : Nat :=
  if (after.sess q.s).inUse && decide (after.log.countP isCallback ≠ before.log.countP isCallback) then
    q.appRes
  else resOk

/-- pf_cmrpc_rm_dcontrol_ind (src/device/pf_cmrpc.c:2702-2784), followed by the PRMEND event that pf_cmrpc_dce_packet (src/device/pf_cmrpc.c:4288-5092) sends after
the answer to the AR of the *session*. -/
def dcontrol (c : Cfg) (st : St) (q : DcReq) : St :=
  let st := useSess st q.s
  if !q.parseOk then st.note (.dcAnswer q.s q.seq resParse false)
  else if (st.sess q.s).dcSeq = q.seq then
    st.note (.dcAnswer q.s q.seq (st.sess q.s).dcRes true)
  else
    match findUuid c st q.u with
    | none => sessRelease (st.note (.dcAnswer q.s q.seq resUnknownAr true)) q.s
    | some i =>
      if q.plug then
        (st.setSess q.s { st.sess q.s with dcSeq := q.seq, dcRes := q.appRes }).note
          (.dcAnswer q.s q.seq q.appRes true)
      else
        let r := cmdevDcontrol st i q.cmd q.appOk q.pdevOk
        let res := dcResult st r.1 q
        let st := (r.1.setSess q.s { r.1.sess q.s with dcSeq := q.seq, dcRes := res }).note
          (.dcAnswer q.s q.seq res true)
        if r.2 then
          match (st.sess q.s).ar with
          | none => st
          | some j => stateInd st j .prmend
        else st

/-- pnet_application_ready (src/device/pnet_api.c:456-473) with pf_cmdev_cm_ccontrol_req (src/device/pf_cmdev.c:5090-5203) and pf_cmrpc_rm_ccontrol_req (src/device/pf_cmrpc.c:3741-4000).
`dataAvail`: the application has set data for all inputs; `out`: the session that is allocated for the
request, `none` if all are in use. -/
def appReady (st : St) (i : Nat) (dataAvail : Bool) (out : Option Nat) : St :=
  if (st.ars i).inUse then
    let st := st.note (.readyCall i)
    let a := st.ars i
    if a.access then stateInd st i .abort
    else
      match a.cmdev with
      | .wArdy =>
        if dataAvail then
          let st := stateInd st i .applrdy
          match out with
          | none => st
          | some s =>
            if (st.sess s).inUse then st
            else
              setState ((st.setSess s ⟨true, true, some i, 0xFFFFFFFF, 0⟩).note (.opened s)) i
                .wArdycnf
        else st
      | _ => st
  else st

/-- pf_cmdev_rm_ccontrol_cnf (src/device/pf_cmdev.c:5016-5088) as called by pf_cmrpc_rm_ccontrol_cnf (src/device/pf_cmrpc.c:4145-4225): the result passed is the
session's `rpc_result`, which is always "no error", whatever status the answer carries.  The second
component is whether 0 is returned. -/
def ccontrolCnf (st : St) (i : Nat) : St × Bool :=
  let a := st.ars i
  match a.cmdev with
  | .wArdycnf =>
    if a.ready then (setState (stateInd st i .data) i .data, true)
    else (setState st i .wdata, true)
  | _ => (st, false)

/-- An RPC response packet on session `s` (src/device/pf_cmrpc.c:4937-4966 and
pf_cmrpc_rm_ccontrol_cnf (src/device/pf_cmrpc.c:4145-4225)): ignored for an unknown session; `CC_ASSERT (p_ar != NULL)` for a session
without AR.  `done`: the answer has a control block with command "done"; `plug`: of a plug alarm. -/
def response (st : St) (s status : Nat) (done plug : Bool) : Option St :=
  if (st.sess s).inUse then
    match (st.sess s).ar with
    | none => none
    | some i =>
      let st := st.note (.readyRsp i status (done && !plug))
      if done then
        if plug then some (sessRelease st s)
        else
          let r := ccontrolCnf st i
          if r.2 then some (sessRelease r.1 s) else some r.1
      else some st
  else some st

/-- A packet of type CANCEL, FAULT or REJECT (src/device/pf_cmrpc.c:4967-5024). -/
def cancel (st : St) (s : Nat) : St :=
  if (st.sess s).inUse then
    match (st.sess s).ar with
    | none => sessRelease st s
    | some i => sessRelease (cmAbort st i) s
  else st

/-- Indices of records (src/pf_types.h): user range, I&M range, port parameters. -/
def idxUserMax : Nat := 0x7FFF
def idxIm0 : Nat := 0xAFF0
def idxIm15 : Nat := 0xAFFF
def isPortIdx (x : Nat) : Bool := x == 0x802B || x == 0x802F || x == 0x8071

/-- The AR for which pf_cmrpc_rm_read_ind executes a read (src/device/pf_cmrpc.c:2908-3088). -/
def readAr (c : Cfg) (st : St) (u : Nat) (implicit : Bool) (target : Nat) : Option Nat :=
  match findUuid c st u with
  | some i => some i
  | none => if implicit then findUuid c st target else none

/-- pf_cmrpc_rm_read_ind (src/device/pf_cmrpc.c:2908-3088) for AR UUID `u` (0: the nil UUID) with pf_fspm_cm_read_ind (src/device/pf_fspm.c:659-846) and pf_cmrdr_rm_read_ind (src/device/pf_cmrdr.c:39-850), then the part of
pf_cmrpc_rpc_request (src/device/pf_cmrpc.c:3627-3739) that ends the session.  An explicit read with an unknown UUID is executed
with `p_ar == NULL`; for a record of the application this pointer is dereferenced (`p_ar->arep`, given
that the application has a read callback): `none`.  `target` is the target UUID of an implicit read,
`checks`: the API is known.  The contents of the answer are not modelled.  The supervision is restarted
for every record read of a known AR, also if the record could not be read. -/
def read (c : Cfg) (st : St) (s u : Nat) (implicit : Bool) (target idx : Nat) (checks : Bool) :
    Option St :=
  let st := useSess st s
  if u = 0 ∧ implicit = false then some (sessRelease st s)
  else if (findUuid c st u).isSome ∧ implicit = true then some (sessRelease st s)
  else
    let ar := readAr c st u implicit target
    let r : Option St :=
      if checks then
        match ar with
        | none => if idx ≤ idxUserMax then none else some (st.note (.readServed none u idx))
        | some i =>
          some (cmsmRestart ((st.note (.readServed (some i) u idx)).note (.activity i st.now)) i)
      else some st
    r.bind fun st =>
      if implicit = true ∨ (st.sess s).ar = none then some (sessRelease st s) else some st

/-- The access check in pf_cmwrr_write (src/device/pf_cmwrr.c:173-297): denied if the submodule exists and this AR does not own it. -/
def denied (st : St) (i : Nat) (p : Place) : Bool :=
  match st.subs p with
  | none => false
  | some o => o != some i

/-- pf_cmwrr_write (src/device/pf_cmwrr.c:173-297); `ok` is the result of the application, I&M or port handler. -/
def cmwrrWrite (st : St) (i : Nat) (p : Place) (idx : Nat) (ok : Bool) : St × Bool :=
  if denied st i p then (st, false)
  else if idx ≤ idxUserMax then (st.note (.wrote i p idx), ok)
  else if idxIm0 ≤ idx ∧ idx ≤ idxIm15 then (st.note (.wrote i p idx), ok)
  else if isPortIdx idx then (st.note (.wrotePort i p idx), ok)
  else (st, false)

/-- pf_cmwrr_rm_write_ind (src/device/pf_cmwrr.c:299-381). -/
def cmwrrInd' (st : St) (i : Nat) (p : Place) (idx : Nat) (ok : Bool) : St × Bool :=
  match (st.ars i).cmwrr with
  | .idle => (st, false)
  | .startup => cmwrrWrite st i p idx ok
  | .prmend => (st, false)
  | .data => cmwrrWrite st i p idx ok

/-- One record write (pf_cmrpc_perform_one_write (src/device/pf_cmrpc.c:3220-3336)); `checks`: API known and length correct. -/
def write (c : Cfg) (st : St) (s u : Nat) (p : Place) (idx : Nat) (checks ok : Bool) : St :=
  let st := useSess st s
  match findUuid c st u with
  | none => sessRelease st s
  | some i =>
    if checks then
      let r := cmwrrInd' st i p idx ok
      let st := cmsmRestart (r.1.note (.activity i r.1.now)) i
      st.note (.writeAnswer i p idx r.2)
    else st.note (.writeAnswer i p idx false)

/-! ## Operations -/

inductive Op where
  | connect (s u : Nat) (access legacy : Bool) (factor : Nat) (iocrs : List Bool) (v : Verdict)
  | release (s u : Nat)
  | dcontrol (q : DcReq)
  | response (s status : Nat) (done plug : Bool)
  | cancel (s : Nat)
  | read (s u : Nat) (implicit : Bool) (target idx : Nat) (checks : Bool)
  | write (s u : Nat) (p : Place) (idx : Nat) (checks ok : Bool)
  /-- Any other packet that leaves a session behind: a first fragment, a request for an interface that
  is not known, an EPM lookup. -/
  | other (s : Nat)
  /-- `pnet_application_ready`. -/
  | appReady (i : Nat) (dataAvail : Bool) (out : Option Nat)
  /-- pnet_ar_abort (src/device/pnet_api.c:490-507), or an abort by the alarm machine or after resending in vain: the AR is in use. -/
  | abort (i : Nat)
  | cmioTimer (i : Nat)
  | cmsmTimer (i : Nat)
  | cpmState (i crep : Nat) (start : Bool)
  | newData (i crep : Nat) (new : Bool)
  /-- Time passes. -/
  | tick (d : Nat)
  /-- A submodule is plugged, pulled or changes its owner (area Device). -/
  | own (p : Place) (o : Option (Option Nat))

def step (c : Cfg) (st : St) : Op → Option St
  | .connect s u access legacy factor iocrs v => some (connect c st s u access legacy factor iocrs v)
  | .release s u => some (release c st s u)
  | .dcontrol q => some (dcontrol c st q)
  | .response s status done plug => response st s status done plug
  | .cancel s => some (cancel st s)
  | .read s u implicit target idx checks => read c st s u implicit target idx checks
  | .write s u p idx checks ok => some (write c st s u p idx checks ok)
  | .other s => some (useSess st s)
  | .appReady i dataAvail out => some (appReady st i dataAvail out)
  | .abort i => some (if (st.ars i).inUse then cmAbort st i else st)
  | .cmioTimer i => some (cmioTimer st i)
  | .cmsmTimer i => some (cmsmTimer st i)
  | .cpmState i crep start => some (cpmStateInd st i crep start)
  | .newData i crep new => some (newDataInd st i crep new)
  | .tick d => some { st with now := st.now + d }
  | .own p o => some { st with subs := fun q => if q = p then o else st.subs q }

/-- Run a list of operations. -/
def exec (c : Cfg) (st : St) : List Op → Option St
  | [] => some st
  | o :: os => (step c st o).bind fun st' => exec c st' os

end Verif.Startup
