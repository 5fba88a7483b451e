import Verif.Device.Model

/-!
Model of the table of connections (ARs) as far as ownership of submodules, alarm endpoints and
connection identifiers go: connect requests, application calls and the end of connections.
Source: src/device/pf_cmrpc.c, src/device/pf_cmdev.c, src/device/pf_cmsu.c, src/common/pf_alarm.c.

Not modelled: sessions, the parser of the connect request and the checks of its parameters (areas
Connect and Wire); their outcomes are arbitrary members of `Request`, so the theorems hold whatever
these decide.
-/
set_option linter.unusedVariables false

namespace Verif.Device

/-! ## Expected configuration of a connection -/

/-- `pf_exp_submodule_t`, number and identity. -/
structure ExpSub where
  number : Nat
  ident : Nat
deriving DecidableEq

/-- `pf_exp_module_t`. -/
structure ExpMod where
  slot : Nat
  ident : Nat
  subs : List ExpSub
deriving DecidableEq

/-- `pf_exp_api_t`. -/
structure ExpApi where
  api : Nat
  mods : List ExpMod
deriving DecidableEq

/-- pf_cmdev_get_exp_api (src/device/pf_cmdev.c:1824-1840) and pf_cmdev_get_exp_mod (src/device/pf_cmdev.c:1842-1865) -/
def expMod (e : List ExpApi) (a s : Nat) : Option ExpMod :=
  (e.find? (fun x => x.api == a)).bind (fun x => x.mods.find? (fun y => y.slot == s))

/-- pf_cmdev_get_exp_sub (src/device/pf_cmdev.c:1867-1893) -/
def expSub (e : List ExpApi) (a s ss : Nat) : Option ExpSub :=
  (expMod e a s).bind (fun y => y.subs.find? (fun z => z.number == ss))

/-! ## State -/

/-- `pf_cmdev_state_values_t` (src/pf_types.h:1370-1385). -/
inductive Phase where
  | powerOn | wCind | wCres | wSucnf | wPeind | wPeres | wArdy | wArdycnf | wData | data | abort
deriving DecidableEq

/-- `pf_ar_t`, the members needed here.  `started` stands for `cmsu_state == PF_CMSU_STATE_STARTUP`
(the states RUN and ABORT are not visible between calls). -/
structure Ar where
  inUse : Bool
  arep : Nat
  uuid : Nat
  exp : List ExpApi
  devAccess : Bool
  phase : Phase
  started : Bool
deriving DecidableEq

/-- A zeroed AR. -/
def Ar.zero : Ar := ⟨false, 0, 0, [], false, .powerOn, false⟩

/-- `cmdev_device`, `cmrpc_ar`, `cmrpc_ar_order` (with `cmrpc_nbr_ars` entries), `alarm_endpoint`.
The table `cmrpc_ar` has one entry more than PNET_MAX_AR.  An AR is denoted by its index. -/
structure St where
  apis : Dev
  ars : List Ar
  order : List Nat
  eps : List (Option Nat)
deriving DecidableEq

/-- State after start-up. -/
def init (maxApi maxSlots maxSubs maxAr : Nat) : St :=
  ⟨dev0 maxApi maxSlots maxSubs, List.replicate (maxAr + 1) Ar.zero, [],
   List.replicate maxAr none⟩

/-- PNET_MAX_AR. -/
def St.maxAr (st : St) : Nat := st.ars.length - 1

/-- The first connection, in order of connection, that expects the submodule (the loops in
src/device/pf_cmdev.c:802-839 and 963-1001). -/
def who (ars : List Ar) (order : List Nat) (a s ss : Nat) : Option Nat :=
  order.find? (fun i => (ars[i]?).any (fun x => (expSub x.exp a s ss).isSome))

/-! ## Calls of the application -/

/-- Plug and pull calls of the application, with the result of sending the alarm. -/
inductive AppOp where
  | plugModule (a s ident : Nat)
  | plugSub (a s ss mident ident : Nat) (info : Info) (alarm : Bool)
  | pullSub (a s ss : Nat) (alarm : Bool)
  | pullModule (a s : Nat) (alarm : Nat → Bool)

/-- The same as an operation on the tables, `w` telling who expects a submodule. -/
def AppOp.toT (w : Nat → Nat → Nat → Option Nat) : AppOp → TOp
  | .plugModule a s i => .plugModule a s i
  | .plugSub a s ss m i info al => .plugSub a s ss m i info (w a s ss) al
  | .pullSub a s ss al => .pullSub a s ss al
  | .pullModule a s al => .pullModule a s al

def runApp (w : Nat → Nat → Nat → Option Nat) : Dev → List AppOp → Dev
  | d, [] => d
  | d, o :: os => runApp w (tstep d (o.toT w)).1 os

/-! ## Connect request -/

/-- A connect request, the outcome of the checks that are not modelled here, and what the
application does in the callbacks. -/
structure Request where
  uuid : Nat
  devAccess : Bool
  exp : List ExpApi
  /-- The request can be parsed (`pf_cmrpc_rm_connect_interpret_ind`). -/
  parseOk : Bool
  /-- AR and IOCR parameters are good (src/device/pf_cmdev.c:4168-4176). -/
  preOk : Bool
  /-- The remaining checks of a submodule (used in an IOCR, properties, descriptors), by index of
  API, module and submodule in the request. -/
  subOk : Nat → Nat → Nat → Bool
  /-- The checks after the configuration (src/device/pf_cmdev.c:4184-4259). -/
  postOk : Bool
  /-- Return value of the application's connect callback. -/
  appOk : Bool
  /-- `pf_cmsu_start_req` succeeds. -/
  startOk : Bool
  /-- An error code was written when the request was refused. -/
  errSet : Bool
  /-- Calls made by the application in `exp_module_ind`. -/
  modCb : Nat → Nat → List AppOp
  /-- Calls made by the application in `exp_submodule_ind`. -/
  subCb : Nat → Nat → Nat → List AppOp
  /-- Calls made by the application in `connect_ind`. -/
  connectCb : List AppOp
  /-- Calls made by the application in `state_ind` with the event of this request (STARTUP, or ABORT
  of the old connection if the UUID is in use). -/
  stateCb : List AppOp

/-- pf_cmdev_exp_submodule_configure (src/device/pf_cmdev.c:3376-3757), for the submodules `todo` after the submodules `done`.
The flag is `ret == 0`.  `ai` and `mi` are the indices of API and module in the request, `i` the
connection.  Simplification: the slot is looked up by its number each time instead of keeping a
pointer, which makes a difference only if the application pulls the module of the slot in
`exp_submodule_ind`. -/
def subLoop (w : Nat → Nat → Nat → Option Nat) (rq : Request) (i a s ai mi : Nat) :
    List ExpSub → List ExpSub → Dev → Bool → Dev × Bool
  | _, [], d, ok => (d, ok)
  | done, e :: todo, d, ok =>
    let k := done.length
    let d1 := if (getSub d a s e.number).isNone then runApp w d (rq.subCb ai mi k) else d
    let ok1 := ok && !(done.any (fun z => z.number == e.number)) &&
      decide (e.number ≤ 0x9FFF) && (getSub d1 a s e.number).isSome &&
      !(decide (0x8000 ≤ e.number) && a != 0) && rq.subOk ai mi k
    let d2 := if ok1 then claim d1 a s e.number i else d1
    subLoop w rq i a s ai mi (done ++ [e]) todo d2 ok1

/-- pf_cmdev_exp_modules_configure (src/device/pf_cmdev.c:3777-3897), for the modules `todo` after the modules `done`. -/
def modLoop (w : Nat → Nat → Nat → Option Nat) (rq : Request) (i a ai : Nat) :
    List ExpMod → List ExpMod → Dev → Bool → Dev × Bool
  | _, [], d, ok => (d, ok)
  | done, m :: todo, d, ok =>
    if ok then
      let d1 := if (getSlot d a m.slot).isNone then runApp w d (rq.modCb ai done.length) else d
      if !(done.any (fun y => y.slot == m.slot)) && decide (m.slot ≤ 0x7FFF) &&
          (getSlot d1 a m.slot).isSome && m.ident != 0 && !m.subs.isEmpty then
        let r := subLoop w rq i a m.slot ai done.length [] m.subs d1 true
        modLoop w rq i a ai (done ++ [m]) todo r.1 r.2
      else modLoop w rq i a ai (done ++ [m]) todo d1 false
    else modLoop w rq i a ai (done ++ [m]) todo d false

/-- Loop of pf_cmdev_exp_apis_configure (src/device/pf_cmdev.c:3916-3964).  If the API cannot be created the result stays good. -/
def apiLoop (w : Nat → Nat → Nat → Option Nat) (rq : Request) (i : Nat) :
    Nat → List ExpApi → Dev → Bool → Dev × Bool
  | _, [], d, ok => (d, ok)
  | ai, e :: todo, d, ok =>
    if ok then
      let (d1, known) := if (getApi d e.api).isSome then (d, true) else newApi d e.api
      if known then
        let r := modLoop w rq i e.api ai [] e.mods d1 true
        apiLoop w rq i (ai + 1) todo r.1 r.2
      else apiLoop w rq i (ai + 1) todo d1 true
    else apiLoop w rq i (ai + 1) todo d false

/-- pf_cmdev_exp_apis_configure (src/device/pf_cmdev.c:3916-3964) -/
def configure (w : Nat → Nat → Nat → Option Nat) (rq : Request) (i : Nat) (d : Dev) : Dev × Bool :=
  if !rq.devAccess && rq.exp.isEmpty then (d, false) else apiLoop w rq i 0 rq.exp d true

/-! ## Table of connections -/

/-- pf_ar_allocate (src/device/pf_cmrpc.c:704-751): first unused entry. -/
def allocAr (st : St) : Option (Nat × St) :=
  match st.ars.findIdx? (fun x => !x.inUse) with
  | none => none
  | some i =>
    some (i, { st with
      ars := st.ars.set i { Ar.zero with inUse := true, arep := if i < st.maxAr then i + 1 else 0 }
      order := if i < st.maxAr then st.order ++ [i] else st.order })

/-- pf_ar_release (src/device/pf_cmrpc.c:758-802) -/
def releaseAr (st : St) (i : Nat) : St :=
  match st.ars[i]? with
  | none => st
  | some x =>
    if x.inUse then
      { st with
        ars := st.ars.set i Ar.zero
        order := if 0 < x.arep then st.order.erase (x.arep - 1) else st.order }
    else st

/-- pf_ar_find_by_uuid (src/device/pf_cmrpc.c:813-840) -/
def findUuid (st : St) (uuid : Nat) : Option Nat :=
  st.ars.findIdx? (fun x => x.inUse && x.phase != .powerOn && x.uuid == uuid)

/-- pf_ar_find_by_arep (src/device/pf_cmrpc.c:852-868): the index is computed in 16 bits. -/
def findArep (st : St) (arep : Nat) : Option Nat :=
  if 0 < arep then
    let ix := (arep - 1) % 65536
    if (st.ars[ix]?).any (fun x => x.inUse) then some ix else none
  else none

/-- pf_alarm_allocate_endpoint (src/common/pf_alarm.c:684-698) -/
def allocEp (st : St) (i : Nat) : St :=
  { st with eps := modFirst (fun e => e.isNone) (fun _ => some i) st.eps }

/-- pf_alarm_free_endpoint (src/common/pf_alarm.c:700-713) -/
def freeEp (st : St) (i : Nat) : St :=
  { st with eps := modFirst (fun e => e == some i) (fun _ => none) st.eps }

/-- pf_device_clear (src/device/pf_cmdev.c:933-1005): over all table entries, in use or not.  The alarms "submodule released" are
not modelled. -/
def deviceClear (st : St) (i : Nat) : St :=
  { st with apis := setOwners (fun a s ss z =>
      if z.owner = some i then who st.ars st.order a s ss else z.owner) st.apis }

/-- pf_cmdev_state_ind (src/device/pf_cmdev.c:1394-1435) with event ABORT: callback of the application, CMSU (frees the endpoint only if
it was started, pf_cmsu_cmdev_state_ind (src/device/pf_cmsu.c:94-177)), CMRPC (pf_cmrpc_cmdev_state_ind (src/device/pf_cmrpc.c:5222-5276)), `pf_device_clear`. -/
def abortAr (st : St) (i : Nat) (cb : List AppOp) : St :=
  match st.ars[i]? with
  | none => st
  | some x =>
    if x.inUse then
      let st0 := { st with apis := runApp (who st.ars st.order) st.apis cb }
      let st1 := if x.started then freeEp st0 i else st0
      deviceClear (releaseAr st1 i) i
    else st

/-- pf_cmdev_cm_abort (src/device/pf_cmdev.c:1469-1510) -/
def cmAbort (st : St) (i : Nat) (cb : List AppOp) : St :=
  match st.ars[i]? with
  | none => st
  | some x =>
    if x.devAccess && x.phase != .wCres && x.phase != .data then st else abortAr st i cb

def setAr (st : St) (i : Nat) (f : Ar → Ar) : St := { st with ars := st.ars.modify i f }

/-- pf_cmdev_cm_connect_rsp_neg (src/device/pf_cmdev.c:4712-4730) and the clean-up of the caller (src/device/pf_cmrpc.c:2094-2104).  The
flag tells whether the connect counts as a success. -/
def refuse (st : St) (i : Nat) (errSet : Bool) : St × Bool :=
  if errSet then (releaseAr st i, false)
  else (setAr st i (fun x => { x with phase := .wCind }), true)

/-- pf_cmdev_rm_connect_ind (src/device/pf_cmdev.c:4822-4891) with pf_cmdev_check_apdu (src/device/pf_cmdev.c:4154-4262), pf_cmdev_cm_connect_rsp_pos (src/device/pf_cmdev.c:4741-4799) and
pf_cmsu_start_req (src/device/pf_cmsu.c:179-274), and the clean-up of the caller. -/
def cmdevConnect (st : St) (i : Nat) (rq : Request) : St × Bool :=
  let w := who st.ars st.order
  if rq.preOk then
    let r := configure w rq i st.apis
    let st1 := { st with apis := r.1 }
    if r.2 && rq.postOk then
      let st2 := allocEp st1 i
      let st3 := { st2 with apis := runApp w st2.apis rq.connectCb }
      if rq.appOk then
        if rq.devAccess then
          (setAr { st3 with apis := runApp w st3.apis rq.stateCb } i
            (fun x => { x with phase := .data }), true)
        else if rq.startOk then
          (setAr { st3 with apis := runApp w st3.apis rq.stateCb } i
            (fun x => { x with phase := .wPeind, started := true }), true)
        else refuse (setAr st3 i (fun x => { x with phase := .wSucnf, started := true })) i true
      else refuse st3 i rq.errSet
    else refuse st1 i rq.errSet
  else refuse st i rq.errSet

/-- pf_cmrpc_rm_connect_ind (src/device/pf_cmrpc.c:1974-2117).  The flag tells whether the connect counts as a success. -/
def connect (st : St) (rq : Request) : St × Bool :=
  match allocAr st with
  | none => (st, false)
  | some (i, st1) =>
    if rq.parseOk then
      let st2 := setAr st1 i (fun x =>
        { x with uuid := rq.uuid, exp := rq.exp, devAccess := rq.devAccess })
      match findUuid st2 rq.uuid with
      | some j => (cmAbort (releaseAr st2 i) j rq.stateCb, false)
      | none =>
        if (st2.ars[i]?).any (fun x => x.arep == 0) then (releaseAr st2 i, false)
        else cmdevConnect st2 i rq
    else (releaseAr st1 i, false)

/-! ## Histories -/

inductive Op where
  /-- Plug or pull call of the application. -/
  | app (o : AppOp)
  | connect (rq : Request)
  /-- An error of a protocol machine, or a release request in a state in which it is obeyed. -/
  | abort (i : Nat) (cb : List AppOp)
  /-- `pnet_ar_abort`. -/
  | cmAbort (i : Nat) (cb : List AppOp)
  /-- Any other change of the state of a connection. -/
  | advance (i : Nat) (p : Phase)

def step (st : St) : Op → St × Bool
  | .app o =>
    let r := tstep st.apis (o.toT (who st.ars st.order))
    ({ st with apis := r.1 }, r.2)
  | .connect rq => connect st rq
  | .abort i cb => (abortAr st i cb, true)
  | .cmAbort i cb => (cmAbort st i cb, true)
  | .advance i p =>
    (setAr st i (fun x => if x.inUse ∧ p ≠ .powerOn then { x with phase := p } else x), true)

def exec : St → List Op → St
  | st, [] => st
  | st, o :: os => exec (step st o).1 os

end Verif.Device
