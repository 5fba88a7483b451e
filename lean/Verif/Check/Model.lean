import Verif.Connect.Model
import Verif.Layout.Model
/-!
# All checks of a connect request, with the error codes

Model of `pf_cmdev_check_apdu` in src/device/pf_cmdev.c: which error the controller is told when a connect request
is refused.  The checks of the AR, IOCR and alarm blocks are those of area Connect, the set-up of the I/O objects is that
of area Layout (where a refusal had no code).

The look-ups in the tables of plugged modules are given by `Env` (the tables, the callbacks in which the application
plugs, and who owns a submodule are in area Device).

`none` as a whole result stands for an access outside an array.  Not modelled: log messages, the `valid` flags of the
blocks, blocks under options that are off by default.
-/
namespace Verif.Check
open Verif.Connect (Err ArBlock IocrBlock AlarmBlock checkAr checkIocrs checkAlarm)
open Verif.Layout (FrameDesc ApiEntry DataDescr IoData Setup IocrParam IocrType)

/-- `pf_exp_submodule_t` (src/pf_types.h:1519-1528): the part used for the layout, identity, and the property "shared input". -/
structure Sub where
  lay : Layout.ExpSub
  ident : Nat
  shared : Bool
deriving DecidableEq

/-- `pf_exp_module_t`. -/
structure Mod where
  slot : Nat
  ident : Nat
  subs : List Sub
deriving DecidableEq

/-- `pf_exp_api_t`. -/
structure Api where
  api : Nat
  mods : List Mod
deriving DecidableEq

/-- An IOCR block: its fixed part, and the list of APIs. -/
structure Cr where
  block : IocrBlock
  apis : List ApiEntry
deriving DecidableEq

/-- What a connect request leaves in the AR.  `ar` is none if it has no AR block (`nbr_ar_param` is 0; a second one is
refused before).  `alarms`: the alarm blocks (the last one stays, all are counted); `rpcPort`: the port of the last AR RPC block. -/
structure Request where
  ar : Option ArBlock
  crs : List Cr
  exp : List Api
  alarms : List AlarmBlock
  rpcPort : Option (BitVec 16)
deriving DecidableEq

/-- The device.  `apiThere n`: API `n` is known or can be created; `modThere i j`: the slot of module `j` of API `i` of
the request has a module, after the application has been asked to plug it; `subThere i j k`: the same for the
submodules.  `cap`: size of the array `data_desc`. -/
structure Env where
  minInterval : Nat
  cap : Nat
  apiThere : Nat → Bool
  modThere : Nat → Nat → Bool
  subThere : Nat → Nat → Nat → Bool

/-- PNET_ERROR_CODE_1_CONN_FAULTY_EXP_BLOCK_REQ (include/pnet_api.h:176). -/
def exp (field : Nat) : Err := ⟨3, field⟩
/-- PNET_ERROR_CODE_1_CONN_FAULTY_IOCR_BLOCK_REQ (include/pnet_api.h:175). -/
def iocr (field : Nat) : Err := ⟨2, field⟩

/-- The counting loops "each exp sub-slot must be used in at least one IOCR" in pf_cmdev_exp_submodule_configure (src/device/pf_cmdev.c:3376-3757).  (The
counter has 16 bits; there are fewer entries.) -/
def used (crs : List Cr) (api slot subslot : Nat) : Bool :=
  crs.any fun c => c.apis.any fun a => a.api == api &&
    (a.ioData.any (fun f => f.slot == slot && f.subslot == subslot) ||
     a.iocs.any (fun f => f.slot == slot && f.subslot == subslot))

/-- "Must have input descriptor", "... output ...", "... both ..." (src/device/pf_cmdev.c:3553-3578). -/
def descsFit (s : Layout.ExpSub) : Bool :=
  match s.type, s.descs with
  | .noIo, [d] => d.dir == 1
  | .input, [d] => d.dir == 1
  | .output, [d] => d.dir == 2
  | .io, [d, d'] => (d.dir == 1 || d'.dir == 1) && (d.dir == 2 || d'.dir == 2)
  | _, _ => false

/-- The body of the loop over the data descriptors in pf_cmdev_exp_submodule_configure (src/device/pf_cmdev.c:3376-3757). -/
def descCheck (s : Layout.ExpSub) (d : DataDescr) : Option Err :=
  if d.dir ≠ 1 ∧ d.dir ≠ 2 then some (exp 13)
  else if d.dir = 1 ∧ s.type = .output then some (exp 13)
  else if d.dir = 2 ∧ s.type ≠ .output ∧ s.type ≠ .io then some (exp 13)
  else if d.dataLen > 1439 ∨ (s.type = .noIo ∧ d.dataLen ≠ 0) then some (exp 14)
  else if d.iopsLen ≠ 1 then some (exp 15)
  else if d.iocsLen ≠ 1 then some (exp 16)
  else none

/-- The loop over the data descriptors: it goes on after an error, the last error stays. -/
def descLoop (s : Layout.ExpSub) (r : Option Err) (d : DataDescr) : Option Err := (descCheck s d).or r

/-- The checks of one submodule in pf_cmdev_exp_submodule_configure (src/device/pf_cmdev.c:3376-3757); `done` are the submodules before it, `there`
whether it is plugged. -/
def subCheck (crs : List Cr) (api slot : Nat) (there : Bool) (done : List Sub) (s : Sub) : Option Err :=
  if done.any (fun x => x.lay.subslot == s.lay.subslot) then some (exp 10)
  else if used crs api slot s.lay.subslot = false then some (exp 10)
  else if s.lay.subslot > 0x9FFF then some (exp 10)
  else if there = false then some (exp 10)
  else if s.lay.subslot ≥ 0x8000 ∧ api ≠ 0 then some (exp 10)
  else if descsFit s.lay = false then some (exp 12)
  else if s.lay.type = .output ∧ s.shared = true then some (exp 12)
  else if s.lay.reduceIn = true ∧ (s.lay.type = .input ∨ s.lay.type = .io) then some (exp 12)
  else if s.lay.reduceOut = true ∧ (s.lay.type = .output ∨ s.lay.type = .io) then some (exp 12)
  else if s.lay.discard = true ∧ s.lay.type ≠ .io then some (exp 12)
  else s.lay.descs.foldl (descLoop s.lay) none

/-- pf_cmdev_exp_submodule_configure (src/device/pf_cmdev.c:3376-3757): after an error the remaining submodules are not checked. -/
def subLoop (crs : List Cr) (api slot : Nat) (there : Nat → Bool) : List Sub → List Sub → Option Err
  | _, [] => none
  | done, s :: todo =>
    match subCheck crs api slot (there done.length) done s with
    | some e => some e
    | none => subLoop crs api slot there (done ++ [s]) todo

/-- The checks of one module in pf_cmdev_exp_modules_configure (src/device/pf_cmdev.c:3777-3897). -/
def modCheck (crs : List Cr) (api : Nat) (there : Bool) (subs : Nat → Bool) (done : List Mod) (m : Mod) : Option Err :=
  if done.any (fun x => x.slot == m.slot) then some (exp 6)
  else if m.slot > 0x7FFF then some (exp 6)
  else if there = false then some (exp 6)
  else if m.ident = 0 then some (exp 7)
  else if m.subs = [] then some (exp 9)
  else subLoop crs api m.slot subs [] m.subs

/-- pf_cmdev_exp_modules_configure (src/device/pf_cmdev.c:3777-3897). -/
def modLoop (crs : List Cr) (api : Nat) (there : Nat → Bool) (subs : Nat → Nat → Bool) : List Mod → List Mod → Option Err
  | _, [] => none
  | done, m :: todo =>
    match modCheck crs api (there done.length) (subs done.length) done m with
    | some e => some e
    | none => modLoop crs api there subs (done ++ [m]) todo

/-- The loop of pf_cmdev_exp_apis_configure (src/device/pf_cmdev.c:3916-3964): an API that cannot be created is passed over. -/
def apiLoop (env : Env) (crs : List Cr) : Nat → List Api → Option Err
  | _, [] => none
  | i, a :: todo =>
    match (if env.apiThere a.api then modLoop crs a.api (env.modThere i) (env.subThere i) [] a.mods else none) with
    | some e => some e
    | none => apiLoop env crs (i + 1) todo

/-- pf_cmdev_exp_apis_configure (src/device/pf_cmdev.c:3916-3964). -/
def configure (env : Env) (access : Bool) (rq : Request) : Option Err :=
  if access = false ∧ rq.exp = [] then some (exp 4) else apiLoop env rq.crs 0 rq.exp

/-- `exp_ident`, as far as the layout needs it. -/
def Request.lay (rq : Request) : Layout.Exp :=
  rq.exp.map fun a => ⟨a.api, a.mods.map fun m => ⟨m.slot, m.subs.map Sub.lay⟩⟩

/-- `iocr_type`, which is 1 to 4 when it is looked at. -/
def Cr.type (c : Cr) : IocrType :=
  if c.block.type.toNat = 1 then .input else if c.block.type.toNat = 2 then .output
  else if c.block.type.toNat = 3 then .mcProvider else .mcConsumer

def Cr.param (c : Cr) : IocrParam := ⟨c.type, c.block.cSdu.toNat, c.apis⟩

/-- The loop over pf_cmdev_iocr_setup_desc (src/device/pf_cmdev.c:2372-2421) in pf_cmdev_check_apdu (src/device/pf_cmdev.c:4154-4262), up to the first failure (inner `none`), which sets no error. -/
def setupAll (cap : Nat) (e : Layout.Exp) : List IocrParam → Option (Option (List Setup))
  | [] => some (some [])
  | p :: ps =>
    (Layout.setupDesc cap e p).bind fun s =>
      if s.2 then (setupAll cap e ps).map fun r => r.map fun l => s.1 :: l else some none

/-- The last module listed for the slot (src/device/pf_cmdev.c:2721-2733). -/
def lastMod (ea : Layout.ExpApi) (slot : Nat) : Option Layout.ExpMod := (ea.mods.filter fun m => m.slot == slot).getLast?

/-- The last submodule listed for the subslot. -/
def lastSub (m : Layout.ExpMod) (subslot : Nat) : Option Layout.ExpSub := (m.subs.filter fun s => s.subslot == subslot).getLast?

/-- One round of the loop over `io_data` in pf_cmdev_check_iocr_apis (src/device/pf_cmdev.c:2636-2993). -/
def ioStep (ea : Layout.ExpApi) (t : IocrType) (r : Option Err) (f : FrameDesc) : Option Err :=
  match lastMod ea f.slot with
  | none => some (iocr 22)
  | some m =>
    match lastSub m f.subslot with
    | none => some (iocr 23)
    | some s => if r = none ∧ Layout.ioDirOk t s = false then some (iocr 23) else r

/-- One round of the loop over `iocs` in pf_cmdev_check_iocr_apis (src/device/pf_cmdev.c:2636-2993). -/
def iocsStep (ea : Layout.ExpApi) (t : IocrType) (r : Option Err) (f : FrameDesc) : Option Err :=
  match lastMod ea f.slot with
  | none => some (iocr 27)
  | some m =>
    match lastSub m f.subslot with
    | none => some (iocr 27)
    | some s =>
      if r ≠ none then r
      else if ((s.type == .noIo || s.type == .input) && t == .input) || (s.type == .output && t == .output) then some (iocr 27)
      else if s.type = .io ∧ s.descs.length ≠ 2 then some (iocr 28)
      else none

/-- The body of the loop over the APIs of an IOCR in pf_cmdev_check_iocr_apis (src/device/pf_cmdev.c:2636-2993); `r`: the error found so far (`ret`). -/
def apiStep (e : Layout.Exp) (t : IocrType) (r : Option Err) (a : ApiEntry) : Option Err :=
  match Layout.getExpApi e a.api with
  | none => some (iocr 20)
  | some ea =>
    if a.ioData.isEmpty && a.iocs.isEmpty then some (iocr 21)
    else if r ≠ none then r
    else
      let r1 := a.ioData.foldl (ioStep ea t) (if Layout.combosUnique a.ioData then none else some (iocr 23))
      if r1 ≠ none then r1
      else if Layout.combosUnique a.iocs = false then some (iocr 27)
      else a.iocs.foldl (iocsStep ea t) none

/-- pf_cmdev_check_iocr_overlap (src/device/pf_cmdev.c:2482-2626) with its codes. -/
def overlapErr (prev : List IoData) (d : IoData) : Option Err :=
  if (prev.all fun p => Layout.areaOk d.dataOff d.dataLen p && Layout.areaOk d.iopsOff d.iopsLen p) = false then some (iocr 24)
  else if (prev.all fun p => Layout.areaOk d.iocsOff d.iocsLen p) = false then some (iocr 28)
  else none

/-- The last loop of pf_cmdev_check_iocr_apis (src/device/pf_cmdev.c:2636-2993), over the I/O objects of an IOCR. -/
def descsLoop (cSdu : Nat) : Option Err → List IoData → List IoData → Option Err
  | r, _, [] => r
  | some e, _, _ :: _ => some e
  | none, prev, d :: ds =>
    let r := if d.dataOff + d.dataLen > cSdu then some (iocr 24)
      else if d.iopsOff + d.iopsLen > cSdu then some (iocr 24)
      else if d.iocsOff + d.iocsLen > cSdu then some (iocr 28)
      else overlapErr prev d
    descsLoop cSdu r (prev ++ [d]) ds

/-- The body of the loop over the IOCRs in pf_cmdev_check_iocr_apis (src/device/pf_cmdev.c:2636-2993). -/
def crStep (e : Layout.Exp) (r : Option Err) (x : IocrParam × Setup) : Option Err :=
  descsLoop x.1.cSdu (x.1.apis.foldl (apiStep e x.1.type) r) [] x.2.descs

/-- The last part of pf_cmdev_check_apdu (src/device/pf_cmdev.c:4154-4262).  `ir_info.valid` is set nowhere, so RT class 3 is always refused. -/
def finalCheck (ar : ArBlock) (rq : Request) : Option Err :=
  if ar.deviceAccess = false ∧ ((rq.crs.any fun c => c.block.type.toNat == 1) = false ∨
      (rq.crs.any fun c => c.block.type.toNat == 2) = false) then some ⟨0x40, 2⟩
  else if ar.deviceAccess = false ∧ rq.alarms.length ≠ 1 then some ⟨0x40, 3⟩
  else if (rq.crs.any fun c => c.block.rtClass == 3) = true then some ⟨0x40, 3⟩
  else
    match rq.alarms.getLast?.map (checkAlarm ar) with
    | some (.error e) => some e
    | _ =>
      match rq.rpcPort with
      | some p => if p.toNat < 0x0400 then some ⟨7, 4⟩ else none
      | none => none

inductive Outcome where
  | accepted
  /-- Refused; `none`: the error status of the session still says "no error". -/
  | refused (e : Option Err)
deriving DecidableEq

/-- pf_cmdev_check_apdu (src/device/pf_cmdev.c:4154-4262). -/
def checkApdu (env : Env) (rq : Request) : Option Outcome :=
  match rq.ar with
  | none => some (.refused none)
  | some ar =>
    (checkAr ar).bind fun
    | .error e => some (.refused (some e))
    | .ok () =>
      match checkIocrs env.minInterval ar (rq.crs.map Cr.block) with
      | .error e => some (.refused (some e))
      | .ok () =>
        match configure env ar.deviceAccess rq with
        | some e => some (.refused (some e))
        | none =>
          (setupAll env.cap rq.lay (rq.crs.map Cr.param)).bind fun
          | none => some (.refused none)
          | some ss =>
            match ((rq.crs.map Cr.param).zip ss).foldl (crStep rq.lay) none with
            | some e => some (.refused (some e))
            | none =>
              match finalCheck ar rq with
              | some e => some (.refused (some e))
              | none => some .accepted

end Verif.Check
