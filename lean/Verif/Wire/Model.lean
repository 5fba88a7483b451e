import Verif.Common.Bytes
/-!
Model of the primitives that read requests from and write responses to byte buffers, and of the
parsers of blocks and records.
Source: src/device/pf_block_reader.c, src/device/pf_block_writer.c.

Not modelled: parsers under options that are off by default (parameter server, IR info, multicast CR,
vendor blocks), log output.  A result `none` is an access outside an array or an endless loop.
-/
set_option linter.unusedVariables false

namespace Verif.Wire

abbrev U16 := BitVec 16
abbrev U32 := BitVec 32

/-! ## Reading -/

/-- `pf_get_result_t` (src/pf_types.h:2008-2016). -/
inductive PErr where
  | ok | nullPointer | endOfInput | outOfApi | outOfSub | other
deriving DecidableEq

/-- `pf_get_info_t` (src/pf_types.h:2018-2024) with the position.  `buf` is the memory at `p_buf`;
`len` may differ from its size. -/
structure Rd where
  buf : List Byte
  null : Bool
  len : Nat
  be : Bool
  err : PErr
  pos : Nat
deriving DecidableEq

/-- A parsing function. -/
def P (α : Type) := Rd → Option (α × Rd)

instance : Monad P where
  pure a := fun r => some (a, r)
  bind p f := fun r => (p r).bind fun x => f x.1 x.2

/-- An access outside an array. -/
def outside {α : Type} : P α := fun _ => none

/-- pf_get_mem (src/device/pf_block_reader.c:38-67): the bytes, `none` if the destination is left as it was. -/
def getMem (n : Nat) : P (Option (List Byte)) := fun r =>
  if r.err ≠ .ok then some (none, r)
  else if r.pos + n > r.len then some (none, { r with err := .endOfInput })
  else if r.null then some (none, { r with err := .nullPointer })
  else (slice r.buf r.pos n).map fun d => (some d, { r with pos := r.pos + n })

/-- pf_get_byte (src/device/pf_block_reader.c:69-97). -/
def getByte : P Byte := fun r =>
  if r.err ≠ .ok then some (0, r)
  else if r.pos ≥ r.len then some (0, { r with err := .endOfInput })
  else if r.null then some (0, { r with err := .nullPointer })
  else (r.buf[r.pos]?).map fun b => (b, { r with pos := r.pos + 1 })

def isOk : P Bool := fun r => some (r.err == .ok, r)
def isBe : P Bool := fun r => some (r.be, r)
def setBe (b : Bool) : P Unit := fun r => some ((), { r with be := b })
def setErr (e : PErr) : P Unit := fun r => some ((), { r with err := e })

/-- pf_get_uint16 (src/device/pf_block_reader.c:99-119).  The operands of `+` are evaluated from left to right (the C standard leaves
the order open). -/
def getU16 : P U16 := do
  if ← isOk then
    if ← isBe then
      let a ← getByte
      let b ← getByte
      pure ((a.setWidth 16 <<< 8) + b.setWidth 16)
    else
      let a ← getByte
      let b ← getByte
      pure (a.setWidth 16 + (b.setWidth 16 <<< 8))
  else pure 0

/-- pf_get_uint32 (src/device/pf_block_reader.c:121-141). -/
def getU32 : P U32 := do
  if ← isBe then
    let a ← getByte
    let b ← getByte
    let c ← getByte
    let d ← getByte
    pure ((a.setWidth 32 <<< 24) + (b.setWidth 32 <<< 16) + (c.setWidth 32 <<< 8) + d.setWidth 32)
  else
    let a ← getByte
    let b ← getByte
    let c ← getByte
    let d ← getByte
    pure (a.setWidth 32 + (b.setWidth 32 <<< 8) + (c.setWidth 32 <<< 16) + (d.setWidth 32 <<< 24))

/-- Read `n` bytes into an array that was cleared before; it stays cleared if there is an error.
(The code does not always clear the destination; it does not use it after an error.) -/
def getArr (n : Nat) : P (List Byte) := do
  let d ← getMem n
  pure (d.getD (List.replicate n 0))

/-- Execute a reader `n` times (a `for` loop). -/
def rep {α : Type} (n : Nat) (p : P α) : P (List α) :=
  match n with
  | 0 => pure []
  | k + 1 => do
    let a ← p
    let l ← rep k p
    pure (a :: l)

/-- `pf_uuid_t`. -/
structure Uuid where
  d1 : U32
  d2 : U16
  d3 : U16
  d4 : List Byte
deriving DecidableEq

/-- pf_get_uuid (src/device/pf_block_reader.c:150-159). -/
def getUuid : P Uuid := do
  let a ← getU32
  let b ← getU16
  let c ← getU16
  let d ← getArr 8
  pure ⟨a, b, c, d⟩

/-- `pf_rpc_handle_t`. -/
structure Handle where
  handle : U32
  timeLow : U32
  timeMid : U16
  timeHi : U16
  clockHi : Byte
  clockLow : Byte
  node : List Byte
deriving DecidableEq

/-- pf_get_handle (src/device/pf_block_reader.c:168-184). -/
def getHandle : P Handle := do
  let a ← getU32
  let b ← getU32
  let c ← getU16
  let d ← getU16
  let e ← getByte
  let f ← getByte
  let g ← getArr 6
  pure ⟨a, b, c, d, e, f, g⟩

/-- pf_get_bits (src/device/pf_block_reader.c:201-222). -/
def getBits (bits : U32) (pos len : Nat) : U32 :=
  if len = 0 then 0
  else if pos + len > 32 then 0
  else if pos = 0 ∧ len = 32 then bits
  else (bits >>> pos) &&& ((1#32 <<< len) - 1#32)

/-- A single bit as a flag: `pf_get_bits (bits, pos, 1) != 0`. -/
def flag (bits : U32) (pos : Nat) : Bool := getBits bits pos 1 != 0

/-- `pf_frame_descriptor_t`. -/
structure FrameDesc where
  slot : U16
  subslot : U16
  offset : U16
deriving DecidableEq

/-- pf_get_frame_descriptor (src/device/pf_block_reader.c:231-239). -/
def getFrameDesc : P FrameDesc := do
  let a ← getU16
  let b ← getU16
  let c ← getU16
  pure ⟨a, b, c⟩

/-- `pf_api_entry_t`. -/
structure ApiEntry where
  api : U32
  ioData : List FrameDesc
  iocs : List FrameDesc
deriving DecidableEq

/-- pf_get_iocr_api_entry (src/device/pf_block_reader.c:249-278); `cap` is NELEMENTS (io_data) = NELEMENTS (iocs), a result `none` is
return value -1. -/
def getApiEntry (cap : Nat) : P (Option ApiEntry) := do
  let api ← getU32
  let n ← getU16
  if n.toNat > cap then pure none
  else
    let io ← rep n.toNat getFrameDesc
    let m ← getU16
    if m.toNat > cap then pure none
    else
      let cs ← rep m.toNat getFrameDesc
      pure (some ⟨api, io, cs⟩)

/-- `pf_data_descriptor_t`. -/
structure DataDesc where
  direction : U16
  length : U16
  lenIocs : Byte
  lenIops : Byte
deriving DecidableEq

/-- `pf_exp_submodule_t` as received. -/
structure ExpSub where
  subslot : U16
  ident : U32
  type : U32
  sharedInput : Bool
  reduceIn : Bool
  reduceOut : Bool
  discardIoxs : Bool
  descs : List DataDesc
deriving DecidableEq

def getDataDesc : P DataDesc := do
  let a ← getU16
  let b ← getU16
  let c ← getByte
  let d ← getByte
  pure ⟨a, b, c, d⟩

/-- `PNET_DIR_IO` (include/pnet_api.h). -/
def dirIo : U32 := 3

/-- pf_get_exp_submodule (src/device/pf_block_reader.c:287-333). -/
def getExpSub : P ExpSub := do
  let ss ← getU16
  let id ← getU32
  let t ← getU16
  let t := t.setWidth 32
  let d0 ← getDataDesc
  if getBits t 0 2 = dirIo then
    let d1 ← getDataDesc
    pure ⟨ss, id, getBits t 0 2, flag t 2, flag t 3, flag t 4, flag t 5, [d0, d1]⟩
  else pure ⟨ss, id, getBits t 0 2, flag t 2, flag t 3, flag t 4, flag t 5, [d0]⟩

/-- `pf_block_header_t`. -/
structure BlockHeader where
  type : U16
  length : U16
  verHigh : Byte
  verLow : Byte
deriving DecidableEq

/-- pf_get_block_header (src/device/pf_block_reader.c:337-346). -/
def getBlockHeader : P BlockHeader := do
  let a ← getU16
  let b ← getU16
  let c ← getByte
  let d ← getByte
  pure ⟨a, b, c, d⟩

/-- `pf_ar_properties_t`. -/
structure ArProps where
  state : U32
  takeover : Bool
  prmServer : U32
  deviceAccess : Bool
  companion : U32
  ackCompanion : Bool
  combined : Bool
  startupMode : Bool
  pullModule : Bool
deriving DecidableEq

/-- `pf_ar_param_t`; `name` is the contents of `cm_initiator_station_name` before the terminator that
is put after the bytes copied. -/
structure ArParam where
  arType : U16
  uuid : Uuid
  sessionKey : U16
  mac : List Byte
  objUuid : Uuid
  props : ArProps
  timeoutFactor : U16
  udpPort : U16
  nameLen : U16
  name : List Byte
deriving DecidableEq

def arProps (t : U32) : ArProps :=
  ⟨getBits t 0 3, flag t 3, getBits t 4 1, flag t 8, getBits t 9 2, flag t 11, flag t 29, flag t 30,
    flag t 31⟩

/-- `PNET_STATION_NAME_MAX_SIZE` (include/pnet_api.h:1246). -/
def stationNameSize : Nat := 241

/-- pf_get_ar_param (src/device/pf_block_reader.c:348-394). -/
def getArParam : P ArParam := do
  let ty ← getU16
  let u ← getUuid
  let k ← getU16
  let mac ← getArr 6
  let ou ← getUuid
  let t ← getU32
  let tf ← getU16
  let port ← getU16
  let n ← getU16
  let m := if n.toNat > stationNameSize - 1 then stationNameSize - 1 else n.toNat
  let name ← getArr m
  pure ⟨ty, u, k, mac, ou, arProps t, tf, port, n, name⟩

/-- `pf_iocr_param_t`. -/
structure IocrParam where
  type : U16
  ref : U16
  ltField : U16
  rtClass : U32
  res1 : Bool
  res2 : Bool
  res3 : Bool
  cSduLength : U16
  frameId : U16
  sendClock : U16
  ratio : U16
  phase : U16
  sequence : U16
  sendOffset : U32
  watchdog : U16
  dataHold : U16
  vlan : U32
  prio : U32
  mac : List Byte
  apis : List ApiEntry
deriving DecidableEq

/-- The loop of pf_get_iocr_param (src/device/pf_block_reader.c:396-459) over the APIs. -/
def getApis (cap : Nat) : Nat → P (Option (List ApiEntry))
  | 0 => pure (some [])
  | n + 1 => do
    match ← getApiEntry cap with
    | none => pure none
    | some a =>
      match ← getApis cap n with
      | none => pure none
      | some l => pure (some (a :: l))

/-- pf_get_iocr_param (src/device/pf_block_reader.c:396-459); `maxApi` is PNET_MAX_API, a result `none` is return value -1. -/
def getIocrParam (maxApi cap : Nat) : P (Option IocrParam) := do
  let ty ← getU16
  let ref ← getU16
  let lt ← getU16
  let t ← getU32
  let csdu ← getU16
  let fid ← getU16
  let scf ← getU16
  let rr ← getU16
  let ph ← getU16
  let sq ← getU16
  let so ← getU32
  let wd ← getU16
  let dh ← getU16
  let h ← getU16
  let h := h.setWidth 32
  let mac ← getArr 6
  let n ← getU16
  if n.toNat > maxApi then pure none
  else
    match ← getApis cap n.toNat with
    | none => pure none
    | some l =>
      pure (some ⟨ty, ref, lt, getBits t 0 4, getBits t 4 9 != 0, getBits t 13 11 != 0,
        getBits t 24 8 != 0, csdu, fid, scf, rr, ph, sq, so, wd, dh, getBits h 0 11, getBits h 13 3,
        mac, l⟩)

/-- `pf_exp_module_t`: `subs` are the submodules stored, as many as `nbr_submodules`. -/
structure ExpMod where
  slot : U16
  ident : U32
  props : U16
  subs : List ExpSub
deriving DecidableEq

/-- `pf_exp_api_t`. -/
structure ExpApi where
  valid : Bool
  api : U32
  mods : List ExpMod
deriving DecidableEq

/-- Sizes of the tables: PNET_MAX_API, PNET_MAX_SLOTS, PNET_MAX_SUBSLOTS. -/
structure Sizes where
  maxApi : Nat
  maxSlots : Nat
  maxSubslots : Nat

/-- The loop over the submodules of a module in pf_get_exp_api_module (src/device/pf_block_reader.c:461-557): `submodule[iy]` is written in
each round, also after a parse error. -/
def getSubs (cap : Nat) : Nat → Nat → P (List ExpSub)
  | _, 0 => pure []
  | iy, n + 1 => do
    let s ← getExpSub
    if iy ≥ cap then outside
    else
      let l ← getSubs cap (iy + 1) n
      pure (s :: l)

/-- Index of the last API in the table that is valid and has this number (the search loop). -/
def findApi (l : List ExpApi) (a : U32) : Option Nat :=
  (List.range l.length).foldl (fun acc i =>
    match l[i]? with
    | some x => if x.valid = true ∧ x.api = a then some i else acc
    | none => acc) none

/-- The part of a round of the loop of pf_get_exp_api_module (src/device/pf_block_reader.c:461-557) after the API is known: `tab[i]` is the
API. -/
def addModule (z : Sizes) (tab : List ExpApi) (i : Nat) : P (List ExpApi) := do
  let slot ← getU16
  match tab[i]? with
  | none => outside
  | some a =>
    if a.mods.length < z.maxSlots then
      let ident ← getU32
      let props ← getU16
      let n ← getU16
      let subs ← getSubs z.maxSubslots 0 n.toNat
      pure (tab.set i { a with valid := true, mods := a.mods ++ [⟨slot, ident, props, subs⟩] })
    else do
      setErr .outOfSub
      pure tab

/-- The API under which the next module goes: the table, to which a new API may have been added, and the
index of the API.  `cur` is the index to which `api` points; it keeps its value from the round before. -/
def selectApi (z : Sizes) (tab : List ExpApi) (cur : Option Nat) (id : U32) : List ExpApi × Option Nat :=
  let cur := (findApi tab id).or cur
  if cur = none ∧ tab.length < z.maxApi then (tab ++ [⟨false, id, []⟩], some tab.length)
  else (tab, cur)

/-- One round of the loop of pf_get_exp_api_module (src/device/pf_block_reader.c:461-557). -/
def expRound (z : Sizes) (st : List ExpApi × Option Nat) : P (List ExpApi × Option Nat) := do
  let id ← getU32
  let (tab, cur) := selectApi z st.1 st.2 id
  match cur with
  | none => do
    setErr .outOfApi
    pure (tab, none)
  | some i =>
    let tab' ← addModule z tab i
    pure (tab', some i)

def expLoop (z : Sizes) : Nat → List ExpApi × Option Nat → P (List ExpApi × Option Nat)
  | 0, st => pure st
  | n + 1, st => do
    let st ← expRound z st
    expLoop z n st

/-- pf_get_exp_api_module (src/device/pf_block_reader.c:461-557). -/
def getExpApiModule (z : Sizes) (tab : List ExpApi) : P (List ExpApi) := do
  let n ← getU16
  let st ← expLoop z n.toNat (tab, none)
  pure st.1

/-- `pf_alarm_cr_request_t`. -/
structure AlarmCr where
  type : U16
  ltField : U16
  priority : Bool
  transportUdp : Bool
  timeoutFactor : U16
  retries : U16
  localRef : U16
  maxLen : U16
  highVlan : U32
  highPrio : U32
  lowVlan : U32
  lowPrio : U32
deriving DecidableEq

/-- pf_get_alarm_cr_request (src/device/pf_block_reader.c:559-592). -/
def getAlarmCr : P AlarmCr := do
  let ty ← getU16
  let lt ← getU16
  let t ← getU32
  let tf ← getU16
  let rt ← getU16
  let lr ← getU16
  let ml ← getU16
  let h ← getU16
  let l ← getU16
  let h := h.setWidth 32
  let l := l.setWidth 32
  pure ⟨ty, lt, flag t 0, flag t 1, tf, rt, lr, ml, getBits h 0 12, getBits h 13 3, getBits l 0 12,
    getBits l 13 3⟩

/-- pf_get_ar_rpc_request (src/device/pf_block_reader.c:681-688). -/
def getArRpc : P U16 := getU16

/-- `pf_control_block_t`. -/
structure Control where
  uuid : Uuid
  sessionKey : U16
  alarmSeq : U16
  command : U16
  props : U16
deriving DecidableEq

/-- pf_get_control (src/device/pf_block_reader.c:710-725). -/
def getControl : P Control := do
  let _ ← getU16
  let u ← getUuid
  let k ← getU16
  let s ← getU16
  let c ← getU16
  let p ← getU16
  pure ⟨u, k, s, c, p⟩

/-- `pf_ndr_data_t`. -/
structure Ndr where
  argsMax : U32
  argsLen : U32
  maxCount : U32
  offset : U32
  actual : U32
deriving DecidableEq

/-- pf_get_ndr_data (src/device/pf_block_reader.c:727-737). -/
def getNdr : P Ndr := do
  let a ← getU32
  let b ← getU32
  let c ← getU32
  let d ← getU32
  let e ← getU32
  pure ⟨a, b, c, d, e⟩

/-- `pf_rpc_header_t` (src/pf_types.h:295-319). -/
structure RpcHeader where
  version : Byte
  packetType : Byte
  lastFragment : Bool
  fragment : Bool
  noFack : Bool
  maybe : Bool
  idempotent : Bool
  broadcast : Bool
  cancelPending : Bool
  isBe : Bool
  floatRepr : Byte
  reserved : Byte
  serialHigh : Byte
  objUuid : Uuid
  ifUuid : Uuid
  actUuid : Uuid
  bootTime : U32
  ifVersion : U32
  seqNmb : U32
  opnum : U16
  ifHint : U16
  actHint : U16
  lengthOfBody : U16
  fragmentNmb : U16
  auth : Byte
  serialLow : Byte
deriving DecidableEq

/-- pf_get_dce_rpc_header (src/device/pf_block_reader.c:739-792). -/
def getRpcHeader : P RpcHeader := do
  let v ← getByte
  let pt ← getByte
  let f1 ← getByte
  let f2 ← getByte
  let dr ← getByte
  let f1 := f1.setWidth 32
  let f2 := f2.setWidth 32
  let be := getBits (dr.setWidth 32) 4 4 == 0
  setBe be
  let _ ← getByte
  let rs ← getByte
  let sh ← getByte
  let ou ← getUuid
  let iu ← getUuid
  let au ← getUuid
  let bt ← getU32
  let iv ← getU32
  let sn ← getU32
  let op ← getU16
  let ih ← getU16
  let ah ← getU16
  let lb ← getU16
  let fn ← getU16
  let ap ← getByte
  let sl ← getByte
  pure ⟨v, pt &&& 0x1f, flag f1 1, flag f1 2, flag f1 3, flag f1 4, flag f1 5, flag f1 6, flag f2 1,
    be, 0, rs, sh, ou, iu, au, bt, iv, sn, op, ih, ah, lb, fn, ap, sl⟩

/-- `pf_iod_read_request_t`. -/
structure ReadReq where
  seqNmb : U16
  uuid : Uuid
  api : U32
  slot : U16
  subslot : U16
  index : U16
  length : U32
  target : Uuid
deriving DecidableEq

/-- pf_get_read_request (src/device/pf_block_reader.c:794-815). -/
def getReadReq : P ReadReq := do
  let s ← getU16
  let u ← getUuid
  let a ← getU32
  let sl ← getU16
  let ss ← getU16
  let _ ← rep 2 getByte
  let ix ← getU16
  let n ← getU32
  let t ← getUuid
  let _ ← rep 8 getByte
  pure ⟨s, u, a, sl, ss, ix, n, t⟩

/-- `pf_rpc_lookup_req_t`. -/
structure Lookup where
  inquiry : U32
  objId : U32
  objUuid : Uuid
  ifId : U32
  ifUuid : Uuid
  verMajor : U16
  verMinor : U16
  verOption : U32
  handle : Handle
  maxEntries : U32
deriving DecidableEq

/-- pf_get_epm_lookup_request (src/device/pf_block_reader.c:817-832). -/
def getLookup : P Lookup := do
  let a ← getU32
  let b ← getU32
  let c ← getUuid
  let d ← getU32
  let e ← getUuid
  let f ← getU16
  let g ← getU16
  let h ← getU32
  let i ← getHandle
  let j ← getU32
  pure ⟨a, b, c, d, e, f, g, h, i, j⟩

/-- `pf_iod_write_request_t`. -/
structure WriteReq where
  seqNmb : U16
  uuid : Uuid
  api : U32
  slot : U16
  subslot : U16
  index : U16
  length : U32
deriving DecidableEq

/-- pf_get_write_request (src/device/pf_block_reader.c:834-854). -/
def getWriteReq : P WriteReq := do
  let s ← getU16
  let u ← getUuid
  let a ← getU32
  let sl ← getU16
  let ss ← getU16
  let _ ← rep 2 getByte
  let ix ← getU16
  let n ← getU32
  let _ ← rep 24 getByte
  pure ⟨s, u, a, sl, ss, ix, n⟩

/-- pf_get_im_1 (src/device/pf_block_reader.c:856-870): the two fields, `none` where the stored one is kept. -/
def getIm1 (tagSize locSize : Nat) : P (Option (List Byte) × Option (List Byte)) := do
  let a ← getMem (tagSize - 1)
  let b ← getMem (locSize - 1)
  pure (a, b)

/-- `pf_alarm_fixed_t`. -/
structure AlarmFixed where
  dst : U16
  src : U16
  type : U32
  version : U32
  window : U32
  tack : U32
  sendSeq : U16
  ackSeq : U16
deriving DecidableEq

/-- pf_get_alarm_fixed (src/device/pf_block_reader.c:872-893). -/
def getAlarmFixed : P AlarmFixed := do
  let d ← getU16
  let s ← getU16
  let t ← getByte
  let f ← getByte
  let ss ← getU16
  let as ← getU16
  let t := t.setWidth 32
  let f := f.setWidth 32
  pure ⟨d, s, getBits t 0 4, getBits t 4 4, getBits f 0 4, getBits f 4 1, ss, as⟩

/-- The members of `pf_alarm_data_t` that are received. -/
structure AlarmData where
  type : U16
  api : U32
  slot : U16
  subslot : U16
  modIdent : U32
  subIdent : U32
  seq : U32
  channel : U32
  manufacturer : U32
  submodule : U32
  ar : U32
deriving DecidableEq

/-- pf_get_alarm_data (src/device/pf_block_reader.c:895-919). -/
def getAlarmData : P AlarmData := do
  let t ← getU16
  let a ← getU32
  let s ← getU16
  let ss ← getU16
  let m ← getU32
  let sm ← getU32
  let x ← getU16
  let x := x.setWidth 32
  pure ⟨t, a, s, ss, m, sm, getBits x 0 11, getBits x 11 1, getBits x 12 1, getBits x 13 1,
    getBits x 15 1⟩

/-- pf_get_alarm_ack (src/device/pf_block_reader.c:921-943). -/
def getAlarmAck : P AlarmData := do
  let t ← getU16
  let a ← getU32
  let s ← getU16
  let ss ← getU16
  let x ← getU16
  let x := x.setWidth 32
  pure ⟨t, a, s, ss, 0, 0, getBits x 0 11, getBits x 11 1, getBits x 12 1, getBits x 13 1,
    getBits x 15 1⟩

/-- `pnet_pnio_status_t`. -/
structure Status where
  code : Byte
  decode : Byte
  code1 : Byte
  code2 : Byte
deriving DecidableEq

/-- pf_get_pnio_status (src/device/pf_block_reader.c:945-954). -/
def getStatus : P Status := do
  let a ← getByte
  let b ← getByte
  let c ← getByte
  let d ← getByte
  pure ⟨a, b, c, d⟩

/-- pf_get_port_data_check (src/device/pf_block_reader.c:956-967) and pf_get_port_data_adjust (src/device/pf_block_reader.c:1027-1038). -/
def getPortData : P (U16 × U16 × BlockHeader) := do
  let _ ← getMem 2
  let s ← getU16
  let ss ← getU16
  let h ← getBlockHeader
  pure (s, ss, h)

/-- A name into a field of `cap` bytes: `none` if the copied bytes or the terminator, which is written in
any case, do not fit. -/
def getName (cap n : Nat) : P (List Byte) := do
  let d ← getMem n
  if n ≥ cap then outside
  else pure (d.getD [])

/-- get_check_peer (src/device/pf_block_reader.c:976-1001): port name and station name, with the sizes of the two fields. -/
def getCheckPeer (portCap stationCap : Nat) : P (List Byte × List Byte) := do
  let n ← getByte
  let a ← getName portCap n.toNat
  let m ← getByte
  let b ← getName stationCap m.toNat
  pure (a, b)

/-- pf_get_port_data_check_check_peers (src/device/pf_block_reader.c:1003-1025). -/
def getCheckPeers (portCap stationCap maxPeers : Nat) : P (List (List Byte × List Byte)) := do
  let n ← getByte
  let m := if n.toNat > maxPeers then maxPeers else n.toNat
  rep m (getCheckPeer portCap stationCap)

/-- pf_get_port_data_adjust_peer_to_peer_boundary (src/device/pf_block_reader.c:1040-1061). -/
def getBoundary : P (Bool × Bool × Bool × U16) := do
  let _ ← getMem 2
  let t ← getU32
  let p ← getU16
  pure (flag t 0, flag t 1, flag t 2, p)

/-- pf_get_interface_adjust (src/device/pf_block_reader.c:1063-1075). -/
def getIntfAdjust : P Bool := do
  let _ ← getMem 2
  let t ← getU32
  pure (flag t 0)

/-! ## Writing -/

/-- A response buffer: memory, usable size `res_len`, position.  `p_bytes` is not NULL where these
functions are called. -/
structure Wr where
  buf : List Byte
  cap : Nat
  pos : Nat
deriving DecidableEq

abbrev W := Wr → Option Wr

def W.seq (a b : W) : W := fun w => (a w).bind fun x => b x

infixl:60 " ;; " => W.seq

/-- pf_put_mem (src/device/pf_block_writer.c:182-201) (pf_put_mem_overlapping (src/device/pf_block_writer.c:203-222) differs only if source and destination overlap). -/
def putMem (d : List Byte) : W := fun w =>
  if w.pos + d.length > w.cap then some w
  else (writeAt w.buf w.pos d).map fun b => { w with buf := b, pos := w.pos + d.length }

/-- pf_put_byte (src/device/pf_block_writer.c:224-242). -/
def putByte (v : Byte) : W := fun w =>
  if w.pos + 1 > w.cap then some w
  else (writeAt w.buf w.pos [v]).map fun b => { w with buf := b, pos := w.pos + 1 }

/-- pf_put_uint16 (src/device/pf_block_writer.c:244-261). -/
def putU16 (be : Bool) (v : U16) : W :=
  if be then putByte ((v >>> 8).setWidth 8) ;; putByte (v.setWidth 8)
  else putByte (v.setWidth 8) ;; putByte ((v >>> 8).setWidth 8)

/-- pf_put_uint32 (src/device/pf_block_writer.c:263-284). -/
def putU32 (be : Bool) (v : U32) : W :=
  if be then
    putByte ((v >>> 24).setWidth 8) ;; putByte ((v >>> 16).setWidth 8) ;; putByte ((v >>> 8).setWidth 8) ;;
      putByte (v.setWidth 8)
  else
    putByte (v.setWidth 8) ;; putByte ((v >>> 8).setWidth 8) ;; putByte ((v >>> 16).setWidth 8) ;;
      putByte ((v >>> 24).setWidth 8)

/-- pf_put_padding (src/device/pf_block_writer.c:286-297). -/
def putPadding : Nat → W
  | 0 => fun w => some w
  | n + 1 => putByte 0 ;; putPadding n

/-- pf_put_padding_align (src/device/pf_block_writer.c:299-310): endless if the buffer is full before the position is aligned.  The number
of rounds is bounded by `align`, after which the position would have passed a multiple. -/
def putPaddingAlign (start align : Nat) : W := fun w =>
  let rec go : Nat → Wr → Option Wr
    | 0, _ => none
    | k + 1, w =>
      if (w.pos - start) % align = 0 then some w
      else (putByte 0 w).bind (go k)
  go align w

/-- pf_put_uuid (src/device/pf_block_writer.c:140-151). -/
def putUuid (be : Bool) (u : Uuid) : W :=
  putU32 be u.d1 ;; putU16 be u.d2 ;; putU16 be u.d3 ;; putMem u.d4

/-- pf_put_bits (src/device/pf_block_writer.c:488-497). -/
def putBits (val : U32) (len pos : Nat) (bits : U32) : U32 :=
  bits ||| ((val &&& ((1#32 <<< len) - 1#32)) <<< pos)

/-- pf_put_block_header (src/device/pf_block_writer.c:64-85). -/
def putBlockHeader (be : Bool) (type length : U16) (vh vl : Byte) : W :=
  putU16 be type ;; putU16 be (length + 6 - 4) ;; putByte vh ;; putByte vl

/-- A block whose length is put into its header at the end: the frame that all block writers share, for
example pf_put_ar_result (src/device/pf_block_writer.c:333-385) or pf_put_record_data_read (src/device/pf_block_writer.c:1547-1577). -/
def putBlock (be : Bool) (type : U16) (body : W) : W := fun w =>
  ((putBlockHeader be type 0 1 0 ;; body) w).bind fun w1 =>
    (putU16 be (BitVec.ofNat 16 w1.pos - BitVec.ofNat 16 (w.pos + 4)) { w1 with pos := w.pos + 2 }).map
      fun w2 => { w2 with pos := w1.pos }

/-- pf_put_ar_server_result (src/device/pf_block_writer.c:729-770) for a station name of at most 65535 bytes. -/
def putArServer (be : Bool) (name : List Byte) : W := fun w =>
  putBlock be 0x8106
    (putU16 be (BitVec.ofNat 16 name.length) ;; putMem name ;; putPaddingAlign w.pos 4) w

/-- pf_put_control (src/device/pf_block_writer.c:1368-1420). -/
def putControl (be : Bool) (type : U16) (c : Control) : W :=
  putBlock be type
    (putByte 0 ;; putByte 0 ;; putUuid be c.uuid ;; putU16 be c.sessionKey ;; putU16 be c.alarmSeq ;;
      putU16 be c.command ;; putU16 be c.props)

/-- pf_put_record_data_read (src/device/pf_block_writer.c:1547-1577). -/
def putRecordRead (be : Bool) (type : U16) (d : List Byte) : W := putBlock be type (putMem d)

/-- pf_put_pnet_status (src/device/pf_block_writer.c:1422-1435). -/
def putStatus (be : Bool) (s : Status) : W :=
  putU32 be (0x01000000#32 * s.code.setWidth 32 + 0x10000#32 * s.decode.setWidth 32 +
    0x100#32 * s.code1.setWidth 32 + s.code2.setWidth 32)

def bit (b : Bool) : U32 := if b then 1 else 0

/-- pf_put_dce_rpc_header (src/device/pf_block_writer.c:1437-1545). -/
def putRpcHeader (h : RpcHeader) : W :=
  let f := putBits (bit h.broadcast) 1 6 (putBits (bit h.idempotent) 1 5 (putBits (bit h.maybe) 1 4
    (putBits (bit h.noFack) 1 3 (putBits (bit h.fragment) 1 2 (putBits (bit h.lastFragment) 1 1 0)))))
  let d := putBits (bit (!h.isBe)) 4 4 0
  putByte h.version ;; putByte h.packetType ;; putByte (f.setWidth 8) ;; putByte 0 ;;
  putByte (d.setWidth 8) ;; putByte h.floatRepr ;; putByte h.reserved ;; putByte h.serialHigh ;;
  putUuid h.isBe h.objUuid ;; putUuid h.isBe h.ifUuid ;; putUuid h.isBe h.actUuid ;;
  putU32 h.isBe h.bootTime ;; putU32 h.isBe h.ifVersion ;; putU32 h.isBe h.seqNmb ;;
  putU16 h.isBe h.opnum ;; putU16 h.isBe h.ifHint ;; putU16 h.isBe h.actHint ;;
  putU16 h.isBe h.lengthOfBody ;; putU16 h.isBe h.fragmentNmb ;; putByte h.auth ;; putByte h.serialLow

/-- pf_put_alarm_fixed (src/device/pf_block_writer.c:3382-3434). -/
def putAlarmFixed (be : Bool) (a : AlarmFixed) : W :=
  putU16 be a.dst ;; putU16 be a.src ;;
  putByte ((putBits a.version 4 4 (putBits a.type 4 0 0)).setWidth 8) ;;
  putByte ((putBits a.tack 1 4 (putBits a.window 4 0 0)).setWidth 8) ;;
  putU16 be a.sendSeq ;; putU16 be a.ackSeq

end Verif.Wire
