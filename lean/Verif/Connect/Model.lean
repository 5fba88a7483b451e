import Verif.Common.Bytes
/-!
# Checks of the parameter blocks of a connect request, and frame ID assignment

The input of the checks is the block as received: the fields of the request with their width on
the wire. The part of the block reader that splits words into bit fields is included, because
some fields lose bits there.

Not modelled: log messages; the `valid` flags that are set when a block passes.
-/
namespace Verif.Connect

/-- `error_code_1` and `error_code_2` of `pnet_result_t`, as set by pf_set_error. -/
structure Err where
  code1 : Nat
  code2 : Nat
deriving DecidableEq, Repr

/-- PNET_ERROR_CODE_1_CONN_FAULTY_AR_BLOCK_REQ ... (include/pnet_api.h:174-202). -/
def faultyAr : Nat := 1
def faultyIocr : Nat := 2
def faultyAlarm : Nat := 4
def faultyArRpc : Nat := 7
def cmrpc : Nat := 0x40
/-- PNET_ERROR_CODE_2_CMRPC_UNKNOWN_BLOCKS (include/pnet_api.h:240). -/
def unknownBlocks : Nat := 1

/-- pf_get_bits (src/device/pf_block_reader.c:201-222). -/
def getBits (bits : BitVec 32) (pos len : Nat) : Nat :=
  if len = 0 then 0
  else if pos + len > 32 then 0
  else if pos = 0 ∧ len = 32 then bits.toNat
  else bits.toNat / 2 ^ pos % 2 ^ len

/-- `pf_get_bits` of a 16-bit word, which is widened to 32 bits by the call. -/
def getBits16 (bits : BitVec 16) (pos len : Nat) : Nat := getBits (bits.zeroExtend 32) pos len

/-- pf_cmdev_check_zero (src/device/pf_cmdev.c:1552-1574): `true` when the C function returns 0. -/
def checkZero : List Byte → Bool
  | [] => true
  | b :: rest => if b = 0 then checkZero rest else false

/-- `pf_uuid_t`. -/
structure Uuid where
  data1 : BitVec 32
  data2 : BitVec 16
  data3 : BitVec 16
  data4 : Vector Byte 8
deriving DecidableEq, Repr

/-- The 16 bytes of a `pf_uuid_t` in memory. (Little-endian here; the only use is the comparison
with zero, for which the order does not matter.) -/
def Uuid.mem (u : Uuid) : List Byte :=
  [u.data1.extractLsb' 0 8, u.data1.extractLsb' 8 8, u.data1.extractLsb' 16 8,
   u.data1.extractLsb' 24 8, u.data2.extractLsb' 0 8, u.data2.extractLsb' 8 8,
   u.data3.extractLsb' 0 8, u.data3.extractLsb' 8 8] ++ u.data4.toList

/-- pf_cmdev_check_cm_initiator_object_uuid (src/device/pf_cmdev.c:1602-1615): `true` when the C function returns 0. -/
def checkObjectUuid (u : Uuid) : Bool :=
  u.data1 == 0xDEA00000 && u.data2 == 0x6c97 && u.data3 == 0x11D1 && u.data4[0] == 0x82 &&
    u.data4[1] == 0x71

/-- The C library's `isprint` in the C locale. A character is a signed byte on most platforms;
values from 0x80 upwards are negative then, and not printable. -/
def isPrint (c : Byte) : Bool := 0x20 ≤ c.toNat && c.toNat ≤ 0x7E

/-- The loop of pf_cmdev_check_visible_string (src/device/pf_cmdev.c:1627-1644). `none`: read behind the end of the array. -/
def visibleLoop : List Byte → Option Bool
  | [] => none
  | c :: rest => if c = 0 then some true else if isPrint c then visibleLoop rest else some false

/-- pf_cmdev_check_visible_string (src/device/pf_cmdev.c:1627-1644): `true` when the C function returns 0. -/
def checkVisibleString (s : List Byte) : Option Bool :=
  match s with
  | [] => none
  | c :: _ => if c = 0 then some false else visibleLoop s

/-- pf_cmdev_check_ar_type (src/device/pf_cmdev.c:1654-1664) (PF_ART_IOCAR_SINGLE is 1). -/
def checkArType (t : Nat) : Bool := t == 1

/-- PNET_STATION_NAME_MAX_SIZE (include/pnet_api.h:1246). -/
def nameMax : Nat := 241

/-- The AR block as received (the order of the fields is that of pf_get_ar_param (src/device/pf_block_reader.c:348-394)). `name` are
the bytes that follow the name length in the request; `oldName` is what the name array of the AR
held before. -/
structure ArBlock where
  arType : BitVec 16
  uuid : Uuid
  sessionKey : BitVec 16
  mac : Vector Byte 6
  objectUuid : Uuid
  props : BitVec 32
  timeoutFactor : BitVec 16
  udpPort : BitVec 16
  nameLen : BitVec 16
  name : List Byte
  oldName : Vector Byte nameMax
deriving DecidableEq

/-- The bit fields of the AR properties, pf_get_ar_param (src/device/pf_block_reader.c:348-394). -/
def ArBlock.state (b : ArBlock) : Nat := getBits b.props 0 3
def ArBlock.paramServer (b : ArBlock) : Nat := getBits b.props 4 1
def ArBlock.deviceAccess (b : ArBlock) : Bool := getBits b.props 8 1 != 0
def ArBlock.companionAr (b : ArBlock) : Nat := getBits b.props 9 2
def ArBlock.startupMode (b : ArBlock) : Bool := getBits b.props 30 1 != 0

/-- The station name array after pf_get_ar_param (src/device/pf_block_reader.c:348-394). Simplification: the request holds the
bytes of the name (a request that is too short makes the reader report an error). -/
def ArBlock.nameArray (b : ArBlock) : List Byte :=
  let strLen := if b.nameLen.toNat > nameMax - 1 then nameMax - 1 else b.nameLen.toNat
  (b.name.take strLen ++ b.oldName.toList.drop strLen).set strLen 0

/-- pf_cmdev_check_ar_param (src/device/pf_cmdev.c:1674-1814). `none`: read behind the end of the name array. -/
def checkAr (b : ArBlock) : Option (Except Err Unit) :=
  if checkArType b.arType.toNat = false then some (.error ⟨faultyAr, 4⟩)
  else if checkZero b.uuid.mem = true then some (.error ⟨faultyAr, 5⟩)
  else if b.mac[0] &&& 1 ≠ 0 then some (.error ⟨faultyAr, 7⟩)
  else if checkObjectUuid b.objectUuid = false then some (.error ⟨faultyAr, 8⟩)
  else if b.state ≠ 1 then some (.error ⟨faultyAr, 9⟩)
  else if b.paramServer = 0 then some (.error ⟨faultyAr, 9⟩)
  else if b.deviceAccess = true ∧ b.arType.toNat ≠ 6 then some (.error ⟨faultyAr, 9⟩)
  else if b.companionAr = 3 then some (.error ⟨faultyAr, 9⟩)
  else if b.timeoutFactor.toNat < 1 ∨ b.timeoutFactor.toNat > 1000 then
    some (.error ⟨faultyAr, 10⟩)
  else if b.nameLen.toNat = 0 ∨ b.nameLen.toNat > nameMax - 1 then some (.error ⟨faultyAr, 12⟩)
  else (checkVisibleString b.nameArray).bind fun ok =>
    if ok = false then some (.error ⟨faultyAr, 13⟩)
    else some (.ok ())

/-- The IOCR block as received, without the list of APIs (pf_get_iocr_param (src/device/pf_block_reader.c:396-459)). -/
structure IocrBlock where
  type : BitVec 16
  reference : BitVec 16
  lt : BitVec 16
  props : BitVec 32
  cSdu : BitVec 16
  frameId : BitVec 16
  scf : BitVec 16
  rr : BitVec 16
  phase : BitVec 16
  sequence : BitVec 16
  frameSendOffset : BitVec 32
  watchdogFactor : BitVec 16
  dataHoldFactor : BitVec 16
  tag : BitVec 16
  mac : Vector Byte 6
  nbrApis : BitVec 16
deriving DecidableEq

/-- The bit fields of the IOCR properties and of the tag header, pf_get_iocr_param (src/device/pf_block_reader.c:396-459). The VLAN
id is read as 11 bits. -/
def IocrBlock.rtClass (b : IocrBlock) : Nat := getBits b.props 0 4
def IocrBlock.reserved1 (b : IocrBlock) : Nat := if getBits b.props 4 9 ≠ 0 then 1 else 0
def IocrBlock.reserved3 (b : IocrBlock) : Nat := if getBits b.props 24 8 ≠ 0 then 1 else 0
def IocrBlock.vlanId (b : IocrBlock) : Nat := getBits16 b.tag 0 11
def IocrBlock.priority (b : IocrBlock) : Nat := getBits16 b.tag 13 3

/-- `((uint32_t)data_hold_factor * reduction_ratio * send_clock_factor * 1000) / 32`: the product
is computed modulo 2^32 (src/device/pf_cmdev.c:3263-3264). -/
def holdTime (b : IocrBlock) : Nat :=
  (b.dataHoldFactor.zeroExtend 32 * b.rr.zeroExtend 32 * b.scf.zeroExtend 32 * 1000#32).toNat / 32

/-- The body of the loop of pf_cmdev_check_iocr_param (src/device/pf_cmdev.c:3004-3355) for one IOCR. `minInterval` is the
device's minimum interval in units of 31.25 µs. -/
def checkIocr (minInterval : Nat) (ar : ArBlock) (b : IocrBlock) : Except Err Unit :=
  if ar.deviceAccess = true then .error ⟨cmrpc, unknownBlocks⟩
  else if b.type.toNat < 1 ∨ b.type.toNat > 4 then .error ⟨faultyIocr, 4⟩
  else if b.rtClass ≠ 4 ∧ b.lt.toNat ≠ 0x8892 then .error ⟨faultyIocr, 6⟩
  else if b.rtClass = 4 ∧ b.lt.toNat ≠ 0x0800 then .error ⟨faultyIocr, 6⟩
  else if ar.startupMode = false ∧ (b.rtClass < 1 ∨ b.rtClass > 5) then .error ⟨faultyIocr, 7⟩
  else if ar.startupMode = true ∧ (b.rtClass < 2 ∨ b.rtClass > 5) then .error ⟨faultyIocr, 7⟩
  else if b.reserved1 ≠ 0 ∨ b.reserved3 ≠ 0 then .error ⟨faultyIocr, 7⟩
  else if (b.rtClass = 4 ∧ (b.cSdu.toNat < 12 ∨ b.cSdu.toNat > 1440)) ∨
      (b.rtClass = 1 ∧ (b.cSdu.toNat < 40 ∨ b.cSdu.toNat > 1440)) then .error ⟨faultyIocr, 8⟩
  else if (b.type.toNat = 4 ∨ b.type.toNat = 3) ∧
      ((b.rtClass = 1 ∧ (b.frameId.toNat < 0xF800 ∨ b.frameId.toNat > 0xFBFF)) ∨
       (b.rtClass = 2 ∧ (b.frameId.toNat < 0xBC00 ∨ b.frameId.toNat > 0xBFFF)) ∨
       (b.rtClass = 3 ∧ (b.frameId.toNat < 0x0100 ∨ b.frameId.toNat > 0x7FFF)) ∨
       (b.rtClass = 4 ∧ (b.frameId.toNat < 0xF800 ∨ b.frameId.toNat > 0xFBFF))) then
    .error ⟨faultyIocr, 9⟩
  else if b.type.toNat = 1 ∧
      ((b.rtClass = 1 ∧ (b.frameId.toNat < 0xC000 ∨ b.frameId.toNat > 0xF7FF)) ∨
       (b.rtClass = 2 ∧ (b.frameId.toNat < 0x8000 ∨ b.frameId.toNat > 0xBBFF)) ∨
       (b.rtClass = 3 ∧ (b.frameId.toNat < 0x0100 ∨ b.frameId.toNat > 0x7FFF)) ∨
       (b.rtClass = 4 ∧ (b.frameId.toNat < 0xC000 ∨ b.frameId.toNat > 0xF7FF))) then
    .error ⟨faultyIocr, 9⟩
  else if b.scf.toNat ≠ 1 ∧ b.scf.toNat ≠ 2 ∧ b.scf.toNat ≠ 4 ∧ b.scf.toNat ≠ 8 ∧
      b.scf.toNat ≠ 16 ∧ b.scf.toNat ≠ 32 ∧ b.scf.toNat ≠ 64 ∧ b.scf.toNat ≠ 128 then
    .error ⟨faultyIocr, 10⟩
  else if (b.rtClass = 1 ∨ b.rtClass = 2 ∨ b.rtClass = 3) ∧
      ((b.rr.toNat < 1 ∨ b.rr.toNat > 512) ∨ (b.rr.toNat ≥ 256 ∧ b.scf.toNat > 64) ∨
       (b.rr.toNat = 512 ∧ b.scf.toNat > 32) ∨ minInterval > b.scf.toNat * b.rr.toNat) then
    .error ⟨faultyIocr, 11⟩
  else if b.rtClass = 4 ∧
      ((b.rr.toNat < 1 ∨ b.rr.toNat > 16384) ∨ (b.rr.toNat ≥ 8192 ∧ b.scf.toNat > 64) ∨
       (b.rr.toNat = 16384 ∧ b.scf.toNat > 32)) then .error ⟨faultyIocr, 11⟩
  else if b.phase.toNat = 0 ∨ b.phase.toNat > b.rr.toNat then .error ⟨faultyIocr, 12⟩
  else if b.frameSendOffset.toNat ≠ 0xffffffff ∧
      (b.frameSendOffset.toNat ≥ b.scf.toNat * 31250 ∨
       (b.frameSendOffset.toNat ≥ 0x003d0900 ∧ b.frameSendOffset.toNat ≤ 0xfffffffe)) then
    .error ⟨faultyIocr, 14⟩
  else if (b.dataHoldFactor.toNat < 1 ∨ b.dataHoldFactor.toNat > 0x1e00) ∨
      (b.rtClass = 4 ∧ holdTime b > 61440000) ∨
      ((b.rtClass = 1 ∨ b.rtClass = 2 ∨ b.rtClass = 3) ∧ holdTime b > 1920000) then
    .error ⟨faultyIocr, 16⟩
  else if b.vlanId ≠ 0 then .error ⟨faultyIocr, 17⟩
  else if b.priority ≠ 6 then .error ⟨faultyIocr, 17⟩
  else if (b.type.toNat = 3 ∨ b.type.toNat = 4) ∧ b.mac[0] &&& 1 = 0 then
    .error ⟨faultyIocr, 18⟩
  else if b.nbrApis.toNat = 0 then .error ⟨faultyIocr, 19⟩
  else if b.rtClass = 4 ∧ checkZero ar.mac.toList = false then .error ⟨faultyAr, 7⟩
  else if b.rtClass = 4 ∧ ar.udpPort.toNat ≤ 0x03FF then .error ⟨faultyAr, 11⟩
  else .ok ()

/-- The loop of pf_cmdev_check_iocr_param (src/device/pf_cmdev.c:3004-3355): `ret` and the error of the last faulty block are
kept, the loop goes on. -/
def checkIocrsFrom (minInterval : Nat) (ar : ArBlock) : Except Err Unit → List IocrBlock →
    Except Err Unit
  | r, [] => r
  | r, b :: rest =>
    match checkIocr minInterval ar b with
    | .error e => checkIocrsFrom minInterval ar (.error e) rest
    | .ok () => checkIocrsFrom minInterval ar r rest

/-- pf_cmdev_check_iocr_param (src/device/pf_cmdev.c:3004-3355). -/
def checkIocrs (minInterval : Nat) (ar : ArBlock) (bs : List IocrBlock) : Except Err Unit :=
  checkIocrsFrom minInterval ar (.ok ()) bs

/-- The alarm CR block as received (pf_get_alarm_cr_request (src/device/pf_block_reader.c:559-592)). -/
structure AlarmBlock where
  type : BitVec 16
  lt : BitVec 16
  props : BitVec 32
  timeoutFactor : BitVec 16
  retries : BitVec 16
  localRef : BitVec 16
  maxLen : BitVec 16
  tagHigh : BitVec 16
  tagLow : BitVec 16
deriving DecidableEq

/-- The bit fields of the alarm CR block, pf_get_alarm_cr_request (src/device/pf_block_reader.c:559-592). The VLAN ids are read as 12
bits but stored in a `uint8_t` (src/pf_types.h:1677-1682). -/
def AlarmBlock.transportUdp (b : AlarmBlock) : Bool := getBits b.props 1 1 != 0
def AlarmBlock.vlanHigh (b : AlarmBlock) : Nat := getBits16 b.tagHigh 0 12 % 256
def AlarmBlock.prioHigh (b : AlarmBlock) : Nat := getBits16 b.tagHigh 13 3 % 256
def AlarmBlock.vlanLow (b : AlarmBlock) : Nat := getBits16 b.tagLow 0 12 % 256
def AlarmBlock.prioLow (b : AlarmBlock) : Nat := getBits16 b.tagLow 13 3 % 256

/-- pf_cmdev_check_alarm_cr (src/device/pf_cmdev.c:3974-4103) (PF_ALARM_CR is 1). -/
def checkAlarm (ar : ArBlock) (b : AlarmBlock) : Except Err Unit :=
  if ar.deviceAccess = true then .error ⟨cmrpc, unknownBlocks⟩
  else if b.type.toNat ≠ 1 then .error ⟨faultyAlarm, 4⟩
  else if (b.transportUdp = false ∧ b.lt.toNat ≠ 0x8892) ∨
      (b.transportUdp = true ∧ b.lt.toNat ≠ 0x0800) then .error ⟨faultyAlarm, 5⟩
  else if b.timeoutFactor.toNat < 1 ∨ b.timeoutFactor.toNat > 0x0064 then
    .error ⟨faultyAlarm, 7⟩
  else if b.retries.toNat < 3 ∨ b.retries.toNat > 15 then .error ⟨faultyAlarm, 8⟩
  else if b.maxLen.toNat < 200 ∨ b.maxLen.toNat > 1432 then .error ⟨faultyAlarm, 10⟩
  else if b.vlanHigh ≠ 0 then .error ⟨faultyAlarm, 11⟩
  else if b.prioHigh ≠ 6 then .error ⟨faultyAlarm, 11⟩
  else if b.vlanLow ≠ 0 then .error ⟨faultyAlarm, 12⟩
  else if b.prioLow ≠ 5 then .error ⟨faultyAlarm, 12⟩
  else .ok ()

/-- The part of an IOCR that matters for the choice of frame IDs. `type`: 1 input, 2 output, 3
multicast provider, 4 multicast consumer. -/
structure Cr where
  type : Nat
  rtClass : Nat
  frameId : BitVec 16
deriving DecidableEq, Repr

/-- The part of an AR that matters for the choice of frame IDs; `crs` are the first `nbr_iocrs`
entries of `iocrs`. -/
structure Ar where
  inUse : Bool
  crs : List Cr
deriving DecidableEq, Repr

/-- pf_cmdev_verify_free_frame_id (src/device/pf_cmdev.c:4601-4623); `ars` is the array `cmrpc_ar`, of which the first `maxAr`
(PNET_MAX_AR) entries are looked at. -/
def verifyFree (maxAr : Nat) (ars : List Ar) (frameId : BitVec 16) : Bool :=
  !((ars.take maxAr).any fun ar => ar.inUse && ar.crs.any fun cr => cr.frameId == frameId)

/-- The `while` loop of pf_cmdev_fix_frame_id (src/device/pf_cmdev.c:4633-4701): a 16-bit counter, which wraps. The result is
the value of the counter after the loop; `fuel` bounds the iterations, `none`: more than that. -/
def searchFree (maxAr : Nat) (ars : List Ar) (stop : Nat) : Nat → BitVec 16 → Option (BitVec 16)
  | 0, _ => none
  | fuel + 1, fid =>
    if fid.toNat ≤ stop ∧ verifyFree maxAr ars fid = false then
      searchFree maxAr ars stop fuel (fid + 1)
    else some fid

/-- The start and the stop value of the search, by RT class (pf_cmdev_fix_frame_id (src/device/pf_cmdev.c:4633-4701)). -/
def fidRange (rtClass : Nat) : Nat × Nat :=
  if rtClass = 1 then (0xC000, 0xF7FF)
  else if rtClass = 2 then (0x8000, 0xBBFF)
  else if rtClass = 3 then (0x0100, 0x7FFF)
  else if rtClass = 4 then (0xC000, 0xF7FF)
  else (0xFFFF, 0xFFFF)

/-- Assign the frame ID of CR `j` of AR `i` in the table. -/
def setFid (ars : List Ar) (i j : Nat) (fid : BitVec 16) : List Ar :=
  ars.modify i fun ar => { ar with crs := ar.crs.modify j fun cr => { cr with frameId := fid } }

/-- One pass of the `for` loop of pf_cmdev_fix_frame_id (src/device/pf_cmdev.c:4633-4701), for CR `j` of AR `i`. More than
2^16 iterations of the inner loop would be an endless loop (`none`). -/
def fixOne (maxAr : Nat) (ars : List Ar) (i j : Nat) : Option (List Ar) :=
  match (ars[i]?).bind (fun ar => ar.crs[j]?) with
  | none => some ars
  | some cr =>
    if cr.type = 2 ∧ cr.frameId = 0xFFFF then
      (searchFree maxAr ars (fidRange cr.rtClass).2 65537 (BitVec.ofNat 16 (fidRange cr.rtClass).1)).bind
        fun fid => if fid.toNat ≤ (fidRange cr.rtClass).2 then some (setFid ars i j fid) else some ars
    else some ars

/-- The `for` loop of pf_cmdev_fix_frame_id (src/device/pf_cmdev.c:4633-4701) over the CRs with index `j`, `j+1`, ... -/
def fixFrom (maxAr : Nat) (i : Nat) : Nat → Nat → List Ar → Option (List Ar)
  | 0, _, ars => some ars
  | n + 1, j, ars => (fixOne maxAr ars i j).bind fun ars' => fixFrom maxAr i n (j + 1) ars'

/-- pf_cmdev_fix_frame_id (src/device/pf_cmdev.c:4633-4701) for the AR at index `i` of the table. -/
def fixFrameIds (maxAr : Nat) (ars : List Ar) (i : Nat) : Option (List Ar) :=
  match ars[i]? with
  | none => some ars
  | some ar => fixFrom maxAr i ar.crs.length 0 ars

end Verif.Connect
