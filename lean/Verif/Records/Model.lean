import Verif.Read.Model
import Verif.Pdport.Model
import Verif.DiagRead.Model

/-!
Model of the records about cyclic data, connections, and the physical device.
Source: src/device/pf_block_writer.c, src/device/pf_cmrdr.c:39-850, src/device/pf_pdport.c:480-746.

What the records are about (cyclic data, state of the ports) is given by values here; where they come from is modelled
in the areas Cpm, Ppm, Lldp and Pdport.  All records are big-endian.  `none` is an access outside an array or an
endless loop.
-/
set_option linter.unusedVariables false

namespace Verif.Records
open Verif.Wire hiding ExpApi ExpMod ExpSub
open Verif.DiagRead (n16 n32 each skip)
open Verif.Read (Rec)

/-! ## Cyclic data -/

/-- pf_put_substitute_data (src/device/pf_block_writer.c:3635-3673) -/
def putSubstitute (mode : Nat) (iocs iops data : List Byte) : W :=
  putBlock true 0x0014 (n16 mode ;; putMem iocs ;; putMem data ;; putMem iops)

/-- pf_put_output_data (src/device/pf_block_writer.c:3675-3743); `sub`: the substitute data, if the pointer is not null. -/
def putOutput (active : Bool) (iocs iops data : List Byte) (mode : Nat) (sub : Option (List Byte)) : W :=
  putBlock true 0x0016
    (n16 (if active then 1 else 0) ;; putByte (BitVec.ofNat 8 iocs.length) ;; putByte (BitVec.ofNat 8 iops.length) ;;
      n16 data.length ;; putMem iocs ;; putMem data ;; putMem iops ;;
      (match sub with
        | some s => putSubstitute mode iocs iops s
        | none => skip))

/-- pf_put_input_data (src/device/pf_block_writer.c:3745-3785) -/
def putInput (iocs iops data : List Byte) : W :=
  putBlock true 0x0015
    (putByte (BitVec.ofNat 8 iocs.length) ;; putMem iocs ;; putByte (BitVec.ofNat 8 iops.length) ;; putMem iops ;;
      n16 data.length ;; putMem data)

/-- The record of the input data in pf_cmrdr_rm_read_ind (src/device/pf_cmrdr.c:39-850).  `provider`: data and provider status from pf_ppm_get_data_and_iops,
if it succeeds; `consumer`: the consumer status from pf_cpm_get_iocs, if it succeeds. -/
def readInput (provider : Option (List Byte × List Byte)) (consumer : Option (List Byte)) : Rec := fun w =>
  let data := (provider.getD ([], [])).1
  let iops := (provider.getD ([], [])).2
  let iocs := consumer.getD []
  if data.length + iops.length + iocs.length > 0 then (putInput iocs iops data w).map fun x => (true, x)
  else some (false, w)

/-- The record of the output data in pf_cmrdr_rm_read_ind (src/device/pf_cmrdr.c:39-850).  `consumer`: data and provider status from pf_cpm_get_data_and_iops, if
it succeeds; `provider`: the consumer status from pf_ppm_get_iocs, if it succeeds.  The data are put as substitute data
as well. -/
def readOutput (consumer : Option (List Byte × List Byte)) (provider : Option (List Byte)) : Rec := fun w =>
  let data := (consumer.getD ([], [])).1
  let iops := (consumer.getD ([], [])).2
  let iocs := provider.getD []
  if data.length + iops.length + iocs.length > 0 then
    (putOutput false iocs iops data 0 (some data) w).map fun x => (true, x)
  else some (false, w)

/-! ## Connections -/

/-- What the record says about a communication relation.  `ppmStatus`, `cpmStatus`: the data status of the provider and
of the consumer (0 if there is none). -/
structure Iocr where
  rtClass : U32
  type : U16
  frameId : U16
  ppmStatus : Byte
  cpmStatus : Byte
deriving DecidableEq

/-- What the record says about a connection.  `prmUuid`, `prmName`: the parameter server, nil and empty without the
option.  `info`: the number of optional blocks (`nbr_ar_data`). -/
structure Ar where
  uuid : Uuid
  objUuid : Uuid
  prmUuid : Uuid
  props : ArProps
  arType : U16
  alarmType : U16
  localRef : U16
  remoteRef : U16
  initPort : U16
  respPort : U16
  name : List Byte
  prmName : List Byte
  iocrs : List Iocr
  apis : List U32
  info : Nat
deriving DecidableEq

def bit (b : Bool) : U32 := if b then 1 else 0

/-- The word of the properties in pf_put_one_ar (src/device/pf_block_writer.c:974-1239). -/
def propsWord (p : ArProps) : U32 :=
  putBits (bit p.pullModule) 1 31 (putBits (bit p.startupMode) 1 30 (putBits (bit p.combined) 1 29
    (putBits (bit p.ackCompanion) 1 11 (putBits p.companion 2 9 (putBits (bit p.deviceAccess) 1 8
      (putBits p.prmServer 1 4 (putBits (bit p.takeover) 1 3 (putBits p.state 3 0 0))))))))

/-- pf_put_iocr (src/device/pf_block_writer.c:840-880): the types 1 and 3 are those of a provider. -/
def putIocr (c : Iocr) : W :=
  putU32 true (putBits c.rtClass 4 0 0) ;; putU16 true c.type ;; putU16 true c.frameId ;; n16 0 ;;
  putByte (if c.type = 1 ∨ c.type = 3 then c.ppmStatus else c.cpmStatus) ;; putByte 0

/-- `while (*p_pos % 4 != 0) pf_put_byte (0, ...)` in pf_put_one_ar (src/device/pf_block_writer.c:974-1239). -/
def align : W := putPaddingAlign 0 4

/-- The part of pf_put_one_ar (src/device/pf_block_writer.c:974-1239) before the station name. -/
def putArFixed (a : Ar) : W :=
  putUuid true a.uuid ;; putUuid true a.objUuid ;; putUuid true a.prmUuid ;; putU32 true (propsWord a.props) ;;
  putU16 true a.arType ;; putU16 true a.alarmType ;; putU16 true a.localRef ;; putU16 true a.remoteRef ;;
  putU16 true a.initPort ;; putU16 true a.respPort ;; n16 a.name.length

/-- The part of pf_put_one_ar (src/device/pf_block_writer.c:974-1239) from the station name to the list of APIs.  `api`: only this API is listed. -/
def putArVar (a : Ar) (api : Option U32) : W :=
  putMem a.name ;; align ;; n16 a.prmName.length ;; putMem a.prmName ;; align ;; n16 a.iocrs.length ;; align ;;
  each putIocr a.iocrs ;; n16 a.apis.length ;; align ;;
  each (fun x => if api = none ∨ api = some x then putU32 true x else skip) a.apis

/-- pf_put_one_ar (src/device/pf_block_writer.c:974-1239).  The functions for the optional blocks put nothing, but the blocks are counted; the number is put in afterwards. -/
def putOneAr (a : Ar) (api : Option U32) : W := fun w =>
  ((putArFixed a ;; putArVar a api) w).bind fun w1 =>
    ((n16 0 ;; align) w1).bind fun w2 =>
      (n16 a.info { w2 with pos := w1.pos }).map fun w3 => { w3 with pos := w2.pos }

/-- Connections that pf_put_ar_data (src/device/pf_block_writer.c:1241-1366) lists. -/
def listed (a : Ar) : Bool := decide (a.uuid.d1 ≠ 0 ∧ a.objUuid.d1 ≠ 0)

/-- The entries that pf_put_ar_data (src/device/pf_block_writer.c:1241-1366) puts: each with the API to which it is restricted, if any. -/
def entries (ars : List Ar) (own : Option Ar) (api : U32) : List (Ar × Option U32) :=
  match own with
  | none => (ars.filter listed).map fun a => (a, none)
  | some a => (a.apis.filter (· = api)).map fun _ => (a, some api)

/-- pf_put_ar_data (src/device/pf_block_writer.c:1241-1366).  `ars`: the connections in use, in the order of their table; `own`: the argument `p_ar`. -/
def putArData (ars : List Ar) (own : Option Ar) (api : U32) : W := fun w =>
  (putBlockHeader true 0x0018 0 1 1 w).bind fun w1 =>
    let l := entries ars own api
    (((if l.length > 0 then n16 l.length else skip) ;; each (fun x => putOneAr x.1 x.2) l) w1).bind fun w2 =>
      if w1.pos < w2.pos then
        (putU16 true (BitVec.ofNat 16 w2.pos - BitVec.ofNat 16 (w.pos + 4)) { w2 with pos := w.pos + 2 }).map
          fun w3 => { w3 with pos := w2.pos }
      else some { w2 with pos := w.pos }

/-- The records of the connections in pf_cmrdr_rm_read_ind (src/device/pf_cmrdr.c:39-850): those of an API, and those of the device.  `own`: the connection of the
request, if any. -/
def readArs (ars : List Ar) (own : Option Ar) (q : ReadReq) : Option Rec :=
  if q.index = 0xF020 then some fun w => (putArData ars own q.api w).map fun x => (true, x)
  else if q.index = 0xF820 then some fun w => (putArData ars none 0 w).map fun x => (true, x)
  else none

/-- The size of the response (src/device/pf_cmrpc.c:4595-4612): what the requester states as its maximum, with the position behind
the length fields of the request, in 32 bits; at most the size of the buffer. -/
def rspSize (reqPos : Nat) (argsMax : U32) (buffer : Nat) : Nat :=
  let r := (BitVec.ofNat 32 reqPos + argsMax).toNat
  if r > buffer then buffer else r

/-! ## Physical device -/

/-- `pnal_port_stats_t` (src/pnal.h). -/
structure Stats where
  inOctets : U32
  outOctets : U32
  inDiscards : U32
  outDiscards : U32
  inErrors : U32
  outErrors : U32
deriving DecidableEq

def noStats : Stats := ⟨0, 0, 0, 0, 0, 0⟩

/-- What is known of a neighbour: `pf_lldp_peer_info_t` (src/pf_types.h) and the names from pf_lldp_get_peer_port_name and pf_lldp_get_peer_station_name. -/
structure Peer where
  portName : List Byte
  stationName : List Byte
  delay : U32
  mac : List Byte
deriving DecidableEq

/-- A port: own name, neighbour (if `is_peer_info_received`), Ethernet status, default type, statistics (if they can be read). -/
structure Port where
  name : List Byte
  peer : Option Peer
  mau : U16
  running : Bool
  defaultMau : U16
  stats : Option Stats
deriving DecidableEq

/-- The interface: address, IP settings, station name, statistics of the main port. -/
structure Iface where
  mac : List Byte
  ip : U32
  mask : U32
  gateway : U32
  name : List Byte
  stats : Option Stats
deriving DecidableEq

/-- pf_pdport_filter_mau_type (src/device/pf_pdport.c:1485-1498) -/
def filterMau (p : Port) : U16 := if p.mau = 0 ∧ p.running = false then p.defaultMau else p.mau

/-- pf_port_get_media_type (src/device/pf_port.c:221-241): copper 1, fiber 2, radio 3, unknown 0. -/
def mediaType (mau : U16) : U32 :=
  if mau = 0 then 3
  else if mau = 0x05 ∨ mau = 0x0F ∨ mau = 0x10 ∨ mau = 0x1D ∨ mau = 0x1E then 1
  else if mau = 0x11 ∨ mau = 0x12 ∨ mau = 0x15 ∨ mau = 0x16 then 2
  else 0

/-- A block in which the part `a` is followed by padding to a multiple of four bytes from the start of the block. -/
def alignedBlock (t : U16) (a b : W) : W := fun w => putBlock true t (a ;; putPaddingAlign w.pos 4 ;; b) w

/-- The part of pf_put_pdport_data_real (src/device/pf_block_writer.c:3862-3998) before the neighbours. -/
def putPortHead (subslot : U16) (p : Port) : W :=
  putPadding 2 ;; n16 0 ;; putU16 true subslot ;; putByte (BitVec.ofNat 8 p.name.length) ;; putMem p.name ;;
  putByte (if p.peer.isSome then 1 else 0) ;; putPadding 2

/-- The part of pf_put_pdport_data_real (src/device/pf_block_writer.c:3862-3998) behind the neighbours. -/
def putPortTail (p : Port) : W :=
  putU16 true (filterMau p) ;; putPadding 2 ;; n32 0 ;; n32 0 ;; n16 (if p.running then 1 else 2) ;; putPadding 2 ;;
  putU32 true (mediaType (filterMau p))

/-- pf_put_pdport_data_real (src/device/pf_block_writer.c:3862-3998) with pf_pdport_get_eth_status_filtered_mau (src/device/pf_pdport.c:1512-1526). -/
def putPortReal (subslot : U16) (p : Port) : W :=
  match p.peer with
  | none => putBlock true 0x020F (putPortHead subslot p ;; putPortTail p)
  | some q => alignedBlock 0x020F
      (putPortHead subslot p ;; putByte (BitVec.ofNat 8 q.portName.length) ;; putMem q.portName ;;
        putByte (BitVec.ofNat 8 q.stationName.length) ;; putMem q.stationName)
      (putU32 true q.delay ;; putMem q.mac ;; putPadding 2 ;; putPortTail p)

/-- pf_put_pdport_statistics (src/device/pf_block_writer.c:4000-4065) -/
def putStats (s : Stats) : W :=
  putBlock true 0x0251 (putPadding 2 ;; putU32 true s.inOctets ;; putU32 true s.outOctets ;; putU32 true s.inDiscards ;;
    putU32 true s.outDiscards ;; putU32 true s.inErrors ;; putU32 true s.outErrors)

/-- pf_put_pdinterface_data_real (src/device/pf_block_writer.c:4067-4123) -/
def putIfaceReal (i : Iface) : W :=
  alignedBlock 0x0240 (putByte (BitVec.ofNat 8 i.name.length) ;; putMem i.name)
    (putMem i.mac ;; putPadding 2 ;; putU32 true i.ip ;; putU32 true i.mask ;; putU32 true i.gateway)

/-- pf_put_pd_multiblock_interface_and_statistics (src/device/pf_block_writer.c:4125-4191) -/
def putIfaceMulti (api : U32) (i : Iface) : W :=
  putBlock true 0x0400 (putPadding 2 ;; putU32 true api ;; n16 0 ;; n16 0x8000 ;; putIfaceReal i ;; putStats (i.stats.getD noStats))

/-- pf_put_pd_multiblock_port_and_statistics (src/device/pf_block_writer.c:4193-4256) -/
def putPortMulti (api : U32) (subslot : U16) (p : Port) : W :=
  putBlock true 0x0400 (putPadding 2 ;; putU32 true api ;; n16 0 ;; putU16 true subslot ;; putPortReal subslot p ;;
    putStats (p.stats.getD noStats))

/-- The loop over the ports in pf_pdport_read_ind (src/device/pf_pdport.c:480-746). -/
def portLoop (f : Nat → W) : Nat → Pdport.Iter → W
  | 0, _ => fun _ => none
  | k + 1, it =>
    if it.getNext.1 = 0 then skip else f it.getNext.1 ;; portLoop f k it.getNext.2

/-- The record of the whole physical device in pf_pdport_read_ind (src/device/pf_pdport.c:480-746). -/
def putDevice (api : U32) (i : Iface) (ports : List Port) : W :=
  putIfaceMulti api i ;;
  portLoop (fun n w => (Pdport.portSubslot ports.length n).bind fun ss => (ports[n - 1]?).bind fun p => putPortMulti api ss p w)
    (ports.length + 1) (Pdport.Iter.init ports.length)

/-- pf_pdport_read_ind (src/device/pf_pdport.c:480-746) for the records that cannot be written, and the record of the interface in pf_cmrdr_rm_read_ind (src/device/pf_cmrdr.c:39-850); `none`
for other indices. -/
def readPhysical (i : Iface) (ports : List Port) (q : ReadReq) : Option Rec :=
  let port := Pdport.subslotPort ports.length q.subslot
  if q.index = 0x802A then
    some fun w =>
      if q.slot = 0 ∧ port ≠ 0 then (ports[port - 1]?).bind fun p => (putPortReal q.subslot p w).map fun x => (true, x)
      else some (false, w)
  else if q.index = 0xF841 then some fun w => (putDevice q.api i ports w).map fun x => (true, x)
  else if q.index = 0xF842 then some fun w => some (true, w)
  else if q.index = 0x8072 then
    some fun w =>
      if q.slot = 0 ∧ (q.subslot = 0x8000 ∨ port ≠ 0) then
        (if port = 0 then some i.stats else (ports[port - 1]?).map Port.stats).bind fun s =>
          match s with
          | some s => (putStats s w).map fun x => (true, x)
          | none => some (false, w)
      else some (false, w)
  else if q.index = 0x8080 then
    some fun w =>
      if q.slot = 0 ∧ q.subslot = 0x8000 then (putIfaceReal i w).map fun x => (true, x)
      else some (false, w)
  else none

end Verif.Records
