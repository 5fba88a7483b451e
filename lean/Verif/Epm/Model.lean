import Verif.Wire.Codec

/-!
Model of the endpoint mapper: lookup requests, their answers, and the sessions that carry a lookup.
Source: src/device/pf_cmrpc_epm.c, src/device/pf_block_writer.c:4421-4862, src/device/pf_cmrpc.c.

A request is the body of a complete message (its reassembly is modelled in the area Rpc).  Other messages and the
end of connections are represented by what they do to the session.  Not modelled: sending the answer, log output.
`none` is an access outside an array or an endless loop.
-/
set_option linter.unusedVariables false

namespace Verif.Epm
open Verif.Wire

/-! ## The answer -/

/-- `pf_rpc_uuid_type_t`. -/
structure RpcUuid where
  low : U32
  mid : U16
  hi : U16
  clockHi : Byte
  clockLow : Byte
  node : List Byte
deriving DecidableEq

/-- What an answer depends on: members of `pnet_cfg_t` (names without termination), addresses, and the byte order of
the processor. -/
structure Dev where
  productName : List Byte
  orderId : List Byte
  hwRev : U16
  swPrefix : Byte
  swFun : Byte
  swFix : Byte
  swInt : Byte
  deviceHi : Byte
  deviceLo : Byte
  vendorHi : Byte
  vendorLo : Byte
  mac : List Byte
  ip : U32
  bigHost : Bool
deriving DecidableEq

def swap16 (v : U16) : U16 := (v <<< 8) ||| (v >>> 8)

def swap32 (v : U32) : U32 :=
  ((v &&& 0xFF) <<< 24) ||| ((v &&& 0xFF00) <<< 8) ||| ((v >>> 8) &&& 0xFF00) ||| (v >>> 24)

/-- `htons` on a big-endian or little-endian processor. -/
def htons (big : Bool) (v : U16) : U16 := if big then v else swap16 v

/-- `htonl`. -/
def htonl (big : Bool) (v : U32) : U32 := if big then v else swap32 v

/-- `uuid_object` (src/device/pf_cmrpc_epm.c:27-33). -/
def uuidNil : RpcUuid := ⟨0, 0, 0, 0, 0, List.replicate 6 0⟩
/-- `uuid_epmap_interface` (src/device/pf_cmrpc_epm.c:35-41). -/
def uuidEpm : RpcUuid := ⟨0xE1AF8308, 0x5D1F, 0x11C9, 0x91, 0xA4, [0x08, 0x00, 0x2B, 0x14, 0xA0, 0xFA]⟩
/-- `uuid_io_device_interface` (src/device/pf_cmrpc_epm.c:43-49). -/
def uuidDevice : RpcUuid := ⟨0xDEA00001, 0x6C97, 0x11D1, 0x82, 0x71, [0x00, 0xA0, 0x24, 0x42, 0xDF, 0x7D]⟩
/-- `uuid_io_object_instance` (src/device/pf_cmrpc_epm.c:51-57). -/
def uuidInstance : RpcUuid := ⟨0xDEA00000, 0x6C97, 0x11D1, 0x82, 0x71, List.replicate 6 0⟩
/-- `uuid_ndr` (src/device/pf_cmrpc_epm.c:59-65). -/
def uuidNdr : RpcUuid := ⟨0x8A885D04, 0x1CEB, 0x11C9, 0x9F, 0xE8, [0x08, 0x00, 0x2B, 0x10, 0x48, 0x60]⟩

/-- pf_generate_epm_handle (src/device/pf_cmrpc_epm.c:73-91): the second and third number are stored in 16 bits. -/
def epmHandle (ts : U32) (mac : List Byte) : RpcUuid where
  low := ts &&& 0x0000FFFF
  mid := (ts &&& 0x00FF0000).setWidth 16
  hi := ((ts &&& 0xFF000000) ||| 0x1000).setWidth 16
  clockHi := 0x80
  clockLow := 0x0C
  node := mac

/-- `pf_floor_uuid_t`. -/
structure FloorUuid where
  protocol : Byte
  uuid : RpcUuid
  major : U16
  minor : U16
deriving DecidableEq

/-- `pf_rpc_tower_t` without the pointer to the configuration. -/
structure Tower where
  floor1 : FloorUuid
  floor2 : FloorUuid
  protocol3 : Byte
  minor3 : U16
  protocol4 : Byte
  port : U16
  protocol5 : Byte
  ip : U32
deriving DecidableEq

/-- pf_init_rpc_tower_entry (src/device/pf_cmrpc_epm.c:100-143) -/
def tower (d : Dev) (epm : Bool) (port : U16) : Tower where
  floor1 := ⟨0x0D, if epm then uuidEpm else uuidDevice, if epm then 3 else 1, 0⟩
  floor2 := ⟨0x0D, uuidNdr, 2, 0⟩
  protocol3 := 0x0A
  minor3 := 0
  protocol4 := 0x08
  port := htons d.bigHost port
  protocol5 := 0x09
  ip := htonl d.bigHost d.ip

/-- `pf_rpc_lookup_rsp_t`. -/
structure Rsp where
  entryHandle : U32
  handle : RpcUuid
  num : U32
  maxCount : U32
  offset : U32
  actual : U32
  object : RpcUuid
  tower : Tower
  code : U32
deriving DecidableEq

/-- The answer before it is filled, in pf_cmrpc_lookup_request (src/device/pf_cmrpc_epm.c:334-383). -/
def Rsp.none : Rsp :=
  ⟨0, uuidNil, 0, 1, 0, 0, uuidNil, ⟨⟨0, uuidNil, 0, 0⟩, ⟨0, uuidNil, 0, 0⟩, 0, 0, 0, 0, 0, 0⟩, 0x16C9A0D6⟩

/-- pf_cmrdr_add_epmv4_entry (src/device/pf_cmrpc_epm.c:155-185) -/
def addEpm (d : Dev) (ts : U32) (r : Rsp) : Rsp :=
  { r with
    entryHandle := 0, handle := epmHandle ts d.mac, num := r.num + 1, object := uuidNil, offset := 0,
    actual := r.actual + 1, maxCount := r.actual + 1, tower := tower d true 0x8894, code := 0 }

/-- pf_cmrdr_add_pnio_entry (src/device/pf_cmrpc_epm.c:197-246) -/
def addPnio (d : Dev) (ts : U32) (r : Rsp) : Rsp :=
  { r with
    entryHandle := 0, handle := epmHandle ts d.mac, num := r.num + 1, actual := r.actual + 1, offset := 0,
    object := { uuidInstance with node := [0x00, 0x01, d.deviceHi, d.deviceLo, d.vendorHi, d.vendorLo] },
    tower := tower d false 0xC003, code := 0 }

/-- pf_cmrpc_lookup_request (src/device/pf_cmrpc_epm.c:334-383) with pf_cmrdr_inquiry_read_all_reg_ind (src/device/pf_cmrpc_epm.c:264-319): the answer, and whether the session is to
be killed. -/
def lookup (d : Dev) (ts : U32) (seq : U32) (q : Lookup) : Rsp × Bool :=
  if q.maxEntries = 0 then (Rsp.none, false)
  else if q.inquiry = 0 then
    if seq = 0 then (addEpm d ts Rsp.none, false)
    else if seq = 1 then (addPnio d ts Rsp.none, false)
    else (Rsp.none, true)
  else (Rsp.none, false)

/-! ## The bytes of the answer -/

/-- pf_put_rpc_uuid (src/device/pf_block_writer.c:161-179) -/
def putRpcUuid (be : Bool) (u : RpcUuid) : W :=
  putU32 be u.low ;; putU16 be u.mid ;; putU16 be u.hi ;; putByte u.clockHi ;; putByte u.clockLow ;; putMem u.node

/-- pf_put_rpc_floor_1_uuid (src/device/pf_block_writer.c:4439-4476), pf_put_rpc_floor_2_uuid (src/device/pf_block_writer.c:4486-4494) -/
def putFloorUuid (be : Bool) (f : FloorUuid) : W :=
  putU16 be 19 ;; putByte f.protocol ;; putRpcUuid be f.uuid ;; putU16 be f.major ;; putU16 be 2 ;; putU16 be f.minor

/-- pf_put_rpc_floor_3_rpc (src/device/pf_block_writer.c:4504-4533) -/
def putFloor3 (be : Bool) (t : Tower) : W :=
  putU16 be 1 ;; putByte t.protocol3 ;; putU16 be 2 ;; putU16 be t.minor3

/-- pf_put_rpc_floor_4_udp (src/device/pf_block_writer.c:4543-4567) -/
def putFloor4 (be : Bool) (t : Tower) : W :=
  putU16 be 1 ;; putByte t.protocol4 ;; putU16 be 2 ;; putU16 be t.port

/-- pf_put_rpc_floor_5_ip (src/device/pf_block_writer.c:4577-4601) -/
def putFloor5 (be : Bool) (t : Tower) : W :=
  putU16 be 1 ;; putByte t.protocol5 ;; putU16 be 4 ;; putU32 be t.ip

/-- The last `k` decimal digits of a number, without leading zeros. -/
def digits : Nat → Nat → List Byte
  | 0, _ => []
  | k + 1, n => (if n < 10 then [] else digits k (n / 10)) ++ [BitVec.ofNat 8 (48 + n % 10)]

/-- `%<w>u` of `snprintf` (numbers of at most 32 bits have at most ten digits). -/
def fmtNum (w n : Nat) : List Byte :=
  List.replicate (w - (digits 10 n).length) 0x20 ++ digits 10 n

/-- `%-<w>s` of `snprintf`. -/
def fmtStr (w : Nat) (s : List Byte) : List Byte := s ++ List.replicate (w - s.length) 0x20

/-- The text that `snprintf` would print in pf_put_rpc_epm_annotation (src/device/pf_block_writer.c:4625-4656). -/
def text (d : Dev) : List Byte :=
  fmtStr 25 d.productName ++ [0x20] ++ fmtStr 20 d.orderId ++ [0x20] ++ fmtNum 5 d.hwRev.toNat ++ [0x20] ++
    [d.swPrefix] ++ fmtNum 3 d.swFun.toNat ++ fmtNum 3 d.swFix.toNat ++ fmtNum 3 d.swInt.toNat

/-- The array in pf_put_rpc_epm_annotation (src/device/pf_block_writer.c:4625-4656): the text, cut to the array, with termination.  The text fills the
array because of the minimum widths. -/
def annotation (d : Dev) : List Byte := (text d).take 63 ++ [0]

/-- pf_put_tower_entry (src/device/pf_block_writer.c:4666-4750) with pf_put_rpc_floor_count (src/device/pf_block_writer.c:4421-4429) and pf_put_rpc_epm_annotation (src/device/pf_block_writer.c:4625-4656) -/
def putTower (be : Bool) (d : Dev) (t : Tower) : W :=
  putU32 be 3 ;; putU32 be 0 ;; putU32 be 64 ;; putMem (annotation d) ;; putU32 be 75 ;; putU32 be 75 ;; putU16 be 5 ;;
    putFloorUuid be t.floor1 ;; putFloorUuid be t.floor2 ;; putFloor3 be t ;; putFloor4 be t ;; putFloor5 be t

/-- pf_put_rpc_handle (src/device/pf_block_writer.c:4760-4780) -/
def putHandle (be : Bool) (e : U32) (u : RpcUuid) : W := putU32 be e ;; putRpcUuid be u

/-- pf_put_rpc_epm_entry (src/device/pf_block_writer.c:4792-4822) -/
def putEntry (be : Bool) (d : Dev) (r : Rsp) : W :=
  putU32 be r.maxCount ;; putU32 be r.offset ;; putU32 be r.actual ;;
    (if r.actual.toNat > 0 then putRpcUuid be r.object ;; putTower be d r.tower else fun w => some w)

/-- pf_put_lookup_response_data (src/device/pf_block_writer.c:4824-4862) -/
def putRsp (be : Bool) (d : Dev) (r : Rsp) : W := fun w =>
  (putHandle be r.entryHandle r.handle ;; putU32 be r.num ;; putEntry be d r ;; putPaddingAlign w.pos 2 ;;
    putU32 be r.code) w

/-- The body of the answer: what is put behind the RPC header, which ends at `start`, into an output buffer of
`cap` bytes. -/
def bodyOf (d : Dev) (r : Rsp) (cap start : Nat) : Option (List Byte) :=
  (putRsp false d r ⟨List.replicate cap 0, cap, start⟩).map fun w => (w.buf.drop start).take (w.pos - start)

/-! ## Sessions -/

/-- The members of `pf_session_info_t` used here.  `timer`: `epm_timeout` is running. -/
structure Sess where
  uuid : Uuid
  seq : U32
  timer : Bool
deriving DecidableEq

/-- The table of sessions: `none` is one that is not in use. -/
abbrev Table := List (Option Sess)

/-- pf_session_locate_by_uuid (src/device/pf_cmrpc.c:627-652) -/
def locate (u : Uuid) (t : Table) : Option Nat := t.findIdx? fun s => s.any fun x => x.uuid == u

/-- The session of a message: the index and the session; a new one is allocated if necessary
(src/device/pf_cmrpc.c:4336-4349, pf_session_allocate (src/device/pf_cmrpc.c:502-550)). -/
def session (u : Uuid) (t : Table) : Option (Nat × Sess) :=
  match locate u t with
  | some i => (t[i]?.join).map fun s => (i, s)
  | none => (t.findIdx? Option.isNone).map fun i => (i, ⟨u, 0, false⟩)

/-- The events.  Times are those of `os_get_current_time_us`. -/
inductive Ev where
  /-- A request for the endpoint mapper with this body.  `timer`: pf_scheduler_add succeeds. -/
  | request (u : Uuid) (body : List Byte) (ts : U32) (timer : Bool)
  /-- Another message of the activity; the session is kept or killed. -/
  | other (u : Uuid) (keep : Bool)
  /-- The session is released for another reason (pf_session_release (src/device/pf_cmrpc.c:560-597)). -/
  | release (u : Uuid)
  /-- The timer of the session expires (pf_session_epm_timeout (src/device/pf_cmrpc.c:608-616)). -/
  | timeout (u : Uuid)
deriving DecidableEq

def Ev.activity : Ev → Uuid
  | .request u _ _ _ => u
  | .other u _ => u
  | .release u => u
  | .timeout u => u

/-- The branch of pf_cmrpc_dce_packet (src/device/pf_cmrpc.c:4288-5092) for the endpoint mapper (src/device/pf_cmrpc.c:4665-4704) with
pf_cmrpc_lookup_ind (src/device/pf_cmrpc.c:3106-3147) for a message without error: the session after it and the answer.  Errors of the parser
are not looked at. -/
def epmBranch (d : Dev) (body : List Byte) (ts : U32) (timer : Bool) (s : Sess) : Option (Option Sess × Rsp) :=
  (getLookup ⟨body, false, body.length, false, .ok, 0⟩).map fun q =>
    let x := lookup d ts s.seq q.1
    if x.2 then (none, x.1) else (some { s with seq := s.seq + 1, timer := timer }, x.1)

/-- Free the session of an activity. -/
def drop (u : Uuid) (t : Table) : Table :=
  match locate u t with
  | some i => t.set i none
  | none => t

/-- An answer that was sent: activity, time, contents. -/
abbrev Ans := Uuid × U32 × Rsp

/-- One event. -/
def step (d : Dev) (t : Table) : Ev → Option (Table × List Ans)
  | .request u body ts timer =>
    match session u t with
    | some (i, s) => (epmBranch d body ts timer s).map fun x => (t.set i x.1, [(u, ts, x.2)])
    | none => some (t, [])
  | .other u keep =>
    match session u t with
    | some (i, s) => some (t.set i (if keep then some s else none), [])
    | none => some (t, [])
  | .release u => some (drop u t, [])
  | .timeout u =>
    match session u t with
    | some (i, s) => some (if s.timer then t.set i none else t, [])
    | none => some (t, [])

/-- A history. -/
def run (d : Dev) (t : Table) : List Ev → Option (Table × List Ans)
  | [] => some (t, [])
  | e :: es => (step d t e).bind fun x => (run d x.1 es).map fun y => (y.1, x.2 ++ y.2)

end Verif.Epm
