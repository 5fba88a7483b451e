import Verif.Records.Model
import Verif.Connect.Model
import Verif.Device.Diff

/-! Model of the answer to a connect request.
Source: src/device/pf_cmrpc.c, src/device/pf_cmdev.c, src/device/pf_block_writer.c.
Simplified: requests in big-endian order. -/

namespace Verif.ConnRsp
open Verif.Wire hiding ExpApi ExpMod ExpSub
open Verif.DiagRead (n16 n32 each skip)
open Verif.Device (ApiDiff ModDiff SubDiff)

/-! ## What is answered -/

/-- A CR of the request: its reference, and what matters for the choice of the frame ID (`pf_iocr_param_t` (src/pf_types.h)). -/
structure CrReq where
  ref : U16
  cr : Connect.Cr
deriving DecidableEq

/-- The request as stored in `pf_ar_t` by pf_cmrpc_rm_connect_interpret_ind (src/device/pf_cmrpc.c:1220-1760): the members that are used for the answer.  `rpc`:
there was a block with an RPC server; `vendors`: structure identifier and API of each vendor block. -/
structure Req where
  arType : U16
  uuid : Uuid
  key : U16
  deviceAccess : Bool
  advanced : Bool
  crs : List CrReq
  alarmType : U16
  rpc : Bool
  vendors : List (U32 × U32)
deriving DecidableEq

/-- `pf_iocr_result_t` (src/pf_types.h). -/
structure CrRes where
  type : U16
  ref : U16
  frameId : U16
deriving DecidableEq

/-- `pf_alarm_cr_result_t` (src/pf_types.h). -/
structure AlarmRes where
  type : U16
  ref : U16
  maxLen : U16
deriving DecidableEq

/-- The results in `pf_ar_t`.  `name`: `cm_responder_station_name`, the first `length_cm_responder_station_name` bytes; `rpcPort`:
`responder_rpc_server_port`; `vendorData`: `data_response` of the vendor blocks.  The last two are never assigned. -/
structure Res where
  mac : List Byte
  udpPort : U16
  crs : List CrRes
  alarm : AlarmRes
  diff : List ApiDiff
  rpcPort : U16
  name : List Byte
  vendorData : List Byte
deriving DecidableEq

/-- The results of an AR that has just been allocated (`memset` in pf_ar_allocate (src/device/pf_cmrpc.c:704-751)) and has `n` CRs. -/
def Res.zero (n : Nat) : Res :=
  { mac := List.replicate 6 0, udpPort := 0, crs := List.replicate n ⟨0, 0, 0⟩, alarm := ⟨0, 0, 0⟩, diff := [], rpcPort := 0,
    name := [], vendorData := [] }

/-! ## Writers -/

/-- pf_put_ar_result (src/device/pf_block_writer.c:333-385). -/
def putArRes (q : Req) (r : Res) : W :=
  putBlock true 0x8101 (putU16 true q.arType ;; putUuid true q.uuid ;; putU16 true q.key ;; putMem r.mac ;; putU16 true r.udpPort)

/-- pf_put_iocr_result (src/device/pf_block_writer.c:387-432). -/
def putCrRes (c : CrRes) : W := putBlock true 0x8102 (putU16 true c.type ;; putU16 true c.ref ;; putU16 true c.frameId)

/-- pf_put_alarm_cr_result (src/device/pf_block_writer.c:434-478). -/
def putAlarmRes (a : AlarmRes) : W := putBlock true 0x8103 (putU16 true a.type ;; putU16 true a.ref ;; putU16 true a.maxLen)

/-- pf_put_submodule_diff (src/device/pf_block_writer.c:508-549); the state as in `Device.SubState.code`. -/
def putSubDiff (z : SubDiff) : W :=
  n16 z.number ;; (if z.state = .missing then n32 0 else n32 z.ident) ;; n16 z.state.code

/-- pf_put_module_diff (src/device/pf_block_writer.c:560-606): four bytes for the number of submodules of a missing module. -/
def putModDiff (m : ModDiff) : W :=
  n16 m.slot ;; (if m.state = .none then n32 0 else n32 m.ident) ;; n16 m.state.code ;;
    (if m.state = .none then n32 0 else n16 m.subs.length ;; each putSubDiff m.subs)

/-- pf_put_api_diff (src/device/pf_block_writer.c:617-638). -/
def putApiDiff (x : ApiDiff) : W := n32 x.api ;; n16 x.mods.length ;; each putModDiff x.mods

/-- pf_put_ar_diff (src/device/pf_block_writer.c:640-693). -/
def putArDiff (r : List ApiDiff) : W :=
  if r.length > 0 then putBlock true 0x8104 (n16 r.length ;; each putApiDiff r) else skip

/-- pf_put_ar_rpc_result (src/device/pf_block_writer.c:695-727). -/
def putRpcRes (port : U16) : W := putBlock true 0x8107 (putU16 true port)

/-- pf_put_ar_vendor_result (src/device/pf_block_writer.c:773-827). -/
def putVendor (data : List Byte) (v : U32 × U32) : W := fun w =>
  putBlock true 0x8108
    (putU32 true v.1 ;; putU32 true v.2 ;; n16 data.length ;; putMem data ;; putPaddingAlign w.pos 4) w

/-- The blocks of a positive answer in pf_cmrpc_rm_connect_rsp (src/device/pf_cmrpc.c:1772-1948). -/
def putBlocks (q : Req) (r : Res) : W :=
  putArRes q r ;; each putCrRes r.crs ;; putAlarmRes r.alarm ;;
    (if r.diff.length > 0 then putArDiff r.diff else skip) ;;
    (if q.rpc then putRpcRes r.rpcPort else skip) ;;
    (if q.advanced then putArServer true r.name ;; each (putVendor r.vendorData) q.vendors else skip)

/-- The part of pf_cmrpc_rm_connect_rsp (src/device/pf_cmrpc.c:1772-1948) behind `start_pos`. -/
def putBody : Option (Req × Res) → W
  | none => skip
  | some (q, r) => putBlocks q r

/-- pf_cmrpc_rm_connect_rsp (src/device/pf_cmrpc.c:1772-1948).  `body`: the connection, if the return code is 0; none if it is not. -/
def connectRsp (ndr : Wire.Ndr) (s : Status) (body : Option (Req × Res)) (w : Wr) : Option Wr :=
  (putStatus true s w).bind fun w1 =>
    (Read.putNdr true ndr w1).bind fun w2 =>
      (putBody body w2).bind fun w3 =>
        let n := BitVec.ofNat 32 (w3.pos - w2.pos)
        (Read.putNdr true { ndr with argsLen := n, actual := n } { w3 with pos := w1.pos }).map fun (w4 : Wr) =>
          { w4 with pos := w3.pos }

/-! ## Where the results come from -/

/-- What the device has and does.  `ars`: the table of connections, in which the new one (with its CRs) is at `i`; `eps`: the
alarm endpoints; `diff`: the result of pf_cmdev_generate_module_diff (src/device/pf_cmdev.c:4264-4412) (`Device.moduleDiff`); `check`: the result of
pf_cmdev_check_apdu (src/device/pf_cmdev.c:4154-4262), an error or none; `app`: whether the connect callback returns 0, and the status it leaves;
`started`: the result of pf_cmsu_start_req (src/device/pf_cmsu.c:179-274).  If it is false because no timer is left, the answer built here is not sent: `connectReply` in Reply.lean. -/
structure Env where
  maxAr : Nat
  ars : List Connect.Ar
  i : Nat
  eps : List (Option Nat)
  mac : List Byte
  name : List Byte
  diff : List ApiDiff
  check : Option Status
  app : Bool × Status
  started : Bool

/-- pf_alarm_allocate_endpoint (src/common/pf_alarm.c:684-698): the reference, counted from 1, or 0; and the endpoints. -/
def allocate (i : Nat) : List (Option Nat) → Nat × List (Option Nat)
  | [] => (0, [])
  | none :: l => (1, some i :: l)
  | some j :: l => let r := allocate i l; ((if r.1 = 0 then 0 else r.1 + 1), some j :: r.2)

/-- `PF_UDP_UNICAST_PORT`, `PF_MAX_ALARM_DATA_LEN` (src/pf_types.h). -/
def udpPort : U16 := 0x8892
def maxAlarm : U16 := 200

/-- `PNET_ERROR_CODE_CONNECT`, `PNET_ERROR_DECODE_PNIO`, `PNET_ERROR_CODE_1_CMRPC`, `PNET_ERROR_CODE_2_CMRPC_PDEV_ALREADY_OWNED`. -/
def alreadyOwned : Status := ⟨0xDB, 0x81, 0x40, 0x09⟩

/-- The middle part of pf_cmdev_rm_connect_ind (src/device/pf_cmdev.c:4822-4891): the results, the table with the frame IDs and the endpoints. -/
def fill (e : Env) (q : Req) : Option (Res × List Connect.Ar × List (Option Nat)) :=
  (Connect.fixFrameIds e.maxAr e.ars e.i).map fun ars =>
    let crs := ((ars[e.i]?).map Connect.Ar.crs).getD []
    let ep := allocate e.i e.eps
    ({ Res.zero 0 with
        mac := e.mac, udpPort := udpPort
        crs := List.zipWith (fun (c : CrReq) (x : Connect.Cr) => (⟨BitVec.ofNat 16 x.type, c.ref, x.frameId⟩ : CrRes)) q.crs crs
        alarm := ⟨q.alarmType, BitVec.ofNat 16 ep.1, maxAlarm⟩
        diff := e.diff, name := e.name }, ars, ep.2)

/-- What is left when a connect request has been handled, before the answer is built. -/
structure Out where
  ret : Bool
  status : Status
  res : Res
  ars : List Connect.Ar
  eps : List (Option Nat)

/-- pf_cmdev_rm_connect_ind (src/device/pf_cmdev.c:4822-4891) with pf_cmdev_cm_connect_rsp_neg (src/device/pf_cmdev.c:4712-4730), which returns 0, and pf_cmdev_cm_connect_rsp_pos (src/device/pf_cmdev.c:4741-4799). -/
def cmdevConnect (e : Env) (q : Req) : Option Out :=
  match e.check with
  | some s' => some ⟨true, s', Res.zero q.crs.length, e.ars, e.eps⟩
  | none =>
    (fill e q).map fun (r, ars, eps) =>
      if e.app.1 then
        if q.deviceAccess then ⟨true, e.app.2, r, ars, eps⟩
        else if e.started then ⟨true, e.app.2, r, ars, eps⟩
        else ⟨false, alreadyOwned, r, ars, eps⟩
      else ⟨true, e.app.2, r, ars, eps⟩

/-- pf_cmrpc_rm_connect_ind (src/device/pf_cmrpc.c:1974-2117).  `pre`: the request was refused before CMDEV (error of the session, no free connection, error in
the request, duplicate), with this status.  Returns the response, and the table and the endpoints as they were used for
it.  Simplified: what happens to the connections after the answer has been built is in `Startup.connect` and
`Device.connect`. -/
def connectInd (e : Env) (q : Req) (pre : Option Status) (ndr : Ndr) (w : Wr) : Option (Wr × Status × List Connect.Ar × List (Option Nat)) :=
  match pre with
  | some s => (connectRsp ndr s none w).map fun w' => (w', s, e.ars, e.eps)
  | none =>
    (cmdevConnect e q).bind fun o =>
      (connectRsp ndr o.status (if o.ret then some (q, o.res) else none) w).map fun w' => (w', o.status, o.ars, o.eps)

end Verif.ConnRsp
