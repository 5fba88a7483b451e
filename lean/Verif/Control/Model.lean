import Verif.ConnRsp.Model
import Verif.Rpc.Model
import Verif.Wire.Interp

/-! Model of the contents of release, DControl and CControl messages.
Source: src/device/pf_cmrpc.c.
What the requests do to the states of a connection is in area Startup; here it is given by an `Env`.  Numbers are in big-endian
order behind the NDR header (src/device/pf_cmrpc.c:4590-4592).  Log output is left out.  `none` is an access outside an array or an
endless loop. -/
set_option linter.unusedVariables false

namespace Verif.Control
open Verif.Wire hiding ExpApi ExpMod ExpSub
open Verif.Read (Result setError putNdr)
open Verif.DiagRead (skip)

/-! ## Blocks of a message -/

/-- What differs between the three interpreters: the block types accepted, the command required, and the errors set for unknown
blocks, wrong lengths, a wrong command and a parse error. -/
structure Kind where
  types : List U16
  command : U16
  unknown : Status
  badLen : Status
  badCmd : Status
  badParse : Status

/-- pf_cmrpc_rm_release_interpret_req (src/device/pf_cmrpc.c:2129-2235); numbers at include/pnet_api.h:122-245, src/pf_types.h:552-560 and 799-805. -/
def release : Kind := ⟨[0x0114], 4, ⟨0xDB, 0x81, 0x40, 1⟩, ⟨0xDC, 0x81, 0x40, 0⟩, ⟨0xDC, 0x81, 0x40, 6⟩, ⟨0xDC, 0x81, 0x40, 0⟩⟩

/-- pf_cmrpc_rm_dcontrol_interpret_req (src/device/pf_cmrpc.c:2462-2573). -/
def dcontrol : Kind :=
  ⟨[0x0118, 0x0110, 0x0111], 1, ⟨0xDD, 0x81, 0x40, 1⟩, ⟨0xDD, 0x81, 0x40, 0⟩, ⟨0xDD, 0x81, 0x14, 8⟩, ⟨0xDD, 0x81, 0x40, 0⟩⟩

/-- pf_cmrpc_rm_ccontrol_interpret_cnf (src/device/pf_cmrpc.c:4012-4128). -/
def ccontrol : Kind :=
  ⟨[0x8112, 0x8113], 8, ⟨0xDD, 0x81, 0x40, 1⟩, ⟨0xDD, 0x81, 0x40, 0⟩, ⟨0xDD, 0x81, 0x40, 6⟩, ⟨0xDD, 0x81, 0x40, 6⟩⟩

/-- The control block read last, with the type of its header (`block_type` is not set for releases, and not used), the
return value and `rpc_result`. -/
structure Acc where
  ok : Bool
  type : U16
  ctl : Control
  res : Result
deriving DecidableEq

/-- The `while` loop of the three interpreters; the first argument bounds the rounds. -/
def loop (k : Kind) : Nat → Acc → P Acc
  | 0, _ => outside
  | n + 1, a => do
    let r ← reader
    if r.err = .ok ∧ r.pos + 6 ≤ r.len then
      let h ← getBlockHeader
      let r1 ← reader
      if r1.err = .ok ∧ r1.pos + h.length.toNat + 4 - 6 ≤ r1.len then
        if h.type ∈ k.types then
          let c ← getControl
          loop k n { a with type := h.type, ctl := c }
        else loop k n { a with ok := false, res := setError k.unknown a.res }
      else loop k n a
    else pure a

/-- The checks behind the loop; `args`: `ndr_data.args_length`, `start`: the position before the loop. -/
def check (k : Kind) (args : U32) (start : Nat) (a : Acc) (r : Rd) : Acc :=
  if a.ok then
    if r.err = .ok then
      if r.pos ≠ r.len then { a with ok := false, res := setError k.badLen a.res }
      else if r.pos - start ≠ args.toNat then { a with ok := false, res := setError k.badLen a.res }
      else if a.ctl.command ≠ k.command then { a with ok := false, res := setError k.badCmd a.res }
      else a
    else { a with ok := false, res := setError k.badParse a.res }
  else a

/-- An interpreter, from a control block `c` (what the caller has put in it) and a result. -/
def interpret (k : Kind) (args : U32) (c : Control) (res : Result) (r : Rd) : Option Acc :=
  (loop k (r.len + 1) ⟨true, 0, c, res⟩ r).map fun x => check k args r.pos x.1 x.2

/-- A control block after `memset`. -/
def nilControl : Control := ⟨Read.nilUuid, 0, 0, 0, 0⟩

/-! ## Responses -/

/-- pf_cmrpc_rm_release_rsp (src/device/pf_cmrpc.c:2252-2341) and pf_cmrpc_rm_dcontrol_rsp (src/device/pf_cmrpc.c:2588-2678): status, lengths, the block (without it if
the status is an error); returns also `ndr_data`. -/
def answer (ndr : Ndr) (s : Status) (body : W) (w : Wr) : Option (Wr × Ndr) :=
  (putStatus true s w).bind fun w1 =>
    (putNdr true ndr w1).bind fun w2 =>
      ((if s.code = 0 then body else skip) w2).bind fun w3 =>
        let n := BitVec.ofNat 32 (w3.pos - w2.pos)
        let ndr' := { ndr with argsLen := n, actual := n }
        (putNdr true ndr' { w3 with pos := w1.pos }).map fun (w4 : Wr) => ({ w4 with pos := w3.pos }, ndr')

/-- The command becomes "done" (BIT (PF_CONTROL_COMMAND_BIT_DONE)). -/
def done (c : Control) : Control := { c with command := 8 }

/-! ## Release -/

/-- The table of connections: pf_ar_find_by_uuid (src/device/pf_cmrpc.c:813-840); pf_cmdev_rm_release_ind (src/device/pf_cmdev.c:4893-4939): the result it leaves;
pf_plugsm_prmend_ind (src/device/pf_plugsm.c:100-146): the result; pf_cmdev_rm_dcontrol_ind (src/device/pf_cmdev.c:4941-5014): the result, `none` if it has aborted the connection and
the request came over its session: pf_cmrpc_cmdev_state_ind (src/device/pf_cmrpc.c:5222-5276) then has released the session (not if the request is a release).  The
return values are not used. -/
structure Env (A : Type) where
  find : Uuid → Option A
  released : A → Result → Result
  plugEnd : A → Result → Result
  prmEnd : A → Control → Result → Option Result

variable {A : Type}

/-- What is done to connections. -/
inductive Act (A : Type) where
  | release (a : A)
  | plugEnd (a : A)
  | prmEnd (a : A) (c : Control)
  | plugReady (a : A)
  | ready (a : A) (c : Control)

/-- `PNET_ERROR_CODE_RELEASE`, ... `CMRPC_AR_UUID_UNKNOWN`, `CMRPC_STATE_CONFLICT`. -/
def noAr (code : Byte) : Status := ⟨code, 0x81, 0x40, 5⟩
def conflict : Status := ⟨0xDC, 0x81, 0x40, 6⟩

/-- pf_cmrpc_rm_release_ind (src/device/pf_cmrpc.c:2357-2450): the response, what is done, the status answered. -/
def releaseInd (e : Env A) (ndr : Ndr) (res : Result) (r : Rd) (w : Wr) : Option (Wr × List (Act A) × Status) :=
  (answer ndr res.status (putControl true 0x8114 (done nilControl)) w).bind fun (w1, ndr1) =>
    if res.status.code ≠ 0 then
      (putStatus true conflict { w1 with pos := w.pos }).map fun (w2 : Wr) => ({ w2 with pos := w1.pos }, [], conflict)
    else
      (interpret release ndr1.argsLen (done nilControl) res r).bind fun x =>
        if x.ok then
          match e.find x.ctl.uuid with
          | some a =>
            (answer ndr1 x.res.status (putControl true 0x8114 (done x.ctl)) { w1 with pos := w.pos }).bind fun (w2, _) =>
              let s := (e.released a x.res).status
              (putStatus true s { w2 with pos := w.pos }).map fun (w3 : Wr) => ({ w3 with pos := w1.pos }, [.release a], s)
          | none =>
            (putStatus true (noAr 0xDC) { w1 with pos := w.pos }).map fun (w2 : Wr) =>
              ({ w2 with pos := w1.pos }, [], noAr 0xDC)
        else
          (putStatus true x.res.status { w1 with pos := w.pos }).map fun (w2 : Wr) =>
            ({ w2 with pos := w1.pos }, [], x.res.status)

/-! ## DControl -/

/-- The members of `pf_session_info_t` used to detect repetitions; pf_session_allocate (src/device/pf_cmrpc.c:502-550) sets the number to UINT32_MAX. -/
structure Last where
  seq : U32
  res : Result
deriving DecidableEq

def noLast : Last := ⟨0xFFFFFFFF, Read.noResult⟩

/-- What becomes of a request: an answer with a status, or none.  If the session has been released in between, all of it is zero
(pf_session_release (src/device/pf_cmrpc.c:560-597)): there is no address and no socket (-1) left that the answer could be sent to.  What is written to the output
buffer of the released session is left out. -/
inductive Reply where
  | sent (w : Wr) (s : Status)
  | lost

/-- The control block of the answer. -/
def dcontrolBlock (x : Acc) : W := putControl true (if x.type = 0x0111 then 0x8111 else 0x8110) (done x.ctl)

/-- pf_cmrpc_rm_dcontrol_ind (src/device/pf_cmrpc.c:2702-2784), after the interpretation: `rpc_result` (`none`: the session is gone), what is called, and what is
remembered. -/
def carryOut (e : Env A) (seq : U32) (last : Last) (x : Acc) : Option Result × List (Act A) × Last :=
  if x.ok then
    if last.seq ≠ seq then
      match e.find x.ctl.uuid with
      | some a =>
        if x.type = 0x0111 then (some (e.plugEnd a x.res), [.plugEnd a], ⟨seq, e.plugEnd a x.res⟩)
        else
          match e.prmEnd a x.ctl x.res with
          | some z => (some z, [.prmEnd a x.ctl], ⟨seq, z⟩)
          | none => (none, [.prmEnd a x.ctl], ⟨seq, Read.noResult⟩)
      | none => (some (setError (noAr 0xDD) x.res), [], ⟨seq, setError (noAr 0xDD) x.res⟩)
    else (some last.res, [], last)
  else (some x.res, [], last)

/-- pf_cmrpc_rm_dcontrol_ind (src/device/pf_cmrpc.c:2702-2784).  `seq`: `sequence_nmb` of the RPC header. -/
def dcontrolInd (e : Env A) (ndr : Ndr) (seq : U32) (last : Last) (res : Result) (r : Rd) (w : Wr) :
    Option (Reply × List (Act A) × Last) :=
  (interpret dcontrol ndr.argsLen nilControl res r).bind fun x =>
    match (carryOut e seq last x).1 with
    | some z => (answer ndr z.status (dcontrolBlock x) w).map fun (w1, _) => (.sent w1 z.status, (carryOut e seq last x).2)
    | none => some (.lost, (carryOut e seq last x).2)

/-! ## CControl -/

/-- The members of `pf_ar_t` that go into the request; `alarmSeq`: `alpmx[0].prev_sequence_number`; `act`: the activity
UUID of the new session. -/
structure Ready where
  initiator : Uuid
  uuid : Uuid
  key : U16
  alarmSeq : U16
  diff : List Device.ApiDiff
  act : Uuid

/-- The RPC header of the request. -/
def readyHeader (a : Ready) : RpcHeader :=
  { version := 4, packetType := 0, lastFragment := false, fragment := false, noFack := false, maybe := false, idempotent := true,
    broadcast := false, cancelPending := false, isBe := true, floatRepr := 0, reserved := 0, serialHigh := 0, objUuid := a.initiator,
    ifUuid := ⟨0xdea00002, 0x6c97, 0x11d1, [0x82, 0x71, 0x00, 0xa0, 0x24, 0x42, 0xdf, 0x7d]⟩, actUuid := a.act, bootTime := 0,
    ifVersion := 1, seqNmb := 0, opnum := 4, ifHint := 0xffff, actHint := 0xffff, lengthOfBody := 0, fragmentNmb := 0, auth := 0,
    serialLow := 0 }

/-- The five numbers of the NDR header of a request. -/
def putNdr5 (n : Ndr) : W := putU32 true n.argsMax ;; putU32 true n.argsLen ;; putU32 true n.maxCount ;; putU32 true n.offset ;; putU32 true n.actual

/-- pf_cmrpc_rm_ccontrol_req (src/device/pf_cmrpc.c:3741-4000): `out_buffer` and `out_buf_len`, and how many bytes the first datagram has.
`plug`: the block type is PF_BT_APPRDY_PLUG_ALARM_REQ. -/
def readyReq (c : Rpc.Cfg) (plug : Bool) (a : Ready) : Option (List Byte × Nat × Nat) :=
  (Rpc.putHdr (readyHeader a) ⟨List.replicate c.cap 0, c.cap, 0⟩).bind fun (w0, lp) =>
    (putNdr5 ⟨0, 0, 0, 0, 0⟩ w0).bind fun w1 =>
      let max : U32 := BitVec.ofNat 32 c.maxUdp - BitVec.ofNat 32 w1.pos
      (putControl true (if plug then 0x0113 else 0x0112) ⟨a.uuid, a.key, if plug then a.alarmSeq else 0, 2, 0⟩ w1).bind fun w2 =>
        (ConnRsp.putArDiff a.diff w2).bind fun w3 =>
          let len : U32 := BitVec.ofNat 32 (w3.pos - w1.pos)
          let send := if w3.pos < c.maxUdp then w3.pos else c.maxUdp
          ((if w3.pos < c.maxUdp then some (w3, lp)
            else Rpc.putHdr { readyHeader a with fragment := true } ⟨w3.buf, c.maxUdp, 0⟩).bind fun (w4, lp') =>
              (putU16 true (BitVec.ofNat 16 (send - w0.pos)) ⟨w4.buf, c.maxUdp, lp'⟩).bind fun w5 =>
                (putNdr5 ⟨max, len, max, 0, len⟩ ⟨w5.buf, c.maxUdp, w0.pos⟩).map fun w6 => (w6.buf, w3.pos, send))

/-- The results of pf_plugsm_application_ready_cnf (src/device/pf_plugsm.c:179-233), pf_cmdev_rm_ccontrol_cnf (src/device/pf_cmdev.c:5016-5088) and pf_cmpbe_rm_ccontrol_cnf (src/device/pf_cmpbe.c:241-267) (return value 0). -/
structure Cnf where
  plug : Bool
  cmdev : Bool
  cmpbe : Bool

/-- pf_cmrpc_rm_ccontrol_cnf (src/device/pf_cmrpc.c:4145-4225) for the connection `a` of the session: what is done, return value 0 or not, and whether the session is ended. -/
def readyCnf (o : Cnf) (ndr : Ndr) (a : A) (res : Result) (r : Rd) : Option (List (Act A) × Bool × Bool) :=
  (interpret ccontrol ndr.argsLen nilControl res r).map fun x =>
    if x.ok then
      if x.ctl.command = 8 then
        if x.type = 0x8113 then ([.plugReady a], o.plug, true)
        else if o.cmdev then ([.ready a x.ctl], o.cmpbe, o.cmpbe)
        else ([.ready a x.ctl], false, false)
      else ([], false, false)
    else ([], false, false)

end Verif.Control
