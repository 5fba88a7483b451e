import Verif.Wire.Codec
/-!
Model of the processing of record write requests, single and multiple.
Source: src/device/pf_cmrpc.c, src/device/pf_cmwrr.c.

Simplified: the state that decides which writes are allowed (connections, their states, APIs, owners of
submodules) is given by an `Env` and does not change during one request; the functions that take the
record (application callback, I&M, port data) are one oracle `ans`, called with the request, the position
of the record in the request buffer and its length.  The response is the list of its result blocks and its
status; their place in the response buffer and the additional data words are left out, as are the second
halves of the status (`error_code_1`, `error_code_2`).  A result `none` is an endless loop or an access
outside an array.
-/
set_option linter.unusedVariables false

namespace Verif.Write
open Verif.Wire

/-- The first two bytes of `pnet_pnio_status_t`: error code and error decode; both zero is "no error". -/
structure Status where
  code : Byte
  decode : Byte
deriving DecidableEq

def noError : Status := ⟨0, 0⟩

/-- One call of a function that takes a record: the request, the place of the record in the buffer, and the
length that is passed. -/
structure Call where
  req : WriteReq
  pos : Nat
  len : Nat
deriving DecidableEq

/-- What such a function answers. -/
inductive Answer where
  | ok
  | fail (s : Status)
deriving DecidableEq

/-- What decides about writes. -/
structure Env where
  /-- pf_ar_find_by_uuid succeeds. -/
  arKnown : Uuid → Bool
  /-- pf_cmdev_get_api succeeds. -/
  apiKnown : U32 → Bool
  /-- The connection is in state STARTUP or DATA and is no backup. -/
  accepts : Uuid → Bool
  /-- The submodule exists and does not belong to the connection. -/
  denied : WriteReq → Bool
  /-- The answer to a call, which may depend on how many calls there were before. -/
  ans : Nat → Call → Answer

/-- `pf_iod_write_result_t`. -/
structure Res where
  seqNmb : U16
  uuid : Uuid
  api : U32
  slot : U16
  subslot : U16
  index : U16
  status : Status
deriving DecidableEq

def zeroUuid : Uuid := ⟨0, 0, 0, List.replicate 8 0⟩
def zeroReq : WriteReq := ⟨0, zeroUuid, 0, 0, 0, 0, 0⟩
def zeroRes : Res := ⟨0, zeroUuid, 0, 0, 0, 0, noError⟩

/-- The names of a request, with a status. -/
def resOf (q : WriteReq) (s : Status) : Res := ⟨q.seqNmb, q.uuid, q.api, q.slot, q.subslot, q.index, s⟩

/-- The data of one request: reader, calls so far, current result block, current status, and whether the
session will be closed. -/
structure S where
  r : Rd
  calls : List Call
  res : Res
  stat : Status
  kill : Bool
deriving DecidableEq

/-- PNET_ERROR_CODE_WRITE with PNET_ERROR_DECODE_PNIORW / PNET_ERROR_DECODE_PNIO,
PNET_ERROR_CODE_PNIO with PNET_ERROR_DECODE_PNIORW (include/pnet_api.h:116-138). -/
def errWrite : Status := ⟨0xDF, 0x80⟩
def errWritePnio : Status := ⟨0xDF, 0x81⟩
def errState : Status := ⟨0x81, 0x80⟩

/-- The result of looking at one block. -/
inductive Interp where
  | ok (q : WriteReq)
  | unknown
  | bad
deriving DecidableEq

/-- The part of pf_cmrpc_rm_write_interpret_ind (src/device/pf_cmrpc.c:3159-3203) after the block header has been read. -/
def interpretBlock (old : WriteReq) (h : BlockHeader) (r : Rd) : Option (Interp × Rd) :=
  if r.pos + h.length.toNat + 4 - 6 ≤ r.len ∧ r.err = .ok then
    if h.type = 0x0008 then (getWriteReq r).map fun x => (.ok x.1, x.2)
    else if h.type = 0x0250 then some (.ok old, r)
    else some (.unknown, r)
  else some (.bad, r)

/-- pf_cmrpc_rm_write_interpret_ind (src/device/pf_cmrpc.c:3159-3203).  `old` is what the request structure holds before. -/
def interpret (old : WriteReq) (r : Rd) : Option (Interp × Rd) :=
  if r.pos + 6 ≤ r.len then
    (getBlockHeader r).bind fun x => interpretBlock old x.1 x.2
  else some (.bad, r)

/-- The record indexes for which pf_cmwrr_write has a function: those of the application, I&M 0 to 15, and three
of the port and interface data (src/device/pf_cmwrr.c:226-276). -/
def handled (i : U16) : Bool :=
  decide (i.toNat ≤ 0x7fff) || decide (0xaff0 ≤ i.toNat ∧ i.toNat ≤ 0xafff) ||
    i == 0x802b || i == 0x802f || i == 0x8071

/-- Who takes the record, in pf_cmwrr_write (src/device/pf_cmwrr.c:173-297). -/
def deliver (env : Env) (c : Call) (s : S) : Bool × S :=
  if env.denied c.req then (false, { s with stat := errWrite })
  else if handled c.req.index then
    match env.ans s.calls.length c with
    | .ok => (true, { s with calls := s.calls ++ [c] })
    | .fail e => (false, { s with calls := s.calls ++ [c], stat := e })
  else (false, s)

/-- `*p_req_pos += n` for a uint16_t. -/
def advance (n : Nat) (s : S) : S := { s with r := { s.r with pos := (s.r.pos + n) % 65536 } }

/-- pf_cmwrr_write (src/device/pf_cmwrr.c:173-297).  `dl` is the uint16_t length that is passed. -/
def cmwrrWrite (env : Env) (q : WriteReq) (dl : Nat) (s : S) : Bool × S :=
  let x := deliver env ⟨q, s.r.pos, dl⟩ s
  (x.1, advance dl x.2)

/-- pf_cmwrr_rm_write_ind (src/device/pf_cmwrr.c:299-381).  (pf_cmsm_cm_write_ind, src/device/pf_cmsm.c:303-339, succeeds in both of its states.) -/
def cmwrrInd (env : Env) (q : WriteReq) (dl : Nat) (s : S) : Bool × S :=
  let s := { s with res := resOf q s.res.status }
  if env.accepts q.uuid then cmwrrWrite env q dl s else (false, { s with stat := errState })

/-- pf_set_error_if_not_already_set (src/device/pf_cmrpc.c:909-952) after a failure. -/
def ifNotSet (x : Bool × S) : Bool × S :=
  if x.1 then x
  else if x.2.stat = noError then (false, { x.2 with stat := errWrite }) else x

/-- pf_cmrpc_perform_one_write (src/device/pf_cmrpc.c:3220-3336), the decisions. -/
def performCore (env : Env) (q : WriteReq) (s : S) : Option (Bool × S) :=
  if env.arKnown q.uuid = false then some (false, { s with stat := errWritePnio, kill := true })
  else if q.api ≠ 0 ∧ env.apiKnown q.api = false then some (false, { s with stat := errWrite })
  else if (s.r.pos + q.length.toNat) % 2 ^ 32 ≤ s.r.len then
    if q.index.toNat ≤ 0x7fff then
      some (ifNotSet (cmwrrInd env q (q.length.toNat % 65536) s))
    else
      (getBlockHeader s.r).map fun x =>
        ifNotSet (cmwrrInd env q ((q.length.toNat + 65530) % 65536) { s with r := x.2 })
  else some (false, { s with stat := errWrite })

/-- The end of pf_cmrpc_perform_one_write (src/device/pf_cmrpc.c:3220-3336): the status of a failure goes into the result block. -/
def setRes (x : Bool × S) : Bool × S :=
  if x.1 then x else (false, { x.2 with res := { x.2.res with status := x.2.stat } })

/-- pf_cmrpc_perform_one_write (src/device/pf_cmrpc.c:3220-3336). -/
def performOne (env : Env) (q : WriteReq) (s : S) : Option (Bool × S) := (performCore env q s).map setRes

/-- The position is moved up to a multiple of four (src/device/pf_cmrpc.c:3497-3501). -/
def align (s : S) : S := { s with r := { s.r with pos := (s.r.pos + 3) / 4 * 4 % 65536 } }

/-- One turn of the loop of a multiple write after a block has been read (src/device/pf_cmrpc.c:3482-3504). -/
def turn (env : Env) (q : WriteReq) (s : S) : Option (Bool × S) :=
  (performOne env q s).map fun x => (x.1, { align x.2 with stat := noError })

/-- The loop of a multiple write (src/device/pf_cmrpc.c:3468-3504).  `q0` is the request of the turn before, `blocks` the
result blocks so far, `ret` whether the last write succeeded. -/
def multi (env : Env) : Nat → WriteReq → Bool → List Res → S → Option (Bool × List Res × S)
  | 0, _, _, _, _ => none
  | n + 1, q0, ret, blocks, s =>
    if s.r.pos + 58 < s.r.len ∧ s.res.status.code = 0 then
      match interpret q0 s.r with
      | none => none
      | some (.ok q, r) =>
        match turn env q { s with r := r } with
        | none => none
        | some (ok, s') => multi env n q ok (blocks ++ [s'.res]) s'
      | some (_, r) => some (ret, blocks, { s with r := r })
    else some (ret, blocks, s)

/-- What a write request leads to: the calls, the result blocks and the status of the response, and whether
the session is closed. -/
structure Out where
  calls : List Call
  blocks : List Res
  status : Status
  kill : Bool
deriving DecidableEq

/-- The comparison with `args_length` (src/device/pf_cmrpc.c:3532-3566), after the write. -/
def argsOk (start : Nat) (args : U32) (r : Rd) : Bool :=
  r.err == .ok && decide ((r.pos + (2 ^ 32 - start)) % 2 ^ 32 = args.toNat)

/-- The status of the response. -/
def finalStatus (ret : Bool) (start : Nat) (args : U32) (r : Rd) (st : Status) : Status :=
  if ret && !argsOk start args r then errWritePnio else st

/-- A single write within pf_cmrpc_rm_write_ind (src/device/pf_cmrpc.c:3355-3608). -/
def single (env : Env) (start : Nat) (args : U32) (q : WriteReq) (s : S) : Option Out :=
  (performOne env q s).map fun x =>
    ⟨x.2.calls, [x.2.res], finalStatus x.1 start args x.2.r x.2.stat, x.2.kill⟩

/-- A multiple write within pf_cmrpc_rm_write_ind (src/device/pf_cmrpc.c:3355-3608); `st` is the status of the request. -/
def multiple (env : Env) (fuel start : Nat) (args : U32) (q : WriteReq) (st : Status) (r : Rd) : Option Out :=
  (multi env fuel zeroReq true [resOf q st] ⟨r, [], zeroRes, noError, false⟩).map fun x =>
    ⟨x.2.2.calls, x.2.1, finalStatus (x.1 && decide (x.2.2.r.pos = x.2.2.r.len)) start args x.2.2.r st, x.2.2.kill⟩

/-- pf_cmrpc_rm_write_ind (src/device/pf_cmrpc.c:3355-3608).  `r` reads the request at the first block, `args` is the `args_length` of the
request, `st` the status it already carries (an error if fragments of it are missing).  The loop of a
multiple write is cut off after `fuel` turns. -/
def writeInd (env : Env) (fuel : Nat) (args : U32) (st : Status) (r : Rd) : Option Out :=
  (interpret zeroReq r).bind fun x =>
    match x.1 with
    | .unknown => some ⟨[], [], errWritePnio, false⟩
    | .bad => some ⟨[], [], st, false⟩
    | .ok q =>
      if x.2.err ≠ .ok then some ⟨[], [], st, false⟩
      else if q.index = 0xe040 then multiple env fuel r.pos args q st x.2
      else single env r.pos args q ⟨x.2, [], resOf q st, st, false⟩

end Verif.Write
