import Verif.Ident.Model

/-!
Model of the read service: interpretation of the request, choice of the connection, the call of the
application, the frame of the response.
Source: src/device/pf_cmrpc.c:2796-3088, src/device/pf_cmrdr.c:39-850, src/device/pf_fspm.c:659-846.

Records with an index above 0x7FFF are built by functions that belong to other areas; here they are given by an
`Env`.  What a read changes in the state of the connection (supervision, end of the session) is modelled in area
Startup.  Locks and log output are left out.  `none` is the access through a null pointer, an access outside an
array, or an endless loop.
-/
set_option linter.unusedVariables false

namespace Verif.Read
open Verif.Wire hiding ExpApi ExpMod ExpSub

/-- `pnet_result_t` (include/pnet_api.h). -/
structure Result where
  status : Status
  add1 : U16
  add2 : U16
deriving DecidableEq

/-- The result after `memset` (src/device/pf_cmrpc.c:4363). -/
def noResult : Result := ⟨⟨0, 0, 0, 0⟩, 0, 0⟩

/-- pf_set_error (src/device/pf_cmrpc.c:872-907). -/
def setError (s : Status) (r : Result) : Result := { r with status := s }

/-- The errors set by the read service (include/pnet_api.h:116-250): the record cannot be read, no callback for
records of the application, API unknown, no connection named, connection named in an implicit read, wrong
length, wrong block, earlier error. -/
def invalidIndex : Status := ⟨0xDE, 0x80, 0xB0, 10⟩
def notSupported : Status := ⟨0xDE, 0x80, 0xA9, 0⟩
def unknownApi : Status := ⟨0xDE, 0x80, 0xB4, 6⟩
def noUuid : Status := ⟨0xDE, 0x81, 0x08, 0x05⟩
def notImplicit : Status := ⟨0xDE, 0x81, 0x40, 0x05⟩
def badLength : Status := ⟨0xDE, 0x81, 0x40, 0x00⟩
def badBlock : Status := ⟨0xDE, 0x81, 0x08, 0x01⟩
def conflict : Status := ⟨0xDE, 0x81, 0x40, 0x06⟩

/-- A call of the application's read callback: connection, place, index, sequence number and maximum length. -/
structure Call (A : Type) where
  ar : A
  api : U32
  slot : U16
  subslot : U16
  index : U16
  seqNmb : U16
  max : Nat

/-- What the callback returns: success or not, the bytes it points to (as many as it says), and the contents of
`p_result`. -/
structure Supply where
  ok : Bool
  data : List Byte
  result : Result

/-- A function that builds a record in the response: whether it succeeds, and the response. -/
abbrev Rec := Wr → Option (Bool × Wr)

/-- What the answer depends on. -/
structure Env (A : Type) where
  /-- pf_ar_find_by_uuid (src/device/pf_cmrpc.c:813-840). -/
  find : Uuid → Option A
  /-- pf_cmdev_get_api succeeds. -/
  apiKnown : U32 → Bool
  /-- The application's callback, called with the result structure as it is. -/
  app : Option (Call A → Result → Supply)
  /-- The cases of pf_cmrdr_rm_read_ind (src/device/pf_cmrdr.c:39-850) for the indices above 0x7FFF; `none` for the default case. -/
  stock : Option A → ReadReq → Option Rec

variable {A : Type}

/-- pf_fspm_cm_read_ind (src/device/pf_fspm.c:659-846) for the records of the application: the data, if there are any, the result, and the calls.
`max`: `*p_read_length`.  The pointer to the connection is dereferenced.  (I&M data and log book belong to the
stock records; the result is not used for them if the record can be built, and overwritten if not.) -/
def fspmRead (e : Env A) (ar : Option A) (q : ReadReq) (max : Nat) (res : Result) :
    Option (List Byte × Result × List (Call A)) :=
  if q.index.toNat ≤ 0x7FFF then
    match e.app with
    | none => some ([], setError notSupported res, [])
    | some f =>
      match ar with
      | none => none
      | some a =>
        let c : Call A := ⟨a, q.api, q.slot, q.subslot, q.index, q.seqNmb, max⟩
        let s := f c res
        some (if s.ok then s.data else [], s.result, [c])
  else some ([], res, [])

/-- The names in the read result block, see pf_put_read_result (src/device/pf_block_writer.c:1579-1630). -/
def putNames (q : ReadReq) : W :=
  putU16 true q.seqNmb ;; putUuid true q.uuid ;; putU32 true q.api ;; putU16 true q.slot ;; putU16 true q.subslot ;;
  putByte 0 ;; putByte 0 ;; putU16 true q.index

/-- The rest of the read result block, with a record length of 0. -/
def putRest (add1 add2 : U16) : W := putU32 true 0 ;; putU16 true add1 ;; putU16 true add2 ;; putPadding 20

/-- A block of two parts, with the position between them. -/
def posBlock (t : U16) (vh vl : Byte) (nm rs : W) (w : Wr) : Option (Wr × Nat) :=
  (putBlockHeader true t 0 vh vl w).bind fun w1 =>
    (nm w1).bind fun w2 =>
      (rs w2).bind fun w3 =>
        (putU16 true (BitVec.ofNat 16 w3.pos - BitVec.ofNat 16 (w.pos + 4)) { w3 with pos := w.pos + 2 }).map
          fun w4 => ({ w4 with pos := w3.pos }, w2.pos)

/-- pf_put_read_result (src/device/pf_block_writer.c:1579-1630) with the position of the record length. -/
def putReadResult (q : ReadReq) (add1 add2 : U16) (w : Wr) : Option (Wr × Nat) :=
  posBlock 0x8009 1 0 (putNames q) (putRest add1 add2) w

/-- A record of the application is copied (src/device/pf_cmrdr.c:144-153). -/
def putApp (d : List Byte) : Rec := fun w =>
  if w.pos + d.length ≤ w.cap then
    (writeAt w.buf w.pos d).map fun b => (true, { w with buf := b, pos := w.pos + d.length })
  else some (false, w)

/-- The choice of the record in pf_cmrdr_rm_read_ind (src/device/pf_cmrdr.c:39-850). -/
def putRecord (e : Env A) (ar : Option A) (q : ReadReq) (d : List Byte) : Rec := fun w =>
  if q.index.toNat ≤ 0x7FFF then putApp d w
  else
    match e.stock ar q with
    | none => some (false, w)
    | some r => r w

/-- pf_cmrdr_rm_read_ind (src/device/pf_cmrdr.c:39-850).  (pf_cmsm_cm_read_ind, src/device/pf_cmsm.c:270-301, succeeds in both of its states and
without a connection.) -/
def cmrdr (e : Env A) (ar : Option A) (q : ReadReq) (res : Result) (w : Wr) :
    Option (Wr × Result × List (Call A)) :=
  (fspmRead e ar q (w.cap - w.pos) res).bind fun (d, res, calls) =>
    (putReadResult q res.add1 res.add2 w).bind fun (w1, lp) =>
      (putRecord e ar q d w1).bind fun (ok, w2) =>
        (putU32 true (BitVec.ofNat 32 (w2.pos - w1.pos)) { w2 with pos := lp }).map fun w3 =>
          ({ w3 with pos := w2.pos }, if ok then res else setError invalidIndex res, calls)

/-- pf_cmrpc_rm_read_interpret_ind (src/device/pf_cmrpc.c:2796-2885): the request, or the error that is set, if any. -/
def interpret (ndr : Ndr) (r : Rd) : Option (Except (Option Status) ReadReq × Rd) :=
  if r.pos + 6 ≤ r.len ∧ r.err = .ok then
    (getBlockHeader r).bind fun (h, r1) =>
      if r1.pos + h.length.toNat + 4 - 6 ≤ r1.len ∧ r1.err = .ok then
        if h.type = 0x0009 then
          (getReadReq r1).map fun (q, r2) =>
            if r2.err = .ok then
              if r2.pos ≠ r2.len then (.error (some badLength), r2)
              else if r2.pos - r.pos ≠ ndr.argsLen.toNat then (.error (some badLength), r2)
              else (.ok q, r2)
            else (.error (some badLength), r2)
        else some (.error (some badBlock), r1)
      else some (.error none, r1)
  else some (.error none, r)

/-- `implicit_ar` (src/device/pf_cmrpc.c). -/
def nilUuid : Uuid := ⟨0, 0, 0, List.replicate 8 0⟩

/-- The lengths in front of the blocks of a response. -/
def putNdr (be : Bool) (n : Ndr) : W :=
  putU32 be n.argsLen ;; putU32 be n.maxCount ;; putU32 be n.offset ;; putU32 be n.actual

/-- The last branch of pf_cmrpc_rm_read_ind (src/device/pf_cmrpc.c:2908-3088): the read is carried out. -/
def carryOut (e : Env A) (be : Bool) (ndr : Ndr) (ar : Option A) (q : ReadReq) (res : Result) (w : Wr) :
    Option (Wr × Result × List (Call A)) :=
  (putStatus be res.status w).bind fun w1 =>
    (putNdr be ndr w1).bind fun w2 =>
      (cmrdr e ar q res w2).bind fun (w3, res', calls) =>
        let n := BitVec.ofNat 32 (w3.pos - w2.pos)
        (putStatus be res'.status { w3 with pos := w.pos }).bind fun w4 =>
          (putNdr be { ndr with argsLen := n, actual := n } { w4 with pos := w1.pos }).map fun w5 =>
            ({ w5 with pos := w3.pos }, res', calls)

/-- pf_cmrpc_rm_read_ind (src/device/pf_cmrpc.c:2908-3088).  `implicit`: the operation is `PF_RPC_DEV_OPNUM_READ_IMPLICIT`; `r`: the request, at its first
block; `w`: the response, at the end of its RPC header. -/
def readInd (e : Env A) (implicit : Bool) (ndr : Ndr) (res : Result) (r : Rd) (w : Wr) :
    Option (Wr × Result × List (Call A)) :=
  if res.status.code ≠ 0 then some (w, setError conflict res, [])
  else
    (interpret ndr r).bind fun (x, r') =>
      match x with
      | .error none => some (w, res, [])
      | .error (some s) => some (w, setError s res, [])
      | .ok q =>
        if q.uuid = nilUuid ∧ implicit = false then some (w, setError noUuid res, [])
        else if (e.find q.uuid).isSome ∧ implicit = true then some (w, setError notImplicit res, [])
        else if q.api ≠ 0 ∧ e.apiKnown q.api = false then some (w, setError unknownApi res, [])
        else
          let ar := match e.find q.uuid with
            | some a => some a
            | none => if implicit then e.find q.target else none
          carryOut e r'.be ndr ar q res w

end Verif.Read
