import Verif.Write.Model
import Verif.Read.Model
/-!
Model of the bytes of the response to a write request.
Source: src/device/pf_block_writer.c, src/device/pf_cmrpc.c.

Simplified: which result blocks there are and what they say comes from `writeInd` (Verif/Write/Model.lean), which
keeps only the first half of a status; the other half and the additional data words of each block (`More`) may
have any value.  The numbers are big-endian, as for all responses (src/device/pf_cmrpc.c:4590-4592).
-/
namespace Verif.Write
open Verif.Wire
open Verif.DiagRead (each)
open Verif.Read (putNdr)

/-- What `writeInd` leaves out of a result block: `error_code_1`, `error_code_2`, `add_data_1`, `add_data_2`. -/
structure More where
  code1 : Byte
  code2 : Byte
  add1 : U16
  add2 : U16
deriving DecidableEq

/-- `pnet_pnio_status_t`. -/
def whole (s : Status) (code1 code2 : Byte) : Wire.Status := ⟨s.code, s.decode, code1, code2⟩

/-- pf_put_write_result (src/device/pf_block_writer.c:2528-2593).  `record_data_length` is always zero (src/device/pf_cmrpc.c:3437). -/
def putResult (x : Res × More) : W :=
  putBlock true 0x8008
    (putU16 true x.1.seqNmb ;; putUuid true x.1.uuid ;; putU32 true x.1.api ;; putU16 true x.1.slot ;; putU16 true x.1.subslot ;;
      putByte 0 ;; putByte 0 ;; putU16 true x.1.index ;; putU32 true 0 ;; putU16 true x.2.add1 ;; putU16 true x.2.add2 ;;
      putStatus true (whole x.1.status x.2.code1 x.2.code2) ;; putPadding 16)

/-- The response buffer in pf_cmrpc_rm_write_ind (src/device/pf_cmrpc.c:3355-3608): status and lengths as known before the writes, the result blocks, and
then, if the first block could be read (`parsed`), the lengths and the status once more.  `first` is the status
before the writes. -/
def reply (ndr : Ndr) (parsed : Bool) (first last : Wire.Status) (blocks : List (Res × More)) (w : Wr) : Option Wr :=
  (putStatus true first w).bind fun w1 =>
    (putNdr true ndr w1).bind fun w2 =>
      (each putResult blocks w2).bind fun w3 =>
        if parsed then
          let n := BitVec.ofNat 32 (w3.pos - w2.pos)
          (putNdr true { ndr with argsLen := n, actual := n } { w3 with pos := w1.pos }).bind fun w4 =>
            (putStatus true last { w4 with pos := w.pos }).map fun w5 => { w5 with pos := w3.pos }
        else some w3

/-- The parse result of the first block in pf_cmrpc_rm_write_ind (src/device/pf_cmrpc.c:3355-3608). -/
def parsed (r : Rd) : Bool :=
  match interpret zeroReq r with
  | some (_, r') => r'.err == .ok
  | none => false

/-- The status after the first block has been looked at (pf_cmrpc_rm_write_interpret_ind (src/device/pf_cmrpc.c:3159-3203)). -/
def statusBefore (st : Status) (r : Rd) : Status :=
  match interpret zeroReq r with
  | some (.unknown, _) => errWritePnio
  | _ => st

/-- The result blocks with what `writeInd` leaves out of them: `more k` belongs to the `k`-th block. -/
def withMore (more : Nat → More) (l : List Res) : List (Res × More) := l.zipIdx.map fun x => (x.1, more x.2)

/-- pf_cmrpc_rm_write_ind (src/device/pf_cmrpc.c:3355-3608): what is done and the response.  `ends` are the second halves of the status before and after the
writes. -/
def writeRsp (env : Env) (fuel : Nat) (ndr : Ndr) (st : Status) (r : Rd) (more : Nat → More) (ends : (Byte × Byte) × Byte × Byte)
    (w : Wr) : Option (Out × Wr) :=
  (writeInd env fuel ndr.argsLen st r).bind fun o =>
    (reply ndr (parsed r) (whole (statusBefore st r) ends.1.1 ends.1.2) (whole o.status ends.2.1 ends.2.2)
      (withMore more o.blocks) w).map fun w' => (o, w')

end Verif.Write
