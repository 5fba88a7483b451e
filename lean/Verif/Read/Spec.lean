import Verif.Read.Model
import Verif.DiagRead.Emit

/-! Specification of read requests and their answers. -/
set_option linter.unusedVariables false

namespace Verif.Read
open Verif.Wire hiding ExpApi ExpMod ExpSub
open Verif.DiagRead (Holds)

/-! ## On the wire -/

/-- A read request block: header, sequence number, connection, place, index, length, target connection, padding. -/
def encReq (h : BlockHeader) (q : ReadReq) (p2 p8 : List Byte) : List Byte :=
  encBlockHeader true h ++ enc16 true q.seqNmb ++ encUuid true q.uuid ++ enc32 true q.api ++ enc16 true q.slot ++
    enc16 true q.subslot ++ p2 ++ enc16 true q.index ++ enc32 true q.length ++ encUuid true q.target ++ p8

/-- The rest of the message in the receive buffer is exactly one read request for `q`.  The block length may be smaller
than the size of the block, which is not checked. -/
def Requests (ndr : Ndr) (r : Rd) (q : ReadReq) : Prop :=
  ∃ (h : BlockHeader) (p2 p8 : List Byte), h.type = 0x0009 ∧ h.length.toNat ≤ 60 ∧ q.uuid.d4.length = 8 ∧
    q.target.d4.length = 8 ∧ p2.length = 2 ∧ p8.length = 8 ∧ slice r.buf r.pos (r.len - r.pos) = some (encReq h q p2 p8) ∧
    ndr.argsLen.toNat = 64

/-- Error codes of answers (error code 0xDE: reading failed; 0x80: reported by the record access service, 0x81: by the
connection): no such index; write-only; no such API; name of connection missing; reading without a connection not allowed. -/
def saysInvalidIndex : Status := ⟨0xDE, 0x80, 0xB0, 10⟩
def saysNotSupported : Status := ⟨0xDE, 0x80, 0xA9, 0⟩
def saysUnknownApi : Status := ⟨0xDE, 0x80, 0xB4, 6⟩
def saysNoUuid : Status := ⟨0xDE, 0x81, 0x08, 0x05⟩
def saysNotImplicit : Status := ⟨0xDE, 0x81, 0x40, 0x05⟩

/-- Error code, error decode, error code 1, error code 2. -/
def encStatus (s : Status) : List Byte := [s.code, s.decode, s.code1, s.code2]

/-- The block that precedes the record: names from the request, length of the record, additional values. -/
def encHead (q : ReadReq) (n : Nat) (add1 add2 : U16) : List Byte :=
  encBlockHeader true ⟨0x8009, 60, 1, 0⟩ ++ enc16 true q.seqNmb ++ encUuid true q.uuid ++ enc32 true q.api ++
    enc16 true q.slot ++ enc16 true q.subslot ++ [0, 0] ++ enc16 true q.index ++ enc32 true (BitVec.ofNat 32 n) ++
    enc16 true add1 ++ enc16 true add2 ++ List.replicate 20 0

/-- The answer: status, length of the blocks (twice; in between the values of the request), block with the names, record. -/
def encAnswer (ndr : Ndr) (q : ReadReq) (res : Result) (record : List Byte) : List Byte :=
  let n := enc32 true (BitVec.ofNat 32 (64 + record.length))
  encStatus res.status ++ (n ++ enc32 true ndr.maxCount ++ enc32 true ndr.offset ++ n) ++
    encHead q record.length res.add1 res.add2 ++ record

/-! ## Buffers -/

/-- The reader is in order and the rest of the message is in big-endian order. -/
def Fit (r : Rd) : Prop := r.be = true ∧ r.err = .ok ∧ r.null = false ∧ r.len ≤ r.buf.length ∧ r.pos ≤ r.len

/-- A response under construction. -/
def Ready (w : Wr) : Prop := w.cap ≤ w.buf.length ∧ w.cap < 65536 ∧ w.pos ≤ w.cap

/-- `bs` has been appended to the response, which is unchanged otherwise. -/
def Appends (w w' : Wr) (bs : List Byte) : Prop :=
  w'.cap = w.cap ∧ w'.buf.length = w.buf.length ∧ w'.pos = w.pos + bs.length ∧ Holds w'.buf w.pos bs ∧
    ∀ i, i < w.pos ∨ w.cap ≤ i → w'.buf[i]? = w.buf[i]?

/-- Nothing outside the free part of the response buffer has been changed. -/
def Within (w w' : Wr) : Prop :=
  w'.cap = w.cap ∧ w'.buf.length = w.buf.length ∧ w.pos ≤ w'.pos ∧ w'.pos ≤ w.cap ∧
    ∀ i, i < w.pos ∨ w.cap ≤ i → w'.buf[i]? = w.buf[i]?

/-- A function that builds the record `bs` and returns `ok` if there is room, and stays within the buffer in any case. -/
def Makes (r : Rec) (ok : Bool) (bs : List Byte) : Prop :=
  ∀ w, Ready w → ∃ ok' w', r w = some (ok', w') ∧ Within w w' ∧
    (w.pos + bs.length ≤ w.cap → ok' = ok ∧ Appends w w' bs)

/-! ## Which reads are carried out, and for which connection -/

/-- A read is carried out for connection `ar`.  An explicit read names its connection and must not name the nil UUID; it
is carried out also if there is no such connection.  An implicit read must not name an existing connection; it may name
one as its target. -/
def CarriedOut {A : Type} (e : Env A) (implicit : Bool) (q : ReadReq) (ar : Option A) : Prop :=
  (q.api = 0 ∨ e.apiKnown q.api = true) ∧
  ((implicit = false ∧ q.uuid ≠ nilUuid ∧ ar = e.find q.uuid) ∨
   (implicit = true ∧ e.find q.uuid = none ∧ ar = e.find q.target))

end Verif.Read
