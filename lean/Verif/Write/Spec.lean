import Verif.Write.Model
/-!
What a controller sends as a write request, and what it may expect to happen.  Nothing here refers to the
position arithmetic or the loop of the model.
-/
namespace Verif.Write
open Verif.Wire

/-- A write of one record: the write request header and the bytes that follow it. -/
structure Item where
  req : WriteReq
  data : List Byte

/-- The request states the length of its data; other records than those of the application begin with a block
header of six bytes. -/
structure Item.Wf (it : Item) : Prop where
  uuid : it.req.uuid.d4.length = 8
  length : it.req.length.toNat = it.data.length
  header : 0x7fff < it.req.index.toNat → 6 ≤ it.data.length

/-- Number of bytes between the write request header and the record. -/
def Item.skip (it : Item) : Nat := if it.req.index.toNat ≤ 0x7fff then 0 else 6

/-- The record. -/
def Item.record (it : Item) : List Byte := it.data.drop it.skip

/-- The write request header: 58 bytes. -/
def encWriteReq (be : Bool) (q : WriteReq) : List Byte :=
  enc16 be q.seqNmb ++ (encUuid be q.uuid ++ (enc32 be q.api ++ (enc16 be q.slot ++ (enc16 be q.subslot ++
    ([0, 0] ++ (enc16 be q.index ++ (enc32 be q.length ++ List.replicate 24 0)))))))

/-- A block IODWriteReqHeader. -/
def encHead (be : Bool) (q : WriteReq) : List Byte := encBlockHeader be ⟨0x0008, 60, 1, 0⟩ ++ encWriteReq be q

/-- A block IODWriteReqHeader with its data. -/
def encItem (be : Bool) (it : Item) : List Byte := encHead be it.req ++ it.data

/-- Bytes up to the next multiple of four. -/
def padding (n : Nat) : List Byte := List.replicate ((4 - n % 4) % 4) 0

/-- The writes of a multiple write.  Each is filled up to a multiple of four bytes, the last one if `padLast`. -/
def encItems (be padLast : Bool) : List Item → List Byte
  | [] => []
  | [it] => encItem be it ++ (if padLast then padding it.data.length else [])
  | it :: it' :: l => encItem be it ++ padding it.data.length ++ encItems be padLast (it' :: l)

/-- A multiple write: a header with index 0xE040, then the writes. -/
def encMulti (be padLast : Bool) (q : WriteReq) (items : List Item) : List Byte :=
  encHead be q ++ encItems be padLast items

/-- The request whose blocks are `bs` has been received: the reader is at their first byte, and they end with the
request. -/
structure Sent (be : Bool) (bs : List Byte) (r : Rd) : Prop where
  err : r.err = .ok
  null : r.null = false
  be : r.be = be
  len : r.len = r.pos + bs.length
  bytes : slice r.buf r.pos bs.length = some bs

/-- The records that can be written: those of the application (0 to 0x7FFF), I&M 0 to 15 (0xAFF0 to 0xAFFF), checks of
the peers (0x802B), adjustments of ports (0x802F) and of the interface (0x8071). -/
def Writable (i : U16) : Prop :=
  i.toNat < 0x8000 ∨ i.toNat / 16 = 0xaff ∨ i = 0x802b ∨ i = 0x802f ∨ i = 0x8071

instance (i : U16) : Decidable (Writable i) := by unfold Writable; infer_instance

/-- Refused because of the state of the connection (error code 0x81, "PNIO"); refused access (0xDF: writing failed, 0x80:
by the record access service). -/
def saysState : Status := ⟨0x81, 0x80⟩
def saysRefused : Status := ⟨0xDF, 0x80⟩

/-- Why a record is not even offered to the function that would take it, if the connection and the API exist. -/
def refused (env : Env) (q : WriteReq) : Option Status :=
  if env.accepts q.uuid = false then some saysState
  else if env.denied q = true ∨ ¬ Writable q.index then some saysRefused
  else none

/-- The writes that are looked at, each with its status and whether it was offered to the function that takes the
record; `a` are the answers of these functions.  The first failure is the last. -/
def expected (env : Env) (a : Nat → Answer) : Nat → List Item → List (Item × Status × Bool)
  | _, [] => []
  | k, it :: l =>
    match refused env it.req with
    | some e => [(it, e, false)]
    | none =>
      match a k with
      | .ok => (it, ⟨0, 0⟩, true) :: expected env a (k + 1) l
      | .fail e => [(it, e, true)]

end Verif.Write
