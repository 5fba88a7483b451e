import Verif.Control.Model
import Verif.Records.Spec
import Verif.Read.Spec

/-! Specification of release, DControl and CControl messages. -/

namespace Verif.Control
open Verif.Wire
open Verif.Records (num16 num32)

/-! ## On the wire -/

/-- A control block: header, two bytes, connection, session key, alarm sequence number, command, properties. -/
def encCtl (h : BlockHeader) (p : List Byte) (c : Control) : List Byte :=
  encBlockHeader true h ++ p ++ encUuid true c.uuid ++ enc16 true c.sessionKey ++ enc16 true c.alarmSeq ++ enc16 true c.command ++
    enc16 true c.props

/-- The control block of an answer: as in the request, but with the command "done" (8). -/
def encDone (t : U16) (c : Control) : List Byte := encCtl ⟨t, 28, 1, 0⟩ [0, 0] { c with command := 8 }

/-- An answer: status, length of the block (twice; in between the values of the request), block. -/
def encAnswer (ndr : Ndr) (s : Status) (block : List Byte) : List Byte :=
  Read.encStatus s ++ (num32 block.length ++ enc32 true ndr.maxCount ++ enc32 true ndr.offset ++ num32 block.length) ++ block

/-! ## Requests -/

/-- At `off` the message has a control block `c` with type `t` and a block length that does not lead out of the message. -/
def At (r : Rd) (off : Nat) (t : U16) (c : Control) : Prop :=
  ∃ (h : BlockHeader) (p : List Byte), h.type = t ∧ p.length = 2 ∧ c.uuid.d4.length = 8 ∧ off + 4 + h.length.toNat ≤ r.len ∧
    off + 32 ≤ r.len ∧ slice r.buf off 32 = some (encCtl h p c)

/-- The rest of the message is one control block `c` with type `t`.  (The block length can be smaller than the size of the block.) -/
def Message (r : Rd) (t : U16) (c : Control) : Prop := r.len = r.pos + 32 ∧ At r r.pos t c

/-- Somewhere in the rest of the message there is a control block `c` with type `t`. -/
def Contains (r : Rd) (t : U16) (c : Control) : Prop := ∃ off, r.pos ≤ off ∧ At r off t c

/-! ## Application ready request -/

/-- The block with the module difference, if there is one. -/
def encDiff (d : List Device.ApiDiff) : List Byte :=
  if d = [] then [] else Records.encBlock 0x8104 0 (((Device.putDiff d).drop 6).map (BitVec.ofNat 8))

/-- The header of the request: version 4, request, idempotent, big endian; object, interface of the controller, activity; interface version 1,
operation 4 ("control"), no hints; `len` bytes follow in this datagram; `frag`: it is the first of several. -/
def encReadyHeader (a : Ready) (frag : Bool) (len : Nat) : List Byte :=
  [4, 0, if frag then 0x24 else 0x20, 0, 0, 0, 0, 0] ++ encUuid true a.initiator ++
    [0xde, 0xa0, 0x00, 0x02, 0x6c, 0x97, 0x11, 0xd1, 0x82, 0x71, 0x00, 0xa0, 0x24, 0x42, 0xdf, 0x7d] ++ encUuid true a.act ++
    ([0, 0, 0, 0] ++ [0, 0, 0, 1] ++ [0, 0, 0, 0] ++ [0, 4] ++ [0xff, 0xff] ++ [0xff, 0xff] ++ num16 len ++ ([0, 0] ++ [0, 0]))

/-- The request behind the RPC header: lengths, control block with the command "application ready" (2), module difference.
`max`: room for the answer. -/
def encReadyBody (max : Nat) (plug : Bool) (a : Ready) : List Byte :=
  let blocks := encCtl ⟨if plug then 0x0113 else 0x0112, 28, 1, 0⟩ [0, 0] ⟨a.uuid, a.key, if plug then a.alarmSeq else 0, 2, 0⟩ ++ encDiff a.diff
  num32 max ++ num32 blocks.length ++ num32 max ++ num32 0 ++ num32 blocks.length ++ blocks

end Verif.Control
