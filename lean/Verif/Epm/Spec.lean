import Verif.Wire.Codec
import Verif.Epm.Model

/-!
Specification of the endpoint mapper: what a client sees.  Independent of the functions of the model: byte lists
written down as in the protocol, numbers with the encodings of Verif/Wire/Codec.lean.
-/

namespace Verif.Epm.Spec
open Verif.Wire Verif.Epm

/-! ## Requests -/

def encHandle (h : Handle) : List Byte :=
  enc32 false h.handle ++ enc32 false h.timeLow ++ enc16 false h.timeMid ++ enc16 false h.timeHi ++
    [h.clockHi, h.clockLow] ++ h.node

/-- A lookup request on the wire. -/
def encLookup (q : Lookup) : List Byte :=
  enc32 false q.inquiry ++ enc32 false q.objId ++ encUuid false q.objUuid ++ enc32 false q.ifId ++
    encUuid false q.ifUuid ++ enc16 false q.verMajor ++ enc16 false q.verMinor ++ enc32 false q.verOption ++
    encHandle q.handle ++ enc32 false q.maxEntries

/-- `body` starts with the lookup request `q`. -/
def Carries (body : List Byte) (q : Lookup) : Prop :=
  q.objUuid.d4.length = 8 ∧ q.ifUuid.d4.length = 8 ∧ q.handle.node.length = 6 ∧ ∃ rest, body = encLookup q ++ rest

/-- A request for the next of all endpoints. -/
def AsksNext (body : List Byte) : Prop := ∃ q, Carries body q ∧ q.inquiry = 0 ∧ q.maxEntries ≠ 0

/-- A well-formed request for something else. -/
def AsksOther (body : List Byte) : Prop := ∃ q, Carries body q ∧ (q.inquiry ≠ 0 ∨ q.maxEntries = 0)

/-! ## Answers -/

inductive Kind where
  | mapper | device | finished
deriving DecidableEq

/-- The answers to the requests of one client, in turn. -/
def kindAt (i : Nat) : Kind := if i % 3 = 0 then .mapper else if i % 3 = 1 then .device else .finished

/-- 8A885D04-1CEB-11C9-9FE8-08002B104860 version 2 (NDR) as a floor. -/
def floorNdr : List Byte :=
  [19, 0, 0x0D, 0x04, 0x5D, 0x88, 0x8A, 0xEB, 0x1C, 0xC9, 0x11, 0x9F, 0xE8, 0x08, 0x00, 0x2B, 0x10, 0x48, 0x60, 2, 0,
    2, 0, 0, 0]

/-- E1AF8308-5D1F-11C9-91A4-08002B14A0FA version 3 (endpoint mapper) as a floor. -/
def floorMapper : List Byte :=
  [19, 0, 0x0D, 0x08, 0x83, 0xAF, 0xE1, 0x1F, 0x5D, 0xC9, 0x11, 0x91, 0xA4, 0x08, 0x00, 0x2B, 0x14, 0xA0, 0xFA, 3, 0,
    2, 0, 0, 0]

/-- DEA00001-6C97-11D1-8271-00A02442DF7D version 1 (IO device) as a floor. -/
def floorDevice : List Byte :=
  [19, 0, 0x0D, 0x01, 0x00, 0xA0, 0xDE, 0x97, 0x6C, 0xD1, 0x11, 0x82, 0x71, 0x00, 0xA0, 0x24, 0x42, 0xDF, 0x7D, 1, 0,
    2, 0, 0, 0]

/-- The object UUID of the device: DEA00000-6C97-11D1-8271-0001 and the identifiers of device and vendor. -/
def objectDevice (d : Dev) : List Byte :=
  [0x00, 0x00, 0xA0, 0xDE, 0x97, 0x6C, 0xD1, 0x11, 0x82, 0x71, 0x00, 0x01, d.deviceHi, d.deviceLo, d.vendorHi,
    d.vendorLo]

/-- The context handle, for a time in microseconds. -/
def handle (ts : Nat) (mac : List Byte) : List Byte :=
  [0, 0, 0, 0] ++ [BitVec.ofNat 8 (ts % 256), BitVec.ofNat 8 (ts / 256 % 256), 0, 0, 0, 0, 0x00, 0x10, 0x80, 0x0C] ++ mac

/-- Address and port in the order in which they are sent: network byte order, on a processor that is little-endian. -/
def order (big : Bool) (bs : List Byte) : List Byte := if big then bs.reverse else bs

/-- An answer with one endpoint. -/
def entry (d : Dev) (ts : Nat) (object floor1 port note : List Byte) : List Byte :=
  handle ts d.mac ++ [1, 0, 0, 0] ++ [1, 0, 0, 0] ++ [0, 0, 0, 0] ++ [1, 0, 0, 0] ++ object ++
    [3, 0, 0, 0] ++ [0, 0, 0, 0] ++ [64, 0, 0, 0] ++ note ++ [75, 0, 0, 0] ++ [75, 0, 0, 0] ++ [5, 0] ++ floor1 ++
    floorNdr ++ [1, 0, 0x0A, 2, 0, 0, 0] ++ ([1, 0, 0x08, 2, 0] ++ order d.bigHost port) ++
    ([1, 0, 0x09, 4, 0] ++ order d.bigHost (enc32 true d.ip)) ++ [0] ++ [0, 0, 0, 0]

/-- The body of the answer of each kind; `note` is the annotation. -/
def body (d : Dev) (ts : Nat) (note : List Byte) : Kind → List Byte
  | .mapper => entry d ts (List.replicate 16 0) floorMapper [0x88, 0x94] note
  | .device => entry d ts (objectDevice d) floorDevice [0xC0, 0x03] note
  | .finished => List.replicate 20 0 ++ [0, 0, 0, 0] ++ [1, 0, 0, 0] ++ [0, 0, 0, 0] ++ [0, 0, 0, 0] ++
      [0xD6, 0xA0, 0xC9, 0x16]

/-! ## The annotation -/

/-- The value of decimal digits. -/
def value (ds : List Byte) : Nat := ds.foldl (fun a b => a * 10 + (b.toNat - 48)) 0

/-- `bs` is the number `n`, right-aligned with spaces, without leading zeros. -/
def IsNumber (bs : List Byte) (n : Nat) : Prop :=
  ∃ k ds, bs = List.replicate k 0x20 ++ ds ∧ ds ≠ [] ∧ (∀ b ∈ ds, 48 ≤ b.toNat ∧ b.toNat ≤ 57) ∧ value ds = n ∧
    (ds.head? = some 48 → ds.length = 1)

/-- `bs` is the text `s`, left-aligned, filled with spaces. -/
def IsText (bs s : List Byte) : Prop := ∃ k, bs = s ++ List.replicate k 0x20

/-- The columns of the annotation: product name (25), order number (20), hardware revision (5), prefix (1) and three
numbers (3 each) of the software revision, with a blank behind each of the first three, and termination. -/
def IsNote (d : Dev) (bs : List Byte) : Prop :=
  ∃ name order hw f x i,
    bs = name ++ [0x20] ++ order ++ [0x20] ++ hw ++ [0x20] ++ [d.swPrefix] ++ f ++ x ++ i ++ [0] ∧
    name.length = 25 ∧ order.length = 20 ∧ hw.length = 5 ∧ f.length = 3 ∧ x.length = 3 ∧ i.length = 3 ∧
    IsText name d.productName ∧ IsText order d.orderId ∧ IsNumber hw d.hwRev.toNat ∧ IsNumber f d.swFun.toNat ∧
    IsNumber x d.swFix.toNat ∧ IsNumber i d.swInt.toNat

/-- The limits that the types of the configuration set. -/
structure DevOk (d : Dev) : Prop where
  name : d.productName.length ≤ 25
  order : d.orderId.length ≤ 20
  mac : d.mac.length = 6

/-! ## Histories -/

/-- Of the activity `u` there are only requests for the next endpoint. -/
def OnlyNext (u : Uuid) (es : List Ev) : Prop :=
  ∀ e ∈ es, e.activity = u → ∃ b ts timer, e = .request u b ts timer ∧ AsksNext b

/-- The answers to an activity. -/
def to (u : Uuid) (l : List Ans) : List Ans := l.filter fun x => x.1 == u

/-- The activity has a session. -/
def HasSession (u : Uuid) (t : Table) : Prop := ∃ s, some s ∈ t ∧ s.uuid = u

/-- The answer on the wire is the answer of this kind, with a correct annotation, in every output buffer with room. -/
def Says (d : Dev) (a : Ans) (k : Kind) : Prop :=
  ∃ note, IsNote d note ∧ note.length = 64 ∧
    ∀ cap start, start + 216 ≤ cap → bodyOf d a.2.2 cap start = some (body d a.2.1.toNat note k)

end Verif.Epm.Spec
