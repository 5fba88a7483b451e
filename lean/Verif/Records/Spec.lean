import Verif.Records.Model
import Verif.Read.Spec

/-! Specification of the records about cyclic data, connections and the physical device, as bytes. -/
set_option linter.unusedVariables false

namespace Verif.Records
open Verif.Wire hiding ExpApi ExpMod ExpSub

/-- Zeros up to a multiple of four bytes. -/
def pad4 (bs : List Byte) : List Byte := bs ++ List.replicate ((4 - bs.length % 4) % 4) 0

def num8 (n : Nat) : List Byte := [BitVec.ofNat 8 n]
def num16 (n : Nat) : List Byte := enc16 true (BitVec.ofNat 16 n)
def num32 (n : Nat) : List Byte := enc32 true (BitVec.ofNat 32 n)

/-- A block: type, length of what follows, version, contents. -/
def encBlock (t : U16) (low : Byte) (bs : List Byte) : List Byte :=
  enc16 true t ++ num16 (bs.length + 2) ++ [1, low] ++ bs

/-! ## Cyclic data -/

/-- Consumer status, provider status and data, the first two preceded by one byte for their length, the data by two. -/
def encInput (iocs iops data : List Byte) : List Byte :=
  encBlock 0x0015 0 (num8 iocs.length ++ iocs ++ num8 iops.length ++ iops ++ num16 data.length ++ data)

/-- "Substitute not active", lengths, consumer status, data, provider status, and a block with the substitute value. -/
def encOutput (iocs iops data sub : List Byte) : List Byte :=
  encBlock 0x0016 0 (num16 0 ++ num8 iocs.length ++ num8 iops.length ++ num16 data.length ++ iocs ++ data ++ iops ++
    encBlock 0x0014 0 (num16 0 ++ iocs ++ sub ++ iops))

/-! ## Connections -/

/-- Class, type, frame ID, cycle counter (always 0), data status, transfer status (always 0). -/
def encIocr (c : Iocr) : List Byte :=
  enc32 true c.rtClass ++ enc16 true c.type ++ enc16 true c.frameId ++ num16 0 ++
    [if c.type = 1 ∨ c.type = 3 then c.ppmStatus else c.cpmStatus, 0]

/-- The properties: each of the numbers and flags at its place in the word. -/
def props (p : ArProps) : U32 :=
  BitVec.ofNat 32 (p.state.toNat + 2 ^ 3 * p.takeover.toNat + 2 ^ 4 * p.prmServer.toNat + 2 ^ 8 * p.deviceAccess.toNat +
    2 ^ 9 * p.companion.toNat + 2 ^ 11 * p.ackCompanion.toNat + 2 ^ 29 * p.combined.toNat + 2 ^ 30 * p.startupMode.toNat +
    2 ^ 31 * p.pullModule.toNat)

/-- A connection.  `n` is the announced number of APIs, `apis` are the APIs that are listed. -/
def encAr (a : Ar) (n : Nat) (apis : List U32) : List Byte :=
  pad4 (pad4 (encUuid true a.uuid ++ encUuid true a.objUuid ++ encUuid true a.prmUuid ++ enc32 true (props a.props) ++
      enc16 true a.arType ++ enc16 true a.alarmType ++ enc16 true a.localRef ++ enc16 true a.remoteRef ++
      enc16 true a.initPort ++ enc16 true a.respPort ++ num16 a.name.length ++ a.name) ++
    num16 a.prmName.length ++ a.prmName) ++
  pad4 (num16 a.iocrs.length) ++ a.iocrs.flatMap encIocr ++
  pad4 (num16 n) ++ apis.flatMap (enc32 true) ++ pad4 (num16 a.info)

/-- A connection as accepted by the device: numbers within their fields, names and lists with a length of 16 bits. -/
structure Sound (a : Ar) : Prop where
  uuid : a.uuid.d4.length = 8
  objUuid : a.objUuid.d4.length = 8
  prmUuid : a.prmUuid.d4.length = 8
  state : a.props.state.toNat < 8
  prm : a.props.prmServer.toNat < 2
  companion : a.props.companion.toNat < 4
  name : a.name.length < 65536
  prmName : a.prmName.length < 65536
  iocrs : a.iocrs.length < 65536
  apis : a.apis.length < 65536
  info : a.info < 65536
  cls : ∀ c ∈ a.iocrs, c.rtClass.toNat < 16
  unused : ∀ c ∈ a.iocrs, if c.type = 1 ∨ c.type = 3 then c.cpmStatus = 0 else c.ppmStatus = 0

/-- The list of connections; nothing at all if there is none. -/
def encArs (l : List (List Byte)) : List Byte :=
  if l = [] then [] else encBlock 0x0018 1 (num16 l.length ++ l.flatten)

/-! ## Physical device -/

def encStats (s : Stats) : List Byte :=
  encBlock 0x0251 0 ([0, 0] ++ enc32 true s.inOctets ++ enc32 true s.outOctets ++ enc32 true s.inDiscards ++
    enc32 true s.outDiscards ++ enc32 true s.inErrors ++ enc32 true s.outErrors)

/-- Six bytes of a block header come before `bs`. -/
def pad4h (bs : List Byte) : List Byte := bs ++ List.replicate ((4 - (6 + bs.length) % 4) % 4) 0

/-- Station name, address of the interface, IP address, mask, gateway. -/
def encIface (i : Iface) : List Byte :=
  encBlock 0x0240 0 (pad4h (num8 i.name.length ++ i.name) ++ i.mac ++ [0, 0] ++ enc32 true i.ip ++ enc32 true i.mask ++
    enc32 true i.gateway)

/-- The type of the port as it is shown: the default type if the port is not connected and reports none. -/
def shownMau (p : Port) : U16 := if p.running then p.mau else if p.mau = 0 then p.defaultMau else p.mau

/-- The medium of a type of port. -/
def medium (mau : U16) : Nat :=
  if mau.toNat = 0 then 3
  else if mau.toNat ∈ [0x05, 0x0F, 0x10, 0x1D, 0x1E] then 1
  else if mau.toNat ∈ [0x11, 0x12, 0x15, 0x16] then 2
  else 0

/-- What follows the neighbour: type, boundaries (none), link up (1) or down (2), medium. -/
def encPortTail (p : Port) : List Byte :=
  enc16 true (shownMau p) ++ [0, 0] ++ num32 0 ++ num32 0 ++ num16 (if p.running then 1 else 2) ++ [0, 0] ++ num32 (medium (shownMau p))

/-- Place, own name, neighbour (with its names, the delay of the line and its address) if there is one, state. -/
def encPort (subslot : U16) (p : Port) : List Byte :=
  encBlock 0x020F 0 (match p.peer with
    | none => [0, 0] ++ num16 0 ++ enc16 true subslot ++ num8 p.name.length ++ p.name ++ [0] ++ [0, 0] ++ encPortTail p
    | some q =>
      pad4h ([0, 0] ++ num16 0 ++ enc16 true subslot ++ num8 p.name.length ++ p.name ++ [1] ++ [0, 0] ++
        num8 q.portName.length ++ q.portName ++ num8 q.stationName.length ++ q.stationName) ++
      enc32 true q.delay ++ q.mac ++ [0, 0] ++ encPortTail p)

/-- The whole device: a block for the interface and one for every port, in order, each with its place and its statistics
(zeros if they are not available). -/
def encDevice (api : U32) (i : Iface) (ports : List Port) : List Byte :=
  encBlock 0x0400 0 ([0, 0] ++ enc32 true api ++ num16 0 ++ num16 0x8000 ++ encIface i ++ encStats (i.stats.getD ⟨0, 0, 0, 0, 0, 0⟩)) ++
  (ports.zipIdx 1).flatMap fun (p, n) =>
    encBlock 0x0400 0 ([0, 0] ++ enc32 true api ++ num16 0 ++ num16 (0x8000 + n) ++ encPort (BitVec.ofNat 16 (0x8000 + n)) p ++
      encStats (p.stats.getD ⟨0, 0, 0, 0, 0, 0⟩))

/-- `q` names port number `n`, which is `p`: slot 0 and the subslot of the port. -/
def Names (ports : List Port) (q : ReadReq) (n : Nat) (p : Port) : Prop :=
  q.slot = 0 ∧ 1 ≤ n ∧ ports[n - 1]? = some p ∧ q.subslot.toNat = 0x8000 + n

/-- `q` names the interface. -/
def NamesIface (q : ReadReq) : Prop := q.slot = 0 ∧ q.subslot = 0x8000

/-- The record to which `q` refers, if there is such a record. -/
inductive Physical (i : Iface) (ports : List Port) (q : ReadReq) : List Byte → Prop
  | port {n p} : q.index = 0x802A → Names ports q n p → Physical i ports q (encPort q.subslot p)
  | iface : q.index = 0x8080 → NamesIface q → Physical i ports q (encIface i)
  | portStats {n p s} : q.index = 0x8072 → Names ports q n p → p.stats = some s → Physical i ports q (encStats s)
  | ifaceStats {s} : q.index = 0x8072 → NamesIface q → i.stats = some s → Physical i ports q (encStats s)
  | device : q.index = 0xF841 → Physical i ports q (encDevice q.api i ports)
  | expected : q.index = 0xF842 → Physical i ports q []

/-- The indices of these records. -/
def IsPhysical (index : U16) : Prop := index.toNat ∈ [0x802A, 0x8080, 0x8072, 0xF841, 0xF842]

end Verif.Records
