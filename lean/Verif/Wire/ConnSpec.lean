import Verif.Wire.Codec
import Verif.Wire.Interp
/-!
Specification: the encoding of a connect request, and what the AR must contain after it.  Numbers are in the
byte order of the request; the position of bits follows the PROFINET specification.
-/
namespace Verif.Wire

/-- Bits of a word as a number. -/
def fieldOf (v : Nat) (p l : Nat) : U32 := BitVec.ofNat 32 (bitsOf v p l)
def flagOf (v : Nat) (p : Nat) : Bool := bitsOf v p 1 == 1

/-- Contents of an ARBlockReq. -/
structure ArReq where
  arType : U16
  uuid : Uuid
  sessionKey : U16
  mac : List Byte
  objUuid : Uuid
  props : U32
  timeoutFactor : U16
  udpPort : U16
  name : List Byte

def ArReq.enc (be : Bool) (a : ArReq) : List Byte :=
  enc16 be a.arType ++ encUuid be a.uuid ++ enc16 be a.sessionKey ++ a.mac ++ encUuid be a.objUuid ++
    enc32 be a.props ++ enc16 be a.timeoutFactor ++ enc16 be a.udpPort ++ enc16 be (BitVec.ofNat 16 a.name.length) ++
    a.name

/-- What is stored for an ARBlockReq. -/
def ArReq.stored (a : ArReq) : ArParam where
  arType := a.arType
  uuid := a.uuid
  sessionKey := a.sessionKey
  mac := a.mac
  objUuid := a.objUuid
  props :=
    { state := fieldOf a.props.toNat 0 3, takeover := flagOf a.props.toNat 3, prmServer := fieldOf a.props.toNat 4 1,
      deviceAccess := flagOf a.props.toNat 8, companion := fieldOf a.props.toNat 9 2,
      ackCompanion := flagOf a.props.toNat 11, combined := flagOf a.props.toNat 29,
      startupMode := flagOf a.props.toNat 30, pullModule := flagOf a.props.toNat 31 }
  timeoutFactor := a.timeoutFactor
  udpPort := a.udpPort
  nameLen := BitVec.ofNat 16 a.name.length
  name := a.name

/-- MAC address of six bytes, UUIDs of sixteen, a station name of at most 240 bytes, none of them zero. -/
def ArReq.Wf (a : ArReq) : Prop :=
  a.mac.length = 6 ∧ a.uuid.d4.length = 8 ∧ a.objUuid.d4.length = 8 ∧ a.name.length ≤ 240 ∧ ∀ b ∈ a.name, b ≠ 0

/-- Contents of an IOCRBlockReq. -/
structure IocrReq where
  type : U16
  ref : U16
  ltField : U16
  props : U32
  cSduLength : U16
  frameId : U16
  sendClock : U16
  ratio : U16
  phase : U16
  sequence : U16
  sendOffset : U32
  watchdog : U16
  dataHold : U16
  tag : U16
  mac : List Byte
  apis : List ApiEntry

def encFrameDesc (be : Bool) (d : FrameDesc) : List Byte := enc16 be d.slot ++ enc16 be d.subslot ++ enc16 be d.offset

def encApiEntry (be : Bool) (a : ApiEntry) : List Byte :=
  enc32 be a.api ++ enc16 be (BitVec.ofNat 16 a.ioData.length) ++ a.ioData.flatMap (encFrameDesc be) ++
    enc16 be (BitVec.ofNat 16 a.iocs.length) ++ a.iocs.flatMap (encFrameDesc be)

def IocrReq.enc (be : Bool) (i : IocrReq) : List Byte :=
  enc16 be i.type ++ enc16 be i.ref ++ enc16 be i.ltField ++ enc32 be i.props ++ enc16 be i.cSduLength ++
    enc16 be i.frameId ++ enc16 be i.sendClock ++ enc16 be i.ratio ++ enc16 be i.phase ++ enc16 be i.sequence ++
    enc32 be i.sendOffset ++ enc16 be i.watchdog ++ enc16 be i.dataHold ++ enc16 be i.tag ++ i.mac ++
    enc16 be (BitVec.ofNat 16 i.apis.length) ++ i.apis.flatMap (encApiEntry be)

/-- What is stored for an IOCRBlockReq.  A VLAN tag has a VLAN ID of twelve bits. -/
def IocrReq.stored (i : IocrReq) : IocrParam where
  type := i.type
  ref := i.ref
  ltField := i.ltField
  rtClass := fieldOf i.props.toNat 0 4
  res1 := bitsOf i.props.toNat 4 9 != 0
  res2 := bitsOf i.props.toNat 13 11 != 0
  res3 := bitsOf i.props.toNat 24 8 != 0
  cSduLength := i.cSduLength
  frameId := i.frameId
  sendClock := i.sendClock
  ratio := i.ratio
  phase := i.phase
  sequence := i.sequence
  sendOffset := i.sendOffset
  watchdog := i.watchdog
  dataHold := i.dataHold
  vlan := fieldOf i.tag.toNat 0 12
  prio := fieldOf i.tag.toNat 13 3
  mac := i.mac
  apis := i.apis

/-- The request is within the tables. -/
def IocrReq.Wf (z : ConnSizes) (i : IocrReq) : Prop :=
  i.mac.length = 6 ∧ i.apis.length ≤ z.tab.maxApi ∧ i.apis.length < 65536 ∧
    ∀ a ∈ i.apis, a.ioData.length ≤ z.ioCap ∧ a.iocs.length ≤ z.ioCap ∧ a.ioData.length < 65536 ∧ a.iocs.length < 65536

/-- Contents of an AlarmCRBlockReq. -/
structure AlarmReq where
  type : U16
  ltField : U16
  props : U32
  timeoutFactor : U16
  retries : U16
  localRef : U16
  maxLen : U16
  tagHigh : U16
  tagLow : U16

def AlarmReq.enc (be : Bool) (a : AlarmReq) : List Byte :=
  enc16 be a.type ++ enc16 be a.ltField ++ enc32 be a.props ++ enc16 be a.timeoutFactor ++ enc16 be a.retries ++
    enc16 be a.localRef ++ enc16 be a.maxLen ++ enc16 be a.tagHigh ++ enc16 be a.tagLow

def AlarmReq.stored (a : AlarmReq) : AlarmCr where
  type := a.type
  ltField := a.ltField
  priority := flagOf a.props.toNat 0
  transportUdp := flagOf a.props.toNat 1
  timeoutFactor := a.timeoutFactor
  retries := a.retries
  localRef := a.localRef
  maxLen := a.maxLen
  highVlan := fieldOf a.tagHigh.toNat 0 12
  highPrio := fieldOf a.tagHigh.toNat 13 3
  lowVlan := fieldOf a.tagLow.toNat 0 12
  lowPrio := fieldOf a.tagLow.toNat 13 3

/-- A submodule of an ExpectedSubmoduleBlockReq: a second data description follows for submodules with input
and output data. -/
structure SubReq where
  subslot : U16
  ident : U32
  props : U16
  d0 : DataDesc
  d1 : Option DataDesc

def encDataDesc (be : Bool) (d : DataDesc) : List Byte :=
  enc16 be d.direction ++ enc16 be d.length ++ [d.lenIocs, d.lenIops]

def SubReq.enc (be : Bool) (s : SubReq) : List Byte :=
  enc16 be s.subslot ++ enc32 be s.ident ++ enc16 be s.props ++ encDataDesc be s.d0 ++
    s.d1.toList.flatMap (encDataDesc be)

def SubReq.Wf (s : SubReq) : Prop := s.d1.isSome = true ↔ bitsOf s.props.toNat 0 2 = 3

def SubReq.stored (s : SubReq) : ExpSub where
  subslot := s.subslot
  ident := s.ident
  type := fieldOf s.props.toNat 0 2
  sharedInput := flagOf s.props.toNat 2
  reduceIn := flagOf s.props.toNat 3
  reduceOut := flagOf s.props.toNat 4
  discardIoxs := flagOf s.props.toNat 5
  descs := s.d0 :: s.d1.toList

/-- A module of an ExpectedSubmoduleBlockReq. -/
structure ModReq where
  api : U32
  slot : U16
  ident : U32
  props : U16
  subs : List SubReq

def ModReq.enc (be : Bool) (m : ModReq) : List Byte :=
  enc32 be m.api ++ enc16 be m.slot ++ enc32 be m.ident ++ enc16 be m.props ++
    enc16 be (BitVec.ofNat 16 m.subs.length) ++ m.subs.flatMap (SubReq.enc be)

def ModReq.stored (m : ModReq) : ExpMod := ⟨m.slot, m.ident, m.props, m.subs.map SubReq.stored⟩

/-- A module goes to the API it names; an API that is not in the table yet is added. -/
def place (t : List ExpApi) (m : ModReq) : List ExpApi :=
  if t.any (fun x => x.api == m.api) then
    t.map fun x => if x.api == m.api then { x with mods := x.mods ++ [m.stored] } else x
  else t ++ [⟨true, m.api, [m.stored]⟩]

/-- Blocks after the first one. -/
inductive Block where
  | iocr (i : IocrReq)
  | alarm (a : AlarmReq)
  | expected (l : List ModReq)
  | rpc (port : U16)

def Block.type : Block → U16
  | .iocr _ => 0x0102
  | .alarm _ => 0x0103
  | .expected _ => 0x0104
  | .rpc _ => 0x0107

def Block.body (be : Bool) : Block → List Byte
  | .iocr i => i.enc be
  | .alarm a => a.enc be
  | .expected l => enc16 be (BitVec.ofNat 16 l.length) ++ l.flatMap (ModReq.enc be)
  | .rpc p => enc16 be p

/-- A block: type, length of what follows the length, version 1.0, contents. -/
def encBlock (be : Bool) (t : U16) (body : List Byte) : List Byte :=
  encBlockHeader be ⟨t, BitVec.ofNat 16 (body.length + 2), 1, 0⟩ ++ body

def Block.enc (be : Bool) (b : Block) : List Byte := encBlock be b.type (b.body be)

/-- Effect of a block on the AR. -/
def Block.store (b : Block) (c : Conn) : Conn :=
  match b with
  | .iocr i => { c with iocrs := c.iocrs ++ [i.stored] }
  | .alarm a => { c with alarm := a.stored, nbrAlarm := c.nbrAlarm + 1 }
  | .expected l => { c with exp := l.foldl place c.exp }
  | .rpc p => { c with rpcPort := p, nbrRpc := c.nbrRpc + 1 }

/-- A connect request: the AR block and further blocks. -/
structure ConnReq where
  ar : ArReq
  blocks : List Block

def ConnReq.enc (be : Bool) (q : ConnReq) : List Byte :=
  encBlock be 0x0101 (q.ar.enc be) ++ q.blocks.flatMap (Block.enc be)

def ConnReq.stored (q : ConnReq) : Conn :=
  q.blocks.foldl (fun c b => b.store c) { Conn.empty with ar := q.ar.stored, nbrAr := 1 }

/-- A table of expected modules within its sizes (`InTable` restated). -/
def TabFits (z : Sizes) (t : List ExpApi) : Prop :=
  t.length ≤ z.maxApi ∧ ∀ a ∈ t, a.mods.length ≤ z.maxSlots ∧ ∀ m ∈ a.mods, m.subs.length ≤ z.maxSubslots

/-- A well-formed block.  `strict` excludes what the code gets wrong: VLAN IDs above 2047, and blocks that name more than
one API. -/
def Block.Wf (strict : Bool) (z : ConnSizes) : Block → Prop
  | .iocr i => i.Wf z ∧ (strict = true → bitsOf i.tag.toNat 11 1 = 0)
  | .alarm _ => True
  | .expected l => l.length < 65536 ∧ (∀ m ∈ l, m.subs.length < 65536 ∧ ∀ s ∈ m.subs, s.Wf) ∧
      (strict = true → ∀ m ∈ l, ∀ m' ∈ l, m.api = m'.api)
  | .rpc _ => True

/-- A well-formed request that fits the tables of the device. -/
def ConnReq.Wf (strict : Bool) (z : ConnSizes) (be : Bool) (q : ConnReq) : Prop :=
  q.ar.Wf ∧ (∀ b ∈ q.blocks, b.Wf strict z) ∧ (q.enc be).length < 65536 ∧
  q.stored.iocrs.length ≤ z.maxCr ∧ TabFits z.tab q.stored.exp ∧
  (q.blocks ≠ [] → bitsOf q.ar.props.toNat 8 1 = 0)

end Verif.Wire
