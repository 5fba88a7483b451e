import Verif.Connect.Model
/-!
# What the parameter checks of a connect request are supposed to decide

Written against the blocks as received (`ArBlock`, `IocrBlock`, `AlarmBlock`): the only things
taken from the model are these records of raw fields. Bit fields are described by arithmetic on
the received words.
-/
namespace Verif.Connect

/-- The blocks are checked against a list of requirements, each with the error code that names the
field. `Verdict fields r`: `r` is acceptance, and all requirements are met; or `r` is a refusal with
the code of the first requirement that is not met. -/
def Verdict (fields : List (Err × Prop)) : Except Err Unit → Prop
  | .ok () => ∀ f ∈ fields, f.2
  | .error e => ∃ pre p post, fields = pre ++ (e, p) :: post ∧ (∀ f ∈ pre, f.2) ∧ ¬ p

/-- The name of the initiator: the bytes in front of the first zero byte, or all bytes. It is not
empty and all its characters are printable ASCII. -/
def VisibleName (b : ArBlock) : Prop :=
  ∃ k, 0 < k ∧ k ≤ b.nameLen.toNat ∧
    (∀ i < k, ∃ c, b.name[i]? = some c ∧ 0x20 ≤ c.toNat ∧ c.toNat ≤ 0x7E) ∧
    (k = b.nameLen.toNat ∨ b.name[k]? = some 0)

/-- DEA00000-6C97-11D1-8271-xxxxxxxxxxxx. -/
def IsInitiatorObject (u : Uuid) : Prop :=
  u.data1.toNat = 0xDEA00000 ∧ u.data2.toNat = 0x6C97 ∧ u.data3.toNat = 0x11D1 ∧
    u.data4[0].toNat = 0x82 ∧ u.data4[1].toNat = 0x71

/-- The nil UUID. -/
def IsNil (u : Uuid) : Prop :=
  u.data1.toNat = 0 ∧ u.data2.toNat = 0 ∧ u.data3.toNat = 0 ∧ ∀ i : Fin 8, u.data4[i].toNat = 0

/-- The requirements on the AR block, in the order in which they are reported. The error is
"faulty AR block" (1) and the index of the field. -/
def arFields (b : ArBlock) : List (Err × Prop) :=
  [ (⟨1, 4⟩, b.arType.toNat = 1),                       -- AR type: single IO controller AR
    (⟨1, 5⟩, ¬ IsNil b.uuid),                           -- AR UUID
    (⟨1, 7⟩, b.mac[0].toNat % 2 = 0),                   -- initiator MAC: unicast
    (⟨1, 8⟩, IsInitiatorObject b.objectUuid),           -- initiator object UUID
    (⟨1, 9⟩, b.props.toNat % 8 = 1),                    -- properties: state ACTIVE
    (⟨1, 9⟩, b.props.toNat / 16 % 2 = 1),               -- properties: no external parameter server
    (⟨1, 9⟩, b.props.toNat / 256 % 2 = 0),              -- properties: no device access
    (⟨1, 9⟩, b.props.toNat / 512 % 4 ≠ 3),              -- properties: companion AR
    (⟨1, 10⟩, 1 ≤ b.timeoutFactor.toNat ∧ b.timeoutFactor.toNat ≤ 1000),
    (⟨1, 12⟩, 1 ≤ b.nameLen.toNat ∧ b.nameLen.toNat ≤ 240),
    (⟨1, 13⟩, VisibleName b) ]

/-- RT class: the low four bits of the properties. -/
def classOf (b : IocrBlock) : Nat := b.props.toNat % 16

/-- The frame IDs a controller may use: by CR type (1 input, 3 and 4 multicast) and RT class. The
frame ID of an output CR is not restricted (the device may have to choose it). -/
def FrameIdOk (type cls fid : Nat) : Prop :=
  (type = 1 → (cls = 1 ∨ cls = 4 → 0xC000 ≤ fid ∧ fid ≤ 0xF7FF) ∧
    (cls = 2 → 0x8000 ≤ fid ∧ fid ≤ 0xBBFF) ∧ (cls = 3 → 0x0100 ≤ fid ∧ fid ≤ 0x7FFF)) ∧
  (type = 3 ∨ type = 4 → (cls = 1 ∨ cls = 4 → 0xF800 ≤ fid ∧ fid ≤ 0xFBFF) ∧
    (cls = 2 → 0xBC00 ≤ fid ∧ fid ≤ 0xBFFF) ∧ (cls = 3 → 0x0100 ≤ fid ∧ fid ≤ 0x7FFF))

/-- The reduction ratios allowed for a send clock factor. -/
def RatioOk (limit scf rr : Nat) : Prop :=
  1 ≤ rr ∧ rr ≤ limit ∧ (limit / 2 ≤ rr → scf ≤ 64) ∧ (rr = limit → scf ≤ 32)

/-- Time after which missing data is reported, in microseconds (rounded down): hold factor times
reduction ratio times send clock factor times 31.25 µs. -/
def holdMicros (b : IocrBlock) : Nat :=
  b.dataHoldFactor.toNat * b.rr.toNat * b.scf.toNat * 1000 / 32

/-- The documented limits of an IOCR (comments of `pf_iocr_param_t`, src/pf_types.h:1454-1484, and
the limits named by the code). RT class 5 is treated like the other classes with real-time
frames. -/
structure IocrDocumented (minInterval : Nat) (ar : ArBlock) (b : IocrBlock) : Prop where
  type : 1 ≤ b.type.toNat ∧ b.type.toNat ≤ 4
  lt : if classOf b = 4 then b.lt.toNat = 0x0800 else b.lt.toNat = 0x8892
  cls : (if ar.props.toNat / 2 ^ 30 % 2 = 1 then 2 else 1) ≤ classOf b ∧ classOf b ≤ 5
  reserved1 : b.props.toNat / 2 ^ 4 % 2 ^ 9 = 0
  reserved3 : b.props.toNat / 2 ^ 24 = 0
  cSdu : (if classOf b = 4 then 12 else 40) ≤ b.cSdu.toNat ∧ b.cSdu.toNat ≤ 1440
  frameId : FrameIdOk b.type.toNat (classOf b) b.frameId.toNat
  scf : ∃ k ≤ 7, b.scf.toNat = 2 ^ k
  rr : RatioOk (if classOf b = 4 then 16384 else 512) b.scf.toNat b.rr.toNat
  interval : classOf b ≠ 4 → minInterval ≤ b.scf.toNat * b.rr.toNat
  phase : 1 ≤ b.phase.toNat ∧ b.phase.toNat ≤ b.rr.toNat
  offset : b.frameSendOffset.toNat = 0xffffffff ∨ b.frameSendOffset.toNat < b.scf.toNat * 31250
  hold : 1 ≤ b.dataHoldFactor.toNat ∧ b.dataHoldFactor.toNat ≤ 0x1e00
  holdTime : holdMicros b ≤ if classOf b = 4 then 61440000 else 1920000
  vlan : b.tag.toNat % 4096 = 0
  prio : b.tag.toNat / 8192 = 6
  mac : b.type.toNat = 3 ∨ b.type.toNat = 4 → b.mac[0].toNat % 2 = 1
  apis : b.nbrApis.toNat ≠ 0
  udpMac : classOf b = 4 → ∀ i : Fin 6, ar.mac[i].toNat = 0
  udpPort : classOf b = 4 → 0x0400 ≤ ar.udpPort.toNat

/-- The requirements on the alarm CR block, in the order in which they are reported ("faulty alarm
CR block" is 4). -/
def alarmFields (b : AlarmBlock) : List (Err × Prop) :=
  [ (⟨4, 4⟩, b.type.toNat = 1),
    (⟨4, 5⟩, b.lt.toNat = if b.props.toNat / 2 % 2 = 1 then 0x0800 else 0x8892),
    (⟨4, 7⟩, 1 ≤ b.timeoutFactor.toNat ∧ b.timeoutFactor.toNat ≤ 100),
    (⟨4, 8⟩, 3 ≤ b.retries.toNat ∧ b.retries.toNat ≤ 15),
    (⟨4, 10⟩, 200 ≤ b.maxLen.toNat ∧ b.maxLen.toNat ≤ 1432),
    (⟨4, 11⟩, b.tagHigh.toNat % 4096 = 0),
    (⟨4, 11⟩, b.tagHigh.toNat / 8192 = 6),
    (⟨4, 12⟩, b.tagLow.toNat % 4096 = 0),
    (⟨4, 12⟩, b.tagLow.toNat / 8192 = 5) ]

/-- The CR `j` of the AR at index `i` of the table. -/
def crAt (ars : List Ar) (i j : Nat) : Option Cr := (ars[i]?).bind fun ar => ar.crs[j]?

/-- CR `j` of AR `i`, a connection in use, has frame ID `fid`. -/
def UsedAt (maxAr : Nat) (ars : List Ar) (i j : Nat) (fid : Nat) : Prop :=
  i < maxAr ∧ (∃ ar, ars[i]? = some ar ∧ ar.inUse = true) ∧
    ∃ cr, crAt ars i j = some cr ∧ cr.frameId.toNat = fid

/-- The frame IDs the device may choose for an output CR, by RT class. -/
def InRange (cls fid : Nat) : Prop :=
  (cls = 1 ∨ cls = 4) ∧ 0xC000 ≤ fid ∧ fid ≤ 0xF7FF ∨ cls = 2 ∧ 0x8000 ≤ fid ∧ fid ≤ 0xBBFF ∨
    cls = 3 ∧ 0x0100 ≤ fid ∧ fid ≤ 0x7FFF

/-- A good choice for CR `j` of AR `i`: inside the range of the class, not used by any other CR of
any connection, and no smaller number of the range is free. -/
def GoodChoice (maxAr : Nat) (ars : List Ar) (i j cls fid : Nat) : Prop :=
  InRange cls fid ∧
  (∀ i' j', UsedAt maxAr ars i' j' fid → i' = i ∧ j' = j) ∧
  ∀ g < fid, InRange cls g → ∃ i' j', UsedAt maxAr ars i' j' g

end Verif.Connect
