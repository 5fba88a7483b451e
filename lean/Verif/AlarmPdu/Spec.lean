import Verif.AlarmPdu.Model
import Verif.Records.Spec
import Verif.DiagRead.Spec
import Verif.Diag.Spec

/-! Specification of alarm frames: what is to be sent, and the layout of the frames. -/
set_option linter.unusedVariables false

namespace Verif.AlarmPdu
open Verif.Diag hiding St
open Verif.Device hiding St
open Verif.Wire hiding ExpApi ExpMod ExpSub bit
open Verif.Records (num8 num16 num32 encBlock)
open Verif.DiagRead (Plugged encEntry)

/-! ## Layout -/

/-- Sequence number and flags: 11 bits, then channel, manufacturer, submodule diagnosis, a reserved bit, and diagnosis of
the connection. -/
def encSpecifier (seq : Nat) (s : ASpec) : List Byte :=
  num16 (seq % 2048 + 2048 * s.channel.toNat + 4096 * s.manufacturer.toNat + 8192 * s.submodule.toNat + 32768 * s.ar.toNat)

/-- Maintenance item and diagnosis item with their identifiers.  There is no maintenance item if the status is 0. -/
def encDiagnosis (m : U32) (e : Nat × Fmt) : List Byte :=
  (if m = 0 then [] else num16 0x8100 ++ encBlock 0x0F00 0 ([0, 0] ++ enc32 true m)) ++ num16 e.1 ++ encEntry e

/-- What an alarm is about. -/
structure Says where
  high : Bool
  type : Nat
  api : Nat
  slot : Nat
  subslot : Nat
  modIdent : Nat
  subIdent : Nat
  /-- Data, may depend on the maintenance status of the submodule. -/
  user : U32 → List Byte

/-- An alarm notification. -/
def encNotification (y : Says) (seq : Nat) (s : ASpec) (m : U32) : List Byte :=
  encBlock (if y.high then 1 else 2) 0
    (num16 y.type ++ num32 y.api ++ num16 y.slot ++ num16 y.subslot ++ num32 y.modIdent ++ num32 y.subIdent ++
      encSpecifier seq s ++ y.user m)

/-- An alarm acknowledgement. -/
def encAck (high : Bool) (a : Arg) (s : Status) : List Byte :=
  encBlock (if high then 0x8001 else 0x8002) 0
    (num16 a.type ++ num32 a.api ++ num16 a.slot ++ num16 a.subslot ++ encSpecifier a.seq a.spec ++
      [s.code, s.decode, s.code1, s.code2])

/-- The alarm protocol behind the frame ID: references, protocol data unit of type DATA, version 1, window 1, transport
acknowledgement requested, counters, length, contents. -/
def encRta (dst src send ack : U16) (var : List Byte) : List Byte :=
  enc16 true dst ++ enc16 true src ++ [0x11, 0x11] ++ enc16 true send ++ enc16 true ack ++ num16 var.length ++ var

/-- An Ethernet frame: addresses, VLAN tag with priority 6 (high) or 5, type, frame ID, alarm protocol. -/
def encFrame (x : Apmx) (var : List Byte) : List Byte :=
  x.da ++ x.mac ++ [0x81, 0x00] ++ (if x.high then [0xC0, 0x00] else [0xA0, 0x00]) ++ [0x88, 0x92] ++
    (if x.high then [0xFC, 0x01] else [0xFE, 0x01]) ++ encRta x.dstRef x.srcRef x.sendSeq x.ackSeq var

/-- Addresses have six bytes. -/
def Apmx.Wf (x : Apmx) : Prop := x.da.length = 6 ∧ x.mac.length = 6

/-! ## What is to be sent -/

/-- The ways alarms come about: the application asks for a process alarm; a diagnosis is added, updated or (standard format)
removed; a manufacturer diagnosis is removed; a submodule is pulled, plugged, plugged although another one is expected,
or released by another controller. -/
inductive Call where
  | process (a s ss usi : Nat) (data : List Byte)
  | diagnosis (a s ss : Nat) (it : Item)
  | disappears (a s ss usi : Nat)
  | pull (a s ss : Nat)
  | plug (a s ss m sm : Nat)
  | plugWrong (a s ss m sm : Nat)
  | released (a s ss m sm : Nat)

/-- The function of the model for each. -/
def ask (l : Lim) (c : Conn) (d : Dev) : Call → Option Posted
  | .process a s ss u b => sendProcess l c d a s ss u b.length (some b)
  | .diagnosis a s ss it => sendDiagnosis l c d a s ss it
  | .disappears a s ss u => sendDisappears l c d a s ss u
  | .pull a s ss => sendPull l c a s ss
  | .plug a s ss m sm => sendPlug l c a s ss m sm
  | .plugWrong a s ss m sm => sendPlugWrong l c a s ss m sm
  | .released a s ss m sm => sendReleased l c a s ss m sm

/-- What the alarm should say.  `pm`: the controller wants alarms for pulled modules.  Remote mismatch is error type 0x8001. -/
inductive Means (d : Dev) (pm : Bool) : Call → Says → Prop
  | process {a s ss u m sm : Nat} {b : List Byte} : Plugged d (a, s, ss) m sm →
      Means d pm (.process a s ss u b) ⟨true, 2, a, s, ss, m, sm, fun _ => if u = 0 then [] else num16 u ++ b⟩
  | manufacturer {a s ss u n m sm : Nat} {b : List Nat} {i : Bool} : Plugged d (a, s, ss) m sm → u < 0x8000 →
      Means d pm (.diagnosis a s ss ⟨i, u, .manuf b, n⟩) ⟨false, 1, a, s, ss, m, sm, fun _ => num16 u ++ encEntry (u, .manuf b)⟩
  | standard {a s ss u n m sm : Nat} {x : Std} {i : Bool} : Plugged d (a, s, ss) m sm → u = 0x8000 ∨ u = 0x8002 ∨ u = 0x8003 →
      Means d pm (.diagnosis a s ss ⟨i, u, .std x, n⟩)
        ⟨false, if x.chan.err = 0x8001 then 14 else 1, a, s, ss, m, sm, fun ms => encDiagnosis ms (u, .std x)⟩
  | disappears {a s ss u m sm : Nat} : Plugged d (a, s, ss) m sm →
      Means d pm (.disappears a s ss u) ⟨false, 12, a, s, ss, m, sm, fun _ => num16 u⟩
  | pullModule {a s : Nat} : pm = true → Means d pm (.pull a s 0) ⟨false, 31, a, s, 0, 0, 0, fun _ => []⟩
  | pull {a s ss : Nat} : pm = false ∨ ss ≠ 0 → Means d pm (.pull a s ss) ⟨false, 3, a, s, ss, 0, 0, fun _ => []⟩
  | plug {a s ss m sm : Nat} : Means d pm (.plug a s ss m sm) ⟨false, 4, a, s, ss, m, sm, fun _ => []⟩
  | plugWrong {a s ss m sm : Nat} : Means d pm (.plugWrong a s ss m sm) ⟨false, 10, a, s, ss, m, sm, fun _ => []⟩
  | released {a s ss m sm : Nat} : Means d pm (.released a s ss m sm) ⟨false, 9, a, s, ss, m, sm, fun _ => []⟩

/-- Items as the diagnosis store has them: the identifier tells the format; and no reserved identifiers.  Identifiers of
manufacturer diagnoses are not 0, and the identifier of a process alarm or a disappearing diagnosis is one of the
manufacturer. -/
def Call.Ok : Call → Prop
  | .diagnosis _ _ _ it =>
    (0 < it.usi ∧ it.usi < 0x8000 ∧ ∃ b, it.fmt = .manuf b) ∨
    ((it.usi = 0x8000 ∨ it.usi = 0x8002 ∨ it.usi = 0x8003) ∧ ∃ x, it.fmt = .std x)
  | .disappears _ _ _ u => 0 < u ∧ u < 0x8000
  | _ => True

/-- Number of bytes the length checks see. -/
def Call.checked (l : Lim) : Call → Nat
  | .process _ _ _ _ b => b.length
  | .diagnosis _ _ _ it =>
    match it.fmt with
    | .manuf b => b.length
    | .std _ => l.itemSize
  | _ => 0

/-! ## Summary of diagnoses -/

/-- Severity fault. -/
def Faulty (x : Std) : Prop := x.maint = 0 ∨ (x.maint = 3 ∧ ∃ i, 27 ≤ i ∧ i < 32 ∧ x.qualifier.testBit i = true)

/-- Maintenance demanded. -/
def Demanded (x : Std) : Prop := x.maint = 2 ∨ (x.maint = 3 ∧ ∃ i, 17 ≤ i ∧ i < 27 ∧ x.qualifier.testBit i = true)

/-- Maintenance required. -/
def Required (x : Std) : Prop := x.maint = 1 ∨ (x.maint = 3 ∧ ∃ i, 7 ≤ i ∧ i < 17 ∧ x.qualifier.testBit i = true)

/-- The specifier and the maintenance status summarise the diagnoses in `l`; `own` tells that the submodule belongs to the
connection the alarm is sent on. -/
structure Summarises (l : List (Nat × Fmt)) (own : Prop) (s : ASpec) (m : U32) : Prop where
  channel : s.channel = true ↔ ∃ e ∈ l, ∃ x, e.2 = .std x
  manufacturer : s.manufacturer = true ↔ ∃ e ∈ l, ∃ b, e.2 = .manuf b
  submodule : s.submodule = true ↔ ∃ e ∈ l, (∃ b, e.2 = .manuf b) ∨ ∃ x, e.2 = .std x ∧ Faulty x
  ar : s.ar = true ↔ own ∧ ∃ e ∈ l, (∃ b, e.2 = .manuf b) ∨ ∃ x, e.2 = .std x ∧ Faulty x
  required : m.getLsbD 0 = true ↔ ∃ e ∈ l, ∃ x, e.2 = .std x ∧ Required x
  demanded : m.getLsbD 1 = true ↔ ∃ e ∈ l, ∃ x, e.2 = .std x ∧ Demanded x
  reserved : m.getLsbD 2 = false
  qualifier : ∀ i, 3 ≤ i → i < 32 → (m.getLsbD i = true ↔ ∃ e ∈ l, ∃ x, e.2 = .std x ∧ x.qualifier.testBit i = true)

end Verif.AlarmPdu
