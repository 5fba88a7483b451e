import Verif.Cpm.Model
/-!
# What a consumer of cyclic data is supposed to do

Written about frames (bytes on the wire), reads and supervision ticks; it knows nothing about
buffers, buffer swapping or counters of the implementation.
-/
namespace Verif.Cpm

/-- A frame as the Ethernet layer hands it over: the frame id lies behind the two MAC addresses
and an Ethertype, and the frame is not absurdly long. -/
def ValidRx (f : Frame) : Prop :=
  14 ≤ f.frameIdPos ∧ f.frameIdPos + 2 ≤ f.bytes.length ∧ f.bytes.length ≤ 65521

/-- The cycle counter, data status and transfer status are the last four bytes. -/
def Frame.byteFromEnd (f : Frame) (k : Nat) : Byte := f.bytes.getD (f.bytes.length - k) 0

def Frame.counter (f : Frame) : Nat := be16 (f.byteFromEnd 4) (f.byteFromEnd 3)
def Frame.status (f : Frame) : Byte := f.byteFromEnd 2

/-- Right length for the negotiated C_SDU, right sender, transfer status zero. -/
def WellFormed (cfg : Cfg) (f : Frame) : Prop :=
  f.bytes.length = f.frameIdPos + 2 + cfg.cSduLength + 4 ∧
  (f.bytes.drop 6).take 6 = cfg.sa ∧ f.byteFromEnd 1 = 0

/-- Bit 2 of the data status: data valid. -/
def Valid (f : Frame) : Prop := f.status.getLsbD 2 = true

/-- `c2` is ahead of `c` by 1 to 61440, modulo 65536. -/
def Ahead (c c2 : Nat) : Prop := ∃ k, 1 ≤ k ∧ k ≤ 61440 ∧ c2 = (c + k) % 65536

/-- A frame is to be delivered if it is well-formed, valid, and ahead of the previous one. -/
def Deliverable (cfg : Cfg) (prev : Nat) (f : Frame) : Prop :=
  WellFormed cfg f ∧ Valid f ∧ Ahead prev f.counter

/-- Supervision phase: no valid frame yet; running; ended. -/
inductive Phase | waiting | running | down
deriving DecidableEq, Repr

/-- The abstract state. -/
structure View where
  phase : Phase
  /-- the last delivered frame -/
  last : Option Frame
  /-- delivered since the last read? -/
  unread : Bool
  /-- supervision ticks since the last delivered frame -/
  missed : Nat
  /-- is the supervision timer running? (It stops for good if the timer service refuses.) -/
  timer : Bool

def View.init : View := ⟨.waiting, none, false, 0, true⟩

/-- Counter of the last delivered frame; 65535 before the first. -/
def View.lastCounter (v : View) : Nat := (v.last.map Frame.counter).getD 65535
/-- Status of the last delivered frame; 0 before the first. -/
def View.lastStatus (v : View) : Byte := (v.last.map Frame.status).getD 0

/-- The C_SDU of a frame starts behind the frame id. -/
def Frame.field (f : Frame) (off len : Nat) : List Byte := (f.bytes.drop (f.frameIdPos + 2 + off)).take len

open Classical in
/-- One step of the specification. -/
noncomputable def specStep (cfg : Cfg) (v : View) : Op → View × Out
  | .frame f =>
    if v.phase ≠ .down ∧ Deliverable cfg v.lastCounter f then
      ({ v with phase := .running, last := some f, unread := true, missed := 0 },
       ⟨(if v.phase = .waiting then [.start] else []) ++ [.newData] ++
          (if f.status ≠ v.lastStatus then [.statusChanged (v.lastStatus ^^^ f.status) f.status] else []),
        .unit⟩)
    else (v, ⟨[], .unit⟩)
  | .tick ok =>
    if v.timer = false then (v, ⟨[], .unit⟩)
    else match v.phase with
      | .down => ({ v with timer := false }, ⟨[], .unit⟩)
      | .waiting => ({ v with timer := ok }, ⟨if ok then [] else [.error], .unit⟩)
      | .running =>
        if v.missed = cfg.dataHoldFactor then
          ({ v with phase := .down, timer := false }, ⟨[.stop], .unit⟩)
        else ({ v with missed := v.missed + 1, timer := ok }, ⟨if ok then [] else [.error], .unit⟩)
  | .getData d dl il =>
    if v.phase = .down ∨ dl < d.dataLen ∨ il < d.iopsLen then (v, ⟨[], .err⟩)
    else match v.last with
      | none => (v, ⟨[], .err⟩)
      | some f => ({ v with unread := false },
          ⟨[], .data v.unread (f.field d.dataOff d.dataLen) (f.field d.iopsOff d.iopsLen)⟩)
  | .getIocs d il =>
    if v.phase = .down ∨ il < d.iocsLen ∨ d.iocsLen = 0 then (v, ⟨[], .err⟩)
    else match v.last with
      | none => (v, ⟨[], .err⟩)
      | some f => ({ v with unread := false }, ⟨[], .iocs (f.field d.iocsOff d.iocsLen)⟩)
  | .close => ({ v with phase := .down, timer := false }, ⟨[], .unit⟩)

noncomputable def specRun (cfg : Cfg) : View → List Op → View × List Out
  | v, [] => (v, [])
  | v, op :: ops =>
    let r := specStep cfg v op
    let r' := specRun cfg r.1 ops
    (r'.1, r.2 :: r'.2)

/-- What the environment guarantees about an operation: frames come from the Ethernet layer,
descriptors lie inside the negotiated C_SDU (C04). -/
def EnvOk (cfg : Cfg) : Op → Prop
  | .frame f => ValidRx f
  | .getData d _ _ => d.dataOff + d.dataLen ≤ cfg.cSduLength ∧ d.iopsOff + d.iopsLen ≤ cfg.cSduLength
  | .getIocs d _ => d.iocsOff + d.iocsLen ≤ cfg.cSduLength
  | _ => True

/-- Parameters: the frame (header, C_SDU, trailer) fits in 16 bits. -/
def CfgOk (cfg : Cfg) : Prop := cfg.cSduLength + 20 < 65536

end Verif.Cpm
