import Verif.DiagRead.Model

/-!
Model of the contents of alarm frames.
Source: src/common/pf_alarm.c (sending of the alarm types, contents of the frames, parsing of received frames),
src/device/pf_block_writer.c:3446-3633.

The state machines that decide when a frame is sent or accepted are those of area Alarm, the queues those of area
AlarmQueue.  The tables of plugged submodules are those of area Device, the diagnosis lists those of area Diag.
Not modelled: log output, allocation of buffers, alarms via UDP (the code has none).
-/
set_option linter.unusedVariables false

namespace Verif.AlarmPdu
open Verif.Diag hiding St
open Verif.Device hiding St
open Verif.Wire hiding ExpApi ExpMod ExpSub
open Verif.DiagRead (n16 n32 skip putItem headOf)

/-! ## The alarm a function asks for -/

/-- What `payload.data` holds: bytes, or a copy of a `pf_diag_item_t`. -/
inductive Pay where
  | bytes (l : List Byte)
  | item (it : Item)
deriving DecidableEq

/-- `pf_alarm_data_t` (src/pf_types.h:1001-1013) as put in the queue.  The member `submodule_ident` has 16 bits. -/
structure Alarm where
  type : Nat
  api : Nat
  slot : Nat
  subslot : Nat
  modIdent : Nat
  subIdent : Nat
  usi : Nat
  pay : Pay
deriving DecidableEq

/-- PNET_MAX_ALARM_PAYLOAD_DATA_SIZE and `sizeof (pf_diag_item_t)`, which depend on the configuration
(src/common/pf_alarm.c:86-94). -/
structure Lim where
  maxPayload : Nat
  itemSize : Nat

/-- What is needed to know of a connection: `global_alarm_enable && alarm_enable`, `max_alarm_data_length`,
`pull_module_alarm_allowed`. -/
structure Conn where
  enabled : Bool
  maxData : Nat
  pullModule : Bool

/-- An alarm that is put in the queue of outgoing alarms of a priority. -/
structure Posted where
  high : Bool
  alarm : Alarm
deriving DecidableEq

/-- The copy of the payload. -/
def payload (len : Nat) : Option Pay → Pay
  | some (.bytes b) => .bytes (b.take len)
  | some (.item it) => .item it
  | none => .bytes []

/-- pf_alarm_send_alarm (src/common/pf_alarm.c:3106-3202): `none` for an error.  A payload `some` is the memory at `p_payload`, `none` is NULL.
Simplified: memory given by the caller has at least `len` bytes.  A full queue is in area AlarmQueue. -/
def sendAlarm (l : Lim) (c : Conn) (type : Nat) (high : Bool) (api slot subslot modIdent subIdent usi len : Nat) (pay : Option Pay) :
    Option Posted :=
  if c.enabled = false then none
  else if len > l.maxPayload then none
  else if len > c.maxData then none
  else if len > 0 ∧ pay = none then none
  else some ⟨high, type, api, slot, subslot, modIdent, subIdent % 65536, usi, payload len pay⟩

/-- pf_cmdev_get_module_ident (src/device/pf_cmdev.c:276-289) -/
def moduleIdent (d : Dev) (api slot : Nat) : Option Nat := (getSlot d api slot).map (·.ident)

/-- pf_cmdev_get_submodule_ident (src/device/pf_cmdev.c:291-307) -/
def submoduleIdent (d : Dev) (api slot subslot : Nat) : Option Nat := (getSub d api slot subslot).map (·.ident)

/-- pf_alarm_send_process (src/common/pf_alarm.c:3206-3286), called by pnet_alarm_send_process_alarm (src/device/pnet_api.c:563-590) with the connection of the handle. -/
def sendProcess (l : Lim) (c : Conn) (d : Dev) (api slot subslot usi len : Nat) (pay : Option (List Byte)) : Option Posted :=
  if usi ≥ 0x8000 then none
  else
    match moduleIdent d api slot with
    | none => none
    | some m =>
      match submoduleIdent d api slot subslot with
      | none => none
      | some s => sendAlarm l c 2 true api slot subslot m s usi len (pay.map .bytes)

/-- Alarm type of a diagnosis alarm.  Simplified: the identifier tells which member of the union is in use. -/
def diagType (it : Item) : Nat :=
  match it.fmt with
  | .std s => if it.usi ≥ 0x8000 ∧ s.chan.err = 0x8001 then 0x000E else 1
  | .manuf _ => 1

/-- pf_alarm_send_diagnosis (src/common/pf_alarm.c:3288-3401).  Simplified: the code chooses the format by the identifier, here by the member of the union in use
(they agree for items of the diagnosis store, area Diag). -/
def sendDiagnosis (l : Lim) (c : Conn) (d : Dev) (api slot subslot : Nat) (it : Item) : Option Posted :=
  match moduleIdent d api slot with
  | none => none
  | some m =>
    match submoduleIdent d api slot subslot with
    | none => none
    | some s =>
      match it.fmt with
      | .manuf b => sendAlarm l c (diagType it) false api slot subslot m s it.usi b.length (some (.bytes (b.map (BitVec.ofNat 8))))
      | .std _ => sendAlarm l c (diagType it) false api slot subslot m s it.usi l.itemSize (some (.item it))

/-- pf_alarm_send_usi_diagnosis_disappears (src/common/pf_alarm.c:3403-3473), called with `usi < 0x8000` -/
def sendDisappears (l : Lim) (c : Conn) (d : Dev) (api slot subslot usi : Nat) : Option Posted :=
  match moduleIdent d api slot with
  | none => none
  | some m =>
    match submoduleIdent d api slot subslot with
    | none => none
    | some s => sendAlarm l c 0x000C false api slot subslot m s usi 0 none

/-- pf_alarm_send_pull (src/common/pf_alarm.c:3475-3514) -/
def sendPull (l : Lim) (c : Conn) (api slot subslot : Nat) : Option Posted :=
  sendAlarm l c (if subslot = 0 ∧ c.pullModule = true then 0x001F else 3) false api slot subslot 0 0 0 0 none

/-- pf_alarm_send_plug (src/common/pf_alarm.c:3516-3548) -/
def sendPlug (l : Lim) (c : Conn) (api slot subslot m s : Nat) : Option Posted :=
  sendAlarm l c 4 false api slot subslot m s 0 0 none

/-- pf_alarm_send_plug_wrong (src/common/pf_alarm.c:3550-3582) -/
def sendPlugWrong (l : Lim) (c : Conn) (api slot subslot m s : Nat) : Option Posted :=
  sendAlarm l c 0x000A false api slot subslot m s 0 0 none

/-- pf_alarm_send_released (src/common/pf_alarm.c:3584-3616) -/
def sendReleased (l : Lim) (c : Conn) (api slot subslot m s : Nat) : Option Posted :=
  sendAlarm l c 9 false api slot subslot m s 0 0 none

/-! ## Summary of the diagnoses -/

/-- `pnet_alarm_spec_t`. -/
structure ASpec where
  channel : Bool
  manufacturer : Bool
  submodule : Bool
  ar : Bool
deriving DecidableEq

/-- pf_alarm_add_diag_item_to_summary (src/common/pf_alarm.c:2850-2978); masks at src/pf_types.h:96-105.  `same` is `is_same_ar`.  Reading the wrong
member of the union is `none`. -/
def addSummary (same : Bool) (it : Item) (x : ASpec × U32) : Option (ASpec × U32) :=
  if it.usi < 0x8000 then
    some ({ x.1 with manufacturer := true, submodule := true, ar := if same then true else x.1.ar }, x.2)
  else
    match it.fmt with
    | .manuf _ => none
    | .std s =>
      let q : U32 := BitVec.ofNat 32 s.qualifier &&& ~~~7#32
      let required := s.maint == 1 || (s.maint == 3 && q &&& 0x0001FF80#32 != 0#32)
      let demanded := s.maint == 2 || (s.maint == 3 && q &&& 0x07FE0000#32 != 0#32)
      let fault := s.maint == 0 || (s.maint == 3 && q &&& 0xF8000000#32 != 0#32)
      let appears := s.spec == 1
      let m := x.2 ||| q
      let m := if required then m ||| 1#32 else m
      let m := if demanded then m ||| 2#32 else m
      some (⟨if appears then true else x.1.channel, x.1.manufacturer, if appears && fault then true else x.1.submodule,
        if appears && fault && same then true else x.1.ar⟩, m)

/-- The loop of pf_alarm_get_diag_summary (src/common/pf_alarm.c:1991-2053) over the linked list. -/
def summaryLoop (items : List Item) (same : Bool) : Nat → Nat → ASpec × U32 → Option (ASpec × U32)
  | 0, _, _ => none
  | fuel + 1, ix, x =>
    match items[ix]? with
    | none => some x
    | some it => (addSummary same it x).bind (summaryLoop items same fuel it.next)

/-- pf_alarm_get_diag_summary (src/common/pf_alarm.c:1991-2053), for the connection `ar` -/
def summary (st : Diag.St) (ar : Nat) (p : Place) : Option (ASpec × U32) :=
  match st.subs p with
  | none => some (⟨false, false, false, false⟩, 0)
  | some s => summaryLoop st.items (s.owner == some ar) (st.items.length + 1) s.head (⟨false, false, false, false⟩, 0)

/-! ## Frames -/

/-- pf_put_maint_status (src/device/pf_block_writer.c:3446-3479) -/
def putMaint (m : U32) : W :=
  n16 0x8100 ;; putBlock true 0x0F00 (putByte 0 ;; putByte 0 ;; putU32 true m)

/-- Sequence number and flags in pf_put_alarm_block (src/device/pf_block_writer.c:3481-3633). -/
def specifier (seq : Nat) (s : ASpec) : U16 :=
  (putBits (Wire.bit s.ar) 1 15 (putBits (Wire.bit s.submodule) 1 13 (putBits (Wire.bit s.manufacturer) 1 12
    (putBits (Wire.bit s.channel) 1 11 (putBits (BitVec.ofNat 32 seq) 11 0 0))))).setWidth 16

/-- The payload of a notification in pf_put_alarm_block (src/device/pf_block_writer.c:3481-3633).  Interpreting other bytes as a `pf_diag_item_t`, or
the other way round, is `none`. -/
def putPayload (maint : U32) (a : Alarm) : W :=
  if a.usi = 0 then skip
  else if a.usi = 0x8100 then skip
  else if a.usi = 0x8000 ∨ a.usi = 0x8002 ∨ a.usi = 0x8003 then
    match a.pay with
    | .bytes _ => fun _ => none
    | .item it => (if maint ≠ 0 then putMaint maint else skip) ;; n16 it.usi ;; putItem it
  else
    match a.pay with
    | .item _ => fun _ => none
    | .bytes b => n16 a.usi ;; (if b.length > 0 then putMem b else skip)

/-- pf_put_alarm_block (src/device/pf_block_writer.c:3481-3633) for a notification (types 1, 2) -/
def putNotification (t : U16) (a : Alarm) (seq : Nat) (s : ASpec) (maint : U32) : W :=
  putBlock true t (n16 a.type ;; n32 a.api ;; n16 a.slot ;; n16 a.subslot ;; n32 a.modIdent ;; n32 a.subIdent ;;
    putU16 true (specifier seq s) ;; putPayload maint a)

/-- pf_put_alarm_block (src/device/pf_block_writer.c:3481-3633) for an acknowledgement (types 0x8001, 0x8002) -/
def putAck (t : U16) (type api slot subslot seq : Nat) (s : ASpec) (st : Status) : W :=
  putBlock true t (n16 type ;; n32 api ;; n16 slot ;; n16 subslot ;; putU16 true (specifier seq s) ;; putStatus true st)

/-- One direction of an alarm connection, `pf_apmx_t`: addresses, references, priority, counters.  Priority
determines VLAN priority, frame ID and block types as set by pf_alarm_apmx_activate (src/common/pf_alarm.c:974-1088). -/
structure Apmx where
  da : List Byte
  mac : List Byte
  srcRef : U16
  dstRef : U16
  high : Bool
  sendSeq : U16
  ackSeq : U16

def Apmx.frameId (x : Apmx) : Nat := if x.high then 0xFC01 else 0xFE01
def Apmx.vlanPrio (x : Apmx) : Nat := if x.high then 6 else 5
def Apmx.notify (x : Apmx) : U16 := if x.high then 1 else 2
def Apmx.ack (x : Apmx) : U16 := if x.high then 0x8001 else 0x8002

/-- Replace two zero bytes at the start of what `body` appends by the length of what follows them. -/
def lenPrefix (body : W) : W := fun w =>
  ((putU16 true 0 ;; body) w).bind fun w1 =>
    (putU16 true (BitVec.ofNat 16 w1.pos - BitVec.ofNat 16 (w.pos + 2)) { w1 with pos := w.pos }).map
      fun w2 => { w2 with pos := w1.pos }

/-- pf_alarm_apms_a_data_req (src/common/pf_alarm.c:1232-1467): the contents of the frame.  The device's own address is copied without
check of the size, at a fixed place near the beginning. -/
def putFrame (x : Apmx) (f : AlarmFixed) (body : W) : W :=
  putMem x.da ;; putMem x.mac ;; n16 0x8100 ;; n16 (x.vlanPrio % 8 * 2 ^ 13) ;; n16 0x8892 ;; n16 x.frameId ;; putAlarmFixed true f ;;
    lenPrefix body

/-- The fixed part of a DATA frame (pf_alarm_apms_apms_a_data_req (src/common/pf_alarm.c:1491-1556)). -/
def Apmx.fixed (x : Apmx) : AlarmFixed := ⟨x.dstRef, x.srcRef, 1, 1, 1, 1, x.sendSeq, x.ackSeq⟩

/-- The allocated buffer, PF_FRAME_BUFFER_SIZE (src/pf_types.h:69). -/
def newBuf : Wr := ⟨List.replicate 1500 0, 1500, 0⟩

/-- The bytes of a frame: the first `p_rta->len` of the buffer. -/
def bytesOf (p : W) : Option (List Byte) := (p newBuf).map fun w => w.buf.take w.pos

/-- pf_alarm_send_internal (src/common/pf_alarm.c:2294-2341): the frame for an alarm taken from the queue, `seq` is `alpmx.sequence_number`, `ar`
the index of the connection. -/
def notificationFrame (x : Apmx) (st : Diag.St) (ar seq : Nat) (a : Alarm) : Option (List Byte) :=
  (summary st ar (a.api, a.slot, a.subslot)).bind fun s =>
    bytesOf (putFrame x x.fixed (putNotification x.notify a seq s.1 s.2))

/-- The next sequence number (pf_alarm_send_internal (src/common/pf_alarm.c:2294-2341), pf_alarm_alpmr_alarm_ack (src/common/pf_alarm.c:3004-3057)). -/
def nextSeq (seq : Nat) : Nat := (seq + 1) % 0x800

/-- `pnet_alarm_argument_t`. -/
structure Arg where
  api : Nat
  slot : Nat
  subslot : Nat
  type : Nat
  seq : Nat
  spec : ASpec
deriving DecidableEq

/-- pf_alarm_alpmr_alarm_ack (src/common/pf_alarm.c:3004-3057): the frame for the acknowledgement given by the application. -/
def ackFrame (x : Apmx) (a : Arg) (s : Status) : Option (List Byte) :=
  bytesOf (putFrame x x.fixed (putAck x.ack a.type a.api a.slot a.subslot a.seq a.spec s))

/-! ## Receiving -/

/-- An entry of `alarm_endpoint`. -/
structure Endpoint where
  active : Bool
  ar : Option Nat
deriving DecidableEq

/-- pf_alarm_apmr_frame_handler (src/common/pf_alarm.c:740-823): connection and priority of the queue the frame is put in, `some none` if it is left
to the caller.  Simplified: the queue is not full.  An access outside the table is `none`. -/
def dispatch (eps : List Endpoint) (frameId : U16) (frameIdPos : Nat) (buf : List Byte) : Option (Option (Nat × Bool)) :=
  (getU16 ⟨buf, false, buf.length, true, .ok, frameIdPos + 2⟩).bind fun r =>
    let e := r.1.toNat
    if e > 0 ∧ e ≤ eps.length then
      match eps[e - 1]? with
      | none => none
      | some x => some (if x.active then x.ar.map (fun i => (i, frameId == 0xFC01#16)) else none)
    else some none

/-- What a received alarm frame makes pf_alarm_apmr_periodic (src/common/pf_alarm.c:2073-2278) do. -/
inductive Frame where
  | ack (f : AlarmFixed)
  | data (f : AlarmFixed) (varLen : U16)
  | error (s : Status)
  | ignored
deriving DecidableEq

/-- pf_alarm_apmr_periodic (src/common/pf_alarm.c:2073-2278): parsing of a frame from behind the frame ID -/
def parseFrame : P Frame := do
  let f ← getAlarmFixed
  let n ← getU16
  if f.version = 1 then
    if f.type = 3 then
      if n = 0 then pure (.ack f) else pure .ignored
    else if f.type = 2 then pure .ignored
    else if f.type = 1 then pure (.data f n)
    else if f.type = 4 then
      if n = 4 then do
        let s ← getStatus
        pure (.error s)
      else pure .ignored
    else pure .ignored
  else pure .ignored

/-- What a DATA frame with the expected sequence number makes pf_alarm_apmr_a_data_ind (src/common/pf_alarm.c:1783-1966) do: hand a status to
the application (pf_alarm_alpmi_apmr_a_data_ind (src/common/pf_alarm.c:514-537)), hand an alarm to it (pf_alarm_alpmr_apmr_a_data_ind (src/common/pf_alarm.c:625-682)):
argument, identifier, length of data, position of the data in the frame; or refuse. -/
inductive Ind where
  | status (s : Status)
  | alarm (a : Arg) (usi : U16) (len : U16) (pos : Nat)
  | parseError
  | unknown
deriving DecidableEq

def reader : P Rd := fun r => some (r, r)

/-- The argument for the application (pf_alarm_alpmr_apmr_a_data_ind (src/common/pf_alarm.c:625-682)). -/
def argOf (d : AlarmData) : Arg :=
  ⟨d.api.toNat, d.slot.toNat, d.subslot.toNat, d.type.toNat, d.seq.toNat,
    ⟨d.channel != 0, d.manufacturer != 0, d.submodule != 0, d.ar != 0⟩⟩

/-- pf_alarm_apmr_a_data_ind (src/common/pf_alarm.c:1783-1966): parsing of the variable part of a DATA frame.  Sending of the transport
acknowledgement and the states are in area Alarm. -/
def dataInd (high : Bool) (varLen : U16) : P Ind := do
  let r0 ← reader
  let h ← getBlockHeader
  if h.type = (if high then 0x8001 else 0x8002) then do
    let s ← getStatus
    pure (.status s)
  else if h.type = (if high then 1 else 2) then do
    let d ← getAlarmData
    let u ← getU16
    let r ← reader
    if r.err = .ok then
      pure (.alarm (argOf d) u (varLen - BitVec.ofNat 16 (r.pos - r0.pos)) r.pos)
    else pure .parseError
  else pure .unknown

/-- A received frame with a DATA part up to the indication. -/
def receive (high : Bool) (frameIdPos : Nat) (buf : List Byte) : Option (Option Ind) :=
  (parseFrame ⟨buf, false, buf.length, true, .ok, frameIdPos + 2⟩).bind fun x =>
    match x.1 with
    | .data _ n => (dataInd high n x.2).map fun y => some y.1
    | _ => some none

end Verif.AlarmPdu
