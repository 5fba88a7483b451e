import Verif.Common.Bytes
import Verif.Layout.Model
/-!
# Provider protocol machine (PPM): sending of cyclic input data

Model of `src/common/pf_ppm.c` and `src/common/pf_ppm_driver_sw.c` for the IOCRs of one AR.

`none` means: an access outside a buffer, use of a missing or freed buffer, or division by zero.

Simplifications:
* err_cls/err_code, `data_avail`, `first_transmit`, `trx_cnt`, the instance counter and the mutex are
  not modelled; every call is atomic.
* The Ethernet layer and the scheduler are environment: each call of the send callback is told
  whether the transmission and the re-arming of the timer succeed. That an armed timer fires, once and
  not early, is C01.
* A `p_send_buffer` that is not allocated yet or freed is `none`.
* Allocation of the send buffer succeeds; its content (`junk`) is arbitrary.
-/
namespace Verif.Ppm
open Verif.Layout (IoData Key)

/-- PF_FRAME_BUFFER_SIZE (src/pf_types.h:69). -/
def bufSize : Nat := 1500

/-- The negotiated part of an IOCR. `scf`, `rr`: send clock factor, reduction ratio. -/
structure Cfg where
  /-- iocr_type is INPUT or MC_PROVIDER -/
  input : Bool
  cSdu : Nat
  inLen : Nat
  descs : List IoData
  da : List Byte
  sa : List Byte
  vlan : Nat
  prio : Nat
  frameId : Nat
  scf : Nat
  rr : Nat
deriving DecidableEq, Repr

/-- The changing part of pf_ppm_t (src/pf_types.h:1737-1791). -/
structure Ppm where
  /-- state: `true` = RUN, `false` = W_START -/
  run : Bool
  ciRunning : Bool
  /-- a timer is pending in the scheduler -/
  armed : Bool
  nextExec : BitVec 32
  /-- `buffer_data` -/
  buf : List Byte
  send : Option (List Byte)
  cycle : Nat
  status : Byte
deriving DecidableEq, Repr

/-- A zeroed instance (pf_ar_allocate clears the AR). -/
def fresh : Ppm := ⟨false, false, false, 0, List.replicate bufSize 0, none, 0, 0⟩

abbrev St := Nat → Ppm

def upd (st : St) (i : Nat) (p : Ppm) : St := fun j => if j = i then p else st j

/-- Two-byte big-endian header fields, see pf_ppm_init_buf (src/common/pf_ppm.c:134-180). -/
def header (c : Cfg) : List Byte :=
  c.da ++ c.sa ++ toBe16 0x8100 ++ toBe16 (c.vlan % 4096 + (c.prio % 8) * 8192) ++ toBe16 0x8892 ++ toBe16 c.frameId

/-- `buffer_length` of pf_ppm_init_cr_config (src/common/pf_ppm.c:229-286): header 20, C_SDU, counter 2, data status, transfer status. -/
def frameLen (c : Cfg) : Nat := 20 + c.cSdu + 4

/-- pf_ppm_init_buf (src/common/pf_ppm.c:134-180). -/
def initBuf (c : Cfg) (junk : List Byte) : Option (List Byte) := do
  let b ← writeAt junk 0 (List.replicate (frameLen c) 0)
  writeAt b 0 (header c)

/-- pf_ppm_calculate_next_cyclecounter (src/common/pf_ppm.c:1031-1048). -/
def nextCycle (prev scf rr : Nat) : Option Nat :=
  let interval := scf * rr
  if interval = 0 then none
  else some ((prev / interval % 65536 + 1) * interval % 65536)

/-- pf_ppm_finish_buffer (src/common/pf_ppm.c:182-212). -/
def finish (c : Cfg) (p : Ppm) : Option Ppm := do
  let s ← p.send
  let cyc ← nextCycle p.cycle c.scf c.rr
  let d ← slice p.buf 0 c.inLen
  let s ← writeAt s 20 d
  let s ← writeAt s (20 + c.cSdu) (toBe16 cyc)
  let s ← writeAt s (20 + c.cSdu + 2) [p.status]
  let s ← writeAt s (20 + c.cSdu + 2 + 1) [0]
  some { p with cycle := cyc, send := some s }

/-- control_interval in pf_ppm_init_cr_config (src/common/pf_ppm.c:229-286), microseconds. -/
def controlInterval (c : Cfg) : BitVec 32 := BitVec.ofNat 32 (c.scf * c.rr * 1000 % 2 ^ 32 / 32)

/-- `data_status` after creation: primary, data valid, no station problem. -/
def status0 : Byte := 0x25

/-- pf_ppm_create (src/common/pf_ppm.c:288-347). Result `false`: refused. -/
def create (c : Cfg) (p : Ppm) (junk : List Byte) : Option (Ppm × Bool) :=
  if p.run then some (p, false)
  else do
    let b ← initBuf c junk
    some ({ p with cycle := 0, status := status0, send := some b }, true)

/-- What the world sees of a call. -/
inductive Out
  | ret (r : Int)
  /-- activation done; `ok`: the timer could be armed -/
  | activated (ok : Bool)
  | data (d iops : List Byte)
  | iocs (v : List Byte)
  /-- the callback handed this frame to the Ethernet layer. `next`: the delay requested from the
  scheduler, `error`: the error indication to CMSU -/
  | fired (frame : List Byte) (next : Option (BitVec 32)) (error : Bool)
  | nothing
deriving DecidableEq, Repr

/-- pf_ppm_activate_req (src/common/pf_ppm.c:349-392) with pf_ppm_drv_sw_activate_req (src/common/pf_ppm_driver_sw.c:84-107). -/
def activate (c : Cfg) (p : Ppm) (now : BitVec 32) (addOk : Bool) : Option (Ppm × Out) :=
  if p.run then some (p, .ret (-1))
  else do
    let p ← finish c { p with nextExec := now + controlInterval c, run := true, ciRunning := true }
    some ({ p with armed := addOk }, .activated addOk)

/-- pf_ppm_close_req (src/common/pf_ppm.c:394-425) with pf_ppm_drv_sw_close_req (src/common/pf_ppm_driver_sw.c:109-124). -/
def close (p : Ppm) : Option (Ppm × Out) := do
  let _ ← p.send
  some ({ p with ciRunning := false, armed := false, send := none, run := false, status := 0 }, .ret 0)

/-- The searching loops of pf_ppm_get_ar_iocr_desc (src/common/pf_ppm.c:427-501). `i` is the index of the first IOCR in the list. -/
def findFrom (k : Key) : Nat → List Cfg → Option (Nat × IoData)
  | _, [] => none
  | i, c :: cs =>
    if c.input then
      match c.descs.find? (fun d => d.key == k) with
      | some d => some (i, d)
      | none => findFrom k (i + 1) cs
    else findFrom k (i + 1) cs

/-- pf_ppm_get_ar_iocr_desc (src/common/pf_ppm.c:427-501). `owned`: the submodule is plugged and this AR owns it
(states IOC, IOS). -/
def find (cs : List Cfg) (k : Key) (owned : Bool) : Option (Nat × IoData) :=
  if owned then findFrom k 0 cs else none

/-- pf_ppm_set_data_and_iops (src/common/pf_ppm.c:503-584) with pf_ppm_drv_sw_write_data_and_iops (src/common/pf_ppm_driver_sw.c:148-182).
`null`: `p_data` is NULL, then only the length of `data` counts. -/
def setData (cs : List Cfg) (st : St) (k : Key) (owned : Bool) (data : List Byte) (null : Bool)
    (iops : List Byte) : Option (St × Out) :=
  match find cs k owned with
  | none => some (st, .ret (-1))
  | some (i, d) =>
    if data.length = d.dataLen ∧ iops.length = d.iopsLen then
      let p := st i
      (if null then some p.buf else writeAt p.buf d.dataOff data).bind fun b =>
      (writeAt b d.iopsOff iops).bind fun b =>
      some (upd st i { p with buf := b }, .ret 0)
    else some (st, .ret (-1))

/-- pf_ppm_set_iocs (src/common/pf_ppm.c:586-659) with pf_ppm_drv_sw_write_iocs (src/common/pf_ppm_driver_sw.c:218-237). -/
def setIocs (cs : List Cfg) (st : St) (k : Key) (owned : Bool) (iocs : List Byte) : Option (St × Out) :=
  match find cs k owned with
  | none => some (st, .ret (-1))
  | some (i, d) =>
    if iocs.length = d.iocsLen then do
      let p := st i
      let b ← writeAt p.buf d.iocsOff iocs
      some (upd st i { p with buf := b }, .ret 0)
    else if d.iocsLen = 0 then some (st, .ret 0)
    else some (st, .ret (-1))

/-- pf_ppm_get_data_and_iops (src/common/pf_ppm.c:661-752) with pf_ppm_drv_sw_read_data_and_iops (src/common/pf_ppm_driver_sw.c:184-216).
`dataCap`, `iopsCap`: sizes of the caller's buffers. -/
def getData (cs : List Cfg) (st : St) (k : Key) (owned : Bool) (dataCap iopsCap : Nat) : Option Out :=
  match find cs k owned with
  | none => some (.ret (-1))
  | some (i, d) =>
    if (st i).run = true ∧ d.dataLen ≤ dataCap ∧ d.iopsLen ≤ iopsCap then do
      let x ← slice (st i).buf d.dataOff d.dataLen
      let y ← slice (st i).buf d.iopsOff d.iopsLen
      some (.data x y)
    else some (.ret (-1))

/-- pf_ppm_get_iocs (src/common/pf_ppm.c:754-831) with pf_ppm_drv_sw_read_iocs (src/common/pf_ppm_driver_sw.c:239-258). -/
def getIocs (cs : List Cfg) (st : St) (k : Key) (owned : Bool) (cap : Nat) : Option Out :=
  match find cs k owned with
  | none => some (.ret (-1))
  | some (i, d) =>
    if (st i).run = true ∧ d.iocsLen ≤ cap then do
      let x ← slice (st i).buf d.iocsOff d.iocsLen
      some (.iocs x)
    else some (.ret (-1))

/-- pf_ppm_set_data_status_state (src/common/pf_ppm.c:833-856), pf_ppm_set_data_status_redundancy (src/common/pf_ppm.c:858-881),
pf_ppm_set_data_status_provider (src/common/pf_ppm.c:883-906): set or clear one bit (0, 1 or 4). -/
def setBit (s : Byte) (mask : Byte) (on : Bool) : Byte := if on then s ||| mask else s &&& ~~~mask

/-- pf_ppm_set_problem_indicator (src/common/pf_ppm.c:914-944), all provider IOCRs of the AR. -/
def setProblem (cs : List Cfg) (st : St) (problem : Bool) : St := fun i =>
  match cs[i]? with
  | some c => if c.input then { st i with status := setBit (st i).status 0x20 (!problem) } else st i
  | none => st i

/-- pf_ppm_drv_sw_send (src/common/pf_ppm_driver_sw.c:37-77), called by the scheduler at `now` if the timer is armed. -/
def fire (c : Cfg) (p : Ppm) (now : BitVec 32) (ethOk addOk : Bool) : Option (Ppm × Out) :=
  if p.armed = false then some (p, .nothing)
  else
    let p := { p with armed := false }
    if p.ciRunning then do
      let p ← finish c p
      let s ← p.send
      let f := s.take (frameLen c)
      if ethOk then
        let ne := p.nextExec + controlInterval c
        let p := { p with nextExec := ne }
        if addOk then some ({ p with armed := true }, .fired f (some (ne - now)) false)
        else some (p, .fired f none true)
      else some (p, .fired f none false)
    else some (p, .nothing)

inductive Op
  | create (i : Nat) (junk : Vector Byte bufSize)
  | activate (i : Nat) (now : BitVec 32) (addOk : Bool)
  | close (i : Nat)
  | setData (k : Key) (owned : Bool) (data : List Byte) (null : Bool) (iops : List Byte)
  | setIocs (k : Key) (owned : Bool) (iocs : List Byte)
  | getData (k : Key) (owned : Bool) (dataCap iopsCap : Nat)
  | getIocs (k : Key) (owned : Bool) (cap : Nat)
  | setBit (i : Nat) (mask : Byte) (on : Bool)
  | setProblem (problem : Bool)
  | fire (i : Nat) (now : BitVec 32) (ethOk addOk : Bool)
deriving DecidableEq, Repr

/-- One call. Calls for an IOCR index that does not exist do nothing. -/
def step (cs : List Cfg) (st : St) : Op → Option (St × Out)
  | .create i junk => match cs[i]? with
    | none => some (st, .nothing)
    | some c => do
      let (p, ok) ← create c (st i) junk.toList
      some (upd st i p, .ret (if ok then 0 else -1))
  | .activate i now ok => match cs[i]? with
    | none => some (st, .nothing)
    | some c => do
      let (p, o) ← activate c (st i) now ok
      some (upd st i p, o)
  | .close i => match cs[i]? with
    | none => some (st, .nothing)
    | some _ => do
      let (p, o) ← close (st i)
      some (upd st i p, o)
  | .setData k w d n p => setData cs st k w d n p
  | .setIocs k w v => setIocs cs st k w v
  | .getData k w a b => do some (st, ← getData cs st k w a b)
  | .getIocs k w a => do some (st, ← getIocs cs st k w a)
  | .setBit i m on => match cs[i]? with
    | none => some (st, .nothing)
    | some _ => some (upd st i { st i with status := setBit (st i).status m on }, .ret 0)
  | .setProblem b => some (setProblem cs st b, .nothing)
  | .fire i now e a => match cs[i]? with
    | none => some (st, .nothing)
    | some c => do
      let (p, o) ← fire c (st i) now e a
      some (upd st i p, o)

/-- A history: the calls with what they returned, oldest first. -/
abbrev Hist := List (Op × Out)

def execStep (cs : List Cfg) (s : St × Hist) (op : Op) : Option (St × Hist) := do
  let (st, o) ← step cs s.1 op
  some (st, s.2 ++ [(op, o)])

/-- All calls since the AR was allocated. -/
def exec (cs : List Cfg) (ops : List Op) : Option (St × Hist) :=
  ops.foldlM (execStep cs) (fun _ => fresh, [])

end Verif.Ppm
