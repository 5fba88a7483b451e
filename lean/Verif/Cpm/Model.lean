import Verif.Common.Bytes
/-!
# Consumer protocol machine (CPM): reception of cyclic output data

Model of `src/common/pf_cpm.c` and `src/common/pf_cpm_driver_sw.c` for one IOCR.

Simplifications:
* The statistics counters (recv_cnt, free_cnt, errcnt, max_exec) and err_cls/err_code are not
  modelled. Buffers are values, so freeing is not modelled.
* Calls to CMIO, CMDMC, CMSU and FSPM are reported as events (`Ev`), in order of occurrence.
* Every call is atomic. (The C code protects the buffer pointers by a mutex; the fields
  `buffer_pos` and `frame_id_pos` are written outside it.)
* `PNET_OPTION_REDUNDANCY` is off.
-/
namespace Verif.Cpm

inductive St | wStart | frun | run
deriving DecidableEq, Repr

/-- pf_cpm_t (src/pf_types.h:1793-1835). -/
structure Cpm where
  state : St
  sa : List Byte
  dataHoldFactor : Nat
  /-- `p_buffer_app` -/
  bufApp : Option (List Byte)
  /-- `p_buffer_cpm` -/
  bufCpm : Option (List Byte)
  newBuf : Bool
  dataStatus : Byte
  bufferLength : Nat
  bufferPos : Nat
  dht : Nat
  /-- -1 means "never" -/
  cycle : Int
  ciRunning : Bool
  /-- the timer `ci_timeout` is pending in the scheduler -/
  timer : Bool
deriving DecidableEq, Repr

/-- A zeroed instance: pf_ar_allocate clears the AR, pf_cpm_create (src/common/pf_cpm.c:117-147) sets W_START. -/
def fresh : Cpm :=
  ⟨.wStart, [], 0, none, none, false, 0, 0, 0, 0, 0, false, false⟩

/-- Negotiated parameters used at activation. -/
structure Cfg where
  sa : List Byte
  dataHoldFactor : Nat
  cSduLength : Nat
deriving DecidableEq, Repr

/-- An incoming frame as passed to the frame handler: payload bytes and position of the frame id. -/
structure Frame where
  bytes : List Byte
  frameIdPos : Nat
deriving DecidableEq, Repr

inductive Ev
  /-- pf_cpm_state_ind(start = true) -/
  | start
  /-- pf_cpm_state_ind(start = false): data hold timer expired -/
  | stop
  /-- pf_cmio_cpm_new_data_ind(true) -/
  | newData
  /-- pf_cmio_cpm_new_data_ind(false) -/
  | noNewData
  /-- pf_fspm_data_status_changed(changes, data_status) -/
  | statusChanged (changes status : Byte)
  /-- pf_cmsu_cpm_error_ind -/
  | error
deriving DecidableEq, Repr

/-- pf_cpm_check_cycle (src/common/pf_cpm.c:181-193): `(uint16_t)(now - (uint16_t)prev)` in 1..61440. -/
def checkCycle (prev : Int) (now : Nat) : Bool :=
  let diff := ((now : Int) - prev % 65536) % 65536
  decide (1 ≤ diff) && decide (diff ≤ 61440)

/-- pf_cpm_check_src_addr (src/common/pf_cpm.c:195-210): compare bytes 6..11 of the payload. -/
def checkSrcAddr (c : Cpm) (f : Frame) : Option Bool := do
  let s ← slice f.bytes 6 6
  some (decide (s = c.sa))

/-- pf_cpm_activate_req (src/common/pf_cpm.c:212-308) with pf_cpm_driver_sw_activate_req (src/common/pf_cpm_driver_sw.c:402-442). `addOk`: result of
pf_scheduler_add. Returns success. The frame handler registration is not modelled here. -/
def activate (c : Cpm) (cfg : Cfg) (addOk : Bool) : Cpm × Bool × List Ev :=
  match c.state with
  | .wStart =>
    let c := { c with
      dataHoldFactor := cfg.dataHoldFactor, cycle := -1, dht := 0, sa := cfg.sa, bufferPos := 16,
      dataStatus := 0, bufferLength := 16 + cfg.cSduLength + 2 + 1 + 1 }
    if addOk then ({ c with timer := true, ciRunning := true, state := .frun }, true, [])
    else ({ c with timer := false }, false, [.error])
  | _ => (c, false, [])

/-- pf_cpm_close_req (src/common/pf_cpm.c:149-179) with pf_cpm_driver_sw_close_req (src/common/pf_cpm_driver_sw.c:149-174). The buffers are freed. -/
def close (c : Cpm) : Cpm :=
  { c with state := .wStart, ciRunning := false, timer := false, bufApp := none, bufCpm := none }

/-- pf_cpm_control_interval_expired (src/common/pf_cpm_driver_sw.c:46-116): called by the scheduler, so only if the timer is
pending. `addOk`: result of pf_scheduler_add. `dht` is a `uint16_t`; it stays below
`data_hold_factor`, also a `uint16_t`, plus one. -/
def ciExpired (c : Cpm) (addOk : Bool) : Cpm × List Ev :=
  if c.timer = false then (c, [])
  else
    let c := { c with timer := false }
    if c.ciRunning then
      let (c, evs) := match c.state with
        | .run =>
          if c.dht ≥ c.dataHoldFactor then
            ({ c with dht := 0, ciRunning := false, state := .wStart }, [Ev.stop])
          else ({ c with dht := c.dht + 1 }, [])
        | _ => (c, [])
      if c.ciRunning then
        if addOk then ({ c with timer := true }, evs) else (c, evs ++ [.error])
      else (c, evs)
    else (c, [])

/-- pf_cpm_put_buf (src/common/pf_cpm_driver_sw.c:184-194). -/
def putBuf (c : Cpm) (b : List Byte) : Cpm := { c with bufCpm := some b, newBuf := true }

/-- pf_cpm_get_buf (src/common/pf_cpm_driver_sw.c:205-237): swap in the newest buffer; returns the new flag. -/
def getBuf (c : Cpm) : Cpm × Bool :=
  if c.newBuf then ({ c with bufApp := c.bufCpm, bufCpm := c.bufApp, newBuf := false }, true)
  else (c, false)

/-- pf_cpm_c_data_ind (src/common/pf_cpm_driver_sw.c:257-400). -/
def cDataInd (c : Cpm) (f : Frame) : Option (Cpm × List Ev) :=
  if c.state = .wStart then some (c, [])
  else do
    let pos := (f.bytes.length + 65536 - 4) % 65536
    let tail ← slice f.bytes pos 4
    let cycle := be16 (tail.getD 0 0) (tail.getD 1 0)
    let dataStatus := tail.getD 2 0
    let transferStatus := tail.getD 3 0
    let dataValid := decide (dataStatus &&& 4#8 ≠ 0)
    let backup := decide (dataStatus &&& 1#8 = 0)
    let primary := decide (dataStatus &&& 1#8 ≠ 0)
    let len := (f.bytes.length + 65536 - f.frameIdPos + 14) % 65536
    let src ← checkSrcAddr c f
    let frameStructure := decide (transferStatus = 0) && src && decide (len = c.bufferLength)
    let cSduStructure := checkCycle c.cycle cycle
    let dhtReload := frameStructure && cSduStructure && (dataValid || backup)
    let updateData := frameStructure && cSduStructure && dataValid && (primary || backup)
    if dataValid = false then some (c, [])
    else if dhtReload then
      let e1 := if c.state = .frun then [Ev.start] else []
      let (c, e2) := if updateData then
          ({ putBuf c f.bytes with bufferPos := f.frameIdPos + 2 }, [Ev.newData])
        else (c, [Ev.noNewData])
      let changes := c.dataStatus ^^^ dataStatus
      let e3 := if changes ≠ 0 then [Ev.statusChanged changes dataStatus] else []
      some ({ c with dht := 0, cycle := cycle, dataStatus := dataStatus, state := .run }, e1 ++ e2 ++ e3)
    else some (c, [])

/-- The position of one submodule's fields in the C_SDU, pf_iodata_object_t (src/pf_types.h:1837-1861). -/
structure Desc where
  dataOff : Nat
  dataLen : Nat
  iopsOff : Nat
  iopsLen : Nat
  iocsOff : Nat
  iocsLen : Nat
deriving DecidableEq, Repr

/-- Results of the application's read calls. -/
inductive Res
  | unit
  | err
  | data (new : Bool) (data iops : List Byte)
  | iocs (iocs : List Byte)
deriving DecidableEq, Repr

/-- pf_cpm_get_data_and_iops (src/common/pf_cpm.c:398-499) and pf_cpm_driver_sw_get_data_and_iops (src/common/pf_cpm_driver_sw.c:444-491) for a submodule with
descriptor `d`; `dl`, `il` are the sizes of the caller's buffers. -/
def getData (c : Cpm) (d : Desc) (dl il : Nat) : Option (Cpm × Res) :=
  if c.state = .wStart then some (c, .err)
  else
    if dl < d.dataLen ∨ il < d.iopsLen then some (c, .err)
    else
      let (c, new) := getBuf c
      match c.bufApp with
      | none => some (c, .err)
      | some b => do
        let data ← slice b (c.bufferPos + d.dataOff) d.dataLen
        let iops ← slice b (c.bufferPos + d.iopsOff) d.iopsLen
        some (c, .data new data iops)

/-- pf_cpm_get_iocs (src/common/pf_cpm.c:501-584) and pf_cpm_driver_sw_get_iocs (src/common/pf_cpm_driver_sw.c:493-515). -/
def getIocs (c : Cpm) (d : Desc) (il : Nat) : Option (Cpm × Res) :=
  if c.state = .wStart then some (c, .err)
  else
    if il < d.iocsLen then some (c, .err)
    else if d.iocsLen = 0 then some (c, .err)
    else
      let (c, _) := getBuf c
      match c.bufApp with
      | none => some (c, .err)
      | some b => do
        let x ← slice b (c.bufferPos + d.iocsOff) d.iocsLen
        some (c, .iocs x)

inductive Op
  | frame (f : Frame)
  | tick (addOk : Bool)
  | getData (d : Desc) (dl il : Nat)
  | getIocs (d : Desc) (il : Nat)
  | close
deriving DecidableEq, Repr

structure Out where
  evs : List Ev
  res : Res
deriving DecidableEq, Repr

def step (c : Cpm) : Op → Option (Cpm × Out)
  | .frame f => (cDataInd c f).map fun (c, e) => (c, ⟨e, .unit⟩)
  | .tick ok => let (c, e) := ciExpired c ok; some (c, ⟨e, .unit⟩)
  | .getData d dl il => (getData c d dl il).map fun (c, r) => (c, ⟨[], r⟩)
  | .getIocs d il => (getIocs c d il).map fun (c, r) => (c, ⟨[], r⟩)
  | .close => some (close c, ⟨[], .unit⟩)

def run : Cpm → List Op → Option (Cpm × List Out)
  | c, [] => some (c, [])
  | c, op :: ops => do
    let (c, o) ← step c op
    let (c, os) ← run c ops
    some (c, o :: os)

/-- The state after a successful activation on a fresh AR. -/
def start (cfg : Cfg) : Cpm := (activate fresh cfg true).1

end Verif.Cpm
