/-!
# Resources of connections

The counters, locks, frame buffers and timers that the stack takes when an IO connection starts and
returns when it ends. `none` is a use of a lock that does not exist or a buffer freed twice.

Simplified: contents of frames and data (areas Ppm, Cpm), frame IDs and alarm endpoints (area Rx), the
moment at which a timer expires (area Scheduler). A timer that has expired leaves its entry of the scheduler free, so that
the callback can start the next one.
-/
namespace Verif.Res

inductive Kind where
  | input
  | output
  /-- Multicast types: the stack does nothing for them. -/
  | other
deriving DecidableEq

/-- A communication relation of a running connection: `p_ar->iocrs[k]` of AR entry `ar`. -/
structure Cr where
  ar : Nat
  k : Nat
  kind : Kind
  /-- `ppm.p_send_buffer` -/
  send : Option Nat
  /-- `cpm.p_buffer_cpm` -/
  cpm : Option Nat
  /-- `cpm.p_buffer_app` -/
  app : Option Nat
  /-- `cpm.new_buf` -/
  new : Bool
  /-- The timer of the CR: `ci_timeout` -/
  timer : Option Nat
  /-- `ppm.ci_running` -/
  run : Bool
deriving DecidableEq

/-- A timer: its number, the CR that is the argument of its callback, and whether the callback is the sending of
inputs (pf_ppm_drv_sw_send) or the supervision of outputs (pf_cpm_control_interval_expired). -/
structure Timer where
  id : Nat
  ar : Nat
  k : Nat
  ppm : Bool
deriving DecidableEq

structure St where
  /-- CRs of the running connections. -/
  crs : List Cr
  /-- `net->ppm_instance_cnt`, `net->cpm_instance_cnt` -/
  ppmCnt : Nat
  cpmCnt : Nat
  /-- `net->ppm_buf_lock`, `net->cpm_buf_lock` exist -/
  ppmLock : Bool
  cpmLock : Bool
  /-- Buffers allocated and not freed. -/
  bufs : List Nat
  /-- Running timers. -/
  timers : List Timer
  /-- Names for new buffers and timers. -/
  next : Nat

def init : St := ⟨[], 0, 0, false, false, [], [], 0⟩

/-- `pnal_buf_free` (src/pnal.h:309) -/
def freeBuf (st : St) (b : Nat) : Option St :=
  if b ∈ st.bufs then some { st with bufs := st.bufs.erase b } else none

def freeOpt (st : St) : Option Nat → Option St
  | none => some st
  | some b => freeBuf st b

/-- pf_cpm_create (src/common/pf_cpm.c:117-147) and pf_cpm_activate_req (src/common/pf_cpm.c:212-308) with
pf_cpm_driver_sw_activate_req (src/common/pf_cpm_driver_sw.c:402-442). `ok` is whether pf_scheduler_add finds a free timer. -/
def startCpm (st : St) (ar k : Nat) (ok : Bool) : St × Option Cr :=
  let st := { st with cpmLock := if st.cpmCnt = 0 then true else st.cpmLock, cpmCnt := st.cpmCnt + 1 }
  if ok then
    ({ st with timers := ⟨st.next, ar, k, false⟩ :: st.timers, next := st.next + 1 },
      some ⟨ar, k, .output, none, none, none, false, some st.next, false⟩)
  else (st, none)

/-- pf_ppm_create (src/common/pf_ppm.c:288-347). `ok` is whether the buffer can be allocated. -/
def startPpm (st : St) (ar k : Nat) (ok : Bool) : St × Option Cr :=
  let st := { st with ppmLock := if st.ppmCnt = 0 then true else st.ppmLock, ppmCnt := st.ppmCnt + 1 }
  if ok then
    ({ st with bufs := st.next :: st.bufs, next := st.next + 1 },
      some ⟨ar, k, .input, some st.next, none, none, false, none, false⟩)
  else (st, none)

def startCr (st : St) (ar k : Nat) (kind : Kind) (ok : Bool) : St × Option Cr :=
  match kind with
  | .output => startCpm st ar k ok
  | .input => startPpm st ar k ok
  | .other => (st, some ⟨ar, k, .other, none, none, none, false, none, false⟩)

/-- The loop of pf_cmsu_start_req (src/device/pf_cmsu.c:179-274): after a failure no further CR is started. The CRs given
with the outcome of taking their resource. -/
def startCrs (ar : Nat) : Nat → List (Kind × Bool) → St → St × Option (List Cr)
  | _, [], st => (st, some [])
  | k, (kind, ok) :: l, st =>
    match startCr st ar k kind ok with
    | (st, none) => (st, none)
    | (st, some c) =>
      match startCrs ar (k + 1) l st with
      | (st, none) => (st, none)
      | (st, some cs) => (st, some (c :: cs))

/-- A connect request that is accepted by the checks and the application, for the AR entry `ar` (a free one, pf_ar_allocate
(src/device/pf_cmrpc.c:704-742)): pf_cmdev_cm_connect_rsp_pos (src/device/pf_cmdev.c:4741-4799). If the start fails the entry is
released and cleared, without pf_cmsu_cmdev_state_ind (src/device/pf_cmsu.c:94-177). -/
def start (st : St) (ar : Nat) (l : List (Kind × Bool)) : St :=
  if st.crs.any (·.ar == ar) then st
  else
    match startCrs ar 0 l st with
    | (st, none) => st
    | (st, some cs) => { st with crs := cs ++ st.crs }

/-- Change one CR. -/
def modCr (st : St) (ar k : Nat) (f : Cr → Cr) : St :=
  { st with crs := st.crs.map fun c => if c.ar = ar ∧ c.k = k then f c else c }

/-- pf_ppm_activate_req (src/common/pf_ppm.c:349-392) with pf_ppm_drv_sw_activate_req (src/common/pf_ppm_driver_sw.c:84-107): the sending of an
input CR starts. Nothing happens if it is running. -/
def activate (st : St) (ar k : Nat) : St :=
  match st.crs.find? fun c => c.ar = ar ∧ c.k = k with
  | none => st
  | some c =>
    if c.kind = .input ∧ c.run = false then
      modCr { st with timers := ⟨st.next, ar, k, true⟩ :: st.timers, next := st.next + 1 } ar k
        fun c => { c with timer := some st.next, run := true }
    else st

/-- A frame for an output CR: pf_cpm_c_data_ind (src/common/pf_cpm_driver_sw.c:257-400), pf_cpm_put_buf (src/common/pf_cpm_driver_sw.c:184-194). The platform allocated a buffer for
it; `valid` is whether its data is taken. -/
def frame (st : St) (ar k : Nat) (valid : Bool) : Option St :=
  match st.crs.find? fun c => c.ar = ar ∧ c.k = k with
  | none => some st
  | some c =>
    if c.kind = .output then
      let b := st.next
      let st := { st with bufs := b :: st.bufs, next := b + 1 }
      if valid then
        if st.cpmLock then
          let old := c.cpm
          freeOpt (modCr st ar k fun c => { c with cpm := some b, new := true }) old
        else none
      else freeBuf st b
    else some st

/-- The application reads outputs: pf_cpm_get_buf (src/common/pf_cpm_driver_sw.c:205-237). -/
def getOut (st : St) (ar k : Nat) : Option St :=
  match st.crs.find? fun c => c.ar = ar ∧ c.k = k with
  | none => some st
  | some c =>
    if c.kind = .output then
      if st.cpmLock then
        some (if c.new then modCr st ar k fun c => { c with app := c.cpm, cpm := c.app, new := false } else st)
      else none
    else some st

/-- The application sets inputs: the lock is taken (src/common/pf_ppm.c, pf_ppm_set_data_and_iops). -/
def setIn (st : St) (ar k : Nat) : Option St :=
  match st.crs.find? fun c => c.ar = ar ∧ c.k = k with
  | none => some st
  | some c => if c.kind = .input ∧ st.ppmLock = false then none else some st

/-- `pf_scheduler_remove_if_running` -/
def dropTimer (st : St) : Option Nat → St
  | none => st
  | some t => { st with timers := st.timers.filter fun x => x.id ≠ t }

/-- A timer expires: pf_cpm_control_interval_expired (src/common/pf_cpm_driver_sw.c:46-116), and pf_ppm_drv_sw_send
(src/common/pf_ppm_driver_sw.c:38-77). The handle of the CR is reset; if the CR is running (`ci_running`) the next timer is
started, for sending only if the frame was sent (`sent`). A data hold time that expires ends the connection: operation `close`. -/
def expire (st : St) (id : Nat) (sent : Bool) : St :=
  match st.timers.find? fun t => t.id = id with
  | none => st
  | some t =>
    let st := dropTimer st (some id)
    match st.crs.find? fun c => c.ar = t.ar ∧ c.k = t.k with
    | none => st
    | some c =>
      if c.kind = (if t.ppm then .input else .output) then
        if !t.ppm || (c.run && sent) then
          modCr { st with timers := ⟨st.next, t.ar, t.k, t.ppm⟩ :: st.timers, next := st.next + 1 } t.ar t.k
            fun c => { c with timer := some st.next }
        else modCr st t.ar t.k fun c => { c with timer := none }
      else st

/-- pf_ppm_close_req (src/common/pf_ppm.c:394-425) -/
def closePpm (st : St) (c : Cr) : Option St :=
  match freeOpt (dropTimer st c.timer) c.send with
  | none => none
  | some st =>
    some { st with ppmCnt := st.ppmCnt - 1, ppmLock := if st.ppmCnt = 1 then false else st.ppmLock }

/-- pf_cpm_close_req (src/common/pf_cpm.c:149-179) with pf_cpm_driver_sw_close_req (src/common/pf_cpm_driver_sw.c:149-174). -/
def closeCpm (st : St) (c : Cr) : Option St :=
  match freeOpt (dropTimer st c.timer) c.cpm with
  | none => none
  | some st =>
    match freeOpt st c.app with
    | none => none
    | some st =>
      some { st with cpmCnt := st.cpmCnt - 1, cpmLock := if st.cpmCnt = 1 then false else st.cpmLock }

def closeCr (st : St) (c : Cr) : Option St :=
  match c.kind with
  | .input => closePpm st c
  | .output => closeCpm st c
  | .other => some st

def closeCrs : List Cr → St → Option St
  | [], st => some st
  | c :: cs, st =>
    match closeCr st c with
    | none => none
    | some st => closeCrs cs st

/-- The connection in entry `ar` ends: pf_cmsu_cmdev_state_ind (src/device/pf_cmsu.c:94-177) for ABORT, then the entry is cleared. -/
def close (st : St) (ar : Nat) : Option St :=
  closeCrs (st.crs.filter (·.ar == ar)) { st with crs := st.crs.filter (·.ar != ar) }

inductive Op where
  | start (ar : Nat) (l : List (Kind × Bool))
  | activate (ar k : Nat)
  | frame (ar k : Nat) (valid : Bool)
  | getOut (ar k : Nat)
  | setIn (ar k : Nat)
  | expire (id : Nat) (sent : Bool)
  | close (ar : Nat)

def step (st : St) : Op → Option St
  | .start ar l => some (start st ar l)
  | .activate ar k => some (activate st ar k)
  | .frame ar k v => frame st ar k v
  | .getOut ar k => getOut st ar k
  | .setIn ar k => setIn st ar k
  | .expire id sent => some (expire st id sent)
  | .close ar => close st ar

def exec (st : St) : List Op → Option St
  | [] => some st
  | o :: os =>
    match step st o with
    | none => none
    | some st => exec st os

end Verif.Res
