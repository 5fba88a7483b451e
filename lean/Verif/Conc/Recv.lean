import Verif.Common.Bytes
/-!
# Cyclic output data under concurrency: frames arrive while the application reads

One thread receives frames (the thread in which `pf_eth_recv` is called, see src/common/pf_alarm.c:43-46),
another one calls the functions of the API and runs the periodic work of the stack, among it the end of
connections.  The model has one step for every access to a member shared by the threads.
Source: src/common/pf_cpm_driver_sw.c, src/common/pf_cpm.c.

`none` means: access to a freed buffer or outside a buffer, a buffer freed twice, use of a lock that does
not exist.

Simplifications: one IOCR.  Which frames are accepted (source address, length, cycle counter, data status)
is in the area Cpm; a frame that is not accepted is freed by the receiving thread and touches nothing that
is modelled here.  The buffers are numbered in the order of acceptance; nobody writes into a received
buffer.
-/
namespace Verif.Conc.Recv

/-- A received frame: the bytes, and the position of the frame ID as found by `pf_eth_recv`
(14 without VLAN tag, 4 more for each tag). -/
structure Frame where
  bytes : List Byte
  idPos : Nat
deriving DecidableEq, Repr

inductive Who where
  | eth | app
deriving DecidableEq, Repr

/-- The receiving thread in `pf_cpm_c_data_ind` and `pf_cpm_put_buf`; `n` is the frame at hand. -/
inductive Eth where
  | idle
  /-- the frame is accepted; before `os_mutex_lock` -/
  | accepted (n : Nat)
  /-- before `p = p_cpm->p_buffer_cpm` -/
  | locked (n : Nat)
  /-- before `p_cpm->p_buffer_cpm = *pp_buf` -/
  | loaded (n : Nat) (p : Option Nat)
  /-- before `p_cpm->new_buf = true` -/
  | stored (n : Nat) (p : Option Nat)
  /-- before `os_mutex_unlock` -/
  | flagged (n : Nat) (p : Option Nat)
  /-- before `p_cpm->buffer_pos = ...` -/
  | unlocked (n : Nat) (p : Option Nat)
  /-- before `pnal_buf_free` -/
  | placed (p : Option Nat)
deriving DecidableEq, Repr

/-- A read of the application: the bytes of the C_SDU it asks for (those of the data and of the IOPS, or of
the IOCS), and the number of frames that had been handed over when it began. -/
structure Req where
  offs : List Nat
  since : Nat
deriving DecidableEq, Repr

/-- The application in `pf_cpm_get_buf` and `pf_cpm_driver_sw_get_data_and_iops` or
`pf_cpm_driver_sw_get_iocs`, or closing the connection. -/
inductive App where
  | idle
  /-- before `os_mutex_lock` -/
  | begun (r : Req)
  /-- before `if (p_cpm->new_buf == true)` -/
  | locked (r : Req)
  /-- before `p = p_cpm->p_buffer_app` -/
  | fresh (r : Req)
  /-- before `p_cpm->p_buffer_app = p_cpm->p_buffer_cpm` -/
  | swap1 (r : Req) (p : Option Nat)
  /-- before `p_cpm->p_buffer_cpm = p` -/
  | swap2 (r : Req) (p : Option Nat)
  /-- before `p_cpm->new_buf = false` -/
  | swapped (r : Req)
  /-- before `os_mutex_unlock` -/
  | done (r : Req) (new : Bool)
  /-- before the pointer into the buffer is computed -/
  | free (r : Req) (new : Bool)
  /-- has the pointer; before `os_mutex_lock` -/
  | pointed (r : Req) (new : Bool) (b pos : Nat)
  /-- copies; `todo` are the bytes still to be copied, `got` those already copied -/
  | copying (r : Req) (new : Bool) (b pos : Nat) (todo : List Nat) (got : List Byte)
  /-- the handler of the frame ID is removed; before `pnal_buf_free (p_buffer_cpm)` -/
  | close1
  /-- before `pnal_buf_free (p_buffer_app)` -/
  | close2
  /-- before `os_mutex_destroy` and the clearing of the AR -/
  | close3
  | closed
deriving DecidableEq, Repr

/-- What a read gave. -/
structure Res where
  req : Req
  new : Bool
  /-- `none`: the call failed, as no frame has been received -/
  data : Option (List Byte)
  /-- number of frames accepted when the call returned -/
  upto : Nat
deriving DecidableEq, Repr

structure St where
  cpm : Option Nat
  app : Option Nat
  newBuf : Bool
  /-- `buffer_pos` -/
  pos : Nat
  /-- does `cpm_buf_lock` exist? -/
  lockOk : Bool
  owner : Option Who
  /-- is the buffer of the frame allocated? -/
  live : Nat → Bool
  /-- how often the buffer of the frame has been freed -/
  freed : Nat → Nat
  /-- number of frames accepted -/
  rx : Nat
  /-- is the handler of the frame ID registered? -/
  registered : Bool
  eth : Eth
  rd : App
  log : List Res

/-- After `pf_cpm_activate_req`: no buffers, `buffer_pos` as for a frame without VLAN tag. -/
def start : St := ⟨none, none, false, 16, true, none, fun _ => false, fun _ => 0, 0, true, .idle, .idle, []⟩

inductive Act where
  /-- a frame that will be accepted arrives -/
  | frame
  /-- a step of the receiving thread -/
  | eth
  /-- the application begins to read the bytes `offs` of the C_SDU -/
  | read (offs : List Nat)
  /-- the connection is to be closed -/
  | close
  /-- a step of the application -/
  | app
deriving DecidableEq, Repr

/-- `pnal_buf_free` of a pointer that may be NULL (the callers test it). -/
def free (st : St) : Option Nat → Option St
  | none => some st
  | some b => if st.live b then
      some { st with
        live := fun x => if x = b then false else st.live x
        freed := fun x => if x = b then st.freed x + 1 else st.freed x }
    else none

/-- `os_mutex_lock`, if the lock is free then as `k` says; otherwise the thread waits. -/
def lock (st : St) (w : Who) (k : St → St) : Option St :=
  if st.lockOk then
    if st.owner = none then some (k { st with owner := some w }) else some st
  else none

/-- `os_mutex_unlock` -/
def unlock (st : St) (w : Who) : Option St :=
  if st.lockOk ∧ st.owner = some w then some { st with owner := none } else none

/-- Number of frames handed over with `p_cpm->p_buffer_cpm = *pp_buf`. -/
def handed (st : St) : Nat := match st.eth with
  | .accepted n => n
  | .locked n => n
  | .loaded n _ => n
  | _ => st.rx

/-- The receiving thread: pf_cpm_put_buf and the end of pf_cpm_c_data_ind.
pf_cpm_put_buf (src/common/pf_cpm_driver_sw.c:184-194), pf_cpm_c_data_ind (src/common/pf_cpm_driver_sw.c:257-400) -/
def stepEth (fr : Nat → Frame) (st : St) : Option St := match st.eth with
  | .idle => some st
  | .accepted n => lock st .eth fun st => { st with eth := .locked n }
  | .locked n => some { st with eth := .loaded n st.cpm }
  | .loaded n p => some { st with cpm := some n, eth := .stored n p }
  | .stored n p => some { st with newBuf := true, eth := .flagged n p }
  | .flagged n p => (unlock st .eth).map fun st => { st with eth := .unlocked n p }
  | .unlocked n p => some { st with pos := (fr n).idPos + 2, eth := .placed p }
  | .placed p => (free st p).map fun st => { st with eth := .idle }

/-- One step of `memcpy` from buffer `b`. -/
def copyByte (fr : Nat → Frame) (st : St) (b pos o : Nat) : Option Byte :=
  if st.live b then (fr b).bytes[pos + o]? else none

/-- The application: pf_cpm_get_buf (src/common/pf_cpm_driver_sw.c:205-237), pf_cpm_driver_sw_get_data_and_iops (src/common/pf_cpm_driver_sw.c:444-491),
pf_cpm_driver_sw_get_iocs (src/common/pf_cpm_driver_sw.c:493-515), pf_cpm_close_req (src/common/pf_cpm.c:149-179), pf_cpm_driver_sw_close_req (src/common/pf_cpm_driver_sw.c:149-174). -/
def stepApp (fr : Nat → Frame) (st : St) : Option St := match st.rd with
  | .idle => some st
  | .closed => some st
  | .begun r => lock st .app fun st => { st with rd := .locked r }
  | .locked r => some { st with rd := if st.newBuf then .fresh r else .done r false }
  | .fresh r => some { st with rd := .swap1 r st.app }
  | .swap1 r p => some { st with app := st.cpm, rd := .swap2 r p }
  | .swap2 r p => some { st with cpm := p, rd := .swapped r }
  | .swapped r => some { st with newBuf := false, rd := .done r true }
  | .done r new => (unlock st .app).map fun st => { st with rd := .free r new }
  | .free r new => match st.app with
    | none => some { st with rd := .idle, log := st.log ++ [⟨r, false, none, st.rx⟩] }
    | some b => some { st with rd := .pointed r new b st.pos }
  | .pointed r new b pos => lock st .app fun st => { st with rd := .copying r new b pos r.offs [] }
  | .copying r new b pos (o :: os) got =>
    (copyByte fr st b pos o).map fun x => { st with rd := .copying r new b pos os (got ++ [x]) }
  | .copying r new _ _ [] got => (unlock st .app).map fun st =>
      { st with rd := .idle, log := st.log ++ [⟨r, new, some got, st.rx⟩] }
  | .close1 => (free st st.cpm).map fun st => { st with rd := .close2 }
  | .close2 => (free st st.app).map fun st => { st with rd := .close3 }
  | .close3 => some { st with lockOk := false, cpm := none, app := none, newBuf := false, rd := .closed }

/-- One step; a step that is not possible now does nothing. -/
def step (fr : Nat → Frame) (st : St) : Act → Option St
  | .frame => match st.eth with
    | .idle => if st.registered then
        some { st with
          eth := .accepted st.rx, rx := st.rx + 1
          live := fun x => if x = st.rx then true else st.live x }
      else some st
    | _ => some st
  | .eth => stepEth fr st
  | .read offs => match st.rd with
    | .idle => some { st with rd := .begun ⟨offs, handed st⟩ }
    | _ => some st
  | .close => match st.rd with
    | .idle => some { st with registered := false, rd := .close1 }
    | _ => some st
  | .app => stepApp fr st

def run (fr : Nat → Frame) : St → List Act → Option St
  | st, [] => some st
  | st, a :: as => (step fr st a).bind (run fr · as)

end Verif.Conc.Recv
