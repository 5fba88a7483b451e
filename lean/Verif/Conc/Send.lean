import Verif.Common.Bytes
import Verif.Ppm.Spec
/-!
# Cyclic input data under concurrency: one buffer, one lock, any number of threads

Model of the critical sections around `ppm_buf_lock`: the application may set and read input data in
one thread while another thread builds the cyclic frame.
Source: src/common/pf_ppm.c, src/common/pf_ppm_driver_sw.c.

Every byte that `memcpy` copies is a step of its own, and the steps of the threads interleave in any
order.  `none` means an access outside `buffer_data`, or `os_mutex_unlock` by a thread that does not
hold the lock.

Simplifications: one IOCR (the lock is common to all of them, so sections of another IOCR only delay);
what the calls do outside the lock (search of the descriptor, check of lengths) is in the area Ppm.
`memcpy` copies in ascending order, byte by byte.  `os_mutex_lock` is a lock of the operating system:
at most one thread holds it.
-/
namespace Verif.Conc
open Verif.Layout (IoData)

/-- Access to one byte of `buffer_data`. -/
inductive Micro where
  | store (a : Nat) (b : Byte)
  | load (a : Nat)
deriving DecidableEq, Repr

/-- `memcpy (&buffer_data[off], d, n)` -/
def stores (off : Nat) : List Byte → List Micro
  | [] => []
  | b :: d => .store off b :: stores (off + 1) d

/-- `memcpy (dst, &buffer_data[off], n)` -/
def loads (off : Nat) : Nat → List Micro
  | 0 => []
  | n + 1 => .load off :: loads (off + 1) n

/-- The calls that enter a critical section. -/
inductive Call where
  /-- the section of pf_ppm_drv_sw_write_data_and_iops; `data = none`: NULL pointer -/
  | setData (d : IoData) (data : Option (List Byte)) (iops : List Byte)
  /-- the section of pf_ppm_drv_sw_write_iocs -/
  | setIocs (d : IoData) (iocs : List Byte)
  /-- the section of pf_ppm_drv_sw_read_data_and_iops -/
  | getData (d : IoData)
  /-- the section of pf_ppm_drv_sw_read_iocs -/
  | getIocs (d : IoData)
  /-- the section of pf_ppm_finish_buffer, for `n` bytes -/
  | send (n : Nat)
deriving DecidableEq, Repr

/-- What happens between `os_mutex_lock` and `os_mutex_unlock`:
pf_ppm_drv_sw_write_data_and_iops (src/common/pf_ppm_driver_sw.c:148-182), pf_ppm_drv_sw_write_iocs (src/common/pf_ppm_driver_sw.c:218-237),
pf_ppm_drv_sw_read_data_and_iops (src/common/pf_ppm_driver_sw.c:184-216), pf_ppm_drv_sw_read_iocs (src/common/pf_ppm_driver_sw.c:239-258),
pf_ppm_finish_buffer (src/common/pf_ppm.c:182-212). -/
def body : Call → List Micro
  | .setData d data iops => stores d.dataOff (data.getD []) ++ stores d.iopsOff iops
  | .setIocs d iocs => stores d.iocsOff iocs
  | .getData d => loads d.dataOff d.dataLen ++ loads d.iopsOff d.iopsLen
  | .getIocs d => loads d.iocsOff d.iocsLen
  | .send n => loads 0 n

/-- One byte is copied; the second component collects what has been read. -/
def micro (buf : List Byte) (out : List Byte) : Micro → Option (List Byte × List Byte)
  | .store a b => if a < buf.length then some (buf.set a b, out) else none
  | .load a => (buf[a]?).map fun b => (buf, out ++ [b])

/-- Where a thread is. -/
inductive Thr where
  | idle
  /-- waits for the lock -/
  | want (c : Call)
  /-- holds the lock, has still to do `todo`, has read `out` -/
  | inside (c : Call) (todo : List Micro) (out : List Byte)
deriving DecidableEq, Repr

/-- A finished critical section: by whom, which, and what it has read. -/
structure Entry where
  thread : Nat
  call : Call
  out : List Byte
deriving DecidableEq, Repr

structure St where
  buf : List Byte
  /-- who holds the lock -/
  owner : Option Nat
  thr : Nat → Thr
  /-- the finished critical sections, oldest first -/
  log : List Entry

def St.setThr (st : St) (t : Nat) (x : Thr) : St :=
  { st with thr := fun u => if u = t then x else st.thr u }

/-- A step of the scheduler. -/
inductive Act where
  /-- thread `t` begins call `c` -/
  | call (t : Nat) (c : Call)
  | lock (t : Nat)
  | micro (t : Nat)
  | unlock (t : Nat)
deriving DecidableEq, Repr

/-- One step; a step that is not possible now does nothing.
pf_ppm_drv_sw_write_data_and_iops (src/common/pf_ppm_driver_sw.c:148-182), pf_ppm_drv_sw_write_iocs (src/common/pf_ppm_driver_sw.c:218-237),
pf_ppm_drv_sw_read_data_and_iops (src/common/pf_ppm_driver_sw.c:184-216), pf_ppm_drv_sw_read_iocs (src/common/pf_ppm_driver_sw.c:239-258),
pf_ppm_finish_buffer (src/common/pf_ppm.c:182-212). -/
def step (st : St) : Act → Option St
  | .call t c => match st.thr t with
    | .idle => some (st.setThr t (.want c))
    | _ => some st
  | .lock t => match st.thr t with
    | .want c => if st.owner = none then
        some { st.setThr t (.inside c (body c) []) with owner := some t }
      else some st
    | _ => some st
  | .micro t => match st.thr t with
    | .inside c (m :: ms) out =>
      (micro st.buf out m).map fun r => { st.setThr t (.inside c ms r.2) with buf := r.1 }
    | _ => some st
  | .unlock t => match st.thr t with
    | .inside c [] out =>
      if st.owner = some t then
        some { st.setThr t .idle with owner := none, log := st.log ++ [⟨t, c, out⟩] }
      else none
    | _ => some st

def run : St → List Act → Option St
  | st, [] => some st
  | st, a :: as => (step st a).bind (run · as)

/-- All threads idle, nobody holds the lock. -/
def start (buf : List Byte) : St := ⟨buf, none, fun _ => .idle, []⟩

/-- A section executed without interruption. -/
def solo : List Micro → List Byte → List Byte → Option (List Byte × List Byte)
  | [], buf, out => some (buf, out)
  | m :: ms, buf, out => (micro buf out m).bind fun r => solo ms r.1 r.2

/-- Sections executed one after the other: the final buffer and what each has read. -/
def serial : List Call → List Byte → Option (List Byte × List (List Byte))
  | [], buf => some (buf, [])
  | c :: cs, buf =>
    (solo (body c) buf []).bind fun r => (serial cs r.1).map fun q => (q.1, r.2 :: q.2)

/-! ## What the sections do, in terms of whole areas -/

theorem solo_append (a b : List Micro) (buf out : List Byte) :
    solo (a ++ b) buf out = (solo a buf out).bind fun r => solo b r.1 r.2 := by
  induction a generalizing buf out with
  | nil => simp [solo]
  | cons m a ih =>
    simp only [List.cons_append, solo]
    cases h : micro buf out m with
    | none => simp
    | some r => simp [ih]

theorem solo_stores (off : Nat) (d buf out : List Byte) (h : off + d.length ≤ buf.length) :
    solo (stores off d) buf out = (writeAt buf off d).map fun b => (b, out) := by
  induction d generalizing off buf with
  | nil =>
    simp at h
    simp [stores, solo, writeAt, h]
  | cons b d ih =>
    simp only [List.length_cons] at h
    simp only [stores, solo, micro]
    rw [if_pos (by omega)]
    simp only [Option.bind_some]
    rw [ih (off + 1) (buf.set off b) (by simp; omega)]
    congr 1
    rw [writeAt_eq_some (by simp; omega), writeAt_eq_some (by simp; omega)]
    congr 1
    apply List.ext_getElem?
    intro i
    have e1 := writeAt_get (writeAt_eq_some (l := buf.set off b) (off := off + 1) (d := d)
      (by simp; omega)) i
    have e2 := writeAt_get (writeAt_eq_some (l := buf) (off := off) (d := b :: d)
      (by simp; omega)) i
    rw [e1, e2]
    by_cases c1 : off + 1 ≤ i ∧ i < off + 1 + d.length
    · rw [if_pos c1, if_pos (by simp; omega)]
      have : i - off = (i - (off + 1)) + 1 := by omega
      rw [this, List.getElem?_cons_succ]
    · rw [if_neg c1]
      by_cases c2 : i = off
      · subst c2
        rw [if_pos (by simp)]
        simp [List.getElem?_set]
        omega
      · rw [if_neg (by simp; omega), List.getElem?_set_ne (by omega)]

theorem solo_loads (off n : Nat) (buf out : List Byte) (h : off + n ≤ buf.length) :
    solo (loads off n) buf out = some (buf, out ++ (buf.drop off).take n) := by
  induction n generalizing off out with
  | zero => simp [loads, solo]
  | succ n ih =>
    simp only [loads, solo, micro]
    have hl : off < buf.length := by omega
    rw [List.getElem?_eq_getElem hl]
    simp only [Option.map_some, Option.bind_some]
    rw [ih (off + 1) _ (by omega)]
    have : buf.drop off = buf[off] :: buf.drop (off + 1) := List.drop_eq_getElem_cons hl
    rw [this, List.take_succ_cons, List.append_assoc]
    rfl

end Verif.Conc
