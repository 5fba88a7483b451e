/-
Model of src/common/pf_scheduler.c.

Outcome `none` of any function: a failed CC_ASSERT, a read or write outside
`scheduler_timeouts[]`, or an endless loop.  All of these are proved impossible.
-/
namespace Verif.Scheduler

/-- `pf_scheduler_timeouts_t` (src/pf_types.h:1106-1118). `name` is the identity of the name
pointer, `cb` stands for the callback function together with its argument. -/
structure Slot where
  inUse : Bool
  name : Nat
  cb : Nat
  when : BitVec 32
  next : Nat
  prev : Nat
deriving Repr

/-- The scheduler part of `pnet_t` (src/pf_types.h:2954-2962). The array
`scheduler_timeouts[PF_MAX_TIMEOUTS]` is a function; `rd`/`wr` below make every access with an
index `≥ N` undefined. -/
structure Sched where
  slots : Nat → Slot
  first : Nat
  free : Nat

/-- Array read. -/
def rd (N : Nat) (sl : Nat → Slot) (i : Nat) : Option Slot :=
  if i < N then some (sl i) else none

/-- Array write. -/
def wr (N : Nat) (sl : Nat → Slot) (i : Nat) (f : Slot → Slot) : Option (Nat → Slot) :=
  if i < N then some (fun j => if j = i then f (sl j) else sl j) else none

/-- The loop of pf_scheduler_is_linked (src/common/pf_scheduler.c:33-53); `fuel = N - cnt`, so `none` at
fuel 0 is the failing `CC_ASSERT (cnt < PF_MAX_TIMEOUTS)`. -/
def isLinkedLoop (N : Nat) (sl : Nat → Slot) (ix : Nat) : Nat → Nat → Bool → Option Bool
  | fuel, first, ret =>
    if first < N then
      match fuel with
      | 0 => none
      | fuel + 1 => isLinkedLoop N sl ix fuel (sl first).next (ret || first == ix)
    else some ret

/-- pf_scheduler_is_linked (src/common/pf_scheduler.c:33-53). -/
def isLinked (N : Nat) (sl : Nat → Slot) (first ix : Nat) : Option Bool :=
  if ix < N then isLinkedLoop N sl ix N first false else some false

/-- pf_scheduler_unlink (src/common/pf_scheduler.c:55-97). `q` is the value of `*p_q`; returns the new array and `*p_q`. -/
def unlink (N : Nat) (sl : Nat → Slot) (q ix : Nat) : Option ((Nat → Slot) × Nat) :=
  if ix ≥ N then some (sl, q)
  else do
    let linked ← isLinked N sl q ix
    if linked = false then some (sl, q)
    else do
      let e ← rd N sl ix
      let prevIx := e.prev
      let nextIx := e.next
      let q' := if q = ix then nextIx else q
      let sl1 ← if nextIx < N then wr N sl nextIx (fun s => { s with prev := prevIx }) else some sl
      let sl2 ← if prevIx < N then wr N sl1 prevIx (fun s => { s with next := nextIx }) else some sl1
      some (sl2, q')

/-- "Put first in possible non-empty Q", shared by the next two functions
(src/common/pf_scheduler.c:125-134, 184-193). -/
def pushFront (N : Nat) (sl : Nat → Slot) (q ix : Nat) : Option ((Nat → Slot) × Nat) := do
  let sl1 ← wr N sl ix (fun s => { s with prev := N, next := q })
  let sl2 ← if q < N then wr N sl1 q (fun s => { s with prev := ix }) else some sl1
  some (sl2, ix)

/-- pf_scheduler_link_after (src/common/pf_scheduler.c:99-156). -/
def linkAfter (N : Nat) (sl : Nat → Slot) (q ix pos : Nat) : Option ((Nat → Slot) × Nat) :=
  if ix ≥ N then some (sl, q)
  else do
    let linked ← isLinked N sl q ix
    if linked = true then some (sl, q)
    else if pos ≥ N then pushFront N sl q ix
    else if q ≥ N then do
      let sl1 ← wr N sl ix (fun s => { s with prev := N, next := N })
      some (sl1, ix)
    else do
      let e ← rd N sl pos
      let nextIx := e.next
      let sl1 ← if nextIx < N then wr N sl nextIx (fun s => { s with prev := ix }) else some sl
      let sl2 ← wr N sl1 pos (fun s => { s with next := ix })
      let sl3 ← wr N sl2 ix (fun s => { s with prev := pos, next := nextIx })
      some (sl3, q)

/-- pf_scheduler_link_before (src/common/pf_scheduler.c:158-221). -/
def linkBefore (N : Nat) (sl : Nat → Slot) (q ix pos : Nat) : Option ((Nat → Slot) × Nat) :=
  if ix ≥ N then some (sl, q)
  else do
    let linked ← isLinked N sl q ix
    if linked = true then some (sl, q)
    else if pos ≥ N then pushFront N sl q ix
    else if q ≥ N then do
      let sl1 ← wr N sl ix (fun s => { s with prev := N, next := N })
      some (sl1, ix)
    else do
      let e ← rd N sl pos
      let prevIx := e.prev
      let sl1 ← if prevIx < N then wr N sl prevIx (fun s => { s with next := ix }) else some sl
      let sl2 ← wr N sl1 pos (fun s => { s with prev := ix })
      let sl3 ← wr N sl2 ix (fun s => { s with next := pos, prev := prevIx })
      some (sl3, if q = pos then ix else q)

/-- `(int32_t)(a - b)`. -/
def sdiff (a b : BitVec 32) : Int := (a - b).toInt

/-- PF_SCHEDULER_MAX_DELAY_US (src/common/pf_scheduler.h:23). -/
def maxDelayUs : BitVec 32 := 100000000#32

/-- pf_scheduler_sanitize_delay (src/common/pf_scheduler.c:605-642) with `schedule_half_tick_in_advance = true`
(the only value used by pf_scheduler_add). 32-bit unsigned arithmetic. The three
`CC_ASSERT`s are preconditions (`0 < cycle`) or consequences (see `Props`). -/
def sanitizeDelay (wanted cycle : BitVec 32) : BitVec 32 :=
  let wanted := if wanted > maxDelayUs then 0#32 else wanted
  let ticks := if wanted > cycle + cycle / 2#32 then (wanted + cycle / 2#32) / cycle else 1#32
  ticks * cycle - cycle / 2#32

/-- One iteration of the initialisation loop (src/common/pf_scheduler.c:287-296).
The name given to free slots ("<free>") is `0`; clients' names are arbitrary. -/
def initStep (N : Nat) (sl : Nat → Slot) (free ix : Nat) : Option ((Nat → Slot) × Nat) := do
  let sl1 ← wr N sl ix (fun s => { s with name := 0, inUse := false })
  linkBefore N sl1 free ix free

def initLoop (N : Nat) : Nat → (Nat → Slot) → Nat → Option ((Nat → Slot) × Nat)
  | 0, sl, free => some (sl, free)
  | ix + 1, sl, free => do
    let (sl', free') ← initStep N sl free ix
    initLoop N ix sl' free'

/-- pf_scheduler_init (src/common/pf_scheduler.c:270-297): all slots zeroed, then linked into the free list from the last to
the first. -/
def init (N : Nat) : Option Sched := do
  let zero : Slot := ⟨false, 0, 0, 0, 0, 0⟩
  let (sl, free) ← initLoop N N (fun _ => zero) N
  some ⟨sl, N, free⟩

/-- The search loop of pf_scheduler_add (src/common/pf_scheduler.c:299-384).
Returns `ix_prev`. -/
def findPos (N : Nat) (sl : Nat → Slot) (w : BitVec 32) : Nat → Nat → Nat → Option Nat
  | fuel, prev, this =>
    if this < N ∧ sdiff w (sl this).when > 0 then
      match fuel with
      | 0 => none
      | fuel + 1 => findPos N sl w fuel this (sl this).next
    else some prev

/-- pf_scheduler_add (src/common/pf_scheduler.c:299-384). Returns the new state and the handle's `timer_index`
(`none` for "out of timeout resources", i.e. return value -1 and timer_index UINT32_MAX).
Simplification: the whole call is atomic (the C code releases the mutex between taking the
free slot and linking it). -/
def add (N : Nat) (tick : BitVec 32) (s : Sched) (now delay : BitVec 32) (name cb : Nat) :
    Option (Sched × Option Nat) := do
  let delay := sanitizeDelay delay tick
  let ixFree := s.free
  let (sl, free) ← unlink N s.slots s.free ixFree
  if ixFree ≥ N then some (⟨sl, s.first, free⟩, none)
  else do
    let sl ← wr N sl ixFree
      (fun e => { e with inUse := true, name := name, cb := cb, when := now + delay })
    if s.first ≥ N then do
      let (sl, first) ← linkBefore N sl s.first ixFree N
      some (⟨sl, first, free⟩, some (ixFree + 1))
    else do
      let e ← rd N sl ixFree
      let f ← rd N sl s.first
      if sdiff e.when f.when ≤ 0 then do
        let (sl, first) ← linkBefore N sl s.first ixFree s.first
        some (⟨sl, first, free⟩, some (ixFree + 1))
      else do
        let pos ← findPos N sl e.when N s.first f.next
        let (sl, first) ← linkAfter N sl s.first ixFree pos
        some (⟨sl, first, free⟩, some (ixFree + 1))

/-- pf_scheduler_remove (src/common/pf_scheduler.c:386-442) for a handle with the given `timer_index` and name. Result `true`:
the timer was removed (and the handle set to UINT32_MAX). Simplification: `PF_MAX_TIMEOUTS`
fits in the `uint16_t ix`. -/
def remove (N : Nat) (s : Sched) (timerIndex name : Nat) : Option (Sched × Bool) :=
  if timerIndex = 0 ∨ timerIndex > N then some (s, false)
  else do
    let ix := timerIndex - 1
    let e ← rd N s.slots ix
    if e.name ≠ name then some (s, false)
    else if e.inUse = false then some (s, false)
    else do
      let (sl, first) ← unlink N s.slots s.first ix
      let sl ← wr N sl ix (fun e => { e with inUse := false })
      let (sl, free) ← linkBefore N sl s.free ix s.free
      some (⟨sl, first, free⟩, true)

/-- One iteration of the loop in pf_scheduler_tick (src/common/pf_scheduler.c:444-481) up to the callback: if the first timer
is due, unlink it, put it into the free list, and report (timer_index, cb) to be called. -/
def fireOne (N : Nat) (s : Sched) (now : BitVec 32) : Option (Sched × Option (Nat × Nat)) :=
  if s.first < N then do
    let f ← rd N s.slots s.first
    if sdiff now f.when ≥ 0 then do
      let ix := s.first
      let (sl, first) ← unlink N s.slots s.first ix
      let e ← rd N sl ix
      let sl ← wr N sl ix (fun e => { e with inUse := false })
      let (sl, free) ← linkBefore N sl s.free ix s.free
      some (⟨sl, first, free⟩, some (ix + 1, e.cb))
    else some (s, none)
  else some (s, none)

/-- The loop of pf_scheduler_tick (src/common/pf_scheduler.c:444-481) for callbacks that do not call the scheduler.
Callbacks that do are covered by histories of `fireOne` interleaved with `add`/`remove`. -/
def tickLoop (N : Nat) (now : BitVec 32) : Nat → Sched → Option (Sched × List (Nat × Nat))
  | fuel, s => do
    let (s', f) ← fireOne N s now
    match f with
    | none => some (s', [])
    | some x =>
      match fuel with
      | 0 => none
      | fuel + 1 => do
        let (s'', xs) ← tickLoop N now fuel s'
        some (s'', x :: xs)

def tick (N : Nat) (s : Sched) (now : BitVec 32) : Option (Sched × List (Nat × Nat)) :=
  tickLoop N now N s

/-- Calls made to the scheduler. -/
inductive Op
  | add (delay : BitVec 32) (name cb : Nat)
  | remove (timerIndex name : Nat)
  | tick
  | fireOne
deriving Repr

/-- What the caller observes: the handle of `add`; whether `remove` reset the handle; which
callbacks ran, as pairs (handle, callback). -/
inductive Out
  | added (handle : Option Nat)
  | removed (b : Bool)
  | fired (l : List (Nat × Nat))
deriving Repr, DecidableEq

/-- A call at absolute time `t` (microseconds since start, unbounded); the code only sees
`t mod 2^32` through os_get_current_time_us. -/
def step (N : Nat) (tk : BitVec 32) (s : Sched) (t : Nat) : Op → Option (Sched × Out)
  | .add d n c => (add N tk s (BitVec.ofNat 32 t) d n c).map fun (s, h) => (s, .added h)
  | .remove h n => (remove N s h n).map fun (s, b) => (s, .removed b)
  | .tick => (tick N s (BitVec.ofNat 32 t)).map fun (s, l) => (s, .fired l)
  | .fireOne => (fireOne N s (BitVec.ofNat 32 t)).map fun (s, l) => (s, .fired l.toList)

def runFrom (N : Nat) (tk : BitVec 32) : Sched → List (Nat × Op) → Option (Sched × List Out)
  | s, [] => some (s, [])
  | s, (t, op) :: h => do
    let (s', o) ← step N tk s t op
    let (s'', os) ← runFrom N tk s' h
    some (s'', o :: os)

/-- A history of timed calls after pf_scheduler_init. -/
def run (N : Nat) (tk : BitVec 32) (h : List (Nat × Op)) : Option (Sched × List Out) := do
  let s ← init N
  runFrom N tk s h

end Verif.Scheduler
