/-
Model of the alarm ring queues of src/common/pf_alarm.c.

`none` is the outcome "undefined behaviour" (an access outside the `items` array).
-/
namespace Verif.AlarmQueue

/-- `pf_queue_accountant_t` + `items[PNET_MAX_ALARMS]`
(src/pf_types.h, `pf_alarm_send_queue_t` / `pf_alarm_receive_queue_t`).
`items` is the array; its length is `PNET_MAX_ALARMS` (a compile time option).
Simplification: the mutex is not modelled, every queue call is one atomic step
(each call holds the queue mutex for its whole effect). -/
structure Queue (α : Type) where
  count : Nat
  readIndex : Nat
  writeIndex : Nat
  items : List α
deriving Repr

/-- pf_alarm_queue_accountant_reset (src/common/pf_alarm.c:2421-2427) and
pf_alarm_send_queue_reset (src/common/pf_alarm.c:2614-2630): indexes to zero, items cleared to `blank`. -/
def reset {α} (blank : α) (q : Queue α) : Queue α :=
  { count := 0, readIndex := 0, writeIndex := 0
    items := List.replicate q.items.length blank }

/-- pf_alarm_queue_get_writeindex (src/common/pf_alarm.c:2440-2459). First component: the index to
use, or `none` for return value -1. `max` is PNET_MAX_ALARMS. -/
def getWriteIndex {α} (max : Nat) (q : Queue α) : Option Nat × Queue α :=
  if q.count ≥ max then (none, q)
  else
    let w := q.writeIndex
    let w' := if q.writeIndex + 1 ≥ max then 0 else q.writeIndex + 1
    (some w, { q with writeIndex := w', count := q.count + 1 })

/-- pf_alarm_queue_get_readindex (src/common/pf_alarm.c:2472-2491). -/
def getReadIndex {α} (max : Nat) (q : Queue α) : Option Nat × Queue α :=
  if q.count = 0 then (none, q)
  else
    let r := q.readIndex
    let r' := if q.readIndex + 1 ≥ max then 0 else q.readIndex + 1
    (some r, { q with readIndex := r', count := q.count - 1 })

/-- pf_alarm_send_queue_post (src/common/pf_alarm.c:2640-2673), and
pf_alarm_receive_queue_post (src/common/pf_alarm.c:2538-2573). Result `true` is return value 0,
`false` is -1 (queue full). Simplification: the queue is initialised (mutex exists);
the 32-bit width of the counters is ignored (`max` fits easily). -/
def post {α} (max : Nat) (q : Queue α) (a : α) : Option (Queue α × Bool) :=
  match getWriteIndex max q with
  | (none, q') => some (q', false)
  | (some w, q') =>
    if w < q'.items.length then some ({ q' with items := q'.items.set w a }, true)
    else none

/-- pf_alarm_send_queue_fetch (src/common/pf_alarm.c:2683-2704), and
pf_alarm_receive_queue_fetch (src/common/pf_alarm.c:2582-2608) ( the receive variant in addition clears the item). -/
def fetch {α} (max : Nat) (q : Queue α) : Option (Queue α × Option α) :=
  match getReadIndex max q with
  | (none, q') => some (q', none)
  | (some r, q') =>
    match q'.items[r]? with
    | some a => some (q', some a)
    | none => none

/-- Calls a client of one queue can make. -/
inductive Op (α : Type)
  | post (a : α)
  | fetch
  | reset
deriving Repr

/-- What a client of one queue observes: the return values. -/
inductive Out (α : Type)
  | posted (ok : Bool)
  | fetched (a : Option α)
  | done
deriving Repr, DecidableEq

/-- One call. -/
def step {α} (max : Nat) (blank : α) (q : Queue α) : Op α → Option (Queue α × Out α)
  | .post a => (post max q a).map fun (q', b) => (q', .posted b)
  | .fetch => (fetch max q).map fun (q', x) => (q', .fetched x)
  | .reset => some (reset blank q, .done)

/-- A history of calls. `none` if any call has undefined behaviour. -/
def run {α} (max : Nat) (blank : α) : Queue α → List (Op α) → Option (Queue α × List (Out α))
  | q, [] => some (q, [])
  | q, op :: ops => do
    let (q', o) ← step max blank q op
    let (q'', os) ← run max blank q' ops
    return (q'', o :: os)

/-- State of the queue after AR allocation: everything zero
(pf_ar_allocate (src/device/pf_cmrpc.c:704-751) clears the AR; `pf_alarm_queue_mutex_create`). -/
def init {α} (max : Nat) (blank : α) : Queue α :=
  { count := 0, readIndex := 0, writeIndex := 0, items := List.replicate max blank }

end Verif.AlarmQueue
