import Verif.AlarmQueue.Lemmas
/-!
# C11 Alarm send queue is a bounded FIFO

Specification: a plain list.  `post` appends unless the list has `max` elements, `fetch`
takes the head.
-/
namespace Verif.AlarmQueue

/-- The specification: an ordinary bounded first-in first-out queue of capacity `max`. -/
def specStep {α} (max : Nat) (l : List α) : Op α → List α × Out α
  | .post a => if l.length < max then (l ++ [a], .posted true) else (l, .posted false)
  | .fetch => match l with
    | [] => ([], .fetched none)
    | a :: l' => (l', .fetched (some a))
  | .reset => ([], .done)

def specRun {α} (max : Nat) : List α → List (Op α) → List α × List (Out α)
  | l, [] => (l, [])
  | l, op :: ops =>
    let (l', o) := specStep max l op
    let (l'', os) := specRun max l' ops
    (l'', o :: os)

theorem step_sim {α} {max : Nat} (blank : α) {q : Queue α} {l : List α} (h : Rep max q l)
    (op : Op α) : ∃ q', step max blank q op = some (q', (specStep max l op).2) ∧
      Rep max q' (specStep max l op).1 := by
  cases op with
  | post a =>
    by_cases hf : l.length < max
    · obtain ⟨q', e, r⟩ := post_room h a hf
      exact ⟨q', by simp [step, e, specStep, hf], by simpa [specStep, hf] using r⟩
    · have hf' : l.length = max := by have := h.le; omega
      exact ⟨q, by simp [step, post_full h a hf', specStep, hf], by simpa [specStep, hf] using h⟩
  | fetch =>
    cases l with
    | nil => exact ⟨q, by simp [step, fetch_empty h, specStep], by simpa [specStep] using h⟩
    | cons a l =>
      obtain ⟨q', e, r⟩ := fetch_cons h
      exact ⟨q', by simp [step, e, specStep], by simpa [specStep] using r⟩
  | reset => exact ⟨reset blank q, by simp [step, specStep], by simpa [specStep] using rep_reset blank h⟩

theorem run_sim {α} {max : Nat} (blank : α) (ops : List (Op α)) :
    ∀ {q : Queue α} {l : List α}, Rep max q l →
      ∃ q', run max blank q ops = some (q', (specRun max l ops).2) ∧
        Rep max q' (specRun max l ops).1 := by
  induction ops with
  | nil => intro q l h; exact ⟨q, rfl, h⟩
  | cons op ops ih =>
    intro q l h
    obtain ⟨q', e, r⟩ := step_sim blank h op
    obtain ⟨q'', e', r'⟩ := ih r
    exact ⟨q'', by simp [run, e, e', specRun], by simpa [specRun] using r'⟩

/-- **C11.** For every capacity and every history of post / fetch / reset calls on a fresh
queue the ring never accesses memory outside its array and returns exactly what a bounded
FIFO of that capacity returns. -/
theorem C11_queue_is_bounded_fifo {α} (max : Nat) (hmax : 0 < max) (blank : α)
    (ops : List (Op α)) :
    ∃ q', run max blank (init max blank) ops = some (q', (specRun max [] ops).2) := by
  obtain ⟨q', e, _⟩ := run_sim blank ops (rep_init max blank hmax)
  exact ⟨q', e⟩

/-! The same claim said directly about the trace: what is fetched is, in order and without
repetition, what was accepted. -/

/-- Values of the accepted `post` calls of a trace, in order. -/
def accepted {α} : List (Op α) → List (Out α) → List α
  | .post a :: ops, .posted true :: os => a :: accepted ops os
  | _ :: ops, _ :: os => accepted ops os
  | _, _ => []

/-- Values returned by successful `fetch` calls of a trace, in order. -/
def fetchedVals {α} : List (Out α) → List α
  | .fetched (some a) :: os => a :: fetchedVals os
  | _ :: os => fetchedVals os
  | [] => []

theorem spec_conservation {α} (max : Nat) (ops : List (Op α)) (hr : Op.reset ∉ ops) :
    ∀ l : List α, l ++ accepted ops (specRun max l ops).2 =
      fetchedVals (specRun max l ops).2 ++ (specRun max l ops).1 := by
  induction ops with
  | nil => intro l; simp [specRun, accepted, fetchedVals]
  | cons op ops ih =>
    intro l
    have hr' : Op.reset ∉ ops := fun h => hr (List.mem_cons_of_mem _ h)
    have ih := ih hr'
    cases op with
    | post a =>
      by_cases hf : l.length < max
      · have := ih (l ++ [a])
        simp [specRun, specStep, hf, accepted, fetchedVals] at this ⊢
        exact this
      · simpa [specRun, specStep, hf, accepted, fetchedVals] using ih l
    | fetch =>
      cases l with
      | nil => simpa [specRun, specStep, accepted, fetchedVals] using ih []
      | cons a l => simpa [specRun, specStep, accepted, fetchedVals] using ih l
    | reset => simp at hr

/-- **C11**, trace form. Without a reset, `accepted = fetched ++ still queued`: every accepted
alarm leaves exactly once, in order of acceptance; and at most `max` are queued. -/
theorem C11_fifo_order_and_conservation {α} (max : Nat) (hmax : 0 < max) (blank : α)
    (ops : List (Op α)) (hr : Op.reset ∉ ops) :
    ∃ q' outs waiting, run max blank (init max blank) ops = some (q', outs) ∧
      accepted ops outs = fetchedVals outs ++ waiting ∧ waiting.length ≤ max ∧
      q'.count = waiting.length := by
  obtain ⟨q', e, r⟩ := run_sim blank ops (rep_init max blank hmax)
  exact ⟨q', _, _, e, by simpa using spec_conservation max ops hr [], r.le, r.cnt⟩

/-- **C11**, refusal form: after any history a post is refused iff `max` alarms are queued. -/
theorem C11_refused_iff_full {α} (max : Nat) (hmax : 0 < max) (blank : α)
    (ops : List (Op α)) (a : α) :
    ∃ q' outs, run max blank (init max blank) ops = some (q', outs) ∧
      ((∃ q'', step max blank q' (.post a) = some (q'', .posted false)) ↔
        (specRun max [] ops).1.length = max) := by
  obtain ⟨q', e, r⟩ := run_sim blank ops (rep_init max blank hmax)
  refine ⟨q', _, e, ?_⟩
  obtain ⟨q2, e2, _⟩ := step_sim blank r (.post a)
  rw [e2]
  have hle := r.le
  simp only [specStep]
  split <;> simp <;> omega

/-- Concrete instance: capacity 2, wrap-around, one refusal. -/
example : (run 2 0 (init 2 0)
    [.post 7, .post 8, .post 9, .fetch, .post 10, .fetch, .fetch, .fetch]).map (·.2) =
    some [.posted true, .posted true, .posted false, .fetched (some 7), .posted true,
      .fetched (some 8), .fetched (some 10), .fetched none] := by decide

end Verif.AlarmQueue
