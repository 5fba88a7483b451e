import Verif.Plug.Model
/-!
The ring buffer is a queue, and the state machine works on the head of the queue.
-/
set_option linter.unusedVariables false
set_option linter.unusedSimpArgs false

namespace Verif.Plug

/-- The ring buffer `p` with `n` places holds the requests `l`. -/
structure Inv (n : Nat) (p : Plug) (l : List Req) : Prop where
  pos : 0 < n
  len : p.queue.length = n
  cur : p.current < n
  cnt : p.count = l.length
  le : l.length ≤ n
  get : ∀ i, i < l.length → p.queue[(p.current + i) % n]? = l[i]?
  idle : p.mode = .idle ↔ l = []

/-- The machine on a queue `l` of unbounded lists, with room for `n`. -/
def aReleased (n : Nat) (r : Req) (ok : Bool) (m : Mode) (l : List Req) : Mode × List Req × List Event :=
  if l.length ≥ n then (m, l, [.full r])
  else if m = .idle then (.wfPrmInd, l ++ [r], [.alarm r ok])
  else (m, l ++ [r], [])

/-- Finish the head of the queue. -/
def aNext (ok : Bool) (l : List Req) : Mode × List Req × List Event :=
  match l with
  | _ :: r :: t => (.wfPrmInd, r :: t, [.alarm r ok])
  | _ => (.idle, [], [])

def aStep (n : Nat) (m : Mode) (l : List Req) : Op → Mode × List Req × List Event
  | .released r ok => aReleased n r ok m l
  | .prmEnd cb ok _ =>
    match m, l with
    | .wfPrmInd, r :: t =>
      match cb with
      | .none => (.wfDataUpdate, r :: t, [])
      | .some true _ => (.wfDataUpdate, r :: t, [.told r true])
      | .some false _ => ((aNext ok (r :: t)).1, (aNext ok (r :: t)).2.1, .told r false :: (aNext ok (r :: t)).2.2)
    | _, _ => (m, l, [])
  | .confirm ok =>
    match m, l with
    | .wfDataUpdate, r :: t => (.wfAplRdyCnf, r :: t, [.ready r ok])
    | _, _ => (m, l, [])
  | .done ok => if m = .wfAplRdyCnf then aNext ok l else (m, l, [])

theorem Inv.head {n : Nat} {p : Plug} {r : Req} {t : List Req} (h : Inv n p (r :: t)) :
    p.queue[p.current]? = some r := by
  have g := h.get 0 (by simp)
  rw [Nat.add_zero, Nat.mod_eq_of_lt h.cur] at g
  simpa using g

theorem Inv.cons {n : Nat} {p : Plug} {l : List Req} (h : Inv n p l) (hm : p.mode ≠ .idle) : ∃ r t, l = r :: t := by
  cases l with
  | nil => exact absurd (h.idle.2 rfl) hm
  | cons r t => exact ⟨r, t, rfl⟩

theorem Inv.setMode {n : Nat} {p : Plug} {l : List Req} (h : Inv n p l) (hm : l ≠ []) {m : Mode} (h' : m ≠ .idle) :
    Inv n { p with mode := m } l :=
  ⟨h.pos, h.len, h.cur, h.cnt, h.le, h.get, by simp [h', hm]⟩

/-- The index computed in the code is the position behind the last entry. -/
theorem index_eq {n c k : Nat} (hc : c < n) (hk : k < n) : (if c + k ≥ n then c + k - n else c + k) = (c + k) % n := by
  split
  · rw [Nat.mod_eq_sub_mod (by omega), Nat.mod_eq_of_lt (by omega)]
  · rw [Nat.mod_eq_of_lt (by omega)]

theorem mod_inj {n c i k : Nat} (hc : c < n) (hi : i < n) (hk : k < n) (h : (c + i) % n = (c + k) % n) : i = k := by
  rw [← index_eq hc hi, ← index_eq hc hk] at h
  split at h <;> split at h <;> omega

theorem enqueue_eq {n : Nat} {p : Plug} {l : List Req} (h : Inv n p l) (r : Req) :
    enqueue r p = if l.length ≥ n then some (p, [.full r])
      else some ({ p with queue := p.queue.set ((p.current + l.length) % n) r, count := l.length + 1 }, []) := by
  unfold enqueue
  rw [h.cnt, h.len]
  split
  · rfl
  · dsimp only
    rw [index_eq h.cur (by omega), if_pos (Nat.mod_lt _ h.pos)]

theorem Inv.push {n : Nat} {p : Plug} {l : List Req} (h : Inv n p l) (r : Req) (hl : l.length < n) {m : Mode}
    (hm : m ≠ .idle) :
    Inv n { p with mode := m, queue := p.queue.set ((p.current + l.length) % n) r, count := l.length + 1 } (l ++ [r]) := by
  refine ⟨h.pos, by simp [h.len], h.cur, by simp, by simp; omega, ?_, by simp [hm]⟩
  intro i hi
  simp at hi
  dsimp only
  rw [List.getElem?_set]
  by_cases c : i = l.length
  · subst c
    rw [if_pos rfl, if_pos (by rw [h.len]; exact Nat.mod_lt _ h.pos)]
    simp
  · rw [if_neg (fun e => c (mod_inj h.cur (by omega) (by omega) e.symm)), h.get i (by omega),
      List.getElem?_append_left (by omega)]

theorem next_eq {n c : Nat} (hc : c < n) : (if c + 1 ≥ n then 0 else c + 1) = (c + 1) % n := by
  split
  · have : c + 1 = n := by omega
    rw [this, Nat.mod_self]
  · rw [Nat.mod_eq_of_lt (by omega)]

theorem Inv.pop {n : Nat} {p : Plug} {r : Req} {t : List Req} (h : Inv n p (r :: t)) {m : Mode}
    (hm : m = .idle ↔ t = []) : Inv n ⟨m, (p.current + 1) % n, t.length, p.queue⟩ t := by
  refine ⟨h.pos, h.len, Nat.mod_lt _ h.pos, rfl, by have := h.le; simp at this; omega, ?_, hm⟩
  intro i hi
  have g := h.get (i + 1) (by simp; omega)
  rw [List.getElem?_cons_succ] at g
  dsimp only
  rw [Nat.mod_add_mod, Nat.add_assoc, Nat.add_comm 1 i]
  exact g

theorem readyCnf_eq {n : Nat} {p : Plug} {r : Req} {t : List Req} (h : Inv n p (r :: t)) (hm : p.mode = .wfAplRdyCnf)
    (ok : Bool) : ∃ p', readyCnf ok p = some (p', (aNext ok (r :: t)).2.2) ∧ p'.mode = (aNext ok (r :: t)).1 ∧
      Inv n p' (aNext ok (r :: t)).2.1 := by
  unfold readyCnf
  rw [if_pos hm, h.len]
  dsimp only
  rw [next_eq h.cur]
  have hc : p.count - 1 = t.length := by rw [h.cnt]; simp
  rw [hc]
  cases t with
  | nil =>
    rw [if_neg (by simp)]
    exact ⟨_, rfl, rfl, h.pop (by simp)⟩
  | cons r' t =>
    rw [if_pos (by simp)]
    have g : Inv n ⟨.wfPrmInd, (p.current + 1) % n, (r' :: t).length, p.queue⟩ (r' :: t) := h.pop (by simp)
    refine ⟨_, ?_, rfl, g⟩
    unfold sendAlarm
    rw [g.head]
    rfl

/-- Every step of the code is a step on the queue. -/
theorem step_eq {n : Nat} {p : Plug} {l : List Req} (h : Inv n p l) (o : Op) :
    ∃ p', step p o = some (p', (aStep n p.mode l o).2.2) ∧ p'.mode = (aStep n p.mode l o).1 ∧
      Inv n p' (aStep n p.mode l o).2.1 := by
  cases o with
  | released r ok =>
    unfold step released aStep aReleased
    dsimp only
    rw [enqueue_eq h]
    by_cases c : l.length ≥ n
    · have hne : p.mode ≠ .idle := by
        intro e
        have := h.idle.1 e
        subst this
        have := h.pos
        simp at c
        omega
      rw [if_pos c, if_pos c]
      simp only [Option.bind_some]
      rw [if_neg hne]
      exact ⟨_, rfl, rfl, h⟩
    · rw [if_neg c, if_neg c]
      simp only [Option.bind_some]
      by_cases hi : p.mode = .idle
      · rw [if_pos hi, if_pos hi]
        have hl := h.idle.1 hi
        subst hl
        have g := h.push r (by have := h.pos; simpa using this) (m := .wfPrmInd) (by decide)
        refine ⟨_, ?_, rfl, g⟩
        unfold sendAlarm
        rw [g.head]
        rfl
      · rw [if_neg hi, if_neg hi]
        exact ⟨_, rfl, rfl, h.push r (by omega) hi⟩
  | prmEnd cb ok okr =>
    unfold step prmEnd
    dsimp only
    by_cases c : p.mode = .wfPrmInd
    · obtain ⟨r, t, rfl⟩ := h.cons (by rw [c]; decide)
      rw [if_pos c]
      have hr : readyReq okr p = some (p, []) := by
        unfold readyReq
        rw [if_neg (by rw [c]; decide)]
      cases cb with
      | none =>
        refine ⟨{ p with mode := .wfDataUpdate }, ?_, ?_, ?_⟩
        · simp [callCb, afterTold, Cb.accepts, aStep, c]
        · simp [aStep, c]
        · simp only [aStep, c]; exact h.setMode (by simp) (by decide)
      | some a cf =>
        have hcb : callCb (.some a cf) okr p = some (p, [.told r a]) := by
          unfold callCb
          dsimp only
          rw [h.head]
          simp only [Option.bind_some]
          cases cf
          · rfl
          · rw [if_pos rfl, hr]; rfl
        rw [hcb]
        cases a
        · obtain ⟨p', e, e2, e3⟩ := readyCnf_eq (h.setMode (by simp) (m := .wfAplRdyCnf) (by decide)) rfl ok
          refine ⟨p', ?_, ?_, ?_⟩
          · simp [afterTold, Cb.accepts, aStep, c, e]
          · simp only [aStep, c]; exact e2
          · simp only [aStep, c]; exact e3
        · refine ⟨{ p with mode := .wfDataUpdate }, ?_, ?_, ?_⟩
          · simp [afterTold, Cb.accepts, aStep, c]
          · simp [aStep, c]
          · simp only [aStep, c]; exact h.setMode (by simp) (by decide)
    · rw [if_neg c]
      have e : aStep n p.mode l (.prmEnd cb ok okr) = (p.mode, l, []) := by
        cases hp : p.mode <;> first | rfl | exact absurd hp c
      rw [e]
      exact ⟨p, rfl, rfl, h⟩
  | confirm ok =>
    unfold step readyReq
    dsimp only
    by_cases c : p.mode = .wfDataUpdate
    · obtain ⟨r, t, rfl⟩ := h.cons (by rw [c]; decide)
      rw [if_pos c, h.head]
      refine ⟨{ p with mode := .wfAplRdyCnf }, ?_, ?_, ?_⟩
      · simp [aStep, c]
      · simp [aStep, c]
      · simp only [aStep, c]; exact h.setMode (by simp) (by decide)
    · rw [if_neg c]
      have e : aStep n p.mode l (.confirm ok) = (p.mode, l, []) := by
        cases hp : p.mode <;> first | rfl | exact absurd hp c
      rw [e]
      exact ⟨p, rfl, rfl, h⟩
  | done ok =>
    unfold step aStep
    dsimp only
    by_cases c : p.mode = .wfAplRdyCnf
    · obtain ⟨r, t, rfl⟩ := h.cons (by rw [c]; decide)
      rw [if_pos c]
      exact readyCnf_eq h c ok
    · rw [if_neg c]
      unfold readyCnf
      rw [if_neg c]
      exact ⟨p, rfl, rfl, h⟩

theorem inv_zero {n : Nat} (hn : 0 < n) : Inv n (Plug.zero n) [] :=
  ⟨hn, by simp [Plug.zero], hn, rfl, by simp, by simp, by simp [Plug.zero]⟩

end Verif.Plug
