import Verif.Plug.Lemmas
/-!
C47: released submodules are handled one at a time, in order.
-/
set_option linter.unusedVariables false
set_option linter.unusedSimpArgs false

namespace Verif.Plug

/-! ## Specification -/

/-- The submodules that were released, in order. -/
def asked : List Op → List Req
  | [] => []
  | .released r _ :: l => r :: asked l
  | _ :: l => asked l

/-- The requests that found the queue full. -/
def fulls : List Event → List Req
  | [] => []
  | .full r :: l => r :: fulls l
  | _ :: l => fulls l

/-- Everything that is said to the controller and to the application. -/
def talk : List Event → List Event
  | [] => []
  | .full _ :: l => talk l
  | e :: l => e :: talk l

/-- `c` is made of the members of `a` and of `b`, in order. -/
inductive Merge : List Req → List Req → List Req → Prop
  | nil : Merge [] [] []
  | left {a b c : List Req} (x : Req) : Merge a b c → Merge (a ++ [x]) b (c ++ [x])
  | right {a b c : List Req} (x : Req) : Merge a b c → Merge a (b ++ [x]) (c ++ [x])

/-- Everything that is said about one submodule, from the alarm to the end: the application is told (if it has a
callback), and unless it refuses, "application ready" is requested. -/
inductive Finished (r : Req) : List Event → Prop
  | refused (ok : Bool) : Finished r [.alarm r ok, .told r false]
  | silent (ok ok' : Bool) : Finished r [.alarm r ok, .ready r ok']
  | ready (ok ok' : Bool) : Finished r [.alarm r ok, .told r true, .ready r ok']

/-- Complete conversations about the given submodules, one after the other. -/
inductive Stories : List Req → List Event → Prop
  | nil : Stories [] []
  | snoc {l : List Req} {e : List Event} {r : Req} {c : List Event} :
    Stories l e → Finished r c → Stories (l ++ [r]) (e ++ c)

/-- Nothing is said about the waiting submodules, except for the first one, about which the conversation has begun. -/
inductive InProgress : List Req → List Event → Prop
  | none : InProgress [] []
  | alarm (r : Req) (t : List Req) (ok : Bool) : InProgress (r :: t) [.alarm r ok]
  | told (r : Req) (t : List Req) (ok : Bool) : InProgress (r :: t) [.alarm r ok, .told r true]
  | ready {r : Req} {t : List Req} {c : List Event} : Finished r c → InProgress (r :: t) c

/-! ## Proofs -/

theorem run_snoc (p : Plug) (ops : List Op) (o : Op) :
    run p (ops ++ [o]) = (run p ops).bind fun x => (step x.1 o).map fun y => (y.1, x.2 ++ y.2) := by
  induction ops generalizing p with
  | nil =>
    show ((step p o).bind fun x => (run x.1 []).map fun y => (y.1, x.2 ++ y.2)) = _
    cases h : step p o <;> simp [run, h]
  | cons a l ih =>
    show ((step p a).bind fun x => (run x.1 (l ++ [o])).map fun y => (y.1, x.2 ++ y.2)) = _
    conv => rhs; unfold run
    cases step p a with
    | none => rfl
    | some x =>
      simp only [Option.bind_some, ih]
      cases run x.1 l with
      | none => rfl
      | some y =>
        simp only [Option.bind_some, Option.map_some]
        cases step y.1 o <;> simp

theorem asked_append (a b : List Op) : asked (a ++ b) = asked a ++ asked b := by
  induction a with
  | nil => rfl
  | cons x l ih => cases x <;> simp [asked, ih]

theorem fulls_append (a b : List Event) : fulls (a ++ b) = fulls a ++ fulls b := by
  induction a with
  | nil => rfl
  | cons x l ih => cases x <;> simp [fulls, ih]

theorem talk_append (a b : List Event) : talk (a ++ b) = talk a ++ talk b := by
  induction a with
  | nil => rfl
  | cons x l ih => cases x <;> simp [talk, ih]

/-- How far the conversation about the first waiting submodule is. -/
inductive Cur : Mode → List Req → List Event → Prop
  | idle : Cur .idle [] []
  | prm (r : Req) (t : List Req) (ok : Bool) : Cur .wfPrmInd (r :: t) [.alarm r ok]
  | silent (r : Req) (t : List Req) (ok : Bool) : Cur .wfDataUpdate (r :: t) [.alarm r ok]
  | told (r : Req) (t : List Req) (ok : Bool) : Cur .wfDataUpdate (r :: t) [.alarm r ok, .told r true]
  | ready {r : Req} {t : List Req} {c : List Event} : Finished r c → Cur .wfAplRdyCnf (r :: t) c

structure Hist (n : Nat) (ops : List Op) (p : Plug) (evs : List Event) (fin l rej : List Req) (old cur : List Event) :
    Prop where
  merge : Merge (fin ++ l) rej (asked ops)
  rej : fulls evs = rej
  talk : talk evs = old ++ cur
  old : Stories fin old
  cur : Cur p.mode l cur
  inv : Inv n p l

theorem Cur.push {m : Mode} {l : List Req} {c : List Event} (h : Cur m l c) (hm : m ≠ .idle) (r : Req) :
    Cur m (l ++ [r]) c := by
  cases h with
  | idle => exact absurd rfl hm
  | prm r t ok => exact .prm _ _ _
  | silent r t ok => exact .silent _ _ _
  | told r t ok => exact .told _ _ _
  | ready f => exact .ready f

/-- The end of a conversation. -/
theorem next_hist {r : Req} {t : List Req} (ok : Bool) {fin : List Req} {old c : List Event} (ho : Stories fin old)
    (hf : Finished r c) :
    (aNext ok (r :: t)).2.1 = t ∧ talk (aNext ok (r :: t)).2.2 = (aNext ok (r :: t)).2.2 ∧
      fulls (aNext ok (r :: t)).2.2 = [] ∧ Stories (fin ++ [r]) (old ++ c) ∧
      Cur (aNext ok (r :: t)).1 t (aNext ok (r :: t)).2.2 := by
  cases t with
  | nil => exact ⟨rfl, rfl, rfl, .snoc ho hf, .idle⟩
  | cons r' t => exact ⟨rfl, rfl, rfl, .snoc ho hf, .prm _ _ _⟩

theorem hist_step {n : Nat} {ops : List Op} {p : Plug} {evs : List Event} {fin l rej : List Req} {old cur : List Event}
    (h : Hist n ops p evs fin l rej old cur) (o : Op) :
    ∃ p' e fin' l' rej' old' cur', step p o = some (p', e) ∧
      Hist n (ops ++ [o]) p' (evs ++ e) fin' l' rej' old' cur' := by
  obtain ⟨p', e1, e2, e3⟩ := step_eq h.inv o
  have hidle := h.inv.idle
  obtain ⟨m, hm⟩ : ∃ m, m = p.mode := ⟨_, rfl⟩
  have hcur := h.cur
  rw [← hm] at e1 e2 e3 hidle hcur
  -- the state changes, but nothing is asked or refused
  have same : asked [o] = [] → aStep n m l o = (m, l, []) →
      ∃ p' e fin' l' rej' old' cur', step p o = some (p', e) ∧
        Hist n (ops ++ [o]) p' (evs ++ e) fin' l' rej' old' cur' := by
    intro ha he
    rw [he] at e1 e2 e3
    refine ⟨p', [], fin, l, rej, old, cur, e1, ?_⟩
    refine ⟨?_, by simpa using h.rej, by simpa using h.talk, h.old, by rw [e2]; exact hcur, e3⟩
    rw [asked_append, ha, List.append_nil]
    exact h.merge
  cases o with
  | released r ok =>
    unfold aStep aReleased at e1 e2 e3
    dsimp only at e1 e2 e3
    by_cases c : l.length ≥ n
    · rw [if_pos c] at e1 e2 e3
      refine ⟨p', _, fin, l, rej ++ [r], old, cur, e1, ?_⟩
      refine ⟨?_, ?_, ?_, h.old, by rw [e2]; exact hcur, e3⟩
      · rw [asked_append]; exact .right r h.merge
      · rw [fulls_append, h.rej]; rfl
      · rw [talk_append, h.talk]; simp [talk]
    · rw [if_neg c] at e1 e2 e3
      by_cases hi : m = .idle
      · rw [if_pos hi] at e1 e2 e3
        have hl := hidle.1 hi
        subst hl
        subst hi
        have hc : cur = [] := by cases hcur; rfl
        subst hc
        refine ⟨p', _, fin, [r], rej, old, [.alarm r ok], e1, ?_⟩
        refine ⟨?_, ?_, ?_, h.old, by rw [e2]; exact .prm _ _ _, e3⟩
        · rw [asked_append]
          have := Merge.left r h.merge
          simpa [asked] using this
        · rw [fulls_append, h.rej]; simp [fulls]
        · rw [talk_append, h.talk]; simp [talk]
      · rw [if_neg hi] at e1 e2 e3
        refine ⟨p', _, fin, l ++ [r], rej, old, cur, e1, ?_⟩
        refine ⟨?_, ?_, ?_, h.old, by rw [e2]; exact hcur.push hi r, e3⟩
        · rw [asked_append]
          have := Merge.left r h.merge
          simpa [asked] using this
        · rw [fulls_append, h.rej]; simp [fulls]
        · rw [talk_append, h.talk]; simp [talk]
  | prmEnd cb ok okr =>
    cases hcur with
    | idle => exact same rfl rfl
    | silent r t ok' => exact same rfl rfl
    | told r t ok' => exact same rfl rfl
    | ready f => exact same rfl rfl
    | prm r t ok' =>
      cases cb with
      | none =>
        refine ⟨p', [], fin, r :: t, rej, old, [.alarm r ok'], e1, ?_⟩
        refine ⟨?_, by simpa using h.rej, by simpa using h.talk, h.old, by rw [e2]; exact .silent _ _ _, e3⟩
        rw [asked_append]
        simpa [asked] using h.merge
      | some a cf =>
        cases a
        · have f : Finished r [.alarm r ok', .told r false] := .refused _
          obtain ⟨g1, g2, g3, g4, g5⟩ := next_hist (t := t) ok h.old f
          simp only [aStep] at e1 e2 e3
          rw [g1] at e3
          refine ⟨p', _, fin ++ [r], t, rej, old ++ [.alarm r ok', .told r false], (aNext ok (r :: t)).2.2, e1, ?_⟩
          refine ⟨?_, ?_, ?_, g4, by rw [e2]; exact g5, e3⟩
          · rw [asked_append]
            simpa [asked] using h.merge
          · rw [fulls_append, h.rej]; simp [fulls, g3]
          · rw [talk_append, h.talk]; simp [talk, g2]
        · simp only [aStep] at e1 e2 e3
          refine ⟨p', _, fin, r :: t, rej, old, [.alarm r ok', .told r true], e1, ?_⟩
          refine ⟨?_, ?_, ?_, h.old, by rw [e2]; exact .told _ _ _, e3⟩
          · rw [asked_append]
            simpa [asked] using h.merge
          · rw [fulls_append, h.rej]; simp [fulls]
          · rw [talk_append, h.talk]; simp [talk]
  | confirm ok =>
    cases hcur with
    | idle => exact same rfl rfl
    | prm r t ok' => exact same rfl rfl
    | ready f => exact same rfl rfl
    | silent r t ok' =>
      simp only [aStep] at e1 e2 e3
      refine ⟨p', _, fin, r :: t, rej, old, [.alarm r ok', .ready r ok], e1, ?_⟩
      refine ⟨?_, ?_, ?_, h.old, by rw [e2]; exact .ready (.silent _ _), e3⟩
      · rw [asked_append]
        simpa [asked] using h.merge
      · rw [fulls_append, h.rej]; simp [fulls]
      · rw [talk_append, h.talk]; simp [talk]
    | told r t ok' =>
      simp only [aStep] at e1 e2 e3
      refine ⟨p', _, fin, r :: t, rej, old, [.alarm r ok', .told r true, .ready r ok], e1, ?_⟩
      refine ⟨?_, ?_, ?_, h.old, by rw [e2]; exact .ready (.ready _ _), e3⟩
      · rw [asked_append]
        simpa [asked] using h.merge
      · rw [fulls_append, h.rej]; simp [fulls]
      · rw [talk_append, h.talk]; simp [talk]
  | done ok =>
    cases hcur with
    | idle => exact same rfl rfl
    | prm r t ok' => exact same rfl rfl
    | silent r t ok' => exact same rfl rfl
    | told r t ok' => exact same rfl rfl
    | @ready r t _ f =>
      obtain ⟨g1, g2, g3, g4, g5⟩ := next_hist (t := t) ok h.old f
      simp only [aStep, if_pos] at e1 e2 e3
      rw [g1] at e3
      refine ⟨p', _, fin ++ [r], t, rej, old ++ cur, (aNext ok (r :: t)).2.2, e1, ?_⟩
      refine ⟨?_, ?_, ?_, g4, by rw [e2]; exact g5, e3⟩
      · rw [asked_append]
        simpa [asked] using h.merge
      · rw [fulls_append, h.rej]; simp [g3]
      · rw [talk_append, h.talk]; simp [g2]

theorem hist_run {n : Nat} (hn : 0 < n) (ops : List Op) :
    ∃ p evs fin l rej old cur, run (Plug.zero n) ops = some (p, evs) ∧ Hist n ops p evs fin l rej old cur := by
  have key : ∀ k, ∀ ops : List Op, ops.length = k →
      ∃ p evs fin l rej old cur, run (Plug.zero n) ops = some (p, evs) ∧ Hist n ops p evs fin l rej old cur := by
    intro k
    induction k with
    | zero =>
      intro ops h
      have : ops = [] := List.length_eq_zero_iff.1 h
      subst this
      exact ⟨_, _, [], [], [], [], [], rfl, .nil, rfl, rfl, .nil, .idle, inv_zero hn⟩
    | succ k ih =>
      intro ops h
      have hne : ops ≠ [] := by intro e; subst e; simp at h
      obtain ⟨init, o, rfl⟩ : ∃ init o, ops = init ++ [o] := ⟨ops.dropLast, ops.getLast hne, (List.dropLast_append_getLast hne).symm⟩
      obtain ⟨p, evs, fin, l, rej, old, cur, e, hh⟩ := ih init (by simpa using h)
      obtain ⟨p', e', fin', l', rej', old', cur', e1, hh'⟩ := hist_step hh o
      refine ⟨p', evs ++ e', fin', l', rej', old', cur', ?_, hh'⟩
      rw [run_snoc, e]
      simp [e1]
  exact key _ ops rfl

theorem Cur.progress {m : Mode} {l : List Req} {c : List Event} (h : Cur m l c) : InProgress l c := by
  cases h with
  | idle => exact .none
  | prm r t ok => exact .alarm _ _ _
  | silent r t ok => exact .alarm _ _ _
  | told r t ok => exact .told _ _ _
  | ready f => exact .ready f

/-- For every history, the released submodules are those that are finished, those that wait, and those that found the
queue full, each in order.  What was said is a complete conversation about each finished one, in order, and the
beginning of the conversation about the first one that waits; if none waits, the state machine is idle. -/
theorem C47_in_order (n : Nat) (hn : 0 < n) (ops : List Op) :
    ∃ p evs fin waiting old cur, run (Plug.zero n) ops = some (p, evs) ∧
      Merge (fin ++ waiting) (fulls evs) (asked ops) ∧ talk evs = old ++ cur ∧ Stories fin old ∧
      InProgress waiting cur ∧ waiting.length ≤ n ∧ p.count = waiting.length ∧ (p.mode = .idle ↔ waiting = []) := by
  obtain ⟨p, evs, fin, l, rej, old, cur, e, h⟩ := hist_run hn ops
  refine ⟨p, evs, fin, l, old, cur, e, ?_, h.talk, h.old, h.cur.progress, h.inv.le, h.inv.cnt, h.inv.idle⟩
  rw [h.rej]
  exact h.merge

/-- A request is dropped only if as many requests wait as there are places, and then there is a message. -/
theorem C47_dropped (n : Nat) (hn : 0 < n) (ops : List Op) (p : Plug) (evs : List Event)
    (h : run (Plug.zero n) ops = some (p, evs)) (r : Req) (ok : Bool) :
    ∃ p' e, step p (.released r ok) = some (p', e) ∧ (Event.full r ∈ e ↔ p.count = n) ∧
      (p.count < n → p'.count = p.count + 1) := by
  obtain ⟨p1, evs1, fin, l, rej, old, cur, e, hh⟩ := hist_run hn ops
  rw [h] at e
  have e := Option.some.inj e
  have e1 := (Prod.mk.inj e).1
  subst e1
  obtain ⟨p', g1, g2, g3⟩ := step_eq hh.inv (.released r ok)
  have hle := hh.inv.le
  have hc := hh.inv.cnt
  refine ⟨p', _, g1, ?_, ?_⟩
  · unfold aStep aReleased
    dsimp only
    split
    · simp; omega
    · split
      · simp; omega
      · simp; omega
  · intro hlt
    rw [g3.cnt, hc]
    unfold aStep aReleased
    dsimp only
    rw [if_neg (by omega)]
    split <;> simp

/-- An operation of a partner that cooperates. -/
def Op.Answer : Op → Prop
  | .released _ _ => False
  | .prmEnd cb _ _ => cb.accepts = true
  | _ => True

theorem run_append {p p1 p2 : Plug} {a b : List Op} {e1 e2 : List Event} (h1 : run p a = some (p1, e1))
    (h2 : run p1 b = some (p2, e2)) : run p (a ++ b) = some (p2, e1 ++ e2) := by
  induction a generalizing p e1 with
  | nil =>
    have e := Prod.mk.inj (Option.some.inj h1)
    have e1' := e.1
    have e2' := e.2
    subst e1' e2'
    simpa using h2
  | cons o l ih =>
    unfold run at h1
    show ((step p o).bind fun x => (run x.1 (l ++ b)).map fun y => (y.1, x.2 ++ y.2)) = _
    cases hs : step p o with
    | none => rw [hs] at h1; cases h1
    | some x =>
      rw [hs] at h1
      simp only [Option.bind_some] at h1 ⊢
      cases hr : run x.1 l with
      | none => rw [hr] at h1; cases h1
      | some y =>
        rw [hr] at h1
        have e := Prod.mk.inj (Option.some.inj h1)
        have e1' := e.1
        have e2' := e.2
        obtain ⟨y1, y2⟩ := y
        dsimp only at e1' e2'
        subst e1' e2'
        rw [ih hr]
        simp

theorem run_one {p p' : Plug} {o : Op} {e : List Event} (h : step p o = some (p', e)) : run p [o] = some (p', e) := by
  unfold run
  rw [h]
  simp [run]

/-- From every state that can be reached, the answers of the controller and of the application lead to the end of all
conversations: at most three answers for each waiting submodule. -/
theorem C47_completes (n : Nat) (hn : 0 < n) (ops : List Op) (p : Plug) (evs : List Event)
    (h : run (Plug.zero n) ops = some (p, evs)) :
    ∃ ops' p' evs', (∀ o ∈ ops', o.Answer) ∧ ops'.length ≤ 3 * p.count ∧ run p ops' = some (p', evs') ∧
      p'.mode = .idle ∧ p'.count = 0 := by
  obtain ⟨p1, evs1, fin, l, rej, old, cur, e, hh⟩ := hist_run hn ops
  rw [h] at e
  have e1 := (Prod.mk.inj (Option.some.inj e)).1
  subst e1
  have hi := hh.inv
  clear hh h e
  -- from "application ready" on
  have stepDone : ∀ (p : Plug) (r : Req) (t : List Req), Inv n p (r :: t) → p.mode = .wfAplRdyCnf →
      ∃ p' e, run p [.done true] = some (p', e) ∧ Inv n p' t ∧ (t ≠ [] → p'.mode = .wfPrmInd) := by
    intro p r t hi hm
    obtain ⟨p', e1, e2, e3⟩ := step_eq hi (.done true)
    rw [hm] at e1 e2 e3
    refine ⟨p', _, run_one e1, ?_, ?_⟩
    · cases t <;> exact e3
    · intro ht
      cases t with
      | nil => exact absurd rfl ht
      | cons r' t => exact e2
  have stepConfirm : ∀ (p : Plug) (r : Req) (t : List Req), Inv n p (r :: t) → p.mode = .wfDataUpdate →
      ∃ p' e, run p [.confirm true] = some (p', e) ∧ Inv n p' (r :: t) ∧ p'.mode = .wfAplRdyCnf := by
    intro p r t hi hm
    obtain ⟨p', e1, e2, e3⟩ := step_eq hi (.confirm true)
    rw [hm] at e1 e2 e3
    exact ⟨p', _, run_one e1, e3, e2⟩
  have stepPrm : ∀ (p : Plug) (r : Req) (t : List Req), Inv n p (r :: t) → p.mode = .wfPrmInd →
      ∃ p' e, run p [.prmEnd (.some true false) true true] = some (p', e) ∧ Inv n p' (r :: t) ∧
        p'.mode = .wfDataUpdate := by
    intro p r t hi hm
    obtain ⟨p', e1, e2, e3⟩ := step_eq hi (.prmEnd (.some true false) true true)
    rw [hm] at e1 e2 e3
    exact ⟨p', _, run_one e1, e3, e2⟩
  have main : ∀ (l : List Req) (p : Plug), Inv n p l → (l ≠ [] → p.mode = .wfPrmInd) →
      ∃ ops' p' evs', (∀ o ∈ ops', o.Answer) ∧ ops'.length ≤ 3 * l.length ∧ run p ops' = some (p', evs') ∧
        p'.mode = .idle ∧ p'.count = 0 := by
    intro l
    induction l with
    | nil =>
      intro p hi _
      exact ⟨[], p, [], by simp, by simp, rfl, hi.idle.2 rfl, by rw [hi.cnt]; rfl⟩
    | cons r t ih =>
      intro p hi hm
      obtain ⟨p1, e1, g1, i1, m1⟩ := stepPrm p r t hi (hm (by simp))
      obtain ⟨p2, e2, g2, i2, m2⟩ := stepConfirm p1 r t i1 m1
      obtain ⟨p3, e3, g3, i3, m3⟩ := stepDone p2 r t i2 m2
      obtain ⟨ops', p', evs', a, b, c, d⟩ := ih p3 i3 m3
      refine ⟨[.prmEnd (.some true false) true true] ++ ([.confirm true] ++ ([.done true] ++ ops')), p', _, ?_, ?_,
        run_append g1 (run_append g2 (run_append g3 c)), d⟩
      · intro o ho
        simp at ho
        rcases ho with rfl | rfl | rfl | ho
        · rfl
        · trivial
        · trivial
        · exact a o ho
      · simp; omega
  have hcnt := hi.cnt
  rw [hcnt]
  cases l with
  | nil => exact main [] p hi (by simp)
  | cons r t =>
    have hmode : p.mode ≠ .idle := fun e => by
      have := hi.idle.1 e
      simp at this
    cases hm : p.mode with
    | idle => exact absurd hm hmode
    | wfPrmInd => exact main _ p hi (fun _ => hm)
    | wfDataUpdate =>
      obtain ⟨p2, e2, g2, i2, m2⟩ := stepConfirm p r t hi hm
      obtain ⟨p3, e3, g3, i3, m3⟩ := stepDone p2 r t i2 m2
      obtain ⟨ops', p', evs', a, b, c, d⟩ := main t p3 i3 m3
      refine ⟨[.confirm true] ++ ([.done true] ++ ops'), p', _, ?_, ?_, run_append g2 (run_append g3 c), d⟩
      · intro o ho
        simp at ho
        rcases ho with rfl | rfl | ho
        · trivial
        · trivial
        · exact a o ho
      · simp; omega
    | wfAplRdyCnf =>
      obtain ⟨p3, e3, g3, i3, m3⟩ := stepDone p r t hi hm
      obtain ⟨ops', p', evs', a, b, c, d⟩ := main t p3 i3 m3
      refine ⟨[.done true] ++ ops', p', _, ?_, ?_, run_append g3 c, d⟩
      · intro o ho
        simp at ho
        rcases ho with rfl | ho
        · trivial
        · exact a o ho
      · simp; omega

/-! ## What is false -/

/-- The machine on queues, for all operations. -/
theorem run_mode {n : Nat} {p p' : Plug} {l : List Req} {ops : List Op} {evs : List Event} (hi : Inv n p l)
    (P : Mode → Prop) (E : Event → Prop) (Q : Op → Prop)
    (hstep : ∀ m l o, P m → Q o → P (aStep n m l o).1 ∧ ∀ e ∈ (aStep n m l o).2.2, E e)
    (hp : P p.mode) (hq : ∀ o ∈ ops, Q o) (h : run p ops = some (p', evs)) : P p'.mode ∧ ∀ e ∈ evs, E e := by
  induction ops generalizing p l evs with
  | nil =>
    have e := Prod.mk.inj (Option.some.inj h)
    have e1 := e.1
    have e2 := e.2
    subst e1 e2
    exact ⟨hp, by simp⟩
  | cons o t ih =>
    obtain ⟨p1, e1, e2, e3⟩ := step_eq hi o
    obtain ⟨s1, s2⟩ := hstep p.mode l o hp (hq o (by simp))
    unfold run at h
    rw [e1] at h
    simp only [Option.bind_some] at h
    cases hr : run p1 t with
    | none => rw [hr] at h; cases h
    | some y =>
      rw [hr] at h
      have e := Prod.mk.inj (Option.some.inj h)
      obtain ⟨y1, y2⟩ := y
      have e4 := e.1
      have e5 := e.2
      dsimp only at e4 e5
      subst e4 e5
      obtain ⟨r1, r2⟩ := ih e3 (by rw [e2]; exact s1) (fun o ho => hq o (List.mem_cons_of_mem _ ho)) hr
      refine ⟨r1, ?_⟩
      intro e he
      rcases List.mem_append.1 he with he | he
      · exact s2 e he
      · exact r2 e he

/-- If the first alarm could not be sent, no alarm is ever sent for any submodule released later, unless the controller
sends "PrmEnd" for an alarm it never got. -/
theorem C47_fails_alarm (n : Nat) (hn : 0 < n) (r : Req) (ops : List Op) (p : Plug) (evs : List Event)
    (hq : ∀ o ∈ ops, ∀ cb a b, o ≠ .prmEnd cb a b)
    (h : run (Plug.zero n) (.released r false :: ops) = some (p, evs)) : ∀ r', Event.alarm r' true ∉ evs := by
  obtain ⟨p1, e1, e2, e3⟩ := step_eq (inv_zero hn) (.released r false)
  have hs : aStep n (Plug.zero n).mode [] (.released r false) = (.wfPrmInd, [r], [.alarm r false]) := by
    show aReleased n r false .idle [] = _
    unfold aReleased
    rw [if_neg (by simp; omega), if_pos rfl]
    rfl
  rw [hs] at e1 e2 e3
  unfold run at h
  rw [e1] at h
  simp only [Option.bind_some] at h
  cases hr : run p1 ops with
  | none => rw [hr] at h; cases h
  | some y =>
    rw [hr] at h
    have e := (Prod.mk.inj (Option.some.inj h)).2
    obtain ⟨y1, y2⟩ := y
    have g := (run_mode e3 (fun m => m = .wfPrmInd) (fun e => ∀ r', e ≠ .alarm r' true)
      (fun o => ∀ cb a b, o ≠ .prmEnd cb a b) (by
        intro m l o hm ho
        subst hm
        cases o with
        | released r ok =>
          unfold aStep aReleased
          dsimp only
          split
          · simp
          · simp
        | prmEnd cb a b => exact absurd rfl (ho cb a b)
        | confirm ok => simp [aStep]
        | done ok => simp [aStep]) e2 hq hr).2
    intro r' hm
    rw [← e] at hm
    rcases List.mem_append.1 hm with hm | hm
    · simp at hm
    · exact g _ hm r' rfl

/-- If the application confirms before its callback returns, "application ready" is not requested, then or later, unless
the application confirms again. -/
theorem C47_fails_inside (n : Nat) (ops : List Op) (p p' : Plug) (l : List Req) (evs : List Event) (a b : Bool)
    (hi : Inv n p l) (hm : p.mode = .wfPrmInd) (hq : ∀ o ∈ ops, ∀ ok, o ≠ .confirm ok)
    (h : run p (.prmEnd (.some true true) a b :: ops) = some (p', evs)) :
    p'.mode = .wfDataUpdate ∧ ∀ r ok, Event.ready r ok ∉ evs := by
  obtain ⟨r, t, rfl⟩ := hi.cons (by rw [hm]; decide)
  obtain ⟨p1, e1, e2, e3⟩ := step_eq hi (.prmEnd (.some true true) a b)
  have hs : aStep n p.mode (r :: t) (.prmEnd (.some true true) a b) = (.wfDataUpdate, r :: t, [.told r true]) := by
    rw [hm]; rfl
  rw [hs] at e1 e2 e3
  unfold run at h
  rw [e1] at h
  simp only [Option.bind_some] at h
  cases hr : run p1 ops with
  | none => rw [hr] at h; cases h
  | some y =>
    rw [hr] at h
    obtain ⟨y1, y2⟩ := y
    have e := Prod.mk.inj (Option.some.inj h)
    have e4 := e.1
    have e5 := e.2
    dsimp only at e4 e5
    subst e4 e5
    have g := run_mode e3 (fun m => m = .wfDataUpdate) (fun e => ∀ r' ok, e ≠ .ready r' ok)
      (fun o => ∀ ok, o ≠ .confirm ok) (by
        intro m l o hm ho
        subst hm
        cases o with
        | released r ok =>
          unfold aStep aReleased
          dsimp only
          split
          · simp
          · simp
        | prmEnd cb a b => simp [aStep]
        | confirm ok => exact absurd rfl (ho ok)
        | done ok => simp [aStep]) e2 hq hr
    refine ⟨g.1, ?_⟩
    intro r' ok hm
    rcases List.mem_append.1 hm with hm | hm
    · simp at hm
    · exact g.2 _ hm r' ok rfl

/-- "PrmEnd" for a plug alarm is answered without error also if there was no alarm. -/
theorem C47_fails_answer (p : Plug) (hm : p.mode ≠ .wfPrmInd) (cb : Cb) (a b : Bool) :
    prmEnd cb a b p = some ((p, []), true) := by
  unfold prmEnd
  rw [if_neg hm]

/-! ## Cases -/

def exReq (k : Nat) : Req := ⟨0, k, 1, 0x30, 0x40⟩

/-- Two places, three released submodules: the third finds the queue full; the first is finished. -/
example : (run (Plug.zero 2) [.released (exReq 1) true, .released (exReq 2) true, .released (exReq 3) true,
      .prmEnd (.some true false) true true, .confirm true, .done true]).map (fun x => (x.1.mode, x.1.count, x.2)) =
    some (.wfPrmInd, 1, [.alarm (exReq 1) true, .full (exReq 3), .told (exReq 1) true, .ready (exReq 1) true,
      .alarm (exReq 2) true]) := by decide

example : (run (Plug.zero 2) [.released (exReq 1) false, .released (exReq 2) true, .done true]).map (·.2) =
    some [.alarm (exReq 1) false] := by decide

example : (run (Plug.zero 2) [.released (exReq 1) true, .prmEnd (.some true true) true true, .done true]).map
    (fun x => (x.1.mode, x.2)) = some (.wfDataUpdate, [.alarm (exReq 1) true, .told (exReq 1) true]) := by decide

end Verif.Plug
