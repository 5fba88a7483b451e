import Verif.Alarm.App
/-!
# C155 Alarms do not crash the device

The model of `Model.lean` has no pointers.  Here each operation is done once more with the pointer from the transport machines to
the alarm machines (`p_apmx->p_alpmx`), which is null after the entry of the connection has been cleared.
-/
set_option linter.unusedSimpArgs false
set_option linter.unusedVariables false
namespace Verif.Alarm

variable {α : Type}

/-- The alarm machines of an entry of the table of connections.  `linked`: the pointers `p_apmx->p_alpmx` and `p_apmx->p_ar`, set by
pf_alarm_apmx_activate (src/common/pf_alarm.c:974-1088), are not null. -/
structure Mem (α : Type) where
  ar : Ar α
  linked : Bool

/-- pf_alarm_activate (src/common/pf_alarm.c:2770-2794). -/
def Mem.init : Mem α := ⟨Ar.init, true⟩

/-- pf_alarm_error_ind (src/common/pf_alarm.c:330-351): pf_cmsu_alarm_error_ind (src/device/pf_cmsu.c:309-318) and pf_cmdev_state_ind (src/device/pf_cmdev.c:1394-1435) with ABORT, which closes the machines (pf_alarm_close (src/common/pf_alarm.c:2796-2827))
and, in pf_cmrpc_cmdev_state_ind (src/device/pf_cmrpc.c:5222-5276), clears the entry, machines and pointers, with pf_ar_release (src/device/pf_cmrpc.c:758-802). -/
def Mem.abort (m : Mem α) : Mem α := ⟨m.ar.close, false⟩

/-- pf_alarm_alpmi_apms_a_data_cnf (src/common/pf_alarm.c:476-499) with a negative result: in each of its states ALPMI aborts the connection.  `none`: the state is
read through a null pointer. -/
def alpmiCnfNeg (m : Mem α) : Option (Mem α) := if m.linked then some m.abort else none

/-- pf_alarm_alpmr_apms_a_data_cnf (src/common/pf_alarm.c:553-602) with a negative result. -/
def alpmrCnfNeg (m : Mem α) (p : Bool) : Option (Mem α) :=
  if m.linked then
    match (m.ar.pr p).alpmr with
    | .wStart => some m
    | .wNotify | .wUserAck | .wTack => some m.abort
  else none

/-- pf_alarm_apms_apms_a_data_req (src/common/pf_alarm.c:1491-1556).  Results: the machines, the events, "returns 0". -/
def reqMem (c : Cfg) (m : Mem α) (p : Bool) (b : Body α) (tx : Tx) (sched : Bool) : Option (Mem α × List (Bool × Ev α) × Bool) :=
  if (m.ar.pr p).apms = .open then
    let r := apmsReq c (m.ar.pr p) b tx sched m.ar.now
    some (⟨m.ar.set p r.1, m.linked⟩, r.2.1.map fun e => (p, e), r.2.2.1)
  else
    (alpmiCnfNeg m).bind fun m => (alpmrCnfNeg m p).map fun m => (m, [(p, .abort)], false)

/-- One operation, as `step`; `none`: a null pointer is used.
* `recv`: pf_alarm_apmr_periodic (src/common/pf_alarm.c:2073-2278); it looks at nothing if APMR is closed.
* `poll`: pf_alarm_almpi_periodic (src/common/pf_alarm.c:2721-2750) and pf_alarm_send_internal (src/common/pf_alarm.c:2294-2341); `alarm_enable` is false in a cleared entry.
* `userAck`: pf_alarm_alpmr_alarm_ack (src/common/pf_alarm.c:3004-3057), which finds its ALPMR without the pointer.
* `expire`: pf_alarm_apms_timeout (src/common/pf_alarm.c:849-954), which uses the pointer to the AR in state WTACK only. -/
def stepMem (c : Cfg) (m : Mem α) : Op α → Option (Mem α × List (Bool × Ev α))
  | .recv p f tx =>
    if (m.ar.pr p).apmr = .closed then some (m, [])
    else if m.linked then
      let r := recv (m.ar.pr p) f tx
      let t := finish m.ar p r.1 r.2.1 r.2.2
      some (⟨t.1, m.linked && !r.2.2⟩, t.2)
    else none
  | .poll p a tx sched =>
    if m.linked && decide ((m.ar.pr p).alpmi = .wAlarm) then
      (reqMem c m p (.notify a) tx sched).bind fun r =>
        if r.2.2 then
          if r.1.linked then some (⟨r.1.ar.set p { r.1.ar.pr p with alpmi := .wAck }, r.1.linked⟩, r.2.1) else none
        else some (r.1, r.2.1)
    else some (m, [])
  | .userAck status tx sched =>
    if (m.ar.pr true).alpmr = .wUserAck then
      (reqMem c m true (.alarmAck status) tx sched).map fun r =>
        (⟨r.1.ar.set true { r.1.ar.pr true with alpmr := .wTack }, r.1.linked⟩, r.2.1)
    else some (m, [])
  | .expire p tx sched =>
    match (m.ar.pr p).timers with
    | [] => some (m, [])
    | t :: ts =>
      if t ≤ m.ar.now then
        if (m.ar.pr p).apms = .wtack ∧ m.linked = false then none
        else
          let r := apmsTimeout c { m.ar.pr p with timers := ts } tx sched m.ar.now
          let t := finish m.ar p r.1 (.fired :: r.2.1) r.2.2
          some (⟨t.1, m.linked && !r.2.2⟩, t.2)
      else some (m, [])
  | .tick d => some (⟨{ m.ar with now := m.ar.now + d }, m.linked⟩, [])

/-- Run a sequence of operations from activation; `none`: a null pointer was used on the way. -/
def execMem (c : Cfg) (ops : List (Op α)) : Option (Mem α × Hist α) :=
  ops.foldl (fun s op => s.bind fun s => (stepMem c s.1 op).map fun r => (r.1, s.2 ++ [(op, r.2)])) (some (Mem.init, []))

theorem execMem_append {c : Cfg} {ops : List (Op α)} {op : Op α} :
    execMem c (ops ++ [op]) = (execMem c ops).bind fun s => (stepMem c s.1 op).map fun r => (r.1, s.2 ++ [(op, r.2)]) := by
  simp [execMem]

/-- An operation that hands a frame to the transport while one of the same priority is unacknowledged. -/
def hits (s : Ar α) : Op α → Bool
  | .poll p _ _ _ => decide ((s.pr p).alpmi = .wAlarm ∧ (s.pr p).apms ≠ .open)
  | .userAck _ _ _ => decide ((s.pr true).alpmr = .wUserAck ∧ (s.pr true).apms ≠ .open)
  | _ => false

theorem set_self (s : Ar α) (p : Bool) : s.set p (s.pr p) = s := by
  cases s; simp [Ar.set]; funext q; split <;> simp_all

theorem set_set (s : Ar α) (p : Bool) (x y : Pr α) : (s.set p x).set p y = s.set p y := by
  cases s; simp [Ar.set]; funext q; split <;> simp_all

theorem set_pr (s : Ar α) (p : Bool) (x : Pr α) : (s.set p x).pr p = x := by simp [Ar.set]

theorem reqMem_open (c : Cfg) (m : Mem α) (p : Bool) (b : Body α) (tx : Tx) (sched : Bool) (h : (m.ar.pr p).apms = .open) :
    reqMem c m p b tx sched = some (⟨m.ar.set p (apmsReq c (m.ar.pr p) b tx sched m.ar.now).1, m.linked⟩,
      (apmsReq c (m.ar.pr p) b tx sched m.ar.now).2.1.map fun e => (p, e), (apmsReq c (m.ar.pr p) b tx sched m.ar.now).2.2.1) := by
  unfold reqMem; rw [if_pos h]

theorem reqMem_busy (c : Cfg) (m : Mem α) (p : Bool) (b : Body α) (tx : Tx) (sched : Bool) (h : (m.ar.pr p).apms ≠ .open) :
    reqMem c m p b tx sched = none := by
  unfold reqMem; rw [if_neg h]
  unfold alpmiCnfNeg alpmrCnfNeg
  cases m.linked <;> simp [Mem.abort]

theorem apmsReq_open {c : Cfg} {x : Pr α} {b tx sched now} (h : x.apms = .open) : (apmsReq c x b tx sched now).2.2.2 = false := by
  unfold apmsReq; rw [if_pos h]

/-- A live connection: the step uses a null pointer exactly if it hands a frame to a busy transport; otherwise it does what `step` does. -/
theorem stepMem_live (c : Cfg) (m : Mem α) (op : Op α) (hl : m.linked = true) :
    (hits m.ar op = true → stepMem c m op = none) ∧
    (hits m.ar op = false → ∃ l, stepMem c m op = some (⟨(step c m.ar op).1, l⟩, (step c m.ar op).2) ∧
      (l = false → ∃ p, (p, Ev.abort) ∈ (step c m.ar op).2)) := by
  cases op with
  | recv p f tx =>
    refine ⟨by simp [hits], fun _ => ?_⟩
    by_cases h : (m.ar.pr p).apmr = .closed
    · refine ⟨true, ?_, by simp⟩
      have e : recv (m.ar.pr p) f tx = (m.ar.pr p, [], false) := by simp [recv, h]
      simp only [stepMem, step, h, if_true, e, finish, set_self, Bool.false_eq_true, if_false, List.map_nil]
      rw [← hl]
    · refine ⟨m.linked && !(recv (m.ar.pr p) f tx).2.2, ?_, ?_⟩
      · simp only [stepMem, h, if_false, hl, if_true]
        rfl
      · intro hf
        rw [hl] at hf
        simp only [Bool.true_and, Bool.not_eq_false'] at hf
        exact ⟨p, by simp [step, finish, hf]⟩
  | poll p a tx sched =>
    simp only [hits, decide_eq_true_eq, decide_eq_false_iff_not, stepMem, step, hl, Bool.true_and]
    by_cases h1 : (m.ar.pr p).alpmi = .wAlarm
    · rw [if_pos h1]
      by_cases h2 : (m.ar.pr p).apms = .open
      · refine ⟨fun h => absurd h2 h.2, fun _ => ⟨true, ?_, by simp⟩⟩
        rw [if_pos h1, reqMem_open c m p _ tx sched h2]
        simp only [Option.bind_some, hl, if_true, finish, apmsReq_open h2, Bool.false_eq_true, if_false]
        cases hr : (apmsReq c (m.ar.pr p) (.notify a) tx sched m.ar.now).2.2.1
        · simp
        · simp [set_set, set_pr]
      · exact ⟨fun _ => by rw [reqMem_busy c m p _ tx sched h2]; rfl, fun h => absurd ⟨h1, h2⟩ h⟩
    · rw [if_neg h1]
      refine ⟨fun h => absurd h.1 h1, fun _ => ⟨true, ?_, by simp⟩⟩
      rw [if_neg h1, ← hl]
  | userAck status tx sched =>
    simp only [hits, decide_eq_true_eq, decide_eq_false_iff_not, stepMem, step]
    by_cases h1 : (m.ar.pr true).alpmr = .wUserAck
    · rw [if_pos h1]
      by_cases h2 : (m.ar.pr true).apms = .open
      · refine ⟨fun h => absurd h2 h.2, fun _ => ⟨true, ?_, by simp⟩⟩
        rw [if_pos h1, reqMem_open c m true _ tx sched h2]
        simp only [Option.map_some, hl, finish, apmsReq_open h2, Bool.false_eq_true, if_false]
      · exact ⟨fun _ => by rw [reqMem_busy c m true _ tx sched h2]; rfl, fun h => absurd ⟨h1, h2⟩ h⟩
    · rw [if_neg h1]
      refine ⟨fun h => absurd h.1 h1, fun _ => ⟨true, ?_, by simp⟩⟩
      rw [if_neg h1, ← hl]
  | expire p tx sched =>
    refine ⟨by simp [hits], fun _ => ?_⟩
    simp only [stepMem, step, hl]
    cases ht : (m.ar.pr p).timers with
    | nil => exact ⟨true, by simp only [← hl], by simp⟩
    | cons t ts =>
      dsimp only
      by_cases h : t ≤ m.ar.now
      · rw [if_pos h, if_pos h, if_neg (by simp)]
        refine ⟨_, rfl, ?_⟩
        intro hf
        simp only [Bool.true_and, Bool.not_eq_false'] at hf
        exact ⟨p, by simp [finish, hf]⟩
      · rw [if_neg h, if_neg h]
        exact ⟨true, by simp only [← hl], by simp⟩
  | tick d => exact ⟨by simp [hits], fun _ => ⟨m.linked, rfl, by simp [hl]⟩⟩

/-- A connection that was aborted: nothing happens any more, and no pointer is used. -/
theorem stepMem_dead (c : Cfg) (m : Mem α) (h : Hist α) (op : Op α) (hd : AllDead m.ar h) :
    ∃ l, stepMem c m op = some (⟨(step c m.ar op).1, l⟩, (step c m.ar op).2) ∧ (m.linked = false → l = false) := by
  have e1 : ∀ p, (m.ar.pr p).apmr = .closed := fun p => (hd p).1.apmr
  have e2 : ∀ p, (m.ar.pr p).alpmi = .wStart := fun p => (hd p).1.alpmi
  have e3 : ∀ p, (m.ar.pr p).timers = [] := fun p => (hd p).1.timers
  cases op with
  | recv p f tx =>
    have e : recv (m.ar.pr p) f tx = (m.ar.pr p, [], false) := by simp [recv, e1]
    exact ⟨m.linked, by simp [stepMem, step, e1, e, finish, set_self], id⟩
  | poll p a tx sched => exact ⟨m.linked, by simp [stepMem, step, e2], id⟩
  | userAck status tx sched =>
    have := (hd true).1.alpmr
    exact ⟨m.linked, by simp [stepMem, step, this], id⟩
  | expire p tx sched => exact ⟨m.linked, by simp [stepMem, step, e3], id⟩
  | tick d => exact ⟨m.linked, rfl, id⟩

/-! ## What the application has asked -/

/-- Is the event the answer of the controller to an alarm of the application? -/
def Ev.isCnf : Ev α → Bool
  | .alarmCnf _ => true
  | .wire _ | .started _ | .confirmed | .fired | .deliver _ | .ackCnf | .abort => false

/-- Is an alarm of the application of priority `p` on its way that the controller has not answered?  It is from the moment it is put
on the wire (with its timer running) until the answer of the controller. -/
def askedStep (p : Bool) (b : Bool) (e : Op α × List (Bool × Ev α)) : Bool :=
  match e.1 with
  | .poll q _ tx sched => b || (decide (q = p) && decide (tx = .ok) && sched && !e.2.isEmpty)
  | _ => b && !e.2.any (fun ev => ev.1 == p && ev.2.isCnf)

/-- See `askedStep`. -/
def asked (p : Bool) (h : Hist α) : Bool := h.foldl (askedStep p) false

theorem asked_append (p : Bool) (h : Hist α) (e) : asked p (h ++ [e]) = askedStep p (asked p h) e := by simp [asked]

theorem apmsInd_alpmi (x : Pr α) (f : Frame α) :
    (apmsInd x f).1.alpmi = x.alpmi ∧ ∀ e ∈ (apmsInd x f).2, e.isCnf = false := by
  unfold apmsInd
  split
  · split
    · split
      · refine ⟨rfl, ?_⟩
        intro e he
        split at he <;> simp at he
        · rcases he with rfl | rfl <;> rfl
        · subst he; rfl
      · exact ⟨rfl, by simp⟩
    · exact ⟨rfl, by simp⟩
  · exact ⟨rfl, by simp⟩

theorem apmsSend_alpmi (x : Pr α) (f : Frame α) (tx : Tx) :
    (apmsSend x f tx).1.alpmi = x.alpmi ∧ ∀ e ∈ (apmsSend x f tx).2.1, e.isCnf = false := by
  unfold apmsSend
  split
  · exact ⟨rfl, by simp⟩
  · refine ⟨by split <;> (try split) <;> rfl, ?_⟩
    intro e he
    split at he
    · simp at he
      rw [he.2]; rfl
    · simp at he
      rw [he.2]; rfl

theorem alpmrInd_alpmi (x : Pr α) (a : α) :
    (alpmrInd x a).1.alpmi = x.alpmi ∧ ∀ e ∈ (alpmrInd x a).2.1, e.isCnf = false := by
  unfold alpmrInd
  split
  · exact ⟨rfl, by simp⟩
  · split
    · exact ⟨rfl, by simp [Ev.isCnf]⟩
    · exact ⟨rfl, by simp⟩

theorem alpmiInd_alpmi (x : Pr α) (st : Nat) :
    (alpmiInd x st).1.alpmi = .wAck ↔ (x.alpmi = .wAck ∧ ∀ e ∈ (alpmiInd x st).2, e.isCnf = false) := by
  unfold alpmiInd
  split
  · rename_i h; simp [h, Ev.isCnf]
  · simp

theorem apmrInd_alpmi (x : Pr α) (f : Frame α) (tx : Tx) :
    (apmrInd x f tx).1.alpmi = .wAck ↔ (x.alpmi = .wAck ∧ ∀ e ∈ (apmrInd x f tx).2.1, e.isCnf = false) := by
  have h1 := apmsInd_alpmi x f
  have h2 : ∀ y g, _ := fun y g => apmsSend_alpmi (α := α) y g tx
  have hadv : ∀ y : Pr α, (advance y).alpmi = y.alpmi := fun _ => rfl
  unfold apmrInd
  split
  · split
    · simp
    · split
      · split
        · simp
        · rename_i st _
          dsimp only
          split
          · rw [show ({ (alpmiInd (apmsSend (advance (apmsInd x f).1) (ackFrame (advance (apmsInd x f).1)) tx).1 st).1 with
              apmr := .open } : Pr α).alpmi = (alpmiInd (apmsSend (advance (apmsInd x f).1) (ackFrame (advance (apmsInd x f).1)) tx).1 st).1.alpmi
              from rfl, alpmiInd_alpmi, (h2 _ _).1, hadv, h1.1]
            constructor
            · rintro ⟨a, b⟩
              refine ⟨a, fun e he => ?_⟩
              simp only [List.mem_append] at he
              rcases he with (he | he) | he
              · exact h1.2 e he
              · exact (h2 _ _).2 e he
              · exact b e he
            · rintro ⟨a, b⟩
              exact ⟨a, fun e he => b e (by simp [he])⟩
          · rw [(h2 _ _).1, hadv, h1.1]
            refine ⟨fun a => ⟨a, fun e he => ?_⟩, fun a => a.1⟩
            rcases List.mem_append.1 he with he | he
            · exact h1.2 e he
            · exact (h2 _ _).2 e he
        · dsimp only
          have key : ∀ e ∈ (apmsInd x f).2 ++ (apmsSend (advance (apmsInd x f).1) (ackFrame (advance (apmsInd x f).1)) tx).2.1, e.isCnf = false := by
            intro e he
            rcases List.mem_append.1 he with he | he
            · exact h1.2 e he
            · exact (h2 _ _).2 e he
          split
          · rw [show ({ (apmsSend (advance (apmsInd x f).1) (ackFrame (advance (apmsInd x f).1)) tx).1 with apmr := .wcnf } : Pr α).alpmi =
              (apmsSend (advance (apmsInd x f).1) (ackFrame (advance (apmsInd x f).1)) tx).1.alpmi from rfl, (h2 _ _).1, hadv, h1.1]
            exact ⟨fun a => ⟨a, key⟩, fun a => a.1⟩
          · rw [(h2 _ _).1, hadv, h1.1]
            exact ⟨fun a => ⟨a, key⟩, fun a => a.1⟩
        · rename_i a _
          dsimp only
          split
          · have h3 := alpmrInd_alpmi { (apmsSend (advance (apmsInd x f).1) (ackFrame (advance (apmsInd x f).1)) tx).1 with apmr := .wcnf } a
            have e3 : (if (alpmrInd { (apmsSend (advance (apmsInd x f).1) (ackFrame (advance (apmsInd x f).1)) tx).1 with apmr := .wcnf } a).2.2.1 = true
                then { (alpmrInd { (apmsSend (advance (apmsInd x f).1) (ackFrame (advance (apmsInd x f).1)) tx).1 with apmr := .wcnf } a).1 with apmr := .open }
                else (alpmrInd { (apmsSend (advance (apmsInd x f).1) (ackFrame (advance (apmsInd x f).1)) tx).1 with apmr := .wcnf } a).1).alpmi = x.alpmi := by
              have e4 := ((h2 (advance (apmsInd x f).1) (ackFrame (advance (apmsInd x f).1))).1.trans (hadv _)).trans h1.1
              split <;> exact h3.1.trans e4
            rw [e3]
            refine ⟨fun a => ⟨a, fun e he => ?_⟩, fun a => a.1⟩
            simp only [List.mem_append] at he
            rcases he with (he | he) | he
            · exact h1.2 e he
            · exact (h2 _ _).2 e he
            · exact h3.2 e he
          · rw [(h2 _ _).1, hadv, h1.1]
            refine ⟨fun a => ⟨a, fun e he => ?_⟩, fun a => a.1⟩
            rcases List.mem_append.1 he with he | he
            · exact h1.2 e he
            · exact (h2 _ _).2 e he
      · split
        · dsimp only
          rw [(h2 _ _).1, h1.1]
          refine ⟨fun a => ⟨a, fun e he => ?_⟩, fun a => a.1⟩
          rcases List.mem_append.1 he with he | he
          · exact h1.2 e he
          · exact (h2 _ _).2 e he
        · dsimp only
          rw [(h2 _ _).1]
          exact ⟨fun a => ⟨a, (h2 _ _).2⟩, fun a => a.1⟩
  · simp

theorem recv_alpmi (x : Pr α) (f : Frame α) (tx : Tx) :
    (recv x f tx).1.alpmi = .wAck ↔ (x.alpmi = .wAck ∧ ∀ e ∈ (recv x f tx).2.1, e.isCnf = false) := by
  unfold recv
  split
  · simp
  · split
    · rw [(apmsInd_alpmi x f).1]
      exact ⟨fun a => ⟨a, (apmsInd_alpmi x f).2⟩, fun a => a.1⟩
    · simp
    · exact apmrInd_alpmi x f tx
    · simp
    · simp

theorem any_cnf (p : Bool) (evs : List (Ev α)) (q : Bool) :
    (evs.map fun e => (q, e)).any (fun ev => ev.1 == p && ev.2.isCnf) = (decide (q = p) && evs.any Ev.isCnf) := by
  induction evs with
  | nil => simp
  | cons e l ih =>
    simp only [List.map_cons, List.any_cons, ih]
    by_cases h : q = p <;> simp [h]

/-- The initiator waits for the controller exactly when an alarm of the application is unanswered. -/
theorem asked_inv (c : Cfg) (ops : List (Op α)) (p : Bool) (hna : ¬ aborted (exec c ops).2) :
    ((exec c ops).1.pr p).alpmi = .wAck ↔ asked p (exec c ops).2 = true := by
  induction ops using List.reverseRecOn generalizing p with
  | nil => simp [exec, asked, Ar.init, Pr.init]
  | append_singleton ops op ih =>
    rw [exec_append] at hna ⊢
    have hna0 : ¬ aborted (exec c ops).2 := fun h => hna (by rw [aborted_append]; exact Or.inl h)
    have hl := live_of hna0
    have ih := fun p => ih p hna0
    rw [asked_append]
    have hev : ∀ q, (q, Ev.abort) ∉ (step c (exec c ops).1 op).2 := fun q hq => hna (by rw [aborted_append]; exact Or.inr ⟨q, hq⟩)
    generalize (exec c ops).1 = s at *
    generalize (exec c ops).2 = h at *
    cases op with
    | recv q f tx =>
      have hab : (recv (s.pr q) f tx).2.2 = false := by
        cases hab : (recv (s.pr q) f tx).2.2 with
        | false => rfl
        | true => exact absurd (by simp [step, finish, hab]) (hev q)
      simp only [step, finish, hab, Bool.false_eq_true, if_false, askedStep, any_cnf]
      by_cases hq : p = q
      · subst hq
        rw [set_pr, recv_alpmi, ih p]
        simp
      · have hq' : ¬ q = p := fun h => hq h.symm
        simp [Ar.set, hq, ih p, hq']
    | poll q a tx sched =>
      simp only [step] at hev ⊢
      by_cases hw : (s.pr q).alpmi = .wAlarm
      · rw [if_pos hw] at hev ⊢
        by_cases ho : (s.pr q).apms = .open
        · by_cases hq : p = q
          · subst hq
            have : asked p h = false := by
              rw [← Bool.not_eq_true, ← ih p, hw]; simp
            have hrta := ((hl p).idle (by
              cases hpd : pending p h with
              | none => rfl
              | some P => have := ((hl p).pend P hpd).1; rw [ho] at this; cases this)).2
            cases tx <;> cases sched <;>
              simp [askedStep, finish, apmsReq, ho, set_pr, apmsSend, this, hw, startTimer, dataFrame, hrta]
          · simp only [askedStep, finish, apmsReq_open ho, Bool.false_eq_true, if_false]
            have hq' : ¬ q = p := fun h => hq h.symm
            simp [Ar.set, hq, ih p, hq']
        · exact absurd (by simp [finish, apmsReq, ho]) (hev q)
      · rw [if_neg hw]
        simp [askedStep, ih p]
    | userAck st tx sched =>
      simp only [step] at hev ⊢
      by_cases hw : (s.pr true).alpmr = .wUserAck
      · rw [if_pos hw] at hev ⊢
        by_cases ho : (s.pr true).apms = .open
        · simp only [askedStep, finish, apmsReq_open ho, Bool.false_eq_true, if_false, any_cnf]
          have e1 : (apmsReq c (s.pr true) (.alarmAck st) tx sched s.now).1.alpmi = (s.pr true).alpmi := by
            simp only [apmsReq, ho, if_true, startTimer]
            split <;> exact (apmsSend_alpmi _ _ _).1
          have e2 : (apmsReq c (s.pr true) (.alarmAck st) tx sched s.now).2.1.any Ev.isCnf = false := by
            simp only [apmsReq, ho, if_true, List.any_cons, Ev.isCnf, Bool.false_or]
            rw [List.any_eq_false]
            intro e he
            rw [(apmsSend_alpmi _ _ _).2 e he]; simp
          rw [e2]
          cases p with
          | true => simp only [set_pr, e1, ih true]; simp
          | false => have := ih false; simp [Ar.set, this]
        · exact absurd (by simp [finish, apmsReq, ho]) (hev true)
      · rw [if_neg hw]
        simp [askedStep, ih p]
    | expire q tx sched =>
      simp only [step] at hev ⊢
      cases htm : (s.pr q).timers with
      | nil => simp [askedStep, ih p]
      | cons t ts =>
        rw [htm] at hev
        dsimp only at hev ⊢
        by_cases hw : t ≤ s.now
        · rw [if_pos hw] at hev ⊢
          have hab : (apmsTimeout c { s.pr q with timers := ts } tx sched s.now).2.2 = false := by
            cases hab : (apmsTimeout c { s.pr q with timers := ts } tx sched s.now).2.2 with
            | false => rfl
            | true => exact absurd (by simp [finish, hab]) (hev q)
          have e : (apmsTimeout c { s.pr q with timers := ts } tx sched s.now).1.alpmi = (s.pr q).alpmi ∧
              (apmsTimeout c { s.pr q with timers := ts } tx sched s.now).2.1.any Ev.isCnf = false := by
            unfold apmsTimeout startTimer
            split
            · split
              · simp
              · split
                · constructor
                  · split <;> rfl
                  · dsimp only; split <;> simp [Ev.isCnf]
                · simp
            · simp
          simp only [finish, hab, Bool.false_eq_true, if_false, askedStep, any_cnf, List.any_cons, e.2]
          by_cases hq : p = q
          · subst hq
            rw [set_pr, e.1, ih p]
            simp [Ev.isCnf]
          · have hq' : ¬ q = p := fun h => hq h.symm
            simp [Ar.set, hq, ih p, hq', Ev.isCnf]
        · rw [if_neg hw]
          simp [askedStep, ih p]
    | tick d => simp [step, askedStep, ih p]

/-! ## C155 -/

/-- The operation hands a frame to the transport while the transport waits for the acknowledgement of another one: an alarm of the
application is taken from the queue (no other is unanswered) or an alarm of the controller is acknowledged by the application, and
a data frame of the same priority is unacknowledged. -/
def Collides (h : Hist α) : Op α → Prop
  | .poll p _ _ _ => asked p h = false ∧ pending p h ≠ none
  | .userAck _ _ _ => owes true h = true ∧ pending true h ≠ none
  | _ => False

theorem hits_iff (c : Cfg) (ops : List (Op α)) (op : Op α) (hna : ¬ aborted (exec c ops).2) :
    hits (exec c ops).1 op = true ↔ Collides (exec c ops).2 op := by
  have busy : ∀ p, ((exec c ops).1.pr p).apms ≠ .open ↔ pending p (exec c ops).2 ≠ none := by
    intro p
    have hl := live_of hna p
    cases hp : pending p (exec c ops).2 with
    | none => simp [(hl.idle hp).1]
    | some P => simp [(hl.pend P hp).1]
  cases op with
  | poll p a tx sched =>
    have h1 := asked_inv c ops p hna
    have h2 := (live_of hna p).alpmi
    simp only [hits, Collides, decide_eq_true_eq, busy p, ← Bool.not_eq_true (asked p _), ← h1]
    cases hx : ((exec c ops).1.pr p).alpmi <;> simp_all
  | userAck st tx sched => simp only [hits, Collides, decide_eq_true_eq, busy true, owes_inv c ops true hna]
  | recv p f tx => simp [hits, Collides]
  | expire p tx sched => simp [hits, Collides]
  | tick d => simp [hits, Collides]

theorem execMem_inv (c : Cfg) (ops : List (Op α)) :
    (∀ m h, execMem c ops = some (m, h) → m.ar = (exec c ops).1 ∧ h = (exec c ops).2 ∧ (¬ aborted h → m.linked = true)) ∧
    (execMem c ops = none ↔ ∃ pre op, pre ++ [op] <+: ops ∧ ¬ aborted (exec c pre).2 ∧ Collides (exec c pre).2 op) := by
  induction ops using List.reverseRecOn with
  | nil =>
    refine ⟨fun m h e => ?_, ?_⟩
    · cases e; exact ⟨rfl, rfl, fun _ => rfl⟩
    · constructor
      · intro h; cases h
      · rintro ⟨pre, op, h, _⟩
        have := h.length_le
        simp at this
  | append_singleton ops op ih =>
    obtain ⟨ih1, ih2⟩ := ih
    rw [execMem_append, exec_append]
    have pfx : ∀ pre o, pre ++ [o] <+: ops ++ [op] ↔ (pre ++ [o] <+: ops ∨ (pre = ops ∧ o = op)) := by
      intro pre o
      rw [List.prefix_concat_iff]
      constructor
      · rintro (h | h)
        · right
          have := List.append_inj' h rfl
          exact ⟨this.1, by simpa using this.2⟩
        · exact .inl h
      · rintro (h | ⟨rfl, rfl⟩)
        · exact .inr h
        · exact .inl rfl
    cases hx : execMem c ops with
    | none =>
      refine ⟨fun m h e => by simp at e, ?_⟩
      simp only [Option.bind_none, true_iff]
      obtain ⟨pre, o, h1, h2, h3⟩ := ih2.1 hx
      exact ⟨pre, o, (pfx pre o).2 (.inl h1), h2, h3⟩
    | some mh =>
      obtain ⟨m, h⟩ := mh
      obtain ⟨e1, e2, e3⟩ := ih1 m h hx
      have hnone : ¬ ∃ pre o, pre ++ [o] <+: ops ∧ ¬ aborted (exec c pre).2 ∧ Collides (exec c pre).2 o := by
        rw [← ih2, hx]; simp
      have split : (∃ pre o, pre ++ [o] <+: ops ++ [op] ∧ ¬ aborted (exec c pre).2 ∧ Collides (exec c pre).2 o) ↔
          (¬ aborted (exec c ops).2 ∧ Collides (exec c ops).2 op) := by
        constructor
        · rintro ⟨pre, o, h1, h2, h3⟩
          rcases (pfx pre o).1 h1 with h1 | ⟨rfl, rfl⟩
          · exact absurd ⟨pre, o, h1, h2, h3⟩ hnone
          · exact ⟨h2, h3⟩
        · rintro ⟨h2, h3⟩
          exact ⟨ops, op, (pfx ops op).2 (.inr ⟨rfl, rfl⟩), h2, h3⟩
      rw [split]
      simp only [Option.bind_some]
      by_cases hna : aborted (exec c ops).2
      · have hd : AllDead m.ar (exec c ops).2 := by
          rw [e1]
          rcases exec_inv c ops with ⟨h1, _⟩ | ⟨_, h2⟩
          · exact absurd hna h1
          · exact h2
        obtain ⟨l, s1, s2⟩ := stepMem_dead c m _ op hd
        rw [s1]
        refine ⟨fun m' h' e => ?_, by simp [hna]⟩
        simp only [Option.map_some, Option.some.injEq, Prod.mk.injEq] at e
        obtain ⟨rfl, rfl⟩ := e
        refine ⟨by rw [e1], by rw [e1, e2], fun h => absurd ?_ h⟩
        rw [aborted_append, e2]; exact .inl hna
      · have hlk := e3 (by rw [e2]; exact hna)
        obtain ⟨s1, s2⟩ := stepMem_live c m op hlk
        have hh := hits_iff c ops op hna
        rw [← e1] at hh
        by_cases hhit : hits m.ar op = true
        · rw [s1 hhit]
          exact ⟨fun m' h' e => by simp at e, by simp [hna, hh.1 hhit]⟩
        · obtain ⟨l, t1, t2⟩ := s2 (by simpa using hhit)
          rw [t1]
          refine ⟨fun m' h' e => ?_, ?_⟩
          · simp only [Option.map_some, Option.some.injEq, Prod.mk.injEq] at e
            obtain ⟨rfl, rfl⟩ := e
            refine ⟨by rw [e1], by rw [e1, e2], fun h => ?_⟩
            cases hl : l with
            | true => rfl
            | false =>
              exfalso; apply h
              rw [aborted_append]; exact .inr (t2 hl)
          · simp only [Option.map_some, reduceCtorEq, false_iff, not_and]
            exact fun _ hc => hhit (hh.2 hc)

/-- The full statement of C155: no sequence of frames, alarms, acknowledgements and timers makes the device use a null pointer.  It is
false, see `C155_fails`. -/
def C155_statement (α : Type) : Prop := ∀ (c : Cfg) (ops : List (Op α)), execMem c ops ≠ none

/-- **C155 (partial)** If no frame is handed to the transport while another one of the same priority is unacknowledged, no null
pointer is used, and the run is that of `Model.lean`.

Partial: otherwise the device crashes, `C155_crash_iff`. -/
theorem C155_survives_partial (c : Cfg) (ops : List (Op α))
    (h : ∀ pre op p, pre ++ [op] <+: ops → op.sendsAt p = true → pending p (exec c pre).2 = none) :
    ∃ m, execMem c ops = some (m, (exec c ops).2) ∧ m.ar = (exec c ops).1 := by
  obtain ⟨h1, h2⟩ := execMem_inv c ops
  cases hx : execMem c ops with
  | none =>
    obtain ⟨pre, op, k1, k2, k3⟩ := h2.1 hx
    exfalso
    cases op with
    | poll p a tx sched => exact k3.2 (h pre _ p k1 (by simp [Op.sendsAt]))
    | userAck st tx sched => exact k3.2 (h pre _ true k1 (by simp [Op.sendsAt]))
    | recv p f tx => exact k3
    | expire p tx sched => exact k3
    | tick d => exact k3
  | some mh =>
    obtain ⟨e1, e2, _⟩ := h1 mh.1 mh.2 hx
    exact ⟨mh.1, by rw [← e2], e1⟩

/-- **C155, exactly**: a run uses a null pointer if and only if, on a connection that is up, an alarm of the application is taken
from the queue or an alarm of the controller is acknowledged by the application while an own data frame of the same priority is
unacknowledged. -/
theorem C155_crash_iff (c : Cfg) (ops : List (Op α)) :
    execMem c ops = none ↔ ∃ pre op, pre ++ [op] <+: ops ∧ ¬ aborted (exec c pre).2 ∧ Collides (exec c pre).2 op :=
  (execMem_inv c ops).2

/-- **C155 (finding)** With any parameters of the alarm CR, frames without loss and nobody misbehaving: the application sends a
high priority alarm, the controller sends an alarm at the same time, and the application acknowledges it before the
acknowledgement of its own alarm has arrived: the device crashes. -/
theorem C155_fails_acknowledge (c : Cfg) (a b : α) (status : Nat) (tx tx' : Tx) (sched sched' : Bool) :
    execMem c [.poll true b tx sched, .recv true ⟨.data, true, 0xffff, 0xfffe, .notify a⟩ .ok, .userAck status tx' sched'] = none := by
  cases tx <;> cases sched <;> rfl

/-- **C155 (finding)** An alarm of the controller is delivered and acknowledged; the application's own alarm is taken from the queue
before the acknowledgement has been acknowledged: the device crashes. -/
theorem C155_fails_send (c : Cfg) (a b : α) (status : Nat) (tx tx' : Tx) (sched sched' : Bool) :
    execMem c [.recv true ⟨.data, true, 0xffff, 0xfffe, .notify a⟩ .ok, .userAck status tx sched, .poll true b tx' sched'] = none := by
  cases tx <;> cases sched <;> rfl

/-- **C155 (finding)** The controller can crash a device that sends alarms: it answers an alarm with a data frame that does not
acknowledge the alarm's frame; the next alarm crashes the device. -/
theorem C155_fails_answer (c : Cfg) (a b : α) (p : Bool) (n : Seq) (hn : n ≠ 0xffff) (status : Nat) (tx' : Tx) (sched' : Bool) :
    execMem c [.poll p a .ok true, .recv p ⟨.data, true, 0xffff, n, .alarmAck status⟩ .ok, .poll p b tx' sched'] = none := by
  have hne : ¬ n = (65535#16) := hn
  cases p <;>
  simp [execMem, stepMem, Mem.init, Ar.init, Pr.init, reqMem, apmsReq, apmsSend, dataFrame, startTimer, Ar.set, recv, apmrInd, apmsInd,
    hne, advance, ackFrame, alpmiInd, finish, alpmiCnfNeg, alpmrCnfNeg, Mem.abort]

theorem C155_fails (α : Type) (a : α) : ¬ C155_statement α := fun h => h ⟨3, 100⟩ _ (C155_fails_send ⟨3, 100⟩ a a 0 .ok .ok true true)

/-- A run that meets the hypothesis of `C155_survives_partial`: an alarm in each direction, one after the other. -/
theorem C155_example :
    let ops : List (Op Nat) := [.poll true 7 .ok true, .recv true ⟨.data, true, 0xffff, 0xffff, .alarmAck 0⟩ .ok,
      .recv true (note 0 9) .ok, .userAck 0 .ok true]
    (∀ pre op p, pre ++ [op] <+: ops → op.sendsAt p = true → pending p (exec ⟨3, 100⟩ pre).2 = none) ∧
    (execMem ⟨3, 100⟩ ops).isSome = true := by
  refine ⟨?_, by decide +kernel⟩
  intro pre op p hp hs
  obtain ⟨rest, hr⟩ := hp
  match pre, hr with
  | [], hr => rfl
  | [_], hr => simp at hr; obtain ⟨_, rfl, _⟩ := hr; simp [Op.sendsAt] at hs
  | [_, _], hr => simp at hr; obtain ⟨_, _, rfl, _⟩ := hr; simp [Op.sendsAt] at hs
  | [_, _, _], hr =>
    simp at hr
    obtain ⟨rfl, rfl, rfl, rfl, _⟩ := hr
    simp [Op.sendsAt] at hs
    subst hs
    rw [← Option.isNone_iff_eq_none]
    decide +kernel
  | _ :: _ :: _ :: _ :: _, hr => simp at hr

end Verif.Alarm
