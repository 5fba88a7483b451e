import Verif.Alarm.App
/-!
# C158 Alarm timers of an earlier connection

The model of `Model.lean` ends with the end of the connection.  Here one entry of the table of connections is used for one connection after
the other, and the retransmission timers that the end of a connection leaves behind are kept.

Simplified: time is counted from the start of each connection (the deadlines of timers that are left over are moved accordingly).  Runs in
which a null pointer is used (C155) end there in the code.  The frame sent when a connection is closed is left out.
-/
set_option linter.unusedSimpArgs false
set_option linter.unusedVariables false
namespace Verif.Alarm

variable {α : Type}

/-- An entry of the table of connections: the negotiated parameters and the alarm machines of its present connection; for each priority,
whether `resend_timeout` refers to a running timer (then it is the one started last), and the deadlines of the running timers that were started for earlier connections of the entry
(all of them call pf_alarm_apms_timeout with the same pointer to the entry, src/common/pf_alarm.c:1536-1542). -/
structure Slot (α : Type) where
  cfg : Cfg
  ar : Ar α
  handle : Bool → Bool
  stale : Bool → List Nat

/-- What happens to an entry: an operation of the present connection; the `i`-th of the old timers expires; the connection ends for a reason that does not
concern alarms; a new connection is made. -/
inductive SOp (α : Type) where
  | op (o : Op α)
  | stale (p : Bool) (i : Nat) (tx : Tx) (sched : Bool)
  | close
  | connect (c : Cfg)

/-- The entry before its first connection. -/
def Slot.init : Slot α := ⟨⟨0, 0⟩, Ar.init.close, fun _ => false, fun _ => []⟩

/-- The timers that pf_alarm_apmx_close (src/common/pf_alarm.c:1576-1679) leaves running: all but the one that the handle refers to. -/
def leaves (handle : Bool) (timers : List Nat) : List Nat := if handle then timers.dropLast else timers

/-- The scheduler's part of an operation before anything else: at the expiry of a timer it is taken out of the list, and the handle is reset
(pf_scheduler_reset_handle in pf_alarm_apms_timeout, src/common/pf_alarm.c:849-954). -/
def before (s : Slot α) : Op α → (Bool → List Nat) × (Bool → Bool)
  | .expire p _ _ =>
    match (s.ar.pr p).timers with
    | [] => (fun q => (s.ar.pr q).timers, s.handle)
    | t :: ts =>
      if t ≤ s.ar.now then (fun q => if q = p then ts else (s.ar.pr q).timers, fun q => if q = p then false else s.handle q)
      else (fun q => (s.ar.pr q).timers, s.handle)
  | _ => (fun q => (s.ar.pr q).timers, s.handle)

/-- Does pf_alarm_apms_timeout (src/common/pf_alarm.c:849-954) start a new timer? -/
def again (x : Pr α) : Bool := decide (x.apms = .wtack ∧ x.rta ≠ none ∧ 0 < x.resend)

/-- The outcome of pf_scheduler_add (src/common/pf_scheduler.c:299-384) for priority `q` in an operation, if it is called: it sets the handle in either case. -/
def adds (s : Slot α) (q : Bool) : Op α → Option Bool
  | .poll p _ _ sched => if q = p ∧ (s.ar.pr p).alpmi = .wAlarm ∧ (s.ar.pr p).apms = .open then some sched else none
  | .userAck _ _ sched => if q = true ∧ (s.ar.pr true).alpmr = .wUserAck ∧ (s.ar.pr true).apms = .open then some sched else none
  | .expire p _ sched =>
    match (s.ar.pr p).timers with
    | [] => none
    | t :: _ => if q = p ∧ t ≤ s.ar.now ∧ again (s.ar.pr p) = true then some sched else none
  | _ => none

/-- Did the connection end? -/
def ended (evs : List (Bool × Ev α)) : Bool := evs.any fun e => match e.2 with | .abort => true | _ => false

/-- The machines after an operation, and the timers: if it ended the connection, those that are left become old timers. -/
def settle (s : Slot α) (t : Ar α × List (Bool × Ev α)) (timers : Bool → List Nat) (handle : Bool → Bool) (added : Bool → Option Bool) : Slot α :=
  if ended t.2 then ⟨s.cfg, t.1, fun _ => false, fun q => s.stale q ++ leaves (handle q) (timers q)⟩
  else ⟨s.cfg, t.1, fun q => (added q).getD (handle q), s.stale⟩

/-- The connection has ended: all machines are closed (pf_alarm_close, src/common/pf_alarm.c:2796-2827). -/
def Slot.free (s : Slot α) : Bool := decide ((s.ar.pr true).apms = .closed ∧ (s.ar.pr false).apms = .closed)

/-- One event.
* `op`: as `step`.
* `stale`: pf_alarm_apms_timeout (src/common/pf_alarm.c:849-954) for a timer of an earlier connection.
* `close`: pf_alarm_close (src/common/pf_alarm.c:2796-2827).
* `connect`: pf_alarm_activate (src/common/pf_alarm.c:2770-2794), for an entry that is free (cleared by pf_ar_release, src/device/pf_cmrpc.c:758-802); the handle is
  initialised, running timers are not looked at. -/
def stepS (s : Slot α) : SOp α → Slot α × List (Bool × Ev α)
  | .op o => (settle s (step s.cfg s.ar o) (before s o).1 (before s o).2 (fun q => adds s q o), (step s.cfg s.ar o).2)
  | .stale p i tx sched =>
    match (s.stale p)[i]? with
    | none => (s, [])
    | some d =>
      if d ≤ s.ar.now then
        let s' : Slot α := { s with stale := fun q => if q = p then (s.stale p).eraseIdx i else s.stale q }
        let r := apmsTimeout s.cfg (s.ar.pr p) tx sched s.ar.now
        let t := finish s.ar p r.1 (.fired :: r.2.1) r.2.2
        (settle s' t (fun q => (s.ar.pr q).timers) (fun q => if q = p then false else s.handle q)
          (fun q => if q = p ∧ again (s.ar.pr p) = true then some sched else none), t.2)
      else (s, [])
  | .close => (⟨s.cfg, s.ar.close, fun _ => false, fun q => s.stale q ++ leaves (s.handle q) (s.ar.pr q).timers⟩, [])
  | .connect c =>
    if s.free then (⟨c, Ar.init, fun _ => false, fun q => (s.stale q).map (· - s.ar.now)⟩, []) else (s, [])

/-- Events of the present connection and earlier ones, oldest first. -/
abbrev HistS (α : Type) := List (SOp α × List (Bool × Ev α))

/-- Events from an entry `s` on. -/
def runS (s : Slot α) (ops : List (SOp α)) : Slot α × HistS α :=
  ops.foldl (fun x o => ((stepS x.1 o).1, x.2 ++ [(o, (stepS x.1 o).2)])) (s, [])

theorem runS_append (s : Slot α) (ops : List (SOp α)) (o : SOp α) :
    runS s (ops ++ [o]) = ((stepS (runS s ops).1 o).1, (runS s ops).2 ++ [(o, (stepS (runS s ops).1 o).2)]) := by
  simp [runS]

/-! ## Specification -/

/-- The operations of the present connection among the events. -/
def ownOps : List (SOp α) → List (Op α)
  | [] => []
  | .op o :: l => o :: ownOps l
  | _ :: l => ownOps l

/-- What they led to. -/
def ownHist : HistS α → Hist α
  | [] => []
  | (.op o, evs) :: l => (o, evs) :: ownHist l
  | _ :: l => ownHist l

/-- The expiries of old timers. -/
def oldHist : HistS α → List (List (Bool × Ev α))
  | [] => []
  | (.stale _ _ _ _, evs) :: l => evs :: oldHist l
  | _ :: l => oldHist l

/-- The events belong to one connection: it is not closed and no other one is made. -/
def OneConn (ops : List (SOp α)) : Prop := ∀ o ∈ ops, match o with | .op _ => True | .stale _ _ _ _ => True | _ => False

/-- Whenever an old timer expires, no alarm of its priority waits for an acknowledgement. -/
def Apart (s : Slot α) (ops : List (SOp α)) : Prop :=
  ∀ pre p i tx sched, pre ++ [.stale p i tx sched] <+: ops → ((runS s pre).1.ar.pr p).apms ≠ .wtack

/-! ## C158 -/

theorem ownOps_append (l m : List (SOp α)) : ownOps (l ++ m) = ownOps l ++ ownOps m := by
  induction l with
  | nil => rfl
  | cons o l ih => cases o <;> simp [ownOps, ih]

theorem ownHist_append (l m : HistS α) : ownHist (l ++ m) = ownHist l ++ ownHist m := by
  induction l with
  | nil => rfl
  | cons o l ih => obtain ⟨o, e⟩ := o; cases o <;> simp [ownHist, ih]

theorem oldHist_append (l m : HistS α) : oldHist (l ++ m) = oldHist l ++ oldHist m := by
  induction l with
  | nil => rfl
  | cons o l ih => obtain ⟨o, e⟩ := o; cases o <;> simp [oldHist, ih]

theorem settle_ar (s : Slot α) (t timers handle added) : (settle s t timers handle added).ar = t.1 := by
  unfold settle; split <;> rfl

theorem settle_cfg (s : Slot α) (t timers handle added) : (settle s t timers handle added).cfg = s.cfg := by
  unfold settle; split <;> rfl

/-- Nothing is saved for retransmission while nothing waits for an acknowledgement. -/
theorem calm (c : Cfg) (ops : List (Op α)) (p : Bool) (h : ((exec c ops).1.pr p).apms ≠ .wtack) : ((exec c ops).1.pr p).rta = none := by
  rcases exec_inv c ops with ⟨_, hl⟩ | ⟨_, hd⟩
  · cases hp : pending p (exec c ops).2 with
    | none => exact ((hl p).idle hp).2
    | some P => exact absurd ((hl p).pend P hp).1 h
  · exact (hd p).1.rta

theorem stale_apart {s : Slot α} {p : Bool} (h : (s.ar.pr p).apms ≠ .wtack) (hr : (s.ar.pr p).rta = none) (i tx sched) :
    (stepS s (.stale p i tx sched)).1.ar = s.ar ∧ (stepS s (.stale p i tx sched)).1.cfg = s.cfg ∧
      ((stepS s (.stale p i tx sched)).2 = [] ∨ (stepS s (.stale p i tx sched)).2 = [(p, .fired)]) := by
  simp only [stepS]
  split
  · exact ⟨rfl, rfl, .inl rfl⟩
  · split
    · have e : apmsTimeout s.cfg (s.ar.pr p) tx sched s.ar.now = (s.ar.pr p, [], false) := by
        unfold apmsTimeout
        rw [if_neg h, ← hr]
      have hs : s.ar.set p (s.ar.pr p) = s.ar := by
        cases s.ar; simp [Ar.set]; funext q; split <;> simp_all
      rw [settle_ar, settle_cfg]
      simp [e, finish, hs]
    · exact ⟨rfl, rfl, .inl rfl⟩

/-- **C158 (partial)** If old timers expire only while no alarm of their priority waits for an acknowledgement, a connection behaves exactly as
the first connection of the entry, whatever happened in the entry before: same states, same events; the old timers have no effect at all.

Partial: without this condition the claim is false (`C158_fails_abort`, `C158_fails_early`). -/
theorem C158_fresh_partial (pre ops : List (SOp α)) (c : Cfg) (h1 : OneConn ops)
    (hf : (runS Slot.init pre).1.free = true)
    (h2 : Apart (runS Slot.init (pre ++ [.connect c])).1 ops) :
    let s := (runS Slot.init (pre ++ [.connect c])).1
    (runS s ops).1.ar = (exec c (ownOps ops)).1 ∧ ownHist (runS s ops).2 = (exec c (ownOps ops)).2 ∧
      ∀ e ∈ oldHist (runS s ops).2, ∀ x ∈ e, x.2 = .fired := by
  intro s
  have h0 : s.ar = Ar.init ∧ s.cfg = c := by
    show (runS Slot.init (pre ++ [.connect c])).1.ar = _ ∧ (runS Slot.init (pre ++ [.connect c])).1.cfg = _
    rw [runS_append]
    simp [stepS, hf]
  suffices hh : (runS s ops).1.cfg = c ∧ (runS s ops).1.ar = (exec c (ownOps ops)).1 ∧ ownHist (runS s ops).2 = (exec c (ownOps ops)).2 ∧
      ∀ e ∈ oldHist (runS s ops).2, ∀ x ∈ e, x.2 = .fired from hh.2
  induction ops using List.reverseRecOn with
  | nil => exact ⟨h0.2, h0.1, rfl, by simp [runS, oldHist]⟩
  | append_singleton ops o ih =>
    obtain ⟨i1, i2, i3, i4⟩ := ih (fun o ho => h1 o (by simp [ho]))
      (fun pre' p i tx sched hp => h2 pre' p i tx sched (hp.trans (List.prefix_append _ _)))
    have ho := h1 o (by simp)
    rw [runS_append, ownOps_append, ownHist_append, oldHist_append]
    cases o with
    | op o =>
      simp only [ownOps, ownHist, oldHist, List.append_nil]
      rw [exec_append]
      simp only [stepS]
      rw [settle_ar, settle_cfg, i1, i2, i3]
      exact ⟨rfl, rfl, rfl, i4⟩
    | stale p i tx sched =>
      have hw := h2 ops p i tx sched List.prefix_rfl
      have hr : ((runS s ops).1.ar.pr p).rta = none := by
        rw [i2] at hw ⊢
        exact calm c _ p hw
      obtain ⟨a1, a2, a3⟩ := stale_apart hw hr i tx sched
      simp only [ownOps, ownHist, oldHist, List.append_nil]
      refine ⟨a2.trans i1, a1.trans i2, i3, ?_⟩
      intro e he x hx
      rcases List.mem_append.mp he with he | he
      · exact i4 e he x hx
      · cases List.mem_singleton.mp he
        rcases a3 with a3 | a3 <;> rw [a3] at hx <;> simp at hx
        rw [hx]
    | close => exact absurd ho id
    | connect c' => exact absurd ho id

/-! ## Until when old timers run -/

theorem apmsSend_timers (x : Pr α) (f : Frame α) (tx : Tx) : (apmsSend x f tx).1.timers = x.timers := by
  unfold apmsSend; repeat' split
  all_goals rfl

/-- All timers of the entry are due at the latest `T` from now. -/
structure Due (T : Nat) (s : Slot α) : Prop where
  cfg : s.cfg.timeout ≤ T
  own : ∀ q, ∀ d ∈ (s.ar.pr q).timers, d ≤ s.ar.now + T
  old : ∀ q, ∀ d ∈ s.stale q, d ≤ s.ar.now + T

theorem mem_leaves {b : Bool} {l : List Nat} {d : Nat} (h : d ∈ leaves b l) : d ∈ l := by
  unfold leaves at h
  split at h
  · exact List.dropLast_subset _ h
  · exact h

theorem close_timers (s : Ar α) (q : Bool) : (s.close.pr q).timers = [] := rfl

theorem reuse_finish_timers {s : Ar α} {p : Bool} {x : Pr α} {evs : List (Ev α)} {ab : Bool} {q : Bool} {d : Nat}
    (h : d ∈ ((finish s p x evs ab).1.pr q).timers) : d ∈ (if q = p then x else s.pr q).timers := by
  unfold finish at h
  split at h
  · rw [close_timers] at h; cases h
  · exact h

theorem finish_now (s : Ar α) (p : Bool) (x : Pr α) (evs : List (Ev α)) (ab : Bool) : (finish s p x evs ab).1.now = s.now := by
  unfold finish; split <;> rfl

theorem startTimer_mem {c : Cfg} {x : Pr α} {now : Nat} {sched : Bool} {d : Nat} (h : d ∈ (startTimer c x now sched).timers) :
    d ∈ x.timers ∨ d = now + c.timeout := by
  unfold startTimer at h
  split at h
  · simpa using h
  · exact .inl h

theorem apmsReq_mem {c : Cfg} {x : Pr α} {b tx sched now} {d : Nat} (h : d ∈ (apmsReq c x b tx sched now).1.timers) :
    d ∈ x.timers ∨ d = now + c.timeout := by
  unfold apmsReq at h
  split at h
  · rcases startTimer_mem h with h | h
    · exact .inl (by simpa [apmsSend_timers] using h)
    · exact .inr h
  · exact .inl h

theorem apmsTimeout_mem {c : Cfg} {x : Pr α} {tx sched now} {d : Nat} (h : d ∈ (apmsTimeout c x tx sched now).1.timers) :
    d ∈ x.timers ∨ d = now + c.timeout := by
  unfold apmsTimeout at h
  split at h
  · split at h
    · exact .inl h
    · split at h
      · rcases startTimer_mem h with h | h
        · exact .inl h
        · exact .inr h
      · exact .inl h
  · exact .inl h

theorem step_due {c : Cfg} {s : Ar α} {o : Op α} {T : Nat} (hc : c.timeout ≤ T) (h : ∀ q, ∀ d ∈ (s.pr q).timers, d ≤ s.now + T) :
    s.now ≤ (step c s o).1.now ∧ ∀ q, ∀ d ∈ ((step c s o).1.pr q).timers, d ≤ (step c s o).1.now + T := by
  cases o with
  | recv p f tx =>
    simp only [step]
    rw [finish_now]
    refine ⟨Nat.le_refl _, fun q d hd => ?_⟩
    have := reuse_finish_timers hd
    split at this
    · rename_i e
      rw [recv_timers] at this
      exact h p d this
    · exact h q d this
  | poll p a tx sched =>
    simp only [step]
    split
    · rw [finish_now]
      refine ⟨Nat.le_refl _, fun q d hd => ?_⟩
      have := reuse_finish_timers hd
      split at this
      · have h2 : d ∈ (apmsReq c (s.pr p) (.notify a) tx sched s.now).1.timers := by
          split at this <;> exact this
        rcases apmsReq_mem h2 with h3 | h3
        · exact h p d h3
        · omega
      · exact h q d this
    · exact ⟨Nat.le_refl _, h⟩
  | userAck st tx sched =>
    simp only [step]
    split
    · have e : ∀ (t : Ar α) (x : Pr α), (t.set true x).now = t.now := fun _ _ => rfl
      rw [e, finish_now]
      refine ⟨Nat.le_refl _, fun q d hd => ?_⟩
      have hd' : d ∈ ((finish s true (apmsReq c (s.pr true) (.alarmAck st) tx sched s.now).1 (apmsReq c (s.pr true) (.alarmAck st) tx sched s.now).2.1
          (apmsReq c (s.pr true) (.alarmAck st) tx sched s.now).2.2.2).1.pr q).timers := by
        unfold Ar.set at hd
        simp only at hd
        split at hd
        · rename_i e; rw [e]; exact hd
        · exact hd
      have := reuse_finish_timers hd'
      split at this
      · rcases apmsReq_mem this with h3 | h3
        · exact h true d h3
        · omega
      · exact h q d this
    · exact ⟨Nat.le_refl _, h⟩
  | expire p tx sched =>
    simp only [step]
    split
    · exact ⟨Nat.le_refl _, h⟩
    · rename_i t ts ht
      split
      · rw [finish_now]
        refine ⟨Nat.le_refl _, fun q d hd => ?_⟩
        have := reuse_finish_timers hd
        split at this
        · rcases apmsTimeout_mem this with h3 | h3
          · exact h p d (by rw [ht]; exact List.mem_cons_of_mem _ h3)
          · omega
        · exact h q d this
      · exact ⟨Nat.le_refl _, h⟩
  | tick d =>
    simp only [step]
    exact ⟨Nat.le_add_right _ _, fun q x hx => by have := h q x hx; omega⟩

theorem before_mem {s : Slot α} {o : Op α} {q : Bool} {d : Nat} (h : d ∈ (before s o).1 q) : d ∈ (s.ar.pr q).timers := by
  cases o with
  | expire p tx sched =>
    simp only [before] at h
    split at h
    · exact h
    · rename_i t ts ht
      split at h
      · simp only at h
        split at h
        · rename_i e; subst e; rw [ht]; exact List.mem_cons_of_mem _ h
        · exact h
      · exact h
  | _ => exact h

theorem stepS_due {s : Slot α} {T : Nat} (h : Due T s) (o : SOp α) (hc : ∀ c, o = .connect c → c.timeout ≤ T) : Due T (stepS s o).1 := by
  cases o with
  | op o =>
    obtain ⟨hn, hd⟩ := step_due (o := o) h.cfg h.own
    simp only [stepS]
    unfold settle
    split
    · refine ⟨h.cfg, hd, fun q d hq => ?_⟩
      simp only at hq ⊢
      rcases List.mem_append.mp hq with hq | hq
      · have := h.old q d hq; omega
      · have := h.own q d (before_mem (mem_leaves hq)); omega
    · exact ⟨h.cfg, hd, fun q d hq => by have := h.old q d hq; simp only; omega⟩
  | stale p i tx sched =>
    simp only [stepS]
    split
    · exact h
    · split
      · have hn := finish_now s.ar p (apmsTimeout s.cfg (s.ar.pr p) tx sched s.ar.now).1
          (.fired :: (apmsTimeout s.cfg (s.ar.pr p) tx sched s.ar.now).2.1) (apmsTimeout s.cfg (s.ar.pr p) tx sched s.ar.now).2.2
        have hown : ∀ q, ∀ d ∈ ((finish s.ar p (apmsTimeout s.cfg (s.ar.pr p) tx sched s.ar.now).1
            (.fired :: (apmsTimeout s.cfg (s.ar.pr p) tx sched s.ar.now).2.1) (apmsTimeout s.cfg (s.ar.pr p) tx sched s.ar.now).2.2).1.pr q).timers,
            d ≤ s.ar.now + T := by
          intro q d hd
          have := reuse_finish_timers hd
          split at this
          · rcases apmsTimeout_mem this with h3 | h3
            · exact h.own p d h3
            · have := h.cfg; omega
          · exact h.own q d this
        have hold : ∀ q, ∀ d ∈ (if q = p then (s.stale p).eraseIdx i else s.stale q), d ≤ s.ar.now + T := by
          intro q d hd
          split at hd
          · exact h.old p d (List.mem_of_mem_eraseIdx hd)
          · exact h.old q d hd
        unfold settle
        split
        · refine ⟨h.cfg, ?_, ?_⟩
          · simp only [hn]; exact hown
          · simp only [hn]
            intro q d hd
            rcases List.mem_append.mp hd with hd | hd
            · exact hold q d hd
            · exact h.own q d (mem_leaves hd)
        · refine ⟨h.cfg, ?_, ?_⟩
          · simp only [hn]; exact hown
          · simp only [hn]; exact hold
      · exact h
  | close =>
    refine ⟨h.cfg, fun q d hd => ?_, fun q d hd => ?_⟩
    · simp only [stepS] at hd
      rw [close_timers] at hd; cases hd
    · rcases List.mem_append.mp hd with hd | hd
      · exact h.old q d hd
      · exact h.own q d (mem_leaves hd)
  | connect c =>
    simp only [stepS]
    split
    · refine ⟨hc c rfl, fun q d hd => by simp [Ar.init, Pr.init] at hd, fun q d hd => ?_⟩
      obtain ⟨x, hx, rfl⟩ := List.mem_map.mp hd
      have := h.old q x hx
      simp only [Ar.init]
      omega
    · exact h

theorem runS_due {s : Slot α} {T : Nat} (h : Due T s) (ops : List (SOp α)) (hc : ∀ c, .connect c ∈ ops → c.timeout ≤ T) :
    Due T (runS s ops).1 := by
  induction ops using List.reverseRecOn with
  | nil => exact h
  | append_singleton ops o ih =>
    rw [runS_append]
    exact stepS_due (ih fun c hm => hc c (by simp [hm])) o (fun c e => hc c (by simp [e]))

/-- **C158** If no connection has negotiated a retransmission time above `T`, then in every run the timers left over by earlier
connections are due at the latest `T` after the start of the new one: from then on (once the scheduler has dealt with them) it is as the first connection. -/
theorem C158_until (pre : List (SOp α)) (c : Cfg) (T : Nat) (hc : ∀ c', .connect c' ∈ pre → c'.timeout ≤ T) (hT : c.timeout ≤ T)
    (hf : (runS Slot.init pre).1.free = true) :
    (runS Slot.init (pre ++ [.connect c])).1.ar.now = 0 ∧
      ∀ q, ∀ d ∈ (runS Slot.init (pre ++ [.connect c])).1.stale q, d ≤ T := by
  have h : Due T (runS (Slot.init : Slot α) pre).1 :=
    runS_due ⟨Nat.zero_le _, by intro q d hd; simp [Slot.init, close_timers] at hd, by intro q d hd; simp [Slot.init] at hd⟩ pre hc
  have h' := stepS_due h (.connect c) (fun c' e => by cases e; exact hT)
  rw [runS_append]
  have e : (stepS (runS Slot.init pre).1 (.connect c)).1.ar.now = 0 := by simp [stepS, hf, Ar.init]
  refine ⟨e, fun q d hd => ?_⟩
  have := h'.old q d hd
  simp only [e] at this
  omega

/-! ## When an old timer expires while an alarm waits -/

/-- The entry after some events. -/
def fin (s : Slot α) (ops : List (SOp α)) : Slot α := ops.foldl (fun x o => (stepS x o).1) s

theorem runS_fst (s : Slot α) (ops : List (SOp α)) : (runS s ops).1 = fin s ops := by
  induction ops using List.reverseRecOn with
  | nil => rfl
  | append_singleton ops o ih => rw [runS_append, ih]; simp [fin]

theorem fin_append (s : Slot α) (l m : List (SOp α)) : fin s (l ++ m) = fin (fin s l) m := by simp [fin]

theorem fin_cons (s : Slot α) (o : SOp α) (m : List (SOp α)) : fin s (o :: m) = fin (stepS s o).1 m := rfl

/-- `k` alarms, each acknowledged at once: the device sends alarm `a`, the controller answers with its (transport and application) acknowledgement. -/
def rounds (p : Bool) (a : α) : Nat → List (SOp α)
  | 0 => []
  | k + 1 => rounds p a k ++ [.op (.poll p a .ok true), .op (.recv p ⟨.data, true, seqNo k, seqNo k, .alarmAck 0⟩ .ok)]

/-- The machines after `k` such rounds. -/
def afterPr (c : Cfg) (k : Nat) : Pr α where
  apms := .open
  apmr := .open
  alpmi := .wAlarm
  alpmr := .wNotify
  sendSeq := seqNo k
  sendSeqO := prevNo k
  expSeq := seqNo k
  expSeqO := prevNo k
  rta := none
  resend := if k = 0 then 0 else c.retries
  timers := List.replicate k c.timeout

/-- The entry after `k` such rounds of its first connection. -/
def afterSlot (c : Cfg) (p : Bool) (k : Nat) : Slot α where
  cfg := c
  ar := ⟨fun q => if q = p then afterPr c k else Pr.init, 0⟩
  handle := fun q => decide (q = p ∧ 0 < k)
  stale := fun _ => []

theorem slot_ext {s t : Slot α} (h1 : s.cfg = t.cfg) (h2 : ∀ q, s.ar.pr q = t.ar.pr q) (h3 : s.ar.now = t.ar.now)
    (h4 : ∀ q, s.handle q = t.handle q) (h5 : ∀ q, s.stale q = t.stale q) : s = t := by
  obtain ⟨c, ⟨a, n⟩, h, l⟩ := s
  obtain ⟨c', ⟨a', n'⟩, h', l'⟩ := t
  simp only at h1 h2 h3 h4 h5
  rw [h1, h3, funext h2, funext h4, funext h5]

theorem after_zero (c : Cfg) (p : Bool) : (stepS (Slot.init : Slot α) (.connect c)).1 = afterSlot c p 0 := by
  apply slot_ext <;> intros <;> simp [stepS, Slot.init, Slot.free, Ar.init, Ar.close, Pr.close, Pr.init, afterSlot, afterPr, seqNo, prevNo]

theorem reuse_round (c : Cfg) (p : Bool) (a : α) (k : Nat) :
    fin (afterSlot c p k) [.op (.poll p a .ok true), .op (.recv p ⟨.data, true, seqNo k, seqNo k, .alarmAck 0⟩ .ok)] =
      (afterSlot c p (k + 1) : Slot α) := by
  simp only [fin_cons]
  show (stepS (stepS _ _).1 _).1 = _
  apply slot_ext
  · simp [stepS, settle_cfg, afterSlot]
  · intro q
    simp only [stepS, settle_ar, settle_cfg]
    simp [step, apmsReq, apmsSend, startTimer, dataFrame, finish, Ar.set, recv, apmrInd, apmsInd, advance, alpmiInd, ackFrame, afterSlot, afterPr, seqNo_succ]
    by_cases h : q = p
    · simp [h, prevNo, List.replicate_succ']
      exact seqNo_succ k
    · simp [h]
  · simp only [stepS, settle_ar, settle_cfg]
    simp [step, finish_now, afterSlot, afterPr]
  · intro q
    simp [stepS, step, settle, ended, adds, before, apmsReq, apmsSend, startTimer, dataFrame, finish, Ar.set, recv, apmrInd, apmsInd, advance, alpmiInd, ackFrame, afterSlot, afterPr, seqNo_succ]
    by_cases h : q = p <;> simp [h]
  · intro q
    simp [stepS, step, settle, ended, adds, before, apmsReq, apmsSend, startTimer, dataFrame, finish, Ar.set, recv, apmrInd, apmsInd, advance, alpmiInd, ackFrame, afterSlot, afterPr, seqNo_succ]

theorem fin_rounds (c : Cfg) (p : Bool) (a : α) (k : Nat) :
    fin (Slot.init : Slot α) (.connect c :: rounds p a k) = afterSlot c p k := by
  rw [fin_cons, after_zero c p]
  induction k with
  | zero => rfl
  | succ k ih => rw [rounds, fin_append, ih, reuse_round]

/-- The frame of the first alarm of a connection. -/
def firstFrame (b : α) : Frame α := ⟨.data, true, 0xffff, 0xfffe, .notify b⟩

/-- An entry with a new connection, whose first alarm `b` was sent `d` ago and waits for its acknowledgement: `r` retransmissions are left, `j` were done just now,
and `m` old timers are due. -/
def waiting (c : Cfg) (p : Bool) (b : α) (d : Nat) (j m r : Nat) (h : Bool → Bool) : Slot α where
  cfg := c
  ar := ⟨fun q => if q = p then
    { (Pr.init : Pr α) with apms := .wtack, alpmi := .wAck, rta := some (firstFrame b), resend := r, timers := c.timeout :: List.replicate j (d + c.timeout) } else Pr.init, d⟩
  handle := h
  stale := fun q => if q = p then List.replicate m d else []

/-- The events up to the moment at which the old timers expire: `k + 1` alarms in an earlier connection; it ends; `t` later a new one is made and
an alarm is sent; `d` passes. -/
def reuse (c c' : Cfg) (p : Bool) (a b : α) (k t d : Nat) : List (SOp α) :=
  (.connect c :: rounds p a (k + 1)) ++ [.close, .op (.tick t), .connect c', .op (.poll p b .ok true), .op (.tick d)]

theorem fin_reuse (c c' : Cfg) (p : Bool) (a b : α) (k t d : Nat) (ht : t + d = c.timeout) :
    ∃ h, fin (Slot.init : Slot α) (reuse c c' p a b k t d) = waiting c' p b d 0 k c'.retries h := by
  refine ⟨(fin (Slot.init : Slot α) (reuse c c' p a b k t d)).handle, ?_⟩
  unfold reuse
  rw [fin_append, fin_rounds]
  have hd : c.timeout - t = d := by omega
  simp only [fin_cons]
  show (stepS (stepS (stepS (stepS (stepS _ _).1 _).1 _).1 _).1 _).1 = _
  apply slot_ext
  · cases p <;>
    simp [stepS, step, settle_cfg, Slot.free, waiting, afterSlot, afterPr, Ar.close, Pr.close, settle_ar]
  · intro q
    cases p <;> cases q <;>
    simp [stepS, step, settle_ar, settle, settle_cfg, ended, Slot.free, waiting, afterSlot, afterPr, Ar.close, Pr.close, finish, Ar.init, Pr.init, apmsReq, apmsSend, startTimer, dataFrame, Ar.set, firstFrame]
  · cases p <;>
    simp [stepS, step, settle, ended, Slot.free, waiting, afterSlot, afterPr, Ar.close, Pr.close, finish, Ar.init, Pr.init, apmsReq, apmsSend, startTimer, dataFrame, Ar.set]
  · intro q; rfl
  · intro q
    cases p <;> cases q <;>
    simp [stepS, step, settle, leaves, ended, Slot.free, waiting, afterSlot, afterPr, Ar.close, Pr.close, finish, Ar.init, Pr.init, apmsReq, apmsSend, startTimer, dataFrame, Ar.set, hd]

theorem stale_sends (c : Cfg) (p : Bool) (b : α) (d j m r : Nat) (h : Bool → Bool) :
    (∃ h', (stepS (waiting c p b d j (m + 1) (r + 1) h) (.stale p 0 .ok true)).1 = waiting c p b d (j + 1) m r h') ∧
      (stepS (waiting c p b d j (m + 1) (r + 1) h) (.stale p 0 .ok true)).2 = [(p, .fired), (p, .wire (firstFrame b))] := by
  refine ⟨⟨(stepS (waiting c p b d j (m + 1) (r + 1) h) (.stale p 0 .ok true)).1.handle, ?_⟩, ?_⟩
  · apply slot_ext
    · simp [stepS, waiting, settle_cfg]
    · intro q
      simp [stepS, waiting, settle_ar, finish, apmsTimeout, startTimer, Ar.set]
      by_cases e : q = p <;> simp [e, List.replicate_succ']
    · simp [stepS, waiting, settle_ar, finish_now]
    · intro q; rfl
    · intro q
      simp [stepS, waiting, settle, ended, finish, apmsTimeout, startTimer, Ar.set]
      by_cases e : q = p <;> simp [e, List.replicate_succ]
  · simp [stepS, waiting, finish, apmsTimeout]

theorem stale_many (c : Cfg) (p : Bool) (b : α) (d : Nat) (n : Nat) : ∀ (j m r : Nat) (h : Bool → Bool),
    ∃ h', fin (waiting c p b d j (m + n) (r + n) h) (List.replicate n (.stale p 0 .ok true)) = waiting c p b d (j + n) m r h' := by
  induction n with
  | zero => intro j m r h; exact ⟨h, rfl⟩
  | succ n ih =>
    intro j m r h
    obtain ⟨⟨h1, e1⟩, _⟩ := stale_sends c p b d j (m + n) (r + n) h
    obtain ⟨h2, e2⟩ := ih (j + 1) m r h1
    refine ⟨h2, ?_⟩
    rw [List.replicate_succ, fin_cons, ← Nat.add_assoc, ← Nat.add_assoc, e1, e2]
    congr 1; omega

/-- **C158 is false in the code (1)** In an earlier connection with retransmission time `T`, `R + 2` alarms were sent and acknowledged at once; then it ended, and `t` later a new connection with
`R` retransmissions was made, which sends an alarm.  `d` after this, with `t + d = T` (so `d` may be as short as one likes: in particular shorter than the
retransmission time `T'` of the new connection), the timers left over by the earlier connection use up all retransmissions, and
the new connection is aborted. -/
theorem C158_fails_abort (p : Bool) (a b : α) (R R' T T' t d : Nat) (h : t + d = T) :
    (p, .abort) ∈ (stepS (runS Slot.init (reuse ⟨R', T⟩ ⟨R, T'⟩ p a b (R + 1) t d ++ List.replicate R (.stale p 0 .ok true))).1
      (.stale p 0 .ok true)).2 := by
  rw [runS_fst, fin_append]
  obtain ⟨h1, e1⟩ := fin_reuse ⟨R', T⟩ ⟨R, T'⟩ p a b (R + 1) t d h
  obtain ⟨h2, e2⟩ := stale_many ⟨R, T'⟩ p b d R 0 1 0 h1
  have e : R + 1 = 1 + R := Nat.add_comm _ _
  simp only [e] at e1 ⊢
  rw [Nat.zero_add] at e2
  rw [e1, e2]
  simp [stepS, waiting, finish, apmsTimeout]

/-- **C158 is false in the code (2)** After two alarms in the earlier connection one old timer is enough to send the alarm of the new connection again `d` after it was sent, where
`d` may be shorter than its retransmission time `T'`. -/
theorem C158_fails_early (p : Bool) (a b : α) (R R' T T' t d : Nat) (h : t + d = T) :
    (p, .wire (firstFrame b)) ∈ (stepS (runS Slot.init (reuse ⟨R', T⟩ ⟨R + 1, T'⟩ p a b 1 t d)).1 (.stale p 0 .ok true)).2 := by
  rw [runS_fst]
  obtain ⟨h1, e1⟩ := fin_reuse ⟨R', T⟩ ⟨R + 1, T'⟩ p a b 1 t d h
  rw [e1, (stale_sends ⟨R + 1, T'⟩ p b d 0 0 R h1).2]
  simp

/-! ## Concrete cases -/

/-- Two alarms in the first connection leave one timer; in the second connection it expires after its alarm was acknowledged. -/
def demoOld : List (SOp Nat) := (.connect ⟨3, 100⟩ :: rounds true 7 2) ++ [.close, .op (.tick 60)]

/-- The second connection. -/
def demoNew : List (SOp Nat) :=
  [.op (.poll true 8 .ok true), .op (.recv true ⟨.data, true, 0xffff, 0xffff, .alarmAck 0⟩ .ok), .op (.tick 40), .stale true 0 .ok true,
   .op (.poll true 9 .ok true)]

/-- The hypotheses of `C158_fresh_partial` and `C158_until` hold for it, the old timer does expire, and both alarms are sent. -/
example : (runS Slot.init demoOld).1.free = true ∧
    (runS Slot.init (demoOld ++ [.connect ⟨3, 200⟩])).1.stale true = [40] ∧
    oldHist (runS (runS Slot.init (demoOld ++ [.connect ⟨3, 200⟩])).1 demoNew).2 = [[(true, .fired)]] ∧
    (ownHist (runS (runS Slot.init (demoOld ++ [.connect ⟨3, 200⟩])).1 demoNew).2).length = 4 := by decide +kernel

theorem demo_apart : Apart (runS Slot.init (demoOld ++ [.connect ⟨3, 200⟩])).1 demoNew := by
  rintro pre p i tx sched ⟨r, h⟩
  simp only [demoNew] at h
  match pre, h with
  | [], h => simp at h
  | [_], h => simp at h
  | [_, _], h => simp at h
  | [o1, o2, o3], h =>
    simp only [List.cons_append, List.nil_append, List.cons.injEq, SOp.stale.injEq] at h
    obtain ⟨rfl, rfl, rfl, ⟨rfl, _⟩, _⟩ := h
    decide +kernel
  | [_, _, _, _], h => simp at h
  | _ :: _ :: _ :: _ :: _ :: l, h => simp at h

end Verif.Alarm
