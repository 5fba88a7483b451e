import Verif.Cpm.Lemmas
/-!
# C07–C10 Reception of cyclic data

Each claim is about an arbitrary history of frames, supervision ticks, reads and close after a
successful activation, followed by one more call. Histories are lists of (call, result), newest
first. `WellFormed`, `Valid`, `Ahead`, `Frame.field` (in `Spec.lean`) speak about bytes of the frame.
-/
set_option linter.unusedSimpArgs false
set_option linter.unusedVariables false
namespace Verif.Cpm

abbrev Hist := List (Op × Out)

/-- The frame most recently reported as delivered. -/
def lastDelivered : Hist → Option Frame
  | [] => none
  | (.frame f, o) :: h => if .newData ∈ o.evs then some f else lastDelivered h
  | _ :: h => lastDelivered h

/-- Its cycle counter (65535 if there is none: the code's "-1"). -/
def lastCnt (h : Hist) : Nat := ((lastDelivered h).map Frame.counter).getD 65535

/-- The connection has been reported as lost, or was closed. -/
def Ended (h : Hist) : Prop := ∃ x ∈ h, .stop ∈ x.2.evs ∨ x.1 = .close

/-- Number of supervision ticks since the last delivered frame. -/
def ticksSince : Hist → Nat
  | [] => 0
  | (.frame _, o) :: h => if .newData ∈ o.evs then 0 else ticksSince h
  | (.tick _, _) :: h => ticksSince h + 1
  | _ :: h => ticksSince h

/-- Has a frame been delivered since the last successful read of data or consumer status? -/
def deliveredSinceAnyRead : Hist → Bool
  | [] => false
  | (.frame _, o) :: h => if .newData ∈ o.evs then true else deliveredSinceAnyRead h
  | (.getData _ _ _, ⟨_, .data _ _ _⟩) :: _ => false
  | (.getIocs _ _, ⟨_, .iocs _⟩) :: _ => false
  | _ :: h => deliveredSinceAnyRead h

/-- Has a frame been delivered since the last successful read of data? -/
def deliveredSinceDataRead : Hist → Bool
  | [] => false
  | (.frame _, o) :: h => if .newData ∈ o.evs then true else deliveredSinceDataRead h
  | (.getData _ _ _, ⟨_, .data _ _ _⟩) :: _ => false
  | _ :: h => deliveredSinceDataRead h

/-- The timer service accepted every restart of the supervision timer. -/
def TimerOk (ops : List Op) : Prop := ∀ op ∈ ops, op ≠ .tick false

/-- The abstract state is determined by the history. -/
structure VH (v : View) (h : Hist) : Prop where
  last : v.last = lastDelivered h
  unread : v.unread = deliveredSinceAnyRead h
  down : v.phase = .down ↔ Ended h
  running : v.phase = .running → (lastDelivered h).isSome = true
  waiting : v.phase = .waiting → lastDelivered h = none

theorem ended_cons {x : Op × Out} {h : Hist} : Ended (x :: h) ↔ (.stop ∈ x.2.evs ∨ x.1 = .close) ∨ Ended h := by
  simp [Ended]

theorem vh_step {cfg v h} (hv : VH v h) (op : Op) :
    VH (specStep cfg v op).1 ((op, (specStep cfg v op).2) :: h) := by
  cases op with
  | frame f =>
    by_cases hd : v.phase ≠ .down ∧ Deliverable cfg v.lastCounter f
    · simp only [specStep]; rw [if_pos hd]
      have hm : Ev.newData ∈ (if v.phase = .waiting then [Ev.start] else []) ++ [Ev.newData] ++
          (if f.status ≠ v.lastStatus then [Ev.statusChanged (v.lastStatus ^^^ f.status) f.status] else []) := by
        simp
      have hns : Ev.stop ∉ (if v.phase = .waiting then [Ev.start] else []) ++ [Ev.newData] ++
          (if f.status ≠ v.lastStatus then [Ev.statusChanged (v.lastStatus ^^^ f.status) f.status] else []) := by
        split <;> split <;> simp
      have hne : ¬ Ended h := fun hh => hd.1 (hv.down.2 hh)
      refine ⟨?_, ?_, ?_, ?_, ?_⟩
      · simp only [lastDelivered]; rw [if_pos hm]
      · simp only [deliveredSinceAnyRead]; rw [if_pos hm]
      · rw [ended_cons]
        simp only [reduceCtorEq, false_iff, or_false]
        rintro (hh | hh)
        · exact hns hh
        · exact hne hh
      · intro _; simp only [lastDelivered]; rw [if_pos hm]; rfl
      · intro hh; cases hh
    · simp only [specStep]; rw [if_neg hd]
      exact ⟨by simpa [lastDelivered] using hv.last, by simpa [deliveredSinceAnyRead] using hv.unread,
        by rw [ended_cons]; simpa using hv.down, by simpa [lastDelivered] using hv.running,
        by simpa [lastDelivered] using hv.waiting⟩
  | tick ok =>
    by_cases ht : v.timer = false
    · simp only [specStep, ht, if_true]
      exact ⟨by simpa [lastDelivered] using hv.last, by simpa [deliveredSinceAnyRead] using hv.unread,
        by rw [ended_cons]; simpa using hv.down, by simpa [lastDelivered] using hv.running,
        by simpa [lastDelivered] using hv.waiting⟩
    · have ht' : v.timer = true := by simpa using ht
      cases hp : v.phase with
      | down =>
        have hE := hv.down.1 hp
        simp only [specStep, ht', hp, Bool.true_eq_false, if_false]
        exact ⟨by simpa [lastDelivered] using hv.last, by simpa [deliveredSinceAnyRead] using hv.unread,
          by rw [ended_cons]; simp [hE, hp], by simp [hp], by simp [hp]⟩
      | waiting =>
        have hE : ¬ Ended h := fun hh => by have := hv.down.2 hh; rw [hp] at this; cases this
        simp only [specStep, ht', hp, Bool.true_eq_false, if_false]
        exact ⟨by simpa [lastDelivered] using hv.last, by simpa [deliveredSinceAnyRead] using hv.unread,
          by rw [ended_cons]; cases ok <;> simp [hE, hp], by simp [hp],
          by intro _; simpa [lastDelivered] using hv.waiting hp⟩
      | running =>
        have hE : ¬ Ended h := fun hh => by have := hv.down.2 hh; rw [hp] at this; cases this
        by_cases hm : v.missed = cfg.dataHoldFactor
        · simp only [specStep, ht', hp, hm, Bool.true_eq_false, if_false, if_true]
          exact ⟨by simpa [lastDelivered] using hv.last, by simpa [deliveredSinceAnyRead] using hv.unread,
            by rw [ended_cons]; simp, by simp, by simp⟩
        · simp only [specStep, ht', hp, hm, Bool.true_eq_false, if_false]
          exact ⟨by simpa [lastDelivered] using hv.last, by simpa [deliveredSinceAnyRead] using hv.unread,
            by rw [ended_cons]; cases ok <;> simp [hE, hp],
            by intro _; simpa [lastDelivered] using hv.running hp, by simp [hp]⟩
  | getData d dl il =>
    simp only [specStep]
    split
    · exact ⟨by simpa [lastDelivered] using hv.last, by simpa [deliveredSinceAnyRead] using hv.unread,
        by rw [ended_cons]; simpa using hv.down, by simpa [lastDelivered] using hv.running,
        by simpa [lastDelivered] using hv.waiting⟩
    · split
      · exact ⟨by simpa [lastDelivered] using hv.last, by simpa [deliveredSinceAnyRead] using hv.unread,
          by rw [ended_cons]; simpa using hv.down, by simpa [lastDelivered] using hv.running,
          by simpa [lastDelivered] using hv.waiting⟩
      · exact ⟨by simpa [lastDelivered] using hv.last, by simp [deliveredSinceAnyRead],
          by rw [ended_cons]; simpa using hv.down, by simpa [lastDelivered] using hv.running,
          by simpa [lastDelivered] using hv.waiting⟩
  | getIocs d il =>
    simp only [specStep]
    split
    · exact ⟨by simpa [lastDelivered] using hv.last, by simpa [deliveredSinceAnyRead] using hv.unread,
        by rw [ended_cons]; simpa using hv.down, by simpa [lastDelivered] using hv.running,
        by simpa [lastDelivered] using hv.waiting⟩
    · split
      · exact ⟨by simpa [lastDelivered] using hv.last, by simpa [deliveredSinceAnyRead] using hv.unread,
          by rw [ended_cons]; simpa using hv.down, by simpa [lastDelivered] using hv.running,
          by simpa [lastDelivered] using hv.waiting⟩
      · exact ⟨by simpa [lastDelivered] using hv.last, by simp [deliveredSinceAnyRead],
          by rw [ended_cons]; simpa using hv.down, by simpa [lastDelivered] using hv.running,
          by simpa [lastDelivered] using hv.waiting⟩
  | close =>
    simp only [specStep]
    exact ⟨by simpa [lastDelivered] using hv.last, by simpa [deliveredSinceAnyRead] using hv.unread,
        by rw [ended_cons]; simp, by simp, by simp⟩

/-- With a reliable timer service the missed count is also determined. -/
structure VT (v : View) (h : Hist) : Prop where
  missed : v.phase = .running → v.missed = ticksSince h
  timer : v.phase ≠ .down → v.timer = true
  noTimer : v.phase = .down → v.timer = false

theorem vt_step {cfg v h} (hv : VH v h) (ht : VT v h) (op : Op) (hop : op ≠ .tick false) :
    VT (specStep cfg v op).1 ((op, (specStep cfg v op).2) :: h) := by
  cases op with
  | frame f =>
    by_cases hd : v.phase ≠ .down ∧ Deliverable cfg v.lastCounter f
    · simp only [specStep]; rw [if_pos hd]
      exact ⟨by intro _; simp [ticksSince], fun _ => ht.timer hd.1, fun hh => by cases hh⟩
    · simp only [specStep]; rw [if_neg hd]
      exact ⟨by simpa [ticksSince] using ht.missed, ht.timer, ht.noTimer⟩
  | tick ok =>
    have hok : ok = true := by cases ok <;> simp_all
    subst hok
    cases hp : v.phase with
    | down =>
      have := ht.noTimer hp
      simp only [specStep, this, if_true]
      exact ⟨by simp [hp], by simp [hp], fun _ => this⟩
    | waiting =>
      have := ht.timer (by simp [hp])
      simp only [specStep, this, hp, Bool.true_eq_false, if_false]
      exact ⟨by simp [hp], fun _ => rfl, by simp [hp]⟩
    | running =>
      have := ht.timer (by simp [hp])
      by_cases hm : v.missed = cfg.dataHoldFactor
      · simp only [specStep, this, hp, hm, Bool.true_eq_false, if_false, if_true]
        exact ⟨by simp, by simp, fun _ => rfl⟩
      · simp only [specStep, this, hp, hm, Bool.true_eq_false, if_false]
        exact ⟨by intro _; simp [ticksSince, ht.missed hp], fun _ => rfl, by simp [hp]⟩
  | getData d dl il =>
    simp only [specStep]
    split
    · exact ⟨by simpa [ticksSince] using ht.missed, ht.timer, ht.noTimer⟩
    · split <;> exact ⟨by simpa [ticksSince] using ht.missed, ht.timer, ht.noTimer⟩
  | getIocs d il =>
    simp only [specStep]
    split
    · exact ⟨by simpa [ticksSince] using ht.missed, ht.timer, ht.noTimer⟩
    · split <;> exact ⟨by simpa [ticksSince] using ht.missed, ht.timer, ht.noTimer⟩
  | close =>
    simp only [specStep]
    exact ⟨by simp, by simp, fun _ => rfl⟩

/-- History of a run, newest first. -/
def hist (ops : List Op) (outs : List Out) : Hist := (ops.zip outs).reverse

theorem reach {cfg} (hcfg : CfgOk cfg) (ops : List Op) : ∀ {c v h}, R cfg c v → VInv v → VH v h →
    (∀ op ∈ ops, EnvOk cfg op) →
    ∃ c' outs v', run c ops = some (c', outs) ∧ R cfg c' v' ∧ VInv v' ∧
      VH v' ((ops.zip outs).reverse ++ h) ∧
      (VT v h → TimerOk ops → VT v' ((ops.zip outs).reverse ++ h)) := by
  induction ops with
  | nil => intro c v h hr hi hv _; exact ⟨c, [], v, rfl, hr, hi, hv, fun ht _ => ht⟩
  | cons op ops ih =>
    intro c v h hr hi hv he
    obtain ⟨c1, e1, h1, hi1⟩ := step_sim hcfg hr hi (he op (by simp))
    obtain ⟨c2, outs, v2, e2, h2, hi2, hv2, ht2⟩ := ih h1 hi1 (vh_step (cfg := cfg) hv op) (fun o ho => he o (by simp [ho]))
    refine ⟨c2, (specStep cfg v op).2 :: outs, v2, by simp [run, e1, e2], h2, hi2, by simpa using hv2, ?_⟩
    intro ht hto
    have := ht2 (vt_step hv ht op (hto op (by simp))) (fun o ho => hto o (by simp [ho]))
    simpa using this

/-- Everything the claims below need: any history from activation leads to a state which the
abstract state describes. -/
theorem reach_init {cfg} (hcfg : CfgOk cfg) (ops : List Op) (he : ∀ op ∈ ops, EnvOk cfg op) :
    ∃ c outs v, run (start cfg) ops = some (c, outs) ∧ R cfg c v ∧ VInv v ∧ VH v (hist ops outs) ∧
      (TimerOk ops → VT v (hist ops outs)) := by
  obtain ⟨c, outs, v, e, hr, hi, hv, ht⟩ := reach hcfg ops (R_init cfg) (v := View.init) (h := [])
    (by simp [VInv, View.init])
    ⟨rfl, rfl, by simp [View.init, Ended], by simp [View.init], by simp [lastDelivered]⟩ he
  simp only [List.append_nil] at hv ht
  exact ⟨c, outs, v, e, hr, hi, hv, ht ⟨by simp [View.init], by simp [View.init], by simp [View.init]⟩⟩

theorem lastCounter_eq {v h} (hv : VH v h) : v.lastCounter = lastCnt h := by
  simp [View.lastCounter, lastCnt, hv.last]

/-- **C07.** After every history, an incoming frame is delivered if and only if the connection has
not ended, the frame is well-formed and valid, and its counter is ahead of the previously delivered
one by 1 to 61440 modulo 65536. -/
theorem C07_delivered_iff_ahead (cfg : Cfg) (hcfg : CfgOk cfg) (ops : List Op)
    (he : ∀ op ∈ ops, EnvOk cfg op) (f : Frame) (hf : ValidRx f) :
    ∃ c outs c' o, run (start cfg) ops = some (c, outs) ∧ step c (.frame f) = some (c', o) ∧
      (.newData ∈ o.evs ↔ ¬ Ended (hist ops outs) ∧ WellFormed cfg f ∧ Valid f ∧
        Ahead (lastCnt (hist ops outs)) f.counter) := by
  obtain ⟨c, outs, v, e, hr, hi, hv, _⟩ := reach_init hcfg ops he
  obtain ⟨c', e', _, _⟩ := step_sim (op := .frame f) hcfg hr hi hf
  refine ⟨c, outs, c', _, e, e', ?_⟩
  rw [← hv.down, ← lastCounter_eq hv]
  simp only [specStep]
  by_cases hd : v.phase ≠ .down ∧ Deliverable cfg v.lastCounter f
  · rw [if_pos hd]
    simp only [List.mem_append, List.mem_singleton, true_or, or_true, true_iff]
    exact ⟨hd.1, hd.2⟩
  · rw [if_neg hd]
    simp only [List.not_mem_nil, false_iff]
    exact fun hh => hd ⟨hh.1, hh.2⟩

/-- **C07**, in particular: a repeated frame, or one up to 4095 counts behind the last delivered
one, has no effect at all. -/
theorem C07_outdated_ignored (cfg : Cfg) (hcfg : CfgOk cfg) (ops : List Op)
    (he : ∀ op ∈ ops, EnvOk cfg op) (f : Frame) (hf : ValidRx f) :
    ∃ c outs, run (start cfg) ops = some (c, outs) ∧
      ∀ k ≤ 4095, (f.counter + k) % 65536 = lastCnt (hist ops outs) →
        step c (.frame f) = some (c, ⟨[], .unit⟩) := by
  obtain ⟨c, outs, v, e, hr, hi, hv, _⟩ := reach_init hcfg ops he
  refine ⟨c, outs, e, fun k hk heq => ?_⟩
  rw [← lastCounter_eq hv] at heq
  have hn : ¬ (v.phase ≠ .down ∧ Deliverable cfg v.lastCounter f) := by
    rintro ⟨_, _, _, j, h1, h2, h3⟩
    have : f.counter < 65536 := be16_lt _ _
    omega
  simp [step, cDataInd_ignore hcfg hr hf hn]

/-- **C10.** After every history, a frame of wrong length, from a wrong source, with non-zero
transfer status, with an outdated counter, or invalid, changes nothing: not the stored data, not the
watchdog, not the connection state; and nothing is reported. -/
theorem C10_bad_frame_ignored (cfg : Cfg) (hcfg : CfgOk cfg) (ops : List Op)
    (he : ∀ op ∈ ops, EnvOk cfg op) (f : Frame) (hf : ValidRx f) :
    ∃ c outs, run (start cfg) ops = some (c, outs) ∧
      ((¬ WellFormed cfg f ∨ ¬ Valid f ∨ ¬ Ahead (lastCnt (hist ops outs)) f.counter) →
        step c (.frame f) = some (c, ⟨[], .unit⟩)) := by
  obtain ⟨c, outs, v, e, hr, hi, hv, _⟩ := reach_init hcfg ops he
  refine ⟨c, outs, e, fun hbad => ?_⟩
  rw [← lastCounter_eq hv] at hbad
  have hn : ¬ (v.phase ≠ .down ∧ Deliverable cfg v.lastCounter f) := by
    rintro ⟨_, h1, h2, h3⟩
    rcases hbad with hh | hh | hh
    · exact hh h1
    · exact hh h2
    · exact hh h3
  simp [step, cDataInd_ignore hcfg hr hf hn]

/-- **C08.** After every history in which the timer service accepted the supervision timer, a
supervision tick reports the connection as lost if and only if a frame has been delivered, the
connection has not ended, and exactly `DataHoldFactor` ticks (so that many complete intervals) have
passed since the last delivered frame. -/
theorem C08_watchdog_iff (cfg : Cfg) (hcfg : CfgOk cfg) (ops : List Op)
    (he : ∀ op ∈ ops, EnvOk cfg op) (ht : TimerOk ops) (ok : Bool) :
    ∃ c outs c' o, run (start cfg) ops = some (c, outs) ∧ step c (.tick ok) = some (c', o) ∧
      (.stop ∈ o.evs ↔ ¬ Ended (hist ops outs) ∧ (lastDelivered (hist ops outs)).isSome ∧
        ticksSince (hist ops outs) = cfg.dataHoldFactor) := by
  obtain ⟨c, outs, v, e, hr, hi, hv, hvt⟩ := reach_init hcfg ops he
  have hvt := hvt ht
  obtain ⟨c', e', _, _⟩ := step_sim (op := .tick ok) hcfg hr hi trivial
  refine ⟨c, outs, c', _, e, e', ?_⟩
  rw [← hv.down]
  cases hp : v.phase with
  | down =>
    simp [specStep, hvt.noTimer hp]
  | waiting =>
    have h1 := hvt.timer (by simp [hp])
    have h2 := hv.waiting hp
    cases ok <;> simp [specStep, h1, hp, h2]
  | running =>
    have h1 := hvt.timer (by simp [hp])
    have h2 := hv.running hp
    have h3 := hvt.missed hp
    by_cases hm : v.missed = cfg.dataHoldFactor
    · simp [specStep, h1, hp, hm, h2, ← h3]
    · cases ok <;> simp [specStep, h1, hp, hm, h2, ← h3]

/-- **C08**, the loss never goes unnoticed: after every history with an accepted timer the
watchdog count never exceeds the data hold factor while the connection is up. -/
theorem C08_never_overdue (cfg : Cfg) (hcfg : CfgOk cfg) (ops : List Op)
    (he : ∀ op ∈ ops, EnvOk cfg op) (ht : TimerOk ops) :
    ∃ c outs, run (start cfg) ops = some (c, outs) ∧
      (¬ Ended (hist ops outs) → (lastDelivered (hist ops outs)).isSome →
        ticksSince (hist ops outs) ≤ cfg.dataHoldFactor) := by
  obtain ⟨c, outs, v, e, hr, hi, hv, hvt⟩ := reach_init hcfg ops he
  refine ⟨c, outs, e, fun h1 h2 => ?_⟩
  have hrun : v.phase = .running := by
    cases hp : v.phase with
    | down => exact absurd (hv.down.1 hp) h1
    | waiting => rw [hv.waiting hp] at h2; cases h2
    | running => rfl
  rw [← (hvt ht).missed hrun]
  exact (hr.dht hrun).2

/-- **C08**, at most once: after the connection has ended nothing is reported any more and no frame
is delivered. -/
theorem C08_reported_once (cfg : Cfg) (hcfg : CfgOk cfg) (ops : List Op)
    (he : ∀ op ∈ ops, EnvOk cfg op) (op : Op) (hop : EnvOk cfg op) :
    ∃ c outs c' o, run (start cfg) ops = some (c, outs) ∧ step c op = some (c', o) ∧
      (Ended (hist ops outs) → o.evs = []) := by
  obtain ⟨c, outs, v, e, hr, hi, hv, _⟩ := reach_init hcfg ops he
  obtain ⟨c', e', _, _⟩ := step_sim (op := op) hcfg hr hi hop
  refine ⟨c, outs, c', _, e, e', fun hE => ?_⟩
  have hp := hv.down.2 hE
  cases op with
  | frame f => simp [specStep, hp]
  | tick ok => simp [specStep, hp, hr.down hp]
  | getData d dl il => simp [specStep, hp]
  | getIocs d il => simp [specStep, hp]
  | close => simp [specStep]

/-- **C09, data.** After every history, a read of a submodule's output data returns the bytes of
that submodule in the last delivered frame; it fails if and only if the connection has ended, the
caller's buffers are too small, or no frame has been delivered. -/
theorem C09_reads_last_delivered (cfg : Cfg) (hcfg : CfgOk cfg) (ops : List Op)
    (he : ∀ op ∈ ops, EnvOk cfg op) (d : Desc) (dl il : Nat) (hd : EnvOk cfg (.getData d dl il)) :
    ∃ c outs c' o, run (start cfg) ops = some (c, outs) ∧ step c (.getData d dl il) = some (c', o) ∧
      (o.res = .err ↔ Ended (hist ops outs) ∨ dl < d.dataLen ∨ il < d.iopsLen ∨
        lastDelivered (hist ops outs) = none) ∧
      (o.res ≠ .err → ∃ f, lastDelivered (hist ops outs) = some f ∧
        o.res = .data (deliveredSinceAnyRead (hist ops outs))
          (f.field d.dataOff d.dataLen) (f.field d.iopsOff d.iopsLen)) := by
  obtain ⟨c, outs, v, e, hr, hi, hv, _⟩ := reach_init hcfg ops he
  obtain ⟨c', e', _, _⟩ := step_sim (op := .getData d dl il) hcfg hr hi hd
  refine ⟨c, outs, c', _, e, e', ?_⟩
  rw [← hv.down, ← hv.last, ← hv.unread]
  simp only [specStep]
  by_cases h1 : v.phase = .down ∨ dl < d.dataLen ∨ il < d.iopsLen
  · rw [if_pos h1]
    simp only [true_iff, ne_eq, not_true_eq_false, false_implies, and_true]
    rcases h1 with h | h | h <;> simp [h]
  · rw [if_neg h1]
    cases hl : v.last with
    | none => simp
    | some f =>
      simp only [reduceCtorEq, or_false, false_iff, ne_eq, not_false_eq_true, forall_const, Option.some.injEq,
        exists_eq_left', and_true]
      exact h1

theorem since_eq (h : Hist) (hn : ∀ x ∈ h, ∀ d il, x.1 ≠ .getIocs d il) :
    deliveredSinceAnyRead h = deliveredSinceDataRead h := by
  induction h with
  | nil => rfl
  | cons x h ih =>
    have ih := ih (fun y hy => hn y (by simp [hy]))
    obtain ⟨op, o⟩ := x
    cases op with
    | frame f => simp [deliveredSinceAnyRead, deliveredSinceDataRead, ih]
    | tick ok => simpa [deliveredSinceAnyRead, deliveredSinceDataRead] using ih
    | getData d dl il =>
      obtain ⟨evs, res⟩ := o
      cases res <;> simp [deliveredSinceAnyRead, deliveredSinceDataRead, ih]
    | getIocs d il => exact absurd rfl (hn (.getIocs d il, o) (List.mem_cons_self ..) d il)
    | close => simpa [deliveredSinceAnyRead, deliveredSinceDataRead] using ih

/-- **C09, new flag (partial).** The full claim is: the flag tells whether a frame was delivered
since the previous *data* read. It is proved for histories without reads of the consumer status;
with such reads it is false, see `C09_new_flag_lost`. -/
theorem C09_new_flag_partial (cfg : Cfg) (hcfg : CfgOk cfg) (ops : List Op)
    (he : ∀ op ∈ ops, EnvOk cfg op) (hn : ∀ op ∈ ops, ∀ d il, op ≠ .getIocs d il)
    (d : Desc) (dl il : Nat) (hd : EnvOk cfg (.getData d dl il)) :
    ∃ c outs c' o, run (start cfg) ops = some (c, outs) ∧ step c (.getData d dl il) = some (c', o) ∧
      ∀ new data iops, o.res = .data new data iops → new = deliveredSinceDataRead (hist ops outs) := by
  obtain ⟨c, outs, c', o, e, e', h1, h2⟩ := C09_reads_last_delivered cfg hcfg ops he d dl il hd
  refine ⟨c, outs, c', o, e, e', fun new data iops hres => ?_⟩
  obtain ⟨f, _, hf⟩ := h2 (by rw [hres]; simp)
  rw [hres] at hf
  injection hf with h3 _ _
  rw [h3]
  apply since_eq
  intro x hx
  unfold hist at hx
  rw [List.mem_reverse] at hx
  obtain ⟨a, b⟩ := x
  exact hn a (List.of_mem_zip hx).1

/-! ### Concrete instance, and the counterexample -/

def exCfg : Cfg := ⟨[1, 2, 3, 4, 5, 6], 3, 2⟩
/-- Destination, source, Ethertype, frame id, two bytes of data, counter, status, transfer status. -/
def exFrame (cnt : Byte) (x : Byte) : Frame :=
  ⟨[9, 9, 9, 9, 9, 9, 1, 2, 3, 4, 5, 6, 0x88, 0x92, 0x80, 0, x, 0x80, 0, cnt, 0x35, 0], 14⟩
def exDesc : Desc := ⟨0, 1, 1, 1, 1, 1⟩

/-- A run: frame, read, duplicate, foreign length, silence until the watchdog fires. -/
example : (run (start exCfg) [.frame (exFrame 8 0xAA), .getData exDesc 1 1, .frame (exFrame 8 0xBB),
    .getData exDesc 1 1, .tick true, .tick true, .frame (exFrame 16 0xCC), .tick true, .tick true, .tick true,
    .getData exDesc 1 1, .tick true, .frame (exFrame 24 0xDD)]).map (·.2) =
  some [⟨[.start, .newData, .statusChanged 0x35 0x35], .unit⟩, ⟨[], .data true [0xAA] [0x80]⟩, ⟨[], .unit⟩,
    ⟨[], .data false [0xAA] [0x80]⟩, ⟨[], .unit⟩, ⟨[], .unit⟩, ⟨[.newData], .unit⟩, ⟨[], .unit⟩, ⟨[], .unit⟩,
    ⟨[], .unit⟩, ⟨[], .data true [0xCC] [0x80]⟩, ⟨[.stop], .unit⟩, ⟨[], .unit⟩] := by decide +kernel

/-- Its frames meet the hypotheses. -/
example : CfgOk exCfg ∧ ValidRx (exFrame 8 0xAA) ∧ WellFormed exCfg (exFrame 8 0xAA) ∧ Valid (exFrame 8 0xAA) ∧
    Ahead 65535 (exFrame 8 0xAA).counter ∧ EnvOk exCfg (.getData exDesc 1 1) := by
  refine ⟨by unfold CfgOk; decide, by unfold ValidRx; decide, by unfold WellFormed; decide, by unfold Valid; decide,
    ⟨9, by decide⟩, by unfold EnvOk; decide⟩

/-- **The full C09 is false**: reading a consumer status between a frame and the data read makes the
data read report "not new" although no data read has returned that frame. -/
theorem C09_new_flag_lost : ∃ ops : List Op, (∀ op ∈ ops, EnvOk exCfg op) ∧
    ∃ c outs, run (start exCfg) ops = some (c, outs) ∧ deliveredSinceDataRead (hist ops outs) = true ∧
      ∃ c', step c (.getData exDesc 1 1) = some (c', ⟨[], .data false [0xAA] [0x80]⟩) := by
  refine ⟨[.frame (exFrame 8 0xAA), .getIocs exDesc 1], ?_, ?_⟩
  · intro op hop
    simp only [List.mem_cons, List.not_mem_nil, or_false] at hop
    rcases hop with rfl | rfl
    · show ValidRx _; unfold ValidRx; decide
    · unfold EnvOk; decide
  · have h : ∃ r, run (start exCfg) [.frame (exFrame 8 0xAA), .getIocs exDesc 1] = some r ∧
        deliveredSinceDataRead (hist [.frame (exFrame 8 0xAA), .getIocs exDesc 1] r.2) = true ∧
        (step r.1 (.getData exDesc 1 1)).map (·.2) = some ⟨[], .data false [0xAA] [0x80]⟩ := by
      refine ⟨_, rfl, by decide +kernel, by decide +kernel⟩
    obtain ⟨⟨c, outs⟩, h1, h2, h3⟩ := h
    refine ⟨c, outs, h1, h2, ?_⟩
    cases hs : step c (.getData exDesc 1 1) with
    | none => rw [hs] at h3; cases h3
    | some r =>
      rw [hs] at h3
      simp at h3
      exact ⟨r.1, congrArg some (Prod.ext rfl h3)⟩

/-- A further consequence of the initial counter value "-1": a first frame whose counter is in
61440..65535 is not accepted although no frame has been accepted before. -/
theorem C07_first_frame_refused : ∃ f, ValidRx f ∧ WellFormed exCfg f ∧ Valid f ∧
    step (start exCfg) (.frame f) = some (start exCfg, ⟨[], .unit⟩) := by
  refine ⟨⟨[9, 9, 9, 9, 9, 9, 1, 2, 3, 4, 5, 6, 0x88, 0x92, 0x80, 0, 7, 0x80, 0xF0, 0, 0x35, 0], 14⟩,
    by unfold ValidRx; decide, by unfold WellFormed; decide, by unfold Valid; decide, by decide +kernel⟩

end Verif.Cpm
