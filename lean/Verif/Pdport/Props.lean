import Verif.Pdport.Records
/-! LLDP sending (C84), and the settings of the ports over restarts (C85). -/
set_option linter.unusedSimpArgs false
set_option linter.unusedVariables false

namespace Verif.Pdport

open Verif.Wire

/-! ## C84: sending -/

/-- The adjustment of the port says that LLDP frames are not to be sent. -/
def Port.quiet (p : Port) : Bool := match p.adjust with | some b => b.noLldp | none => false

/-- The port sends frames. -/
def Port.sending (p : Port) : Bool := p.txAt.isSome

def Follows (p : Port) : Prop := p.sending = !p.quiet

theorem follows_sendAs {e : Env} (ha : e.armed = true) {p : Port} {b : Boundary} (h : p.adjust = some b) : Follows (sendAs e b p) := by
  unfold sendAs Follows Port.sending Port.quiet
  cases hb : b.noLldp with
  | true => simp [sendDisable, h, hb]
  | false => simp [sendEnable, h, hb, ha]

theorem follows_restartTx {e : Env} (ha : e.armed = true) (p : Port) : Follows (restartTx e p) := by
  unfold restartTx
  cases h : p.adjust with
  | some b => exact follows_sendAs ha h
  | none => simp [Follows, Port.sending, Port.quiet, sendEnable, h, ha]

theorem follows_same {p p' : Port} (h : Follows p) (h1 : p'.txAt = p.txAt) (h2 : p'.adjust = p.adjust) : Follows p' := by
  unfold Follows Port.sending Port.quiet at *
  rw [h1, h2]; exact h

theorem follows_tickTx {e : Env} (ha : e.armed = true) {p : Port} (h : Follows p) : Follows (tickTx e p) := by
  unfold tickTx
  split
  · rename_i t ht
    split
    · have : p.quiet = false := by
        unfold Follows Port.sending at h
        rw [ht] at h
        simpa using h.symm
      unfold Follows Port.sending
      have hq : (sendEnable e p).quiet = p.quiet := rfl
      rw [hq, this]
      simp [sendEnable, ha]
    · exact h
  · exact h

theorem periodic_same {e : Env} {p p' : Port} (h : periodic e p = some p') : p'.txAt = p.txAt ∧ p'.adjust = p.adjust ∧ p'.sent = p.sent ∧
    p'.check = p.check := by
  unfold periodic at h
  split at h
  · have := (runCheck_same h).1
    exact ⟨this.txAt, this.adjust, this.sent, this.check⟩
  · cases h; exact ⟨rfl, rfl, rfl, rfl⟩

/-- What a written record does to the settings and to sending. -/
theorem written_cases {e : Env} {k : Index} {data : List Byte} {p p' : Port} (h : p.written e k data = some (some p')) :
    (∃ c, k = .check ∧ parseCheck data = some (some c) ∧ p'.check = some c ∧ p'.adjust = p.adjust ∧ p'.txAt = p.txAt ∧ p'.sent = p.sent) ∨
    (∃ b, k = .adjust ∧ parseAdjust data = some (some b) ∧ p' = sendAs e b { p with adjust := some b }) := by
  unfold Port.written at h
  cases k with
  | check =>
    simp only at h
    cases hc : parseCheck data with
    | none => rw [hc] at h; cases h
    | some c =>
      rw [hc, Option.bind_some] at h
      cases c with
      | none => cases h
      | some c =>
        simp only at h
        cases hr : runCheck e { p with check := some c } with
        | none => rw [hr] at h; cases h
        | some q =>
          rw [hr, Option.map_some] at h
          cases h
          have := (runCheck_same hr).1
          exact .inl ⟨c, rfl, rfl, this.check, this.adjust, this.txAt, this.sent⟩
  | adjust =>
    simp only at h
    cases hc : parseAdjust data with
    | none => rw [hc] at h; cases h
    | some c =>
      rw [hc, Option.map_some] at h
      cases c with
      | none => cases h
      | some c => cases h; exact .inr ⟨c, rfl, rfl, rfl⟩
  | intf => cases h
  | other => cases h

theorem written_refused {e : Env} {k : Index} {data : List Byte} {p : Port} (h : p.written e k data = some none) :
    (k = .check → parseCheck data = some none) ∧ (k = .adjust → parseAdjust data = some none) := by
  unfold Port.written at h
  cases k with
  | check =>
    refine ⟨fun _ => ?_, nofun⟩
    simp only at h
    cases hc : parseCheck data with
    | none => rw [hc] at h; cases h
    | some c =>
      rw [hc, Option.bind_some] at h
      cases c with
      | none => rfl
      | some c =>
        simp only at h
        cases hr : runCheck e { p with check := some c } with
        | none => rw [hr] at h; cases h
        | some q => rw [hr] at h; cases h
  | adjust =>
    refine ⟨nofun, fun _ => ?_⟩
    simp only at h
    cases hc : parseAdjust data with
    | none => rw [hc] at h; cases h
    | some c =>
      rw [hc, Option.map_some] at h
      cases c with
      | none => rfl
      | some c => cases h
  | intf => exact ⟨nofun, nofun⟩
  | other => exact ⟨nofun, nofun⟩

theorem follows_load {z : Nat} {e : Env} (ha : e.armed = true) (f : Option Saved) : Follows (load e z f) := by
  unfold load
  cases f with
  | none => simp [Follows, Port.sending, Port.quiet, sendEnable, ha]
  | some s => exact follows_restartTx ha _

/-- The settings of all ports are not cleared. -/
def NoClear (ev : Ev) : Prop := ev ≠ .connect ∧ ev ≠ .factoryReset

theorem follows_step {z n i : Nat} {x : Env × Ev} {o o' : One} (hx : x.1.armed = true ∧ NoClear x.2) (h : Follows o.port)
    (hs : One.Step z x.1 n i o x.2 o') : Follows o'.port := by
  obtain ⟨e, ev⟩ := x
  obtain ⟨ha, hc⟩ := hx
  cases hs with
  | frame hr => exact h
  | frameOther => exact h
  | link => exact h
  | linkOther => exact h
  | @periodic p hp =>
    obtain ⟨h1, h2, _⟩ := periodic_same hp
    exact follows_same (follows_tickTx ha (p := { o.port with net := Lldp.tickRx e.now o.port.net }) h) h1 h2
  | write _ hw =>
    rcases written_cases hw with ⟨c, _, _, _, k2, k3, _⟩ | ⟨b, _, _, rfl⟩
    · exact follows_same h k3 k2
    · exact follows_sendAs ha rfl
  | writeRefused => exact h
  | writeIntf => exact follows_restartTx ha _
  | writeOther => exact h
  | connect => exact absurd rfl hc.1
  | connected => exact follows_restartTx ha _
  | dcp => exact follows_restartTx ha _
  | factoryReset => exact absurd rfl hc.2
  | saveOff => exact h
  | save => exact h
  | restart => exact follows_load ha _

/-- C84, with what is missing: from a restart, an accepted connection or an answered DCP request on, whatever happens, every port
sends LLDP frames exactly if its adjustment does not forbid it.
Missing: connect requests that are refused, and factory resets, until one of the three happens again (see C84_fails_reset); timers
that cannot be started (see C84_fails_timer). -/
theorem C84_follows_partial (z : Nat) (d0 d : Dev) (e0 : Env) (ev0 : Ev) (es : List (Env × Ev)) (h0 : ev0 = .restart ∨ ev0 = .connected ∨ ev0 = .dcp)
    (hr : run z d0 ((e0, ev0) :: es) = some d) (ha0 : e0.armed = true) (hf : ∀ x ∈ es, x.1.armed = true ∧ NoClear x.2)
    (p : Port) (hp : p ∈ d.ports) : p.sending = !p.quiet := by
  obtain ⟨i, hi⟩ := List.getElem?_of_mem hp
  obtain ⟨h1, h2⟩ := run_one hr
  obtain ⟨o0, ho0⟩ := one_back h1 hi
  obtain ⟨o', ho', hrun⟩ := h2 i o0 ho0
  have : o'.port = p := by
    have := (port_of_one ho').1
    rw [hi] at this; cases this; rfl
  subst this
  cases hrun with
  | cons s1 s2 =>
    refine s2.induct (P := fun o => Follows o.port) (fun x o o' a b c => follows_step a b c) hf ?_
    rcases h0 with rfl | rfl | rfl
    · cases s1; exact follows_load ha0 _
    · cases s1; exact follows_restartTx ha0 _
    · cases s1; exact follows_restartTx ha0 _

/-- C84 (when): a port that sends does so in pnet_handle_periodic when the time has come, and not before; the next time is then
`Lldp.holdTime` 5 seconds later. -/
theorem C84_when (z : Nat) (e : Env) (ha : e.armed = true) (d d' : Dev) (hr : step z e d .periodic = some d') (i : Nat) (p : Port) (t : Nat)
    (hi : d.ports[i]? = some p) (ht : p.txAt = some t) :
    ∃ p', d'.ports[i]? = some p' ∧
      (t ≤ e.now → p'.sent = p.sent + 1 ∧ p'.txAt = some (e.now + Lldp.holdTime e.tick 5)) ∧
      (e.now < t → p'.sent = p.sent ∧ p'.txAt = some t) := by
  obtain ⟨_, h2⟩ := step_one hr
  obtain ⟨o', k1, k2⟩ := h2 i _ (one_of_port hi)
  cases k2 with
  | @periodic p' hp =>
    obtain ⟨h1, h2, h3, _⟩ := periodic_same hp
    refine ⟨p', (port_of_one k1).1, fun hle => ?_, fun hlt => ?_⟩
    · rw [h1, h3]
      simp only [tickTx, ht]
      rw [if_pos hle]
      simp only [sendEnable, ha, if_true, true_and]
      rfl
    · rw [h1, h3]
      simp only [tickTx, ht]
      rw [if_neg (by omega)]
      exact ⟨rfl, rfl⟩

/-- Nothing that makes port `i` start to send. -/
def NoStart (n i : Nat) : Ev → Prop
  | .write _ subslot k _ => (subslotPort n subslot = i + 1 → k ≠ .adjust) ∧ k ≠ .intf
  | .connected | .dcp | .restart => False
  | _ => True

theorem none_step {z n i : Nat} {x : Env × Ev} {o o' : One} (hx : NoStart n i x.2) (h : o.port.txAt = none)
    (hs : One.Step z x.1 n i o x.2 o') : o'.port.txAt = none ∧ o'.port.sent = o.port.sent := by
  obtain ⟨e, ev⟩ := x
  cases hs with
  | frame hr => exact ⟨h, rfl⟩
  | frameOther => exact ⟨h, rfl⟩
  | link => exact ⟨h, rfl⟩
  | linkOther => exact ⟨h, rfl⟩
  | periodic hp =>
    obtain ⟨h1, _, h3, _⟩ := periodic_same hp
    show (_ : Port).txAt = none ∧ (_ : Port).sent = _
    rw [h1, h3]
    simp only [tickTx, h, and_self]
  | write hi hw =>
    rcases written_cases hw with ⟨c, _, _, _, k2, k3, k4⟩ | ⟨b, rfl, _, _⟩
    · exact ⟨k3.trans h, k4⟩
    · exact absurd rfl (hx.1 hi)
  | writeRefused => exact ⟨h, rfl⟩
  | writeIntf => exact absurd rfl hx.2
  | writeOther => exact ⟨h, rfl⟩
  | connect => exact ⟨h, rfl⟩
  | connected => exact absurd hx id
  | dcp => exact absurd hx id
  | factoryReset => exact ⟨h, rfl⟩
  | saveOff => exact ⟨h, rfl⟩
  | save => exact ⟨h, rfl⟩
  | restart => exact absurd hx id

theorem none_run {z n i : Nat} {es : List (Env × Ev)} {o o' : One} (h : One.Run z n i o es o') :
    (∀ x ∈ es, NoStart n i x.2) → o.port.txAt = none → o'.port.txAt = none ∧ o'.port.sent = o.port.sent := by
  induction h with
  | nil => intro _ h; exact ⟨h, rfl⟩
  | cons h1 h2 ih =>
    intro hx h
    obtain ⟨a1, a2⟩ := none_step (hx _ (by simp)) h h1
    obtain ⟨b1, b2⟩ := ih (fun x hx' => hx x (by simp [hx'])) a1
    exact ⟨b1, b2.trans a2⟩

/-- No new adjustment for port `i`, and none is cleared. -/
def Keeps (n i : Nat) : Ev → Prop
  | .write _ subslot k _ => subslotPort n subslot = i + 1 → k ≠ .adjust
  | .connect | .factoryReset | .restart => False
  | _ => True

/-- C84 (silence): a port that is silent because its adjustment forbids LLDP frames sends none as long as the adjustment stays,
whatever else happens, also if connections are made, DCP requests are answered or the naming mode changes. -/
theorem C84_silent (z : Nat) (d d' : Dev) (es : List (Env × Ev)) (hr : run z d es = some d') (i : Nat) (p : Port) (b : Boundary)
    (hi : d.ports[i]? = some p) (hb : p.adjust = some b) (hq : b.noLldp = true) (ht : p.txAt = none)
    (hk : ∀ x ∈ es, Keeps d.ports.length i x.2) :
    ∃ p', d'.ports[i]? = some p' ∧ p'.sent = p.sent ∧ p'.txAt = none ∧ p'.adjust = some b := by
  obtain ⟨h1, h2⟩ := run_one hr
  obtain ⟨o', ho', hrun⟩ := h2 i _ (one_of_port hi)
  refine ⟨o'.port, (port_of_one ho').1, ?_⟩
  have key : ∀ e (q : Port), q.adjust = some b → restartTx e q = { q with txAt := none } := by
    intro e q hq'
    unfold restartTx
    rw [hq']
    simp [sendAs, hq, sendDisable, hq']
  refine hrun.induct (ok := fun x => Keeps d.ports.length i x.2) (P := fun o => o.port.sent = p.sent ∧ o.port.txAt = none ∧ o.port.adjust = some b)
    ?_ hk ⟨rfl, ht, hb⟩
  intro x o o' hx ⟨k1, k2, k3⟩ hs
  obtain ⟨e, ev⟩ := x
  cases hs with
  | frame hr => exact ⟨k1, k2, k3⟩
  | frameOther => exact ⟨k1, k2, k3⟩
  | link => exact ⟨k1, k2, k3⟩
  | linkOther => exact ⟨k1, k2, k3⟩
  | @periodic p' hp =>
    obtain ⟨h1, h2, h3, _⟩ := periodic_same hp
    show p'.sent = _ ∧ p'.txAt = _ ∧ p'.adjust = _
    rw [h1, h2, h3]
    simp only [tickTx, k2]
    exact ⟨k1, trivial, k3⟩
  | @write slot subslot k data p' hi' hw =>
    rcases written_cases hw with ⟨c, _, _, _, m2, m3, m4⟩ | ⟨b, rfl, _, _⟩
    · exact ⟨m4.trans k1, m3.trans k2, m2.trans k3⟩
    · exact absurd rfl (hx hi')
  | writeRefused => exact ⟨k1, k2, k3⟩
  | writeIntf => show (restartTx _ _).sent = _ ∧ _; rw [key _ _ k3]; exact ⟨k1, rfl, k3⟩
  | writeOther => exact ⟨k1, k2, k3⟩
  | connect => exact absurd hx id
  | connected => show (restartTx _ _).sent = _ ∧ _; rw [key _ _ k3]; exact ⟨k1, rfl, k3⟩
  | dcp => show (restartTx _ _).sent = _ ∧ _; rw [key _ _ k3]; exact ⟨k1, rfl, k3⟩
  | factoryReset => exact absurd hx id
  | saveOff => exact ⟨k1, k2, k3⟩
  | save => exact ⟨k1, k2, k3⟩
  | restart => exact absurd hx id

/-- C84 fails: a factory reset (and likewise a connect request, until it is accepted) removes the adjustment, but a port that was
silent stays silent, for any time, although nothing forbids it to send. -/
theorem C84_fails_reset (z : Nat) (e0 : Env) (d d' : Dev) (ev : Ev) (hev : ev = .factoryReset ∨ ev = .connect) (es : List (Env × Ev))
    (hr : run z d ((e0, ev) :: es) = some d')
    (i : Nat) (p : Port) (hi : d.ports[i]? = some p) (ht : p.txAt = none) (hk : ∀ x ∈ es, NoStart d.ports.length i x.2) :
    ∃ p', d'.ports[i]? = some p' ∧ p'.adjust = none ∧ p'.sending = false ∧ p'.sent = p.sent := by
  obtain ⟨h1, h2⟩ := run_one hr
  obtain ⟨o', ho', hrun⟩ := h2 i _ (one_of_port hi)
  refine ⟨o'.port, (port_of_one ho').1, ?_⟩
  have hstart : ∀ x ∈ (e0, ev) :: es, NoStart d.ports.length i x.2 := by
    intro x hx
    rcases List.mem_cons.1 hx with rfl | hx
    · rcases hev with rfl | rfl <;> trivial
    · exact hk x hx
  obtain ⟨n1, n2⟩ := none_run hrun hstart ht
  refine ⟨?_, by simp [Port.sending, n1], n2⟩
  cases hrun with
  | cons s1 s2 =>
    refine s2.induct (ok := fun x => NoStart d.ports.length i x.2) (P := fun o => o.port.adjust = none) ?_ hk ?_
    · intro x o o' hx h hs
      obtain ⟨e, ev⟩ := x
      cases hs with
      | frame hr => exact h
      | frameOther => exact h
      | link => exact h
      | linkOther => exact h
      | @periodic p' hp =>
        obtain ⟨h1, h2, h3, _⟩ := periodic_same hp
        show p'.adjust = none
        rw [h2]
        simp only [tickTx]
        split
        · split <;> exact h
        · exact h
      | @write slot subslot k data p' hi' hw =>
        rcases written_cases hw with ⟨c, _, _, _, m2, m3, m4⟩ | ⟨b, rfl, _, _⟩
        · exact m2.trans h
        · exact absurd rfl (hx.1 hi')
      | writeRefused => exact h
      | writeIntf => exact absurd rfl hx.2
      | writeOther => exact h
      | connect => rfl
      | connected => exact absurd hx id
      | dcp => exact absurd hx id
      | factoryReset => rfl
      | saveOff => exact h
      | save => exact h
      | restart => exact absurd hx id
    · rcases hev with rfl | rfl
      · cases s1; rfl
      · cases s1; rfl

/-- C84 fails: if the timer cannot be started once, the port sends this frame and then none for any time, although nothing forbids
it. -/
theorem C84_fails_timer (z : Nat) (e0 : Env) (ha : e0.armed = false) (d d' : Dev) (es : List (Env × Ev))
    (hr : run z d ((e0, .periodic) :: es) = some d') (i : Nat) (p : Port) (t : Nat) (hi : d.ports[i]? = some p) (ht : p.txAt = some t)
    (hle : t ≤ e0.now) (hk : ∀ x ∈ es, NoStart d.ports.length i x.2) :
    ∃ p', d'.ports[i]? = some p' ∧ p'.sending = false ∧ p'.sent = p.sent + 1 := by
  obtain ⟨h1, h2⟩ := run_one hr
  obtain ⟨o', ho', hrun⟩ := h2 i _ (one_of_port hi)
  refine ⟨o'.port, (port_of_one ho').1, ?_⟩
  cases hrun with
  | cons s1 s2 =>
    cases s1 with
    | @periodic p1 hp =>
      obtain ⟨k1, _, k3, _⟩ := periodic_same hp
      simp only [tickTx, ht] at k1 k3
      rw [if_pos hle] at k1 k3
      simp only [sendEnable, ha] at k1 k3
      obtain ⟨n1, n2⟩ := none_run s2 hk k1
      exact ⟨by simp [Port.sending, n1], n2.trans k3⟩

/-- A device with two ports, started. -/
def two : Dev := ⟨[load ⟨0, 1000, true, true⟩ 60 none, load ⟨0, 1000, true, true⟩ 60 none], true, false, [], false⟩

/-- C84 applies: an adjustment that forbids LLDP frames, written to the first of two ports that send. -/
example : (run 60 two [(⟨0, 1000, true, true⟩, .write 0 0x8001 .adjust (adjustBody (0, 0) 0 0x8001 12 (1, 0) (0, 0) 1 0 [0, 0])),
      (⟨6000000, 1000, true, true⟩, .periodic), (⟨6500000, 1000, true, true⟩, .dcp)]).map
        (fun d => d.ports.map fun p => (p.sending, p.sent, p.quiet)) =
    some [(false, 1, true), (true, 3, false)] := by
  decide +kernel

/-! ## C85: settings over restarts -/

/-- The settings of a port, now and stored. -/
structure Mem where
  now : Saved
  stored : Saved

/-- What the settings of port `i` should be: the last check and the last adjustment that were written with an understood record;
none after a connect request or a factory reset; what the background job stores is what counts after a restart. -/
def Mem.step (n i : Nat) (m : Mem) : Ev → Mem
  | .write _ subslot k data =>
    if subslotPort n subslot = i + 1 then
      match k with
      | .check => match parseCheck data with
        | some (some c) => { m with now := (some c, m.now.2) }
        | _ => m
      | .adjust => match parseAdjust data with
        | some (some b) => { m with now := (m.now.1, some b) }
        | _ => m
      | _ => m
    else m
  | .connect | .factoryReset => { m with now := (none, none) }
  | .save => { m with stored := m.now }
  | .restart => { m with now := m.stored }
  | _ => m

def Mem.run (n i : Nat) (m : Mem) (l : List Ev) : Mem := l.foldl (Mem.step n i) m

structure Rel (o : One) (m : Mem) : Prop where
  now : m.now = (o.port.check, o.port.adjust)
  stored : m.stored = o.file.getD (none, none)
  same : o.saving = false → m.stored = m.now

theorem settings_restartTx (e : Env) (p : Port) : (restartTx e p).check = p.check ∧ (restartTx e p).adjust = p.adjust := by
  unfold restartTx sendAs
  split
  · split <;> exact ⟨rfl, rfl⟩
  · exact ⟨rfl, rfl⟩

theorem settings_load (e : Env) (z : Nat) (f : Option Saved) : ((load e z f).check, (load e z f).adjust) = f.getD (none, none) := by
  unfold load
  cases f with
  | none => rfl
  | some s =>
    obtain ⟨c, b⟩ := s
    simp only
    rw [(settings_restartTx e _).1, (settings_restartTx e _).2]
    cases c <;> rfl

theorem rel_step {z n i : Nat} {e : Env} {ev : Ev} {o o' : One} {m : Mem} (h : Rel o m) (hs : One.Step z e n i o ev o') :
    Rel o' (m.step n i ev) := by
  obtain ⟨h1, h2, h3⟩ := h
  cases hs with
  | frame hr => exact ⟨h1, h2, h3⟩
  | frameOther => exact ⟨h1, h2, h3⟩
  | link => exact ⟨h1, h2, h3⟩
  | linkOther => exact ⟨h1, h2, h3⟩
  | @periodic p hp =>
    obtain ⟨_, k2, _, k4⟩ := periodic_same hp
    have ht : ∀ q : Port, (tickTx e q).check = q.check ∧ (tickTx e q).adjust = q.adjust := by
      intro q
      unfold tickTx
      split
      · split <;> exact ⟨rfl, rfl⟩
      · exact ⟨rfl, rfl⟩
    refine ⟨?_, h2, h3⟩
    show m.now = (p.check, p.adjust)
    rw [k2, k4, (ht _).1, (ht _).2]
    exact h1
  | @write slot subslot k data p hi hw =>
    rcases written_cases hw with ⟨c, rfl, m1, m2, m3, _⟩ | ⟨b, rfl, m1, rfl⟩
    · simp only [Mem.step, if_pos hi, m1]
      refine ⟨?_, h2, nofun⟩
      show (some c, m.now.2) = (p.check, p.adjust)
      rw [m2, m3, h1]
    · simp only [Mem.step, if_pos hi, m1]
      refine ⟨?_, h2, nofun⟩
      show (m.now.1, some b) = _
      rw [h1]
      unfold sendAs
      split <;> rfl
  | @writeRefused slot subslot k data hi hw =>
    obtain ⟨a1, a2⟩ := written_refused hw
    have : m.step n i (.write slot subslot k data) = m := by
      simp only [Mem.step, if_pos hi]
      cases k with
      | check => simp only [a1 rfl]
      | adjust => simp only [a2 rfl]
      | intf => rfl
      | other => rfl
    rw [this]
    exact ⟨h1, h2, h3⟩
  | writeIntf h0 =>
    simp only [Mem.step, h0]
    rw [if_neg (by omega)]
    refine ⟨?_, h2, h3⟩
    show m.now = ((restartTx e o.port).check, (restartTx e o.port).adjust)
    rw [(settings_restartTx e _).1, (settings_restartTx e _).2]
    exact h1
  | writeOther hi h0 hs =>
    simp only [Mem.step]
    rw [if_neg hi]
    refine ⟨h1, h2, fun k => ?_⟩
    cases ho : o.saving with
    | false => exact h3 ho
    | true =>
      have := hs ho
      rw [this] at k; cases k
  | connect => exact ⟨rfl, h2, nofun⟩
  | connected =>
    refine ⟨?_, h2, h3⟩
    show m.now = ((restartTx e o.port).check, (restartTx e o.port).adjust)
    rw [(settings_restartTx e _).1, (settings_restartTx e _).2]
    exact h1
  | dcp =>
    refine ⟨?_, h2, h3⟩
    show m.now = ((restartTx e o.port).check, (restartTx e o.port).adjust)
    rw [(settings_restartTx e _).1, (settings_restartTx e _).2]
    exact h1
  | factoryReset => exact ⟨rfl, h2, nofun⟩
  | saveOff h0 =>
    refine ⟨h1, ?_, fun _ => rfl⟩
    show m.now = _
    rw [← h3 h0]; exact h2
  | save => exact ⟨h1, h1, fun _ => rfl⟩
  | restart =>
    refine ⟨?_, h2, fun _ => rfl⟩
    show m.stored = ((load e z o.file).check, (load e z o.file).adjust)
    rw [settings_load]; exact h2

/-- C85, with what is missing: at any time after a start the check and the adjustment of every port are those that the history
says, over any number of restarts.  Missing: the naming mode of the interface (see C85_fails_interface), devices with more than four
ports (see C85_fails_ports). -/
theorem C85_remembered_partial (z : Nat) (d0 d : Dev) (e0 : Env) (es : List (Env × Ev)) (hr : run z d0 ((e0, .restart) :: es) = some d)
    (i : Nat) (p : Port) (hi : d.ports[i]? = some p) :
    (p.check, p.adjust) = (Mem.run d.ports.length i ⟨(none, none), (d0.files.getD i none).getD (none, none)⟩ (.restart :: es.map (·.2))).now := by
  obtain ⟨h1, h2⟩ := run_one hr
  obtain ⟨o0, ho0⟩ := one_back h1 hi
  obtain ⟨o', ho', hrun⟩ := h2 i o0 ho0
  have hp : o'.port = p := by
    have := (port_of_one ho').1
    rw [hi] at this; cases this; rfl
  have hf := (port_of_one ho0).2.1
  have key : ∀ {es : List (Env × Ev)} {o o' : One}, One.Run z d0.ports.length i o es o' → ∀ m, Rel o m →
      Rel o' (Mem.run d0.ports.length i m (es.map (·.2))) := by
    intro es o o' h
    induction h with
    | nil => intro m hm; exact hm
    | cons s1 s2 ih => intro m hm; exact ih _ (rel_step hm s1)
  cases hrun with
  | cons s1 s2 =>
    cases s1
    have := key s2 ⟨(d0.files.getD i none).getD (none, none), (d0.files.getD i none).getD (none, none)⟩
      ⟨by rw [← hf]; exact (settings_load e0 z o0.file).symm, by rw [← hf]; rfl, fun _ => rfl⟩
    rw [← hp, h1]
    exact this.now.symm

/-- Nothing that changes the settings of port `i`. -/
def Leaves (n i : Nat) : Ev → Prop
  | .write _ subslot _ _ => subslotPort n subslot ≠ i + 1
  | .connect | .factoryReset | .restart => False
  | _ => True

theorem leaves_run {n i : Nat} : ∀ (l : List Ev) (m : Mem), (∀ x ∈ l, Leaves n i x) → (Mem.run n i m l).now = m.now := by
  intro l
  induction l with
  | nil => intro m _; rfl
  | cons x l ih =>
    intro m h
    have h1 : (m.step n i x).now = m.now := by
      have := h x (by simp)
      cases x with
      | write slot subslot k data => simp only [Mem.step]; rw [if_neg this]
      | connect => exact absurd this id
      | factoryReset => exact absurd this id
      | restart => exact absurd this id
      | frame => rfl
      | link => rfl
      | periodic => rfl
      | connected => rfl
      | dcp => rfl
      | save => rfl
    show (Mem.run n i (m.step n i x) l).now = m.now
    rw [ih _ fun y hy => h y (by simp [hy]), h1]

theorem leaves_stored {n i : Nat} : ∀ (l : List Ev) (m : Mem), m.stored = m.now → (∀ x ∈ l, Leaves n i x) → (Mem.run n i m l).stored = m.now := by
  intro l
  induction l with
  | nil => intro m h _; exact h
  | cons x l ih =>
    intro m h0 h
    have h1 : (m.step n i x).now = m.now ∧ (m.step n i x).stored = m.now := by
      have := h x (by simp)
      cases x with
      | write slot subslot k data => simp only [Mem.step]; rw [if_neg this]; exact ⟨rfl, h0⟩
      | connect => exact absurd this id
      | factoryReset => exact absurd this id
      | restart => exact absurd this id
      | save => exact ⟨rfl, rfl⟩
      | frame => exact ⟨rfl, h0⟩
      | link => exact ⟨rfl, h0⟩
      | periodic => exact ⟨rfl, h0⟩
      | connected => exact ⟨rfl, h0⟩
      | dcp => exact ⟨rfl, h0⟩
    show (Mem.run n i (m.step n i x) l).stored = m.now
    rw [ih _ (h1.2.trans h1.1.symm) fun y hy => h y (by simp [hy]), h1.1]

theorem mem_append (n i : Nat) (m : Mem) (a b : List Ev) : Mem.run n i m (a ++ b) = Mem.run n i (Mem.run n i m a) b :=
  List.foldl_append

theorem mem_survives {n i : Nat} (m : Mem) (l1 l2 l3 : List Ev) (h1 : ∀ x ∈ l1, Leaves n i x) (h2 : ∀ x ∈ l2, Leaves n i x)
    (h3 : ∀ x ∈ l3, Leaves n i x) : (Mem.run n i m (l1 ++ .save :: (l2 ++ .restart :: l3))).now = m.now := by
  rw [mem_append]
  show (Mem.run n i ((Mem.run n i m l1).step n i .save) (l2 ++ .restart :: l3)).now = _
  rw [mem_append]
  show (Mem.run n i ((Mem.run n i ((Mem.run n i m l1).step n i .save) l2).step n i .restart) l3).now = _
  rw [leaves_run l3 _ h3]
  show (Mem.run n i ((Mem.run n i m l1).step n i .save) l2).stored = _
  rw [leaves_stored l2 _ rfl h2]
  exact leaves_run l1 m h1

/-- C85 (a restart): a check written for a port and stored by the background job is in force after the next restart, and stays, if
nothing else has been written for the port and no connection was made. -/
theorem C85_survives (z : Nat) (d0 d : Dev) (e0 : Env) (before mid mid2 after : List (Env × Ev)) (ew es er : Env) (port : Nat) (s slot : U16)
    (w : Wanted) (hwp : w.port.length ≤ 255) (hws : w.station.length ≤ 240)
    (pad : Byte × Byte) (slot' subslot len : U16) (ver : Byte × Byte) (peers : Byte) (rest : List Byte) (hpe : 1 ≤ peers.toNat)
    (hr : run z d0 ((e0, .restart) :: (before ++ (ew, .write slot s .check (checkBody pad slot' subslot len ver peers w rest)) :: (mid ++
      (es, .save) :: (mid2 ++ (er, .restart) :: after)))) = some d)
    (hn : d.ports.length ≤ 0x7000) (h1 : 1 ≤ port) (h2 : port ≤ d.ports.length) (hs : portSubslot d.ports.length port = some s)
    (hm : ∀ x ∈ mid, Leaves d.ports.length (port - 1) x.2) (hm2 : ∀ x ∈ mid2, Leaves d.ports.length (port - 1) x.2)
    (ha : ∀ x ∈ after, Leaves d.ports.length (port - 1) x.2) :
    ∃ p, d.ports[port - 1]? = some p ∧ p.check = some w := by
  have hlt : port - 1 < d.ports.length := by omega
  refine ⟨d.ports[port - 1], List.getElem?_eq_getElem hlt, ?_⟩
  have := C85_remembered_partial z d0 d e0 _ hr (port - 1) _ (List.getElem?_eq_getElem hlt)
  have hsp := port_slot hn h1 h2 hs
  have : d.ports[port - 1].check = _ := congrArg Prod.fst this
  rw [this]
  simp only [List.map_append, List.map_cons]
  rw [← List.cons_append, mem_append]
  generalize Mem.run d.ports.length (port - 1) _ (Ev.restart :: before.map (·.2)) = m0
  show (Mem.run _ _ (m0.step _ _ _) _).now.1 = _
  have e1 : (m0.step d.ports.length (port - 1) (.write slot s .check (checkBody pad slot' subslot len ver peers w rest))).now.1 = some w := by
    simp only [Mem.step]
    rw [if_pos (by omega), parseCheck_body hpe hwp hws]
  have lv : ∀ l : List (Env × Ev), (∀ x ∈ l, Leaves d.ports.length (port - 1) x.2) →
      ∀ x ∈ l.map (·.2), Leaves d.ports.length (port - 1) x := by
    intro l h x hx
    obtain ⟨y, hy, rfl⟩ := List.mem_map.1 hx
    exact h y hy
  rw [mem_survives _ _ _ _ (lv _ hm) (lv _ hm2) (lv _ ha)]
  exact e1

/-- C85 fails: the naming mode of the interface is not stored; after a restart the device names its ports in the standard way,
whatever was written before and however often it was stored. -/
theorem C85_fails_interface (z : Nat) (d0 d : Dev) (e : Env) (es : List (Env × Ev)) (hr : run z d0 (es ++ [(e, .restart)]) = some d) :
    d.standard = true ∧ d.modeActive = false := by
  induction es generalizing d0 with
  | nil =>
    simp only [List.nil_append, run, step] at hr
    split at hr
    · cases hr; exact ⟨rfl, rfl⟩
    · cases hr
  | cons x es ih =>
    simp only [List.cons_append, run] at hr
    cases hs : step z x.1 d0 x.2 with
    | none => rw [hs] at hr; cases hr
    | some d1 => rw [hs, Option.bind_some] at hr; exact ih d1 hr

/-- C85 fails: with more than four ports there are no file names for all of them; the start of such a device fails an assertion. -/
theorem C85_fails_ports (z : Nat) (d : Dev) (e : Env) (h : 4 < d.ports.length) : step z e d .restart = none := by
  unfold step
  exact if_neg (by omega)

/-- C82 and C85 apply: a check is written for the second port, no neighbour is heard: there is a diagnosis; it is stored, and after a
restart it is in force again. -/
example : (run 60 two [(⟨0, 1000, true, true⟩, .restart),
      (⟨0, 1000, true, true⟩, .write 0 0x8002 .check (checkBody (0, 0) 0 0x8002 14 (1, 0) 1 ⟨[112, 111, 114, 116, 45, 48, 48, 49], [100, 101, 118]⟩ [])),
      (⟨0, 1000, true, true⟩, .periodic), (⟨0, 1000, true, true⟩, .save), (⟨10, 1000, true, true⟩, .restart),
      (⟨2000, 1000, true, true⟩, .periodic)]).map (fun d => d.ports.map fun p => (p.check, p.noPeer)) =
    some [(none, false), (some ⟨[112, 111, 114, 116, 45, 48, 48, 49], [100, 101, 118]⟩, true)] := by
  decide +kernel

end Verif.Pdport
