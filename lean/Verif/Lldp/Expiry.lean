import Verif.Lldp.Trip
import Verif.Scheduler.Props
/-! What is known of a neighbour over time. -/
set_option linter.unusedSimpArgs false
set_option linter.unusedVariables false

namespace Verif.Lldp

open Verif.Wire

/-- What can happen on a port: a frame arrives (and a timer can be started or not), the scheduler runs, the state of the
link is looked at. -/
inductive Ev where
  | frame (now : Nat) (armed : Bool) (data : List Byte)
  | tick (now : Nat)
  | link (up : Bool)

/-- One step of a port. -/
def step (z : Nat) (tick : U32) (p : Port) : Ev → Option Port
  | .frame now armed data => recv z ⟨now, tick, armed⟩ p data
  | .tick now => some (tickRx now p)
  | .link up => some (monitorLink up p)

/-- A history. -/
def run (z : Nat) (tick : U32) (p : Port) : List Ev → Option Port
  | [] => some p
  | e :: l => (step z tick p e).bind fun p' => run z tick p' l

/-! ## Specification -/

/-- What is asked about a neighbour: its names, how long they hold, its addresses, delays, and the state of its link. -/
structure Seen where
  chassis : Option (Byte × List Byte)
  port : Option (Byte × List Byte)
  ttl : Nat
  desc : Option (List Byte)
  mgmt : Option (List Byte × Byte × Nat)
  delay : Option (Nat × Nat × Nat × Nat × Nat)
  link : Option (Bool × Bool × Nat × Nat)

/-- No neighbour. -/
def Seen.none : Seen := ⟨.none, .none, 0, .none, .none, .none, .none⟩

/-- What is seen with the contents of a frame. -/
def Seen.of (w : View) : Seen := ⟨w.chassis, w.port, w.ttl, w.desc, w.mgmt, w.delay, w.link⟩

/-- What is known: the contents of the last frame that was accepted and when it will be forgotten. -/
structure Known where
  last : Option View
  until? : Option Nat
  up : Bool

/-- How long a frame holds, in microseconds, in whole periods of the stack. -/
def holdTime (tick : U32) (secs : Nat) : Nat := (Scheduler.sanitizeDelay (BitVec.ofNat 32 (secs * 1000000)) tick).toNat

/-- A frame replaces what was known (a frame that is refused says nothing); it is forgotten when its time is over or when
the link goes down.  Above 60 seconds, or without a timer, the time is not watched. -/
def Known.step (z : Nat) (tick : U32) (k : Known) (accepted : List Byte → Option View) : Ev → Known
  | .frame now armed data =>
    match accepted data with
    | some w => ⟨some w, if w.ttl ≤ 60 ∧ armed = true then some (now + holdTime tick w.ttl) else none, k.up⟩
    | none => k
  | .tick now =>
    match k.until? with
    | some t => if t ≤ now then ⟨none, none, k.up⟩ else k
    | none => k
  | .link up => if k.up = true ∧ up = false then ⟨none, none, up⟩ else { k with up := up }

def Known.run (z : Nat) (tick : U32) (accepted : List Byte → Option View) (k : Known) : List Ev → Known
  | [] => k
  | e :: l => Known.run z tick accepted (k.step z tick accepted e) l

def Known.seen (k : Known) : Seen := match k.last with | some w => Seen.of w | none => Seen.none

/-- What the reader of frames accepts. -/
def accepts (z : Nat) (data : List Byte) : Option View :=
  match parse z data with
  | some (some q) => some (view q)
  | _ => none

/-! ## Refinement -/

def seen (p : Port) : Seen := Seen.of (view p.peer)

structure Sim (p : Port) (k : Known) : Prop where
  seen : seen p = k.seen
  due : p.rxAt = k.until?
  up : p.linkUp = k.up
  heard : p.received = true → k.last ≠ none
  gone : p.received = false → Seen.none = Lldp.seen p

theorem seen_invalidate (p : Port) : seen (invalidate p) = Seen.none := rfl

theorem sim_step (z : Nat) (hz : 1 ≤ z) (tick : U32) {p : Port} {k : Known} (h : Sim p k) (e : Ev)
    (hl : ∀ now armed data, e = .frame now armed data → data.length ≤ 64000) :
    ∃ p', step z tick p e = some p' ∧ Sim p' (k.step z tick (accepts z) e) := by
  cases e with
  | frame now armed data =>
    obtain ⟨res, hp, _⟩ := parse_total z hz data (hl now armed data rfl)
    cases res with
    | none =>
      refine ⟨p, by simp [step, recv, hp], ?_⟩
      have : accepts z data = none := by simp [accepts, hp]
      simp only [Known.step, this]
      exact h
    | some q =>
      refine ⟨updatePeer ⟨now, tick, armed⟩ p q, by simp [step, recv, hp], ?_⟩
      have : accepts z data = some (view q) := by simp [accepts, hp]
      simp only [Known.step, this]
      have htt : (view q).ttl = q.ttl.toNat := rfl
      have hdue : (restartTimer ⟨now, tick, armed⟩ p q.ttl.toNat).rxAt =
          if (view q).ttl ≤ 60 ∧ armed = true then some (now + holdTime tick (view q).ttl) else none := by
        unfold restartTimer
        rw [htt]
        by_cases h60 : q.ttl.toNat > 60
        · have h60' : ¬q.ttl.toNat ≤ 60 := by omega
          simp [h60, h60']
        · cases armed
          · simp [h60]
          · have h60' : q.ttl.toNat ≤ 60 := by omega
            simp [h60, h60', rxDelay, holdTime]
      unfold updatePeer
      by_cases he : q = (restartTimer ⟨now, tick, armed⟩ p q.ttl.toNat).peer
      · simp only
        rw [if_pos he]
        have he' : q = p.peer := he
        refine ⟨?_, hdue, h.up, fun _ => by simp, ?_⟩
        · show Seen.of (view p.peer) = Seen.of (view q)
          rw [← he']
        · intro hr
          exact h.gone hr
      · simp only
        rw [if_neg he]
        exact ⟨rfl, hdue, h.up, fun _ => by simp, fun hr => by cases hr⟩
  | tick now =>
    refine ⟨tickRx now p, rfl, ?_⟩
    unfold tickRx
    simp only [Known.step, ← h.due]
    cases hr : p.rxAt with
    | none => exact h
    | some t =>
      simp only
      by_cases ht : t ≤ now
      · rw [if_pos ht, if_pos ht]
        exact ⟨rfl, rfl, h.up, (nomatch ·), fun _ => rfl⟩
      · rw [if_neg ht, if_neg ht]
        exact h
  | link up =>
    refine ⟨monitorLink up p, rfl, ?_⟩
    unfold monitorLink
    simp only [Known.step, ← h.up]
    by_cases hu : p.linkUp = true ∧ up = false
    · rw [if_pos hu, if_pos hu]
      exact ⟨rfl, rfl, rfl, (nomatch ·), fun _ => rfl⟩
    · rw [if_neg hu, if_neg hu]
      exact ⟨h.seen, h.due, rfl, h.heard, h.gone⟩

theorem sim_run (z : Nat) (hz : 1 ≤ z) (tick : U32) : ∀ (es : List Ev) (p : Port) (k : Known), Sim p k →
    (∀ now armed data, .frame now armed data ∈ es → data.length ≤ 64000) →
    ∃ p', run z tick p es = some p' ∧ Sim p' (k.run z tick (accepts z) es) := by
  intro es
  induction es with
  | nil => intro p k h _; exact ⟨p, rfl, h⟩
  | cons e es ih =>
    intro p k h hl
    obtain ⟨p1, e1, s1⟩ := sim_step z hz tick h e fun now armed data he => hl now armed data (by simp [he])
    obtain ⟨p2, e2, s2⟩ := ih p1 _ s1 fun now armed data he => hl now armed data (by simp [he])
    exact ⟨p2, by simp [run, e1, e2], s2⟩

/-- Nothing is known at the start. -/
def Known.start : Known := ⟨none, none, false⟩

theorem sim_start (z : Nat) : Sim (Port.init z) Known.start :=
  ⟨rfl, rfl, rfl, (nomatch ·), fun _ => rfl⟩

/-! ## Consequences -/

/-- No frame of these is accepted. -/
def Quiet (z : Nat) (es : List Ev) : Prop := ∀ now armed data, .frame now armed data ∈ es → accepts z data = none

theorem known_quiet {z : Nat} {tick : U32} {w : View} {d : Option Nat} : ∀ {es : List Ev} {k : Known}, Quiet z es →
    (k.last = none ∧ k.until? = none ∨ k.last = some w ∧ k.until? = d) →
    ((k.run z tick (accepts z) es).last = none ∧ (k.run z tick (accepts z) es).until? = none ∨
      (k.run z tick (accepts z) es).last = some w ∧ (k.run z tick (accepts z) es).until? = d) := by
  intro es
  induction es with
  | nil => intro k _ h; exact h
  | cons e es ih =>
    intro k hq h
    refine ih (fun now armed data hm => hq now armed data (by simp [hm])) ?_
    cases e with
    | frame now armed data =>
      have : accepts z data = none := hq now armed data (by simp)
      simp only [Known.step, this]
      exact h
    | tick now =>
      simp only [Known.step]
      cases hu : k.until? with
      | none => simp only; rw [hu] at h; simpa [hu] using h
      | some t =>
        simp only
        by_cases ht : t ≤ now
        · rw [if_pos ht]; exact .inl ⟨rfl, rfl⟩
        · rw [if_neg ht]; exact h
    | link up =>
      simp only [Known.step]
      by_cases hc : k.up = true ∧ up = false
      · rw [if_pos hc]; exact .inl ⟨rfl, rfl⟩
      · rw [if_neg hc]; exact h

/-- The scheduler has not reached `d`, the link is not seen down. -/
def Before (d : Option Nat) (es : List Ev) : Prop :=
  (∀ now t, .tick now ∈ es → d = some t → now < t) ∧ .link false ∉ es

theorem known_before {z : Nat} {tick : U32} {w : View} {d : Option Nat} : ∀ {es : List Ev} {k : Known}, Quiet z es →
    Before d es → k.last = some w → k.until? = d →
    (k.run z tick (accepts z) es).last = some w ∧ (k.run z tick (accepts z) es).until? = d := by
  intro es
  induction es with
  | nil => intro k _ _ h1 h2; exact ⟨h1, h2⟩
  | cons e es ih =>
    intro k hq hb h1 h2
    have hb' : Before d es := ⟨fun now t hm => hb.1 now t (by simp [hm]), fun hm => hb.2 (by simp [hm])⟩
    have hq' : Quiet z es := fun now armed data hm => hq now armed data (by simp [hm])
    cases e with
    | frame now armed data =>
      have : accepts z data = none := hq now armed data (by simp)
      refine ih hq' hb' ?_ ?_
      all_goals simp only [Known.step, this]; assumption
    | tick now =>
      have hs : k.step z tick (accepts z) (.tick now) = k := by
        simp only [Known.step]
        cases hu : k.until? with
        | none => rfl
        | some t =>
          simp only
          have := hb.1 now t (by simp) (by rw [← h2, hu])
          rw [if_neg (by omega)]
      have : k.run z tick (accepts z) (.tick now :: es) = k.run z tick (accepts z) es := by
        simp only [Known.run, hs]
      rw [this]
      exact ih hq' hb' h1 h2
    | link up =>
      have hup : up = true := by
        cases up
        · exact absurd (by simp) hb.2
        · rfl
      refine ih hq' hb' ?_ ?_
      all_goals simp only [Known.step]; rw [if_neg (by simp [hup])]; assumption

theorem known_run_append {z : Nat} {tick : U32} {acc : List Byte → Option View} : ∀ (a b : List Ev) (k : Known),
    k.run z tick acc (a ++ b) = (k.run z tick acc a).run z tick acc b := by
  intro a
  induction a with
  | nil => intro b k; rfl
  | cons e a ih => intro b k; exact ih b _

end Verif.Lldp
