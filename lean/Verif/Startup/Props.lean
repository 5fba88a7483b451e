import Verif.Startup.Ops2
/-! C24–C27, C62, C63. -/
set_option linter.unusedSimpArgs false
set_option linter.unusedVariables false
namespace Verif.Startup

/-! ## C24 -/

/-- C24 in full: whatever the controller, the application and the network do, no connection ever shows
a sequence of events other than the one of PROFINET. -/
def C24_statement : Prop :=
  ∀ (c : Cfg) (ops : List Op) (st : St), exec c init ops = some st → ∀ i, phase i st.log ≠ .bad

theorem Good.phase_ok {st : St} (h : Good True st) (i : Nat) : phase i st.log ≠ .bad := by
  intro hb
  have hl := h.l i
  cases hc : (st.ars i).inUse
  · rw [hl.fzero trivial hc] at hb; cases hb
  · have := hl.flive trivial hc
    unfold FullLive at this
    rw [hb] at this
    split at this <;> simp at this

theorem Good.weak_ok {T : Prop} {st : St} (h : Good T st) (i : Nat) : weak i st.log ≠ .bad := by
  intro hb
  have hl := h.l i
  cases hc : (st.ars i).inUse
  · rw [(hl.zero hc).2] at hb; cases hb
  · have := hl.live hc
    unfold Live at this
    rw [hb] at this
    split at this <;> simp at this

/-- C24, partial: with an orderly controller and application (see `Orderly`) every connection keeps to
the sequence STARTUP, PRMEND, application-ready, APPLRDY, confirmation, DATA, each at most once, and an
ABORT ends it.  Missing: runs that are not orderly, where the claim is false (`C24_fails_…`). -/
theorem C24_sequence_partial (c : Cfg) (ops : List Op) (st : St) (h : exec c init ops = some st)
    (ho : Run c (Orderly c) init ops) (i : Nat) : phase i st.log ≠ .bad :=
  (Good.exec (T := True) Good.init (fun _ => ho) h).phase_ok i

/-- C24, the part that holds for every run: STARTUP comes first and once, DATA comes at most once and
only after the application called application-ready and the controller then answered with a "done"
block; ABORT ends the connection.  Missing: the positions of PRMEND and APPLRDY and the status of the
answer. -/
theorem C24_data_partial (c : Cfg) (ops : List Op) (st : St) (h : exec c init ops = some st)
    (i : Nat) : weak i st.log ≠ .bad :=
  (Good.exec (T := False) Good.init (fun t => t.elim) h).weak_ok i

/-! ### A run that meets the hypotheses and reaches data exchange -/

def cfg1 : Cfg := ⟨2⟩

def prmEnd (s seq u : Nat) : Op := .dcontrol ⟨s, seq, u, cmdPrmEnd, true, false, true, 0, true⟩

/-- Connect, a record write, PrmEnd, application ready, confirmation, cyclic data. -/
def goodOps : List Op :=
  [.connect 0 77 false false 2 [true, false] (.accept .ok), .own (0, 1, 1) (some (some 0)),
   .write 0 77 (0, 1, 1) 5 true true, prmEnd 0 3 77, .appReady 0 true (some 1), .newData 0 0 true,
   .cmioTimer 0, .response 1 0 true false]

theorem goodOps_orderly : Run cfg1 (Orderly cfg1) init goodOps := by
  refine ⟨⟨.inl rfl, by simp, by simp⟩, fun _ h => ?_⟩; cases h
  refine ⟨trivial, fun _ h => ?_⟩; cases h
  refine ⟨.inr rfl, fun _ h => ?_⟩; cases h
  refine ⟨rfl, fun _ h => ?_⟩; cases h
  refine ⟨⟨1, rfl, rfl⟩, fun _ h => ?_⟩; cases h
  refine ⟨trivial, fun _ h => ?_⟩; cases h
  refine ⟨trivial, fun _ h => ?_⟩; cases h
  refine ⟨fun _ => ⟨rfl, fun _ => rfl⟩, fun _ _ => trivial⟩

theorem C24_example : ∃ st, exec cfg1 init goodOps = some st ∧ Run cfg1 (Orderly cfg1) init goodOps ∧
    phase 0 st.log = .data ∧ weak 0 st.log = .data :=
  ⟨(exec cfg1 init goodOps).get (by rfl), (Option.some_get _).symm, goodOps_orderly, by rfl, by rfl⟩

/-! ### Runs in which the sequence is broken -/

theorem not_C24 (c : Cfg) (ops : List Op) (i : Nat) (h : (exec c init ops).isSome)
    (hb : phase i ((exec c init ops).get h).log = .bad) : ¬ C24_statement := fun hc =>
  hc c ops _ (Option.some_get h).symm i hb

def start0 : Op := .connect 0 77 false false 2 [true, false] (.accept .ok)

/-- PrmEnd of the connection arrives on another session: the state machine advances, but the PRMEND
event is sent to the connection of that session (here none), so APPLRDY is seen without PRMEND. -/
def strayOps : List Op := [start0, prmEnd 1 3 77, .appReady 0 true (some 2)]

theorem C24_fails_stray_session : ¬ C24_statement :=
  not_C24 cfg1 strayOps 0 (by rfl) (by rfl)

/-- … and if that session belongs to another connection, that one is told PRMEND. -/
theorem C24_stray_event : ∃ st, exec cfg1 init [start0, .connect 1 78 false false 2 [true] (.accept .ok),
    prmEnd 1 3 77] = some st ∧ (st.ars 0).uuid = 77 ∧ (st.ars 1).uuid = 78 ∧
    phase 0 st.log = .started ∧ phase 1 st.log = .prmended :=
  ⟨(exec cfg1 init _).get (by rfl), (Option.some_get _).symm, by rfl, by rfl, by rfl, by rfl⟩

/-- No session is left for the application ready request: APPLRDY is reported, the state stays, and
the next call reports it again. -/
theorem C24_fails_no_session : ¬ C24_statement :=
  not_C24 cfg1 [start0, prmEnd 0 3 77, .appReady 0 true none, .appReady 0 true none] 0 (by rfl) (by rfl)

/-- The application refuses a connect without an error code: the connection is kept in a state that no
release ends and that is not supervised. -/
theorem C24_fails_refused : ¬ C24_statement :=
  not_C24 cfg1 [.connect 0 77 false false 2 [] (.refused 0), .abort 0] 0 (by rfl) (by rfl)

/-- No timer is left for the supervision of an output CR: in every state, a connect request that all checks and the application
accept ends with ABORT for a connection of which the application was never told STARTUP; the entry and the session are free
again. -/
theorem C24_no_timer_aborts (c : Cfg) (st : St) (s u : Nat) (legacy : Bool) (factor : Nat) (iocrs : List Bool) (i : Nat)
    (h1 : findUuid c (useSess st s) u = none) (h2 : findFree c (useSess st s) = some i) :
    ∃ st', step c st (.connect s u false legacy factor iocrs (.accept .noTimer)) = some st' ∧
      st'.log = .event i .abort st.now :: (useSess st s).log ∧ (st'.ars i).inUse = false ∧ (st'.sess s).inUse = false := by
  have hu : ((useSess st s).sess s).inUse = true := useSess_inUse
  have hn : (useSess st s).now = st.now := by unfold useSess; split <;> rfl
  refine ⟨_, rfl, ?_, ?_, ?_⟩
  · unfold connect connectInd
    simp only [h1, h2]
    rw [setState_of_ne _ _ _ (by simp)]
    simp [stateInd_log, hn]
  · unfold connect connectInd
    simp only [h1, h2]
    rw [setState_of_ne _ _ _ (by simp)]
    simp [stateInd_ars, Ar.zero]
  · unfold connect connectInd
    simp only [h1, h2]
    rw [setState_of_ne _ _ _ (by simp)]
    simp [stateInd_sess, released, hu, Sess.zero]

theorem C24_fails_no_timer : ¬ C24_statement :=
  not_C24 cfg1 [.connect 0 77 false false 2 [true, false] (.accept .noTimer)] 0 (by rfl) (by rfl)

theorem C24_refused_stuck : ∃ st st', exec cfg1 init [.connect 0 77 false false 2 [] (.refused 0)] = some st ∧
    (st.ars 0).inUse = true ∧ step cfg1 st (.release 0 77) = some st' ∧ (st'.ars 0).inUse = true ∧
    step cfg1 { st' with now := 10 ^ 12 } (.cmsmTimer 0) = some { st' with now := 10 ^ 12 } :=
  ⟨(exec cfg1 init _).get (by rfl), (step cfg1 _ (.release 0 77)).get (by rfl), (Option.some_get _).symm,
    by rfl, (Option.some_get _).symm, by rfl, by rfl⟩

/-- A negative answer of the controller that carries a "done" block is taken as a confirmation. -/
theorem C24_fails_negative_answer : ¬ C24_statement :=
  not_C24 cfg1 [start0, prmEnd 0 3 77, .appReady 0 true (some 1), .newData 0 0 true, .cmioTimer 0,
    .response 1 5 true false] 0 (by rfl) (by rfl)

/-! ## C25 -/

/-- C25.  In every reachable state: a connection in start-up whose last STARTUP, record read or record
write was at least `f` × 100 ms ago (`f` the factor of its connect request) is aborted by its timer and
freed; before that time, and for a connection that is not in start-up, the timer changes nothing. -/
theorem C25_supervision (c : Cfg) (ops : List Op) (st : St) (h : exec c init ops = some st) (i : Nat) :
    (∀ t f, supervised i st.log = some (t, f) →
      (t + f * 100000 ≤ st.now → ∃ st', step c st (.cmsmTimer i) = some st' ∧
        st'.log = .event i .abort st.now :: st.log ∧ (st'.ars i).inUse = false ∧
        supervised i st'.log = none) ∧
      (st.now < t + f * 100000 → step c st (.cmsmTimer i) = some st)) ∧
    (supervised i st.log = none → step c st (.cmsmTimer i) = some st) := by
  have hg := Good.exec (T := False) Good.init (fun t => t.elim) h
  have hsup := (hg.l i).sup
  refine ⟨?_, ?_⟩
  · intro t f hs
    rw [hs] at hsup
    obtain ⟨h1, h2, h3⟩ := hsup
    have hsu : superviseUs f = f * 100000 := by unfold superviseUs; omega
    rw [hsu] at h3
    refine ⟨?_, ?_⟩
    · intro hn
      refine ⟨_, rfl, ?_⟩
      rw [cmsmTimer_eq hg, if_pos ⟨h1, _, h3, hn⟩]
      refine ⟨stateInd_log .., ?_, ?_⟩
      · rw [stateInd_ars]; simp [Ar.zero]
      · rw [stateInd_log]; simp [sup_cons, supNext]
    · intro hn
      simp only [step]
      rw [cmsmTimer_eq hg, if_neg]
      rintro ⟨_, d, hd, hle⟩
      rw [h3] at hd
      cases hd; omega
  · intro hs
    rw [hs] at hsup
    obtain ⟨h1, h2⟩ := hsup
    simp only [step]
    rw [cmsmTimer_eq hg, if_neg]
    rintro ⟨h3, _⟩
    rw [h1] at h3; cases h3

/-- A connection in start-up, before and after a record write. -/
theorem C25_example :
    (∃ st, exec cfg1 init [start0, .tick 50000] = some st ∧ supervised 0 st.log = some (0, 2)) ∧
    (∃ st, exec cfg1 init [start0, .tick 50000, .write 0 77 (0, 1, 1) 5 true true] = some st ∧
      supervised 0 st.log = some (50000, 2)) ∧
    (∃ st, exec cfg1 init goodOps = some st ∧ supervised 0 st.log = none) :=
  ⟨⟨(exec cfg1 init _).get (by rfl), (Option.some_get _).symm, by rfl⟩,
   ⟨(exec cfg1 init _).get (by rfl), (Option.some_get _).symm, by rfl⟩,
   ⟨(exec cfg1 init _).get (by rfl), (Option.some_get _).symm, by rfl⟩⟩

/-! ## C26 -/

/-- A record write is handed on. -/
def Forwarded (i : Nat) (p : Place) (idx : Nat) (new : List Entry) : Prop :=
  Entry.wrote i p idx ∈ new ∨ Entry.wrotePort i p idx ∈ new

/-- Phases in which writes are allowed: before PrmEnd, and from APPLRDY on. -/
def WritePhase : Phase → Prop
  | .started => True
  | .ready => True
  | .confirmed => True
  | .data => True
  | _ => False

/-- C26 in full: a write is forwarded only in start-up before PrmEnd or in the data phase, for the
connection with the UUID of the request, and only to a submodule that is owned by this connection. -/
def C26_statement : Prop :=
  ∀ (c : Cfg) (ops : List Op) (st : St) (s u : Nat) (p : Place) (idx : Nat) (checks ok : Bool) (st' : St),
    exec c init ops = some st → step c st (.write s u p idx checks ok) = some st' →
    ∃ new, st'.log = new ++ st.log ∧ ∀ i p' idx', Forwarded i p' idx' new →
      p' = p ∧ idx' = idx ∧ (st.ars i).uuid = u ∧ WritePhase (phase i st.log) ∧ st.subs p = some (some i)

theorem cmwrrInd'_spec (st : St) (i : Nat) (p : Place) (idx : Nat) (ok : Bool) :
    (cmwrrInd' st i p idx ok = (st, false)) ∨
    (((st.ars i).cmwrr = .startup ∨ (st.ars i).cmwrr = .data) ∧ denied st i p = false ∧
      (cmwrrInd' st i p idx ok = (st.note (.wrote i p idx), ok) ∨
        cmwrrInd' st i p idx ok = (st.note (.wrotePort i p idx), ok))) := by
  unfold cmwrrInd' cmwrrWrite
  cases hc : (st.ars i).cmwrr <;> dsimp only
  · exact .inl rfl
  · by_cases hd : denied st i p = true
    · rw [if_pos hd]; exact .inl rfl
    · rw [if_neg hd]
      repeat' split
      all_goals simp [hd]
  · exact .inl rfl
  · by_cases hd : denied st i p = true
    · rw [if_pos hd]; exact .inl rfl
    · rw [if_neg hd]
      repeat' split
      all_goals simp [hd]

theorem cmsmRestart_ars (st : St) (i k : Nat) :
    ∃ d, (cmsmRestart st i).ars k = { st.ars k with deadline := d } := by
  unfold cmsmRestart; dsimp only; split
  · exact ⟨_, rfl⟩
  · by_cases hk : k = i
    · subst hk; exact ⟨some (st.now + superviseUs (st.ars k).factor), by simp⟩
    · exact ⟨(st.ars k).deadline, by simp [hk]⟩

theorem not_denied {st : St} {i : Nat} {p : Place} (h : denied st i p = false) {o : Option Nat}
    (hp : st.subs p = some o) : o = some i := by
  unfold denied at h; rw [hp] at h; simpa using h

/-- Log entries of one write. -/
theorem write_log (c : Cfg) (st : St) (s u : Nat) (p : Place) (idx : Nat) (checks ok : Bool) :
    ∃ new, (write c st s u p idx checks ok).log = new ++ st.log ∧
      ∀ i p' idx', Forwarded i p' idx' new → p' = p ∧ idx' = idx ∧ findUuid c st u = some i ∧
        ((st.ars i).cmwrr = .startup ∨ (st.ars i).cmwrr = .data) ∧ denied st i p = false := by
  have hu : ∃ l, (useSess st s).log = l ++ st.log ∧ ∀ i p' idx', ¬ Forwarded i p' idx' l := by
    unfold useSess
    split
    · exact ⟨[], rfl, by simp [Forwarded]⟩
    · exact ⟨[.opened s], rfl, by simp [Forwarded]⟩
  obtain ⟨l, hl, hlf⟩ := hu
  unfold write
  dsimp only
  rw [findUuid_useSess]
  cases hf : findUuid c st u with
  | none => exact ⟨l, by simp [hl], fun i p' idx' h => absurd h (hlf i p' idx')⟩
  | some i =>
    dsimp only
    cases checks with
    | false =>
      simp only [Bool.false_eq_true, if_false]
      refine ⟨.writeAnswer i p idx false :: l, by simp [hl], ?_⟩
      intro j p' idx' h
      exact absurd (by simpa [Forwarded] using h) (hlf j p' idx')
    | true =>
      simp only [if_true, note_log, cmsmRestart_log]
      rcases cmwrrInd'_spec (useSess st s) i p idx ok with h1 | ⟨h1, h2, h3 | h3⟩
      · rw [h1]
        dsimp only
        refine ⟨.writeAnswer i p idx false :: .activity i (useSess st s).now :: l, by simp [hl], ?_⟩
        intro j p' idx' h
        exact absurd (by simpa [Forwarded] using h) (hlf j p' idx')
      all_goals
        rw [h3]
        dsimp only
        simp only [useSess_ars] at h1
        have h2' : denied st i p = false := by
          unfold denied at h2 ⊢; simpa using h2
      · refine ⟨.writeAnswer i p idx ok :: .activity i (useSess st s).now :: .wrote i p idx :: l,
          by simp [hl], ?_⟩
        intro j p' idx' h
        have h' : (j = i ∧ p' = p ∧ idx' = idx) ∨ Forwarded j p' idx' l := by
          simp [Forwarded] at h ⊢
          rcases h with (h | h) | h
          · exact .inl h
          · exact .inr (.inl h)
          · exact .inr (.inr h)
        rcases h' with ⟨rfl, rfl, rfl⟩ | h'
        · exact ⟨rfl, rfl, rfl, h1, h2'⟩
        · exact absurd h' (hlf j p' idx')
      · refine ⟨.writeAnswer i p idx ok :: .activity i (useSess st s).now :: .wrotePort i p idx :: l,
          by simp [hl], ?_⟩
        intro j p' idx' h
        have h' : (j = i ∧ p' = p ∧ idx' = idx) ∨ Forwarded j p' idx' l := by
          simp [Forwarded] at h ⊢
          rcases h with h | h | h
          · exact .inr (.inl h)
          · exact .inl h
          · exact .inr (.inr h)
        rcases h' with ⟨rfl, rfl, rfl⟩ | h'
        · exact ⟨rfl, rfl, rfl, h1, h2'⟩
        · exact absurd h' (hlf j p' idx')

/-- C26, partial: after an orderly run a write is forwarded only for the connection with the UUID of the
request, before PrmEnd or from APPLRDY on, and, *if a submodule is plugged at the place*, only if it is
owned by this connection.  Missing: places where nothing is plugged (`C26_fails_unplugged`) and runs
that are not orderly. -/
theorem C26_write_partial (c : Cfg) (ops : List Op) (st : St) (s u : Nat) (p : Place) (idx : Nat)
    (checks ok : Bool) (st' : St) (h : exec c init ops = some st) (ho : Run c (Orderly c) init ops)
    (hs : step c st (.write s u p idx checks ok) = some st') :
    ∃ new, st'.log = new ++ st.log ∧ ∀ i p' idx', Forwarded i p' idx' new →
      p' = p ∧ idx' = idx ∧ (st.ars i).uuid = u ∧ WritePhase (phase i st.log) ∧
      ∀ o, st.subs p = some o → o = some i := by
  have hg := Good.exec (T := True) Good.init (fun _ => ho) h
  cases hs
  obtain ⟨new, h1, h2⟩ := write_log c st s u p idx checks ok
  refine ⟨new, h1, ?_⟩
  intro i p' idx' hf
  obtain ⟨a1, a2, a3, a4, a5⟩ := h2 i p' idx' hf
  obtain ⟨b1, _, b3⟩ := findUuid_inUse a3
  refine ⟨a1, a2, b3, ?_, fun o hp => not_denied a5 hp⟩
  have hfl := (hg.l i).flive trivial b1
  unfold FullLive at hfl
  unfold WritePhase
  cases hc : (st.ars i).cmdev <;> rw [hc] at hfl <;> dsimp only at hfl
  · rw [hfl.1]; trivial
  · rw [hfl.2] at a4; simp at a4
  · rw [hfl.1]; trivial
  · rw [hfl.1]; trivial
  · rcases hfl with ⟨_, e, _⟩ | ⟨_, e, _⟩ <;> rw [e] <;> trivial

/-- C26, the access check for every run, orderly or not: a write is forwarded only for the connection
with the UUID of the request and never to a submodule that is plugged and not owned by it. -/
theorem C26_owner_partial (c : Cfg) (ops : List Op) (st : St) (s u : Nat) (p : Place) (idx : Nat)
    (checks ok : Bool) (st' : St) (h : exec c init ops = some st)
    (hs : step c st (.write s u p idx checks ok) = some st') :
    ∃ new, st'.log = new ++ st.log ∧ ∀ i p' idx', Forwarded i p' idx' new →
      p' = p ∧ idx' = idx ∧ (st.ars i).inUse = true ∧ (st.ars i).uuid = u ∧
      ∀ o, st.subs p = some o → o = some i := by
  cases hs
  obtain ⟨new, h1, h2⟩ := write_log c st s u p idx checks ok
  refine ⟨new, h1, ?_⟩
  intro i p' idx' hf
  obtain ⟨a1, a2, a3, a4, a5⟩ := h2 i p' idx' hf
  obtain ⟨b1, _, b3⟩ := findUuid_inUse a3
  exact ⟨a1, a2, b1, b3, fun o hp => not_denied a5 hp⟩

/-- C26, the other half: a write that is not allowed is answered negatively, and of the submodules, the
connections and the sessions nothing changes but the supervision time (and that a session is opened). -/
theorem C26_refused (c : Cfg) (ops : List Op) (st : St) (s u : Nat) (p : Place) (idx : Nat)
    (checks ok : Bool) (st' : St) (i : Nat) (h : exec c init ops = some st)
    (ho : Run c (Orderly c) init ops) (hi : findUuid c st u = some i)
    (hno : ¬ WritePhase (phase i st.log) ∨ ∃ o, st.subs p = some o ∧ o ≠ some i)
    (hs : step c st (.write s u p idx checks ok) = some st') :
    (∃ new, st'.log = Entry.writeAnswer i p idx false :: new ++ st.log ∧
      ∀ e ∈ new, e = .opened s ∨ e = .activity i st.now) ∧
    st'.subs = st.subs ∧ st'.sess = (useSess st s).sess ∧
    ∀ k, ∃ d, st'.ars k = { st.ars k with deadline := d } := by
  have hg := Good.exec (T := True) Good.init (fun _ => ho) h
  cases hs
  have hrej : cmwrrInd' (useSess st s) i p idx ok = (useSess st s, false) := by
    rcases cmwrrInd'_spec (useSess st s) i p idx ok with h1 | ⟨h1, h2, _⟩
    · exact h1
    exfalso
    have h2' : denied st i p = false := by
      unfold denied at h2 ⊢; simpa using h2
    simp only [useSess_ars] at h1
    rcases hno with hno | ⟨o, ho1, ho2⟩
    · have b1 := (findUuid_inUse hi).1
      have hfl := (hg.l i).flive trivial b1
      unfold FullLive at hfl
      apply hno
      unfold WritePhase
      cases hc : (st.ars i).cmdev <;> rw [hc] at hfl <;> dsimp only at hfl
      · rw [hfl.1]; trivial
      · rw [hfl.2] at h1; simp at h1
      · rw [hfl.1]; trivial
      · rw [hfl.1]; trivial
      · rcases hfl with ⟨_, e, _⟩ | ⟨_, e, _⟩ <;> rw [e] <;> trivial
    · exact ho2 (not_denied h2' ho1)
  have hl : ∃ l, (useSess st s).log = l ++ st.log ∧ ∀ e ∈ l, e = .opened s := by
    unfold useSess
    split
    · exact ⟨[], rfl, by simp⟩
    · exact ⟨[.opened s], rfl, by simp⟩
  obtain ⟨l, hl, hl2⟩ := hl
  unfold write
  dsimp only
  rw [findUuid_useSess, hi]
  dsimp only
  cases checks with
  | false =>
    simp only [Bool.false_eq_true, if_false]
    refine ⟨⟨l, by simp [hl], fun e he => .inl (hl2 e he)⟩, by simp, by simp, ?_⟩
    intro k; exact ⟨(st.ars k).deadline, by simp⟩
  | true =>
    simp only [if_true, hrej]
    refine ⟨⟨.activity i st.now :: l, by simp [hl, cmsmRestart_log], ?_⟩, ?_, ?_, ?_⟩
    · intro e he
      simp at he
      rcases he with he | he
      · exact .inr he
      · exact .inl (hl2 e he)
    · simp [cmsmRestart_subs]
    · simp [cmsmRestart_sess]
    · intro k
      obtain ⟨d, hd⟩ := cmsmRestart_ars ((useSess st s).note (.activity i (useSess st s).now)) i k
      exact ⟨d, by simp only [note_ars]; rw [hd]; simp⟩

/-- A write that is forwarded and one that is not, both after orderly runs. -/
theorem C26_example :
    (∃ st st', exec cfg1 init (goodOps.take 2) = some st ∧ Run cfg1 (Orderly cfg1) init (goodOps.take 2) ∧
      step cfg1 st (.write 0 77 (0, 1, 1) 5 true true) = some st' ∧
      Forwarded 0 (0, 1, 1) 5 (st'.log.take (st'.log.length - st.log.length))) ∧
    (∃ st, exec cfg1 init [start0, .own (0, 2, 1) (some (some 1))] = some st ∧ findUuid cfg1 st 77 = some 0 ∧
      ∃ o, st.subs (0, 2, 1) = some o ∧ o ≠ some 0) ∧
    (∃ st, exec cfg1 init (goodOps.take 4) = some st ∧ Run cfg1 (Orderly cfg1) init (goodOps.take 4) ∧
      findUuid cfg1 st 77 = some 0 ∧ ¬ WritePhase (phase 0 st.log)) := by
  refine ⟨⟨(exec cfg1 init _).get (by rfl), (step cfg1 _ _).get (by rfl), (Option.some_get _).symm, ?_,
    (Option.some_get _).symm, .inl ?_⟩, ⟨(exec cfg1 init _).get (by rfl), (Option.some_get _).symm, by rfl,
    some 1, by rfl, by simp⟩, ⟨(exec cfg1 init _).get (by rfl), (Option.some_get _).symm, ?_, by rfl, ?_⟩⟩
  · obtain ⟨a, b⟩ := goodOps_orderly
    refine ⟨a, fun st' h => ?_⟩
    obtain ⟨a', _⟩ := b st' h
    exact ⟨a', fun _ _ => trivial⟩
  · have : ∀ l : List Entry, l.contains (Entry.wrote 0 (0, 1, 1) 5) = true → Entry.wrote 0 (0, 1, 1) 5 ∈ l := by
      intro l h; simpa using h
    exact this _ (by rfl)
  · obtain ⟨a, b⟩ := goodOps_orderly
    refine ⟨a, fun s1 h1 => ?_⟩
    obtain ⟨a1, b1⟩ := b s1 h1
    refine ⟨a1, fun s2 h2 => ?_⟩
    obtain ⟨a2, b2⟩ := b1 s2 h2
    refine ⟨a2, fun s3 h3 => ?_⟩
    obtain ⟨a3, _⟩ := b2 s3 h3
    exact ⟨a3, fun _ _ => trivial⟩
  · have : phase 0 ((exec cfg1 init (goodOps.take 4)).get (by rfl)).log = .prmended := by rfl
    rw [this]; exact id

/-- Nothing is plugged at the place, so nobody owns it: the write is forwarded all the same. -/
theorem C26_fails_unplugged : ¬ C26_statement := by
  intro h
  obtain ⟨new, h1, h2⟩ := h cfg1 [start0] ((exec cfg1 init [start0]).get (by rfl)) 0 77 (0, 9, 9) 5 true true
    _ (Option.some_get _).symm rfl
  have hnew : new = [.writeAnswer 0 (0, 9, 9) 5 true, .activity 0 0, .wrote 0 (0, 9, 9) 5] := by
    have : ([.writeAnswer 0 (0, 9, 9) 5 true, .activity 0 0, .wrote 0 (0, 9, 9) 5] : List Entry) ++
      ((exec cfg1 init [start0]).get (by rfl)).log = new ++ ((exec cfg1 init [start0]).get (by rfl)).log := by
      rw [← h1]; rfl
    exact (List.append_cancel_right this).symm
  subst hnew
  have := (h2 0 (0, 9, 9) 5 (.inl (by simp))).2.2.2.2
  cases this

/-! ## C27 -/

/-- C27.  In every reachable state, if the last well-formed DControl request on a session had sequence
number `n` and result `r`, then a request with sequence number `n` on this session is answered with `r`
and has no other effect: no callback, no event, no change of any connection. -/
theorem C27_retransmission (c : Cfg) (ops : List Op) (st : St) (h : exec c init ops = some st)
    (q : DcReq) (r : Nat) (hu : (st.sess q.s).inUse = true) (hl : lastDc q.s st.log = some (q.seq, r))
    (hp : q.parseOk = true) :
    step c st (.dcontrol q) = some (st.note (.dcAnswer q.s q.seq r true)) := by
  have hg := Good.exec (T := False) Good.init (fun t => t.elim) h
  have hd := hg.s.dc q.s hu
  rw [hl] at hd
  simp only [step, dcontrol]
  have huse : useSess st q.s = st := by unfold useSess; rw [if_pos hu]
  rw [huse, if_neg (by simp [hp]), if_pos hd.1, hd.2]

/-- The other way round: a request with another number is executed; for one that ends the
parametrisation of a connection the callback is called. -/
theorem C27_new_executed (c : Cfg) (ops : List Op) (st : St) (h : exec c init ops = some st)
    (ho : Run c (Orderly c) init ops) (q : DcReq) (i : Nat) (hp : q.parseOk = true) (hpl : q.plug = false)
    (hcmd : q.cmd = 1) (hu : (st.sess q.s).inUse = true) (hs : (st.sess q.s).ar = some i)
    (hf : findUuid c st q.u = some i) (hacc : (st.ars i).access = false)
    (hph : phase i st.log = .started)
    (hseq : ∀ n r, lastDc q.s st.log = some (n, r) → n ≠ q.seq)
    (hfirst : lastDc q.s st.log = none → q.seq ≠ 0xFFFFFFFF) :
    ∃ st', step c st (.dcontrol q) = some st' ∧ Entry.dcCallback i 1 ∈ st'.log.take (st'.log.length - st.log.length) := by
  have hg := Good.exec (T := True) Good.init (fun _ => ho) h
  have hd := hg.s.dc q.s hu
  have hin := (findUuid_inUse hf).1
  have hne : ¬ (st.sess q.s).dcSeq = q.seq := by
    intro he
    cases hx : lastDc q.s st.log with
    | none => rw [hx] at hd; exact hfirst hx (by rw [← he]; exact hd.1)
    | some x =>
      obtain ⟨n, r⟩ := x
      rw [hx] at hd
      exact hseq n r hx (by rw [← he]; exact hd.1.symm)
  have hfl := (hg.l i).flive trivial hin
  have hcd : (st.ars i).cmdev = .wPeind := by
    unfold FullLive at hfl
    rw [hph] at hfl
    cases hc : (st.ars i).cmdev <;> rw [hc] at hfl <;> simp [hacc] at hfl ⊢
  have huse : useSess st q.s = st := by unfold useSess; rw [if_pos hu]
  refine ⟨_, rfl, ?_⟩
  have key : ∀ (X : St), (∃ a, X.log = a ++ .dcCallback i 1 :: st.log) →
      Entry.dcCallback i 1 ∈ X.log.take (X.log.length - st.log.length) := by
    rintro X ⟨a, ha⟩
    rw [ha]
    have : (a ++ Entry.dcCallback i 1 :: st.log).length - st.log.length = (a ++ [Entry.dcCallback i 1]).length := by
      simp; omega
    rw [this, show a ++ Entry.dcCallback i 1 :: st.log = (a ++ [Entry.dcCallback i 1]) ++ st.log by simp,
      List.take_left]
    simp
  apply key
  unfold dcontrol
  dsimp only
  rw [huse, if_neg (by simp [hp]), if_neg hne, hf]
  dsimp only
  rw [if_neg (by simp [hpl])]
  have hcm : cmdPrmEnd = 1 := rfl
  have hlog : ∃ a, (cmdevDcontrol st i q.cmd q.appOk q.pdevOk).1.log = a ++ .dcCallback i 1 :: st.log := by
    unfold cmdevDcontrol
    dsimp only
    rw [if_neg (by simp [hacc]), hcd]
    dsimp only
    rw [if_pos (by rw [hcmd]; rfl)]
    simp only [setState_of_ne _ _ _ (show Cmdev.wPeres ≠ .abort by simp),
      setState_of_ne _ _ _ (show Cmdev.wArdy ≠ .abort by simp), hcm]
    split
    · split
      · exact ⟨[], by simp⟩
      · exact ⟨[_], by simp [stateInd_log]; rfl⟩
    · exact ⟨[_], by simp [stateInd_log]; rfl⟩
  obtain ⟨a, ha⟩ := hlog
  generalize cmdevDcontrol st i q.cmd q.appOk q.pdevOk = R at *
  generalize dcResult _ _ _ = res
  split
  · split
    · exact ⟨.dcAnswer q.s q.seq res true :: a, by simp [ha]⟩
    · rw [stateInd_log]
      exact ⟨_ :: .dcAnswer q.s q.seq res true :: a, by simp [ha]; rfl⟩
  · exact ⟨.dcAnswer q.s q.seq res true :: a, by simp [ha]⟩

/-- A repeated and a new request. -/
theorem C27_example : ∃ st, exec cfg1 init (goodOps.take 4) = some st ∧ (st.sess 0).inUse = true ∧
    lastDc 0 st.log = some (3, 0) :=
  ⟨(exec cfg1 init _).get (by rfl), (Option.some_get _).symm, by rfl, by rfl⟩

theorem C27_new_example : ∃ st, exec cfg1 init (goodOps.take 3) = some st ∧
    Run cfg1 (Orderly cfg1) init (goodOps.take 3) ∧ (st.sess 0).inUse = true ∧ (st.sess 0).ar = some 0 ∧
    findUuid cfg1 st 77 = some 0 ∧ (st.ars 0).access = false ∧ phase 0 st.log = .started ∧
    lastDc 0 st.log = none := by
  refine ⟨(exec cfg1 init _).get (by rfl), (Option.some_get _).symm, ?_, by rfl, by rfl, by rfl, by rfl,
    by rfl, by rfl⟩
  obtain ⟨a, b⟩ := goodOps_orderly
  refine ⟨a, fun s1 h1 => ?_⟩
  obtain ⟨a1, b1⟩ := b s1 h1
  refine ⟨a1, fun s2 h2 => ?_⟩
  obtain ⟨a2, b2⟩ := b1 s2 h2
  exact ⟨a2, fun _ _ => trivial⟩

/-- The number 0xFFFFFFFF marks "no request yet": a first request with this number is answered without
error but not executed. -/
theorem C27_first_number_lost : ∃ st, exec cfg1 init [start0] = some st ∧ lastDc 0 st.log = none ∧
    step cfg1 st (prmEnd 0 0xFFFFFFFF 77) = some (st.note (.dcAnswer 0 0xFFFFFFFF 0 true)) :=
  ⟨(exec cfg1 init _).get (by rfl), (Option.some_get _).symm, by rfl, by rfl⟩

/-! ## C62 -/

/-- C62 in full: no sequence of packets and calls makes an assertion fail or a null pointer be used. -/
def C62_statement : Prop := ∀ (c : Cfg) (ops : List Op), exec c init ops ≠ none

/-- Response packets carry the activity UUID of a session that the device opened (or of none), and
records of the application are only read with the UUID of a connection. -/
def Careful (c : Cfg) (st : St) : Op → Prop
  | .response s _ _ _ => (st.sess s).inUse = true → (st.sess s).fromMe = true
  | .read _ u implicit target idx _ => idx ≤ 0x7FFF →
    (findUuid c st u).isSome = true ∨ implicit = true ∧ (findUuid c st target).isSome = true
  | _ => True

theorem step_some {T : Prop} {c : Cfg} {st : St} {op : Op} (h : Good T st) (ho : Careful c st op) :
    ∃ st', step c st op = some st' := by
  cases op with
  | response s status done plug =>
    simp only [step, response]
    by_cases hu : (st.sess s).inUse = true
    · rw [if_pos hu]
      cases hs : (st.sess s).ar with
      | none => exact absurd hs (h.s.fme s (ho hu))
      | some i => dsimp only; repeat' split
                  all_goals exact ⟨_, rfl⟩
    · rw [if_neg hu]; exact ⟨_, rfl⟩
  | read s u im tg idx ch =>
    simp only [step, read, findUuid_useSess, readAr_useSess]
    split
    · exact ⟨_, rfl⟩
    split
    · exact ⟨_, rfl⟩
    have fin : ∀ X : St, ∃ st', (if im = true ∨ (X.sess s).ar = none then some (sessRelease X s) else some X) =
        some st' := by
      intro X; split <;> exact ⟨_, rfl⟩
    cases ch with
    | false => simp only [Bool.false_eq_true, if_false, Option.bind_some]; exact fin _
    | true =>
      simp only [if_true]
      generalize hA : readAr c st u im tg = A
      cases A with
      | some i => simp only [Option.bind_some]; exact fin _
      | none =>
        dsimp only
        have hi : ¬ idx ≤ idxUserMax := by
          intro hle
          rcases ho hle with h1 | ⟨h1, h2⟩
          · obtain ⟨i, hi⟩ := Option.isSome_iff_exists.1 h1
            unfold readAr at hA; rw [hi] at hA; cases hA
          · obtain ⟨i, hi⟩ := Option.isSome_iff_exists.1 h2
            cases hf : findUuid c st u with
            | some j => unfold readAr at hA; rw [hf] at hA; cases hA
            | none => unfold readAr at hA; rw [hf, h1, hi] at hA; cases hA
        rw [if_neg hi, Option.bind_some]
        exact fin _
  | _ => exact ⟨_, rfl⟩

/-- C62, partial: nothing of this kind happens with careful peers.  Missing: other packets
(`C62_fails_response`, `C62_fails_read`). -/
theorem C62_no_crash_partial (c : Cfg) (ops : List Op) (ho : Run c (Careful c) init ops) :
    exec c init ops ≠ none := by
  have : ∀ (ops : List Op) (st : St), Good False st → Run c (Careful c) st ops → exec c st ops ≠ none := by
    intro ops
    induction ops with
    | nil => intro st _ _; simp [exec]
    | cons o os ih =>
      intro st hg hr
      obtain ⟨st1, h1⟩ := step_some hg hr.1
      unfold exec
      rw [h1]
      exact ih st1 (hg.step (fun t => t.elim) h1) (hr.2 st1 h1)
  exact this ops init Good.init ho

theorem C62_example : Run cfg1 (Careful cfg1) init (goodOps ++ [.read 0 77 false 0 5 true]) := by
  refine ⟨trivial, fun _ h => ?_⟩; cases h
  refine ⟨trivial, fun _ h => ?_⟩; cases h
  refine ⟨trivial, fun _ h => ?_⟩; cases h
  refine ⟨trivial, fun _ h => ?_⟩; cases h
  refine ⟨trivial, fun _ h => ?_⟩; cases h
  refine ⟨trivial, fun _ h => ?_⟩; cases h
  refine ⟨trivial, fun _ h => ?_⟩; cases h
  refine ⟨fun _ => rfl, fun _ h => ?_⟩; cases h
  exact ⟨fun _ => .inl rfl, fun _ _ => trivial⟩

/-- Two packets from the network suffice: a request for an unknown interface (or a first fragment)
opens a session, a response with the same activity UUID then meets `CC_ASSERT (p_ar != NULL)`. -/
theorem C62_fails_response : ¬ C62_statement := fun h =>
  h cfg1 [.other 0, .response 0 0 false false] (by rfl)

/-- One packet suffices: a record of the application is read with a UUID that is no connection's. -/
theorem C62_fails_read : ¬ C62_statement := fun h =>
  h cfg1 [.read 0 99 false 0 5 true] (by rfl)

/-! ## C64 -/

/-- C64 in full: an explicit record read is executed only for the connection with the UUID given. -/
def C64_statement : Prop :=
  ∀ (c : Cfg) (ops : List Op) (st : St) (s u target idx : Nat) (checks : Bool) (st' : St),
    exec c init ops = some st → step c st (.read s u false target idx checks) = some st' →
    ∃ new, st'.log = new ++ st.log ∧ ∀ a u' x, Entry.readServed a u' x ∈ new →
      ∃ i, a = some i ∧ (st.ars i).inUse = true ∧ (st.ars i).uuid = u

/-- C64, partial: a read that is executed for a connection is executed for the one with the UUID given
(or, for an implicit read with an unknown UUID, the one with the target UUID).  Missing: explicit reads
with an unknown UUID, which are executed for no connection (`C64_fails`). -/
theorem C64_read_partial (c : Cfg) (st : St) (s u : Nat) (implicit : Bool) (target idx : Nat) (checks : Bool)
    (st' : St) (hs : step c st (.read s u implicit target idx checks) = some st') :
    ∃ new, st'.log = new ++ st.log ∧ ∀ i u' x, Entry.readServed (some i) u' x ∈ new →
      u' = u ∧ x = idx ∧ (st.ars i).inUse = true ∧
      ((st.ars i).uuid = u ∨ implicit = true ∧ (st.ars i).uuid = target) := by
  have hl : ∃ l, (useSess st s).log = l ++ st.log ∧ ∀ a u' x, Entry.readServed a u' x ∉ l := by
    unfold useSess
    split
    · exact ⟨[], rfl, by simp⟩
    · exact ⟨[.opened s], rfl, by simp⟩
  obtain ⟨l, hl, hln⟩ := hl
  simp only [step, read, findUuid_useSess, readAr_useSess] at hs
  split at hs
  · cases hs; exact ⟨l, by simp [hl], fun i u' x h => absurd h (hln _ _ _)⟩
  split at hs
  · cases hs; exact ⟨l, by simp [hl], fun i u' x h => absurd h (hln _ _ _)⟩
  have fin : ∀ X : St, (if implicit = true ∨ (X.sess s).ar = none then some (sessRelease X s) else some X) =
        some st' → st'.log = X.log := by
    intro X hx
    split at hx <;> cases hx <;> simp
  cases checks with
  | false =>
    simp only [Bool.false_eq_true, if_false, Option.bind_some] at hs
    exact ⟨l, by rw [fin _ hs, hl], fun i u' x h => absurd h (hln _ _ _)⟩
  | true =>
    simp only [if_true] at hs
    generalize hA : readAr c st u implicit target = A at hs
    cases A with
    | none =>
      dsimp only at hs
      split at hs
      · cases hs
      · rw [Option.bind_some] at hs
        refine ⟨.readServed none u idx :: l, by rw [fin _ hs]; simp [hl], ?_⟩
        intro i u' x h
        simp at h
        exact absurd h (hln _ _ _)
    | some i =>
      simp only [Option.bind_some] at hs
      refine ⟨.activity i st.now :: .readServed (some i) u idx :: l, by
        rw [fin _ hs]; simp [hl, cmsmRestart_log], ?_⟩
      intro j u' x h
      simp at h
      rcases h with ⟨rfl, rfl, rfl⟩ | h
      · refine ⟨rfl, rfl, ?_⟩
        cases hf : findUuid c st u' with
        | some k =>
          unfold readAr at hA; rw [hf] at hA; cases hA
          exact ⟨(findUuid_inUse hf).1, .inl (findUuid_inUse hf).2.2⟩
        | none =>
          unfold readAr at hA; rw [hf] at hA
          dsimp only at hA
          split at hA
          · rename_i hi
            exact ⟨(findUuid_inUse hA).1, .inr ⟨hi, (findUuid_inUse hA).2.2⟩⟩
          · cases hA
      · exact absurd h (hln _ _ _)

theorem C64_example : ∃ st st', exec cfg1 init [start0] = some st ∧
    step cfg1 st (.read 0 77 false 0 0x8028 true) = some st' ∧
    st'.log = [.activity 0 0, .readServed (some 0) 77 0x8028] ++ st.log :=
  ⟨(exec cfg1 init [start0]).get (by rfl), (step cfg1 _ (.read 0 77 false 0 0x8028 true)).get (by rfl),
    (Option.some_get _).symm, (Option.some_get _).symm, by rfl⟩

/-- Without any connection, a record (here an I&M record) is read with an arbitrary UUID. -/
theorem C64_fails : ¬ C64_statement := by
  intro h
  obtain ⟨new, h1, h2⟩ := h cfg1 [] init 0 99 0 0xAFF0 true
    ((step cfg1 init (.read 0 99 false 0 0xAFF0 true)).get (by rfl)) rfl (Option.some_get _).symm
  have e : ((step cfg1 init (.read 0 99 false 0 0xAFF0 true)).get (by rfl)).log =
    [.readServed none 99 0xAFF0, .opened 0] := by rfl
  rw [e] at h1
  have : new = [.readServed none 99 0xAFF0, .opened 0] := by
    have h3 : init.log = [] := rfl
    rw [h3, List.append_nil] at h1; exact h1.symm
  subst this
  obtain ⟨i, h3, _⟩ := h2 none 99 0xAFF0 (by simp)
  cases h3

/-! ## C63 -/

/-- C63 in full: a connection always has its session, and every session of a connection refers to it. -/
def Linked (st : St) : Prop :=
  ∀ i, (st.ars i).inUse = true → ∃ s, (st.ars i).sess = some s ∧ (st.sess s).inUse = true ∧
    (st.sess s).ar = some i

def C63_statement : Prop :=
  ∀ (c : Cfg) (ops : List Op) (st : St), exec c init ops = some st → Linked st

/-- C63, partial: true after orderly runs.  Missing: other runs (`C63_fails`). -/
theorem C63_linked_partial (c : Cfg) (ops : List Op) (st : St) (h : exec c init ops = some st)
    (ho : Run c (Orderly c) init ops) : Linked st := by
  have hg := Good.exec (T := True) Good.init (fun _ => ho) h
  intro i hi
  obtain ⟨s, a, b, d, _⟩ := hg.s.link trivial i hi
  exact ⟨s, a, b, d⟩

/-- C63, the half that holds for every run: a session never refers to a connection that is gone, and
refers to a connection only if it is the connection's session or one the device opened for it. -/
theorem C63_no_dangling_partial (c : Cfg) (ops : List Op) (st : St) (h : exec c init ops = some st)
    (s i : Nat) (hs : (st.sess s).ar = some i) : (st.sess s).inUse = true ∧ (st.ars i).inUse = true ∧
      ((st.ars i).sess = some s ∨ (st.sess s).fromMe = true) := by
  have hg := Good.exec (T := False) Good.init (fun t => t.elim) h
  refine ⟨?_, hg.s.sar s i hs⟩
  cases hc : (st.sess s).inUse
  · rw [(hg.s.sfree s hc).1] at hs; cases hs
  · rfl

theorem C63_example : ∃ st, exec cfg1 init goodOps = some st ∧ (st.ars 0).inUse = true ∧
    (st.sess 0).ar = some 0 :=
  ⟨(exec cfg1 init _).get (by rfl), (Option.some_get _).symm, by rfl, by rfl⟩

/-- A DControl request with an unknown AR UUID on the session of a connection ends the session but not
the connection. -/
theorem C63_fails : ¬ C63_statement := by
  intro h
  obtain ⟨s, a, b, _⟩ := h cfg1 [start0, prmEnd 0 4 99] ((exec cfg1 init [start0, prmEnd 0 4 99]).get (by rfl))
    (Option.some_get _).symm 0 (by rfl)
  have : s = 0 := by
    have e : (((exec cfg1 init [start0, prmEnd 0 4 99]).get (by rfl)).ars 0).sess = some 0 := by rfl
    rw [e] at a; exact (Option.some.inj a).symm
  subst this
  cases b

/-- … and when a second connection is then made on the same session, the end of the first connection
takes the session of the second away. -/
theorem C63_steals_session : ∃ st, exec cfg1 init [start0, prmEnd 0 4 99,
    .connect 0 78 false false 2 [true] (.accept .ok), .abort 0] = some st ∧
    (st.ars 1).inUse = true ∧ (st.ars 1).sess = some 0 ∧ (st.sess 0).inUse = false :=
  ⟨(exec cfg1 init _).get (by rfl), (Option.some_get _).symm, by rfl, by rfl, by rfl⟩

end Verif.Startup
