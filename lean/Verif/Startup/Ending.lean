import Verif.Startup.Props
/-!
C146: every request that ends a connection ends it.  The specification: a connection is *up* from its
STARTUP to its ABORT as told to the application (`upOf`, a function of the log), and `Ends` says which
connection a request is about.
-/
set_option linter.unusedSimpArgs false
set_option linter.unusedVariables false
namespace Verif.Startup

/-- Whether the application was told STARTUP of connection `i` and not ABORT since. -/
def upOf (i : Nat) : List Entry → Bool
  | [] => false
  | .event j .startup _ :: l => if j = i then true else upOf i l
  | .event j .abort _ :: l => if j = i then false else upOf i l
  | _ :: l => upOf i l

/-- The request is to end connection `i`: the application (or the stack on its behalf) aborts it, a
CANCEL, FAULT or REJECT packet arrives on a session that refers to it, a release request carries its
UUID, or its controller connects anew with the same UUID. -/
def Ends (st : St) (i : Nat) : Op → Prop
  | .abort j => j = i
  | .cancel s => (st.sess s).ar = some i
  | .release _ u => (st.ars i).uuid = u
  | .connect _ u _ _ _ _ _ => (st.ars i).uuid = u
  | _ => False

/-- The session a packet comes on. -/
def packetSess : Op → Option Nat
  | .cancel s => some s
  | .release s _ => some s
  | .connect s _ _ _ _ _ _ => some s
  | _ => none

def isEvent : Entry → Bool
  | .event _ _ _ => true
  | _ => false

/-! ## UUIDs are unique -/

def Keeps (st st' : St) : Prop := ∀ k, (st'.ars k).inUse = true →
  (st.ars k).inUse = true ∧ (st'.ars k).uuid = (st.ars k).uuid

theorem Keeps.refl (st : St) : Keeps st st := fun _ h => ⟨h, rfl⟩

theorem Keeps.trans {a b d : St} (h1 : Keeps a b) (h2 : Keeps b d) : Keeps a d := fun k h =>
  ⟨(h1 k (h2 k h).1).1, (h2 k h).2.trans (h1 k (h2 k h).1).2⟩

theorem Keeps.same {st st' : St} (h : st'.ars = st.ars) : Keeps st st' := fun k hk => by
  rw [h] at hk ⊢; exact ⟨hk, rfl⟩

theorem Keeps.setAr {st : St} {i : Nat} {a : Ar}
    (h : a.inUse = true → (st.ars i).inUse = true ∧ a.uuid = (st.ars i).uuid) :
    Keeps st (st.setAr i a) := fun k hk => by
  by_cases e : k = i
  · subst e; simp at hk ⊢; exact h hk
  · simp [e] at hk ⊢; exact hk

theorem Keeps.stateInd (st : St) (i : Nat) (e : Event) : Keeps st (stateInd st i e) := fun k hk => by
  rw [stateInd_ars] at hk ⊢
  by_cases h : k = i
  · subst h
    by_cases he : e = .abort
    · simp [he, Ar.zero] at hk
    · simp [he, arInd_inUse, arInd_uuid] at hk ⊢; exact hk
  · simp [h] at hk ⊢; exact hk

theorem Keeps.setState (st : St) (i : Nat) (v : Cmdev) : Keeps st (setState st i v) := by
  by_cases h : v = .abort
  · rw [h, setState_abort_eq]; exact Keeps.stateInd _ _ _
  · rw [setState_of_ne _ _ _ h]; exact Keeps.setAr fun h => ⟨h, rfl⟩

theorem Keeps.cmAbort (st : St) (i : Nat) : Keeps st (cmAbort st i) := by
  unfold Startup.cmAbort
  dsimp only
  repeat' split
  all_goals first | exact Keeps.setState _ _ _ | exact Keeps.refl _

theorem Keeps.sess (st : St) (s : Nat) : Keeps st (sessRelease st s) := Keeps.same (by simp)
theorem Keeps.use (st : St) (s : Nat) : Keeps st (useSess st s) := Keeps.same (by simp)
theorem Keeps.note (st : St) (e : Entry) : Keeps st (st.note e) := Keeps.same rfl
theorem Keeps.setSess (st : St) (s : Nat) (x : Sess) : Keeps st (st.setSess s x) := Keeps.same rfl

theorem Keeps.stateInd' {a b : St} {i : Nat} {e : Event} (h : Keeps a b) :
    Keeps a (Startup.stateInd b i e) := h.trans (Keeps.stateInd _ _ _)
theorem Keeps.setState' {a b : St} {i : Nat} {v : Cmdev} (h : Keeps a b) :
    Keeps a (Startup.setState b i v) := h.trans (Keeps.setState _ _ _)
theorem Keeps.cmAbort' {a b : St} {i : Nat} (h : Keeps a b) :
    Keeps a (Startup.cmAbort b i) := h.trans (Keeps.cmAbort _ _)
theorem Keeps.sess' {a b : St} {s : Nat} (h : Keeps a b) : Keeps a (sessRelease b s) :=
  h.trans (Keeps.sess _ _)
theorem Keeps.use' {a b : St} {s : Nat} (h : Keeps a b) : Keeps a (useSess b s) := h.trans (Keeps.use _ _)
theorem Keeps.note' {a b : St} {e : Entry} (h : Keeps a b) : Keeps a (b.note e) := h.trans (Keeps.note _ _)
theorem Keeps.setSess' {a b : St} {s : Nat} {x : Sess} (h : Keeps a b) : Keeps a (b.setSess s x) :=
  h.trans (Keeps.setSess _ _ _)
theorem Keeps.setAr' {a b : St} {i : Nat} {x : Ar} (h : Keeps a b) (h1 : x.inUse = (b.ars i).inUse)
    (h2 : x.uuid = (b.ars i).uuid) : Keeps a (b.setAr i x) :=
  h.trans (Keeps.setAr fun hx => ⟨by rw [← h1]; exact hx, h2⟩)

macro "keeps" : tactic => `(tactic| (
  repeat' first
    | with_reducible exact Keeps.refl _
    | with_reducible assumption
    | with_reducible apply Keeps.stateInd'
    | with_reducible apply Keeps.setState'
    | with_reducible apply Keeps.cmAbort'
    | with_reducible apply Keeps.sess'
    | with_reducible apply Keeps.use'
    | with_reducible apply Keeps.note'
    | with_reducible apply Keeps.setSess'
    | (with_reducible refine Keeps.setAr' ?_ rfl rfl)))

theorem Keeps.refuse (st : St) (i s : Nat) : Keeps st (refuse st i s) := by
  unfold Startup.refuse
  exact (Keeps.setAr (a := Ar.zero) (by simp [Ar.zero])).trans
    ((Keeps.setSess _ _ _).trans (Keeps.sess _ _))

theorem Keeps.release (c : Cfg) (st : St) (s u : Nat) : Keeps st (release c st s u) := by
  unfold Startup.release
  dsimp only
  repeat' split
  all_goals (try dsimp only)
  all_goals keeps

theorem Keeps.infoInd (st : St) (i : Nat) (b : Bool) : Keeps st (infoInd st i b) := by
  unfold Startup.infoInd
  dsimp only
  repeat' split
  all_goals (try dsimp only)
  all_goals keeps

theorem Keeps.cmpbeDcontrol (st : St) (i cmd : Nat) (b : Bool) : Keeps st (cmpbeDcontrol st i cmd b).1 := by
  unfold Startup.cmpbeDcontrol
  dsimp only
  repeat' split
  all_goals (try dsimp only)
  all_goals keeps

theorem Keeps.cmdevDcontrol (st : St) (i cmd : Nat) (a b : Bool) :
    Keeps st (cmdevDcontrol st i cmd a b).1 := by
  unfold Startup.cmdevDcontrol
  dsimp only
  have hp := Keeps.cmpbeDcontrol st i cmd a
  repeat' split
  all_goals (try dsimp only)
  all_goals keeps

theorem Keeps.dcontrol (c : Cfg) (st : St) (q : DcReq) : Keeps st (dcontrol c st q) := by
  unfold Startup.dcontrol
  dsimp only
  refine (Keeps.use st q.s).trans ?_
  have hp := fun i => Keeps.cmdevDcontrol (useSess st q.s) i q.cmd q.appOk q.pdevOk
  repeat' split
  all_goals keeps
  all_goals exact hp _

theorem Keeps.appReady (st : St) (i : Nat) (d : Bool) (o : Option Nat) : Keeps st (appReady st i d o) := by
  unfold Startup.appReady
  dsimp only
  repeat' split
  all_goals (try dsimp only)
  all_goals keeps

theorem Keeps.ccontrolCnf (st : St) (i : Nat) : Keeps st (ccontrolCnf st i).1 := by
  unfold Startup.ccontrolCnf
  dsimp only
  repeat' split
  all_goals (try dsimp only)
  all_goals keeps

theorem Keeps.response {st st' : St} {s x : Nat} {d p : Bool} (h : response st s x d p = some st') :
    Keeps st st' := by
  unfold Startup.response at h
  dsimp only at h
  repeat' split at h
  all_goals first
    | (cases h; done)
    | skip
  all_goals (have h := Option.some.inj h; subst h)
  all_goals first
    | exact Keeps.refl _
    | exact (Keeps.note _ _)
    | exact (Keeps.note _ _).trans (Keeps.sess _ _)
    | exact (Keeps.note _ _).trans ((Keeps.ccontrolCnf _ _).trans (Keeps.sess _ _))
    | exact (Keeps.note _ _).trans (Keeps.ccontrolCnf _ _)

theorem Keeps.cancel (st : St) (s : Nat) : Keeps st (cancel st s) := by
  unfold Startup.cancel
  repeat' split
  all_goals (try dsimp only)
  all_goals keeps

theorem Keeps.restart (st : St) (i : Nat) : Keeps st (cmsmRestart st i) := by
  unfold Startup.cmsmRestart
  dsimp only
  repeat' split
  all_goals (try dsimp only)
  all_goals keeps

theorem Keeps.read {c : Cfg} {st st' : St} {s u t idx : Nat} {imp ck : Bool}
    (h : read c st s u imp t idx ck = some st') : Keeps st st' := by
  unfold Startup.read at h
  dsimp only at h
  refine (Keeps.use st s).trans ?_
  split at h
  · cases h; exact Keeps.sess _ _
  split at h
  · cases h; exact Keeps.sess _ _
  rw [Option.bind_eq_some_iff] at h
  obtain ⟨st1, h1, h2⟩ := h
  have k1 : Keeps (useSess st s) st1 := by
    repeat' split at h1
    all_goals first
      | (cases h1; done)
      | (cases h1
         first
          | exact Keeps.refl _
          | exact Keeps.note _ _
          | exact ((Keeps.note _ _).trans (Keeps.note _ _)).trans (Keeps.restart _ _))
  refine k1.trans ?_
  split at h2
  · cases h2; exact Keeps.sess _ _
  · cases h2; exact Keeps.refl _

theorem Keeps.cmwrr (st : St) (i : Nat) (p : Place) (idx : Nat) (ok : Bool) :
    Keeps st (cmwrrInd' st i p idx ok).1 := by
  unfold Startup.cmwrrInd' Startup.cmwrrWrite
  repeat' split
  all_goals first | exact Keeps.refl _ | exact Keeps.note _ _

theorem Keeps.write (c : Cfg) (st : St) (s u : Nat) (p : Place) (idx : Nat) (ck ok : Bool) :
    Keeps st (write c st s u p idx ck ok) := by
  unfold Startup.write
  dsimp only
  refine (Keeps.use st s).trans ?_
  repeat' split
  all_goals first
    | exact Keeps.sess _ _
    | exact Keeps.note _ _
    | exact (((Keeps.cmwrr _ _ _ _ _).trans (Keeps.note _ _)).trans (Keeps.restart _ _)).trans (Keeps.note _ _)

theorem Keeps.cmioTimer (st : St) (i : Nat) : Keeps st (cmioTimer st i) := by
  unfold Startup.cmioTimer
  dsimp only
  split
  · exact Keeps.infoInd _ _ _
  · exact Keeps.setAr fun h => ⟨h, rfl⟩

theorem Keeps.cmsmTimer (st : St) (i : Nat) : Keeps st (cmsmTimer st i) := by
  unfold Startup.cmsmTimer
  dsimp only
  repeat' split
  all_goals (try dsimp only)
  all_goals keeps

theorem Keeps.cpm (st : St) (i crep : Nat) (b : Bool) : Keeps st (cpmStateInd st i crep b) := by
  unfold Startup.cpmStateInd
  dsimp only
  repeat' split
  all_goals (try dsimp only)
  all_goals keeps

theorem Keeps.newData (st : St) (i crep : Nat) (b : Bool) : Keeps st (newDataInd st i crep b) := by
  unfold Startup.newDataInd
  dsimp only
  repeat' split
  all_goals (try dsimp only)
  all_goals keeps

theorem Keeps.connectInd (st : St) (i s : Nat) (v : Verdict) : Keeps st (connectInd st i s v) := by
  unfold Startup.connectInd
  dsimp only
  repeat' split
  all_goals first
    | (keeps; done)
    | (refine Keeps.trans ?_ (Keeps.refuse _ _ _); keeps; done)

/-- Connections are in the table and have different UUIDs. -/
def UInv (c : Cfg) (st : St) : Prop :=
  (∀ i, (st.ars i).inUse = true → i < c.maxAr) ∧
  ∀ i j, (st.ars i).inUse = true → (st.ars j).inUse = true → (st.ars i).uuid = (st.ars j).uuid → i = j

theorem UInv.keeps {c : Cfg} {st st' : St} (h : UInv c st) (k : Keeps st st') : UInv c st' :=
  ⟨fun i hi => h.1 i (k i hi).1, fun i j hi hj e =>
    h.2 i j (k i hi).1 (k j hj).1 (by rw [← (k i hi).2, ← (k j hj).2, e])⟩

theorem findUuid_of {T : Prop} {c : Cfg} {st : St} {i : Nat} (hg : Good T st) (hu : UInv c st)
    (hi : (st.ars i).inUse = true) : findUuid c st (st.ars i).uuid = some i := by
  cases hf : findUuid c st (st.ars i).uuid with
  | some j =>
    obtain ⟨h1, h2, h3⟩ := findUuid_inUse hf
    rw [hu.2 j i h1 hi h3]
  | none =>
    unfold findUuid at hf
    rw [List.find?_eq_none] at hf
    have h1 := hf i (List.mem_range.2 (hu.1 i hi))
    have hl := (hg.l i).live hi
    have hp : (st.ars i).cmdev ≠ .powerOn := by
      intro e; unfold Live at hl; rw [e] at hl; exact hl
    simp [hi, hp] at h1

theorem UInv.connect {T : Prop} {c : Cfg} {st : St} (hg : Good T st) (h : UInv c st) (s u : Nat)
    (a b : Bool) (f : Nat) (io : List Bool) (v : Verdict) :
    UInv c (Startup.connect c st s u a b f io v) := by
  unfold Startup.connect
  dsimp only
  have h0 := h.keeps (Keeps.use st s)
  split
  · exact h0.keeps ((Keeps.cmAbort _ _).trans (Keeps.sess _ _))
  rename_i hn
  split
  · exact h0.keeps (Keeps.sess _ _)
  rename_i i hi
  refine UInv.keeps ?_ ((Keeps.setSess _ _ _).trans (Keeps.connectInd _ _ _ _))
  obtain ⟨f1, f2⟩ := findFree_free hi
  have key : ∀ j, ((useSess st s).ars j).inUse = true → ((useSess st s).ars j).uuid ≠ u := by
    intro j hj e
    have := findUuid_of (hg.useSess s) h0 hj
    rw [e, hn] at this; cases this
  constructor
  · intro k hk
    by_cases e : k = i
    · rw [e]; exact f2
    · simp [e] at hk; exact h.1 k hk
  · intro k j hk hj e
    by_cases e1 : k = i <;> by_cases e2 : j = i
    · rw [e1, e2]
    · simp [e1, e2] at hj e
      exact absurd e.symm (by have := key j (by simpa using hj); simpa using this)
    · simp [e1, e2] at hk e
      exact absurd e (by have := key k (by simpa using hk); simpa using this)
    · simp [e1, e2] at hk hj e
      exact h.2 k j hk hj e

theorem UInv.step {T : Prop} {c : Cfg} {st st' : St} {op : Op} (hg : Good T st) (h : UInv c st)
    (hs : step c st op = some st') : UInv c st' := by
  cases op with
  | response s x d p => exact h.keeps (Keeps.response hs)
  | read s u a b d e => exact h.keeps (Keeps.read hs)
  | connect s u a b f io v => cases hs; exact h.connect hg s u a b f io v
  | release s u => cases hs; exact h.keeps (Keeps.release _ _ _ _)
  | dcontrol q => cases hs; exact h.keeps (Keeps.dcontrol _ _ _)
  | cancel s => cases hs; exact h.keeps (Keeps.cancel _ _)
  | write s u p idx a b => cases hs; exact h.keeps (Keeps.write _ _ _ _ _ _ _ _)
  | other s => cases hs; exact h.keeps (Keeps.use _ _)
  | appReady i d o => cases hs; exact h.keeps (Keeps.appReady _ _ _ _)
  | abort i =>
    cases hs
    split
    · exact h.keeps (Keeps.cmAbort _ _)
    · exact h
  | cmioTimer i => cases hs; exact h.keeps (Keeps.cmioTimer _ _)
  | cmsmTimer i => cases hs; exact h.keeps (Keeps.cmsmTimer _ _)
  | cpmState i r b => cases hs; exact h.keeps (Keeps.cpm _ _ _ _)
  | newData i r b => cases hs; exact h.keeps (Keeps.newData _ _ _ _)
  | tick d => cases hs; exact h
  | own p o => cases hs; exact h

theorem UInv.exec {c : Cfg} : ∀ {ops : List Op} {st st' : St}, Good False st → UInv c st →
    Startup.exec c st ops = some st' → UInv c st'
  | [], st, st', _, h, he => by cases he; exact h
  | o :: os, st, st', hg, h, he => by
    simp only [Startup.exec, Option.bind_eq_some_iff] at he
    obtain ⟨st1, h1, h2⟩ := he
    exact UInv.exec (hg.step (fun t => t.elim) h1) (h.step hg h1) h2

theorem UInv.init (c : Cfg) : UInv c Startup.init :=
  ⟨fun i h => by simp [Startup.init, Ar.zero] at h, fun i j h => by simp [Startup.init, Ar.zero] at h⟩

/-- **C147**: at any time two connections in use have different UUIDs (and are within the table). -/
theorem C147_uuids_differ (c : Cfg) (ops : List Op) (st : St) (h : exec c init ops = some st)
    (i j : Nat) (hi : (st.ars i).inUse = true) (hj : (st.ars j).inUse = true) :
    i < c.maxAr ∧ ((st.ars i).uuid = (st.ars j).uuid → i = j) := by
  have hu := UInv.exec (Good.init) (UInv.init c) h
  exact ⟨hu.1 i hi, hu.2 i j hi hj⟩

/-! ## Ending -/

theorem upOf_weak (i : Nat) (l : List Entry) :
    weak i l = .bad ∨ (upOf i l = true ↔ weak i l ≠ .idle) := by
  induction l with
  | nil => right; simp [upOf, weak]
  | cons e l ih =>
    rw [weak_cons]
    cases e with
    | event j e t =>
      by_cases hj : j = i
      · subst hj
        cases e <;> cases hw : weak j l <;> simp [weakNext, upOf, hw] at ih ⊢ <;> exact ih
      · cases e <;> simp [weakNext, upOf, hj] <;> exact ih
    | readyCall j =>
      simp only [weakNext, upOf]
      split
      · rename_i h; simp [h.2] at ih ⊢; exact ih
      · exact ih
    | readyRsp j x d =>
      simp only [weakNext, upOf]
      split
      · rename_i h; simp [h.2.1] at ih ⊢; exact ih
      · exact ih
    | _ => simpa [weakNext, upOf] using ih

theorem up_facts {st : St} {i : Nat} (hg : Good False st) (h : upOf i st.log = true) :
    (st.ars i).inUse = true ∧ Live (st.ars i) (weak i st.log) ∧ (st.ars i).cmdev ≠ .wCind := by
  have hw : weak i st.log ≠ .idle := by
    rcases upOf_weak i st.log with e | e
    · exact absurd e (hg.weak_ok i)
    · exact e.1 h
  have hin : (st.ars i).inUse = true := by
    cases e : (st.ars i).inUse with
    | true => rfl
    | false => exact absurd ((hg.l i).zero e).2 hw
  have hl := (hg.l i).live hin
  refine ⟨hin, hl, fun e => ?_⟩
  unfold Live at hl; rw [e] at hl; exact hw hl.1

/-- What the end of connection `i` looks like. -/
structure Ended (st st' : St) (i : Nat) : Prop where
  /-- The application is told once, and nothing else. -/
  told : ∃ new, st'.log = new ++ st.log ∧ new.filter isEvent = [.event i .abort st.now]
  down : upOf i st'.log = false
  /-- Its entry is free, and every API call that names it is refused. -/
  free : (st'.ars i).inUse = false
  /-- No session refers to it. -/
  unlinked : ∀ s, (st'.sess s).ar ≠ some i
  /-- It owns no submodule; what others own is not touched. -/
  given : ∀ p, st'.subs p = if st.subs p = some (some i) then some none else st.subs p
  /-- Other connections are not touched. -/
  others : ∀ j, j ≠ i → st'.ars j = st.ars j

theorem ended_core {st st0 : St} {i : Nat} {pre : List Entry} (hg : Good False st0)
    (ha : st0.ars = st.ars) (hs : st0.subs = st.subs) (hn : st0.now = st.now)
    (hl : st0.log = pre ++ st.log) (hp : pre.filter isEvent = []) :
    Ended st (stateInd st0 i .abort) i := by
  refine ⟨⟨.event i .abort st.now :: pre, by rw [stateInd_log, hl, hn]; rfl, by
    rw [List.filter_cons_of_pos rfl, hp]⟩,
    by rw [stateInd_log]; simp [upOf], by rw [stateInd_ars]; simp [Ar.zero],
    fun s => abort_no_ref hg, fun p => by rw [stateInd_subs]; simp [hs],
    fun j hj => by rw [stateInd_ars, if_neg hj, ha]⟩

theorem Ended.release {st st' : St} {i s : Nat} (h : Ended st st' i) : Ended st (sessRelease st' s) i := by
  obtain ⟨h1, h2, h3, h4, h5, h6⟩ := h
  refine ⟨by simpa using h1, by simpa using h2, by simpa using h3, fun t => ?_, fun p => by simpa using h5 p,
    fun j hj => by simpa using h6 j hj⟩
  rw [sessRelease_sess]
  split
  · simp [Sess.zero]
  · exact h4 t

theorem sess_free (st : St) (s : Nat) : ((sessRelease st s).sess s).inUse = false := by
  rw [sessRelease_sess]
  split
  · rfl
  · rename_i h
    cases e : (st.sess s).inUse
    · rfl
    · exact absurd ⟨rfl, e⟩ h

/-- **C146**: whatever happened before, a connection that is up is ended by each request to end it: the
application is told ABORT (once), the entry and the sessions are free, its submodules are given up,
and nothing of other connections changes.  The session the request came on is free afterwards. -/
theorem C146_ends (c : Cfg) (ops : List Op) (st st' : St) (op : Op) (i : Nat)
    (h : exec c init ops = some st) (hup : upOf i st.log = true) (he : Ends st i op)
    (hs : step c st op = some st') :
    Ended st st' i ∧ ∀ s, packetSess op = some s → (st'.sess s).inUse = false := by
  have hg : Good False st := Good.exec Good.init (fun t => t.elim) h
  have hu := UInv.exec Good.init (UInv.init c) h
  obtain ⟨hin, hl, hc⟩ := up_facts hg hup
  have ul : ∀ s, ∃ pre, (useSess st s).log = pre ++ st.log ∧ pre.filter isEvent = [] := by
    intro s
    rw [useSess_log]
    split
    · exact ⟨[], rfl, rfl⟩
    · exact ⟨[.opened s], rfl, rfl⟩
  cases op with
  | abort j =>
    obtain rfl : j = i := he
    simp only [step, if_pos hin, Option.some.injEq] at hs
    subst hs
    rw [cmAbort_eq hl hc]
    exact ⟨ended_core (pre := []) hg rfl rfl rfl rfl rfl, fun s hs => by cases hs⟩
  | cancel s =>
    have hse : (st.sess s).ar = some i := he
    have hsu : (st.sess s).inUse = true := by
      cases e : (st.sess s).inUse
      · rw [(hg.s.sfree s e).1] at hse; cases hse
      · rfl
    simp only [step, cancel, if_pos hsu, hse, Option.some.injEq] at hs
    subst hs
    rw [cmAbort_eq hl hc]
    refine ⟨(ended_core (pre := []) hg rfl rfl rfl rfl rfl).release, fun t ht => ?_⟩
    cases ht; exact sess_free _ _
  | release s u =>
    obtain rfl : (st.ars i).uuid = u := he
    have hf := findUuid_of hg hu hin
    obtain ⟨pre, p1, p2⟩ := ul s
    have key : Ended st (stateInd (useSess st s) i .abort) i :=
      ended_core (hg.useSess s) (by simp) (by simp) (by simp) p1 p2
    have e : Startup.release c st s (st.ars i).uuid = sessRelease (stateInd (useSess st s) i .abort) s := by
      unfold Startup.release
      dsimp only
      rw [findUuid_useSess, hf]
      dsimp only
      simp only [useSess_ars]
      unfold Live at hl
      cases hd : (st.ars i).cmdev <;> rw [hd] at hl <;> simp [setState_abort_eq] at hl hc ⊢ <;>
        first
        | exact absurd hd hc
        | (cases ha : (st.ars i).access <;> simp [ha, setState_abort_eq] at hl ⊢)
    simp only [step, e, Option.some.injEq] at hs
    subst hs
    exact ⟨key.release, fun t ht => by cases ht; exact sess_free _ _⟩
  | connect s u a b f io v =>
    obtain rfl : (st.ars i).uuid = u := he
    have hf := findUuid_of hg hu hin
    obtain ⟨pre, p1, p2⟩ := ul s
    have key : Ended st (stateInd (useSess st s) i .abort) i :=
      ended_core (hg.useSess s) (by simp) (by simp) (by simp) p1 p2
    have hl' : Live ((useSess st s).ars i) (weak i (useSess st s).log) :=
      ((hg.useSess s).l i).live (by simpa using hin)
    have e : Startup.connect c st s (st.ars i).uuid a b f io v =
        sessRelease (stateInd (useSess st s) i .abort) s := by
      unfold Startup.connect
      dsimp only
      rw [findUuid_useSess, hf]
      dsimp only
      rw [cmAbort_eq hl' (by simpa using hc)]
    simp only [step, e, Option.some.injEq] at hs
    subst hs
    exact ⟨key.release, fun t ht => by cases ht; exact sess_free _ _⟩
  | _ => exact he.elim

/-- Nothing else but the connection of the session is ended by a CANCEL, FAULT or REJECT packet: on an
unknown session it changes nothing, on a session without connection it only frees the session. -/
theorem C146_cancel_other (c : Cfg) (ops : List Op) (st : St) (s : Nat) (h : exec c init ops = some st)
    (hn : (st.sess s).ar = none) : ∃ st', step c st (.cancel s) = some st' ∧ st'.ars = st.ars ∧
      st'.subs = st.subs ∧ st'.log = st.log ∧ (st'.sess s).inUse = false ∧
      ∀ t, t ≠ s → st'.sess t = st.sess t := by
  have e : cancel st s = sessRelease st s := by
    unfold cancel
    by_cases hu : (st.sess s).inUse = true
    · rw [if_pos hu, hn]
    · rw [if_neg hu]; unfold sessRelease; rw [if_neg hu]
  refine ⟨sessRelease st s, by rw [step, e], by simp, by simp, by simp, sess_free _ _, fun t ht => ?_⟩
  rw [sessRelease_sess, if_neg (by simp [ht])]

/-- Two connections, one in data exchange: each of the requests is about connection 0, which is up. -/
def twoOps : List Op := goodOps ++ [.connect 3 78 true false 2 [] (.accept .ok)]

theorem C146_example : ∃ st, exec cfg1 init twoOps = some st ∧ upOf 0 st.log = true ∧
    upOf 1 st.log = true ∧ st.subs (0, 1, 1) = some (some 0) ∧ Ends st 0 (.cancel 0) ∧
    Ends st 0 (.release 5 77) ∧ Ends st 0 (.connect 6 77 false false 2 [] (.accept .ok)) ∧
    Ends st 1 (.cancel 3) :=
  ⟨(exec cfg1 init twoOps).get (by rfl), (Option.some_get _).symm, by rfl, by rfl, by rfl, by rfl, by rfl,
    by rfl, by rfl⟩

end Verif.Startup
