import Verif.Startup.Ending
/-!
C159: a connection in data exchange can be parameterised again.  The controller announces this with a DControl request "parameter begin", writes records, and ends
it with "parameter end"; the state machine for this is CMPBE (src/device/pf_cmpbe.c).  That a request "parameter begin" does not get through
the RPC layer is proved in `Verif/Control/Begin.lean`.
-/
set_option linter.unusedSimpArgs false
set_option linter.unusedVariables false
namespace Verif.Startup

/-! ## Specification -/

/-- The application was told DATA of connection `i`, and not ABORT since. -/
def inData (i : Nat) : List Entry → Bool
  | [] => false
  | .event j .data _ :: l => if j = i then true else inData i l
  | .event j .abort _ :: l => if j = i then false else inData i l
  | _ :: l => inData i l

/-- A DControl request with command `cmd` (1: parameter end, 64: parameter begin), understood, not about a plug alarm, with a sequence number that is new on a
session in use, for connection `i`; the application agrees. -/
structure Fresh (st : St) (i cmd : Nat) (q : DcReq) : Prop where
  parse : q.parseOk = true
  plug : q.plug = false
  cmd : q.cmd = cmd
  app : q.appOk = true
  used : (st.sess q.s).inUse = true
  seq : ∀ n r, lastDc q.s st.log = some (n, r) → n ≠ q.seq
  first : lastDc q.s st.log = none → q.seq ≠ 0xFFFFFFFF
  conn : (st.ars i).inUse = true
  uuid : (st.ars i).uuid = q.u

/-- **C159** as one would expect it: in data exchange a "parameter begin" and then a "parameter end" are given to the application, and data exchange goes on. -/
def C159_statement : Prop :=
  ∀ (c : Cfg) (ops : List Op) (st st1 st2 : St) (i : Nat) (q1 q2 : DcReq), exec c init ops = some st → inData i st.log = true →
    Fresh st i 64 q1 → step c st (.dcontrol q1) = some st1 → Fresh st1 i 1 q2 → step c st1 (.dcontrol q2) = some st2 →
    Entry.dcCallback i 64 ∈ st1.log ∧ Entry.dcCallback i 1 ∈ st2.log.take (st2.log.length - st1.log.length) ∧ inData i st2.log = true

/-! ## Data exchange and the state of CMPBE -/

/-- A connection in data exchange whose CMPBE machine was not started. -/
def Bad (a : Ar) : Prop := a.access = false ∧ a.cmdev = .data ∧ a.cmpbe = .idle

/-- No connection becomes `Bad`; given `P`, the application is not told "parameter begin". -/
def Calm (P : Prop) (st st' : St) : Prop :=
  (∀ k, Bad (st'.ars k) → Bad (st.ars k)) ∧ (P → ∀ j, Entry.dcCallback j 64 ∈ st'.log → Entry.dcCallback j 64 ∈ st.log)

variable {P : Prop}

theorem Calm.refl (st : St) : Calm P st st := ⟨fun _ h => h, fun _ _ h => h⟩

theorem Calm.trans {a b d : St} (h1 : Calm P a b) (h2 : Calm P b d) : Calm P a d :=
  ⟨fun k h => h1.1 k (h2.1 k h), fun hp j h => h1.2 hp j (h2.2 hp j h)⟩

theorem Calm.same {st st' : St} (h1 : st'.ars = st.ars) (h2 : st'.log = st.log) : Calm P st st' :=
  ⟨fun k h => by rw [h1] at h; exact h, fun _ j h => by rw [h2] at h; exact h⟩

/-- The entry does not tell the application "parameter begin". -/
def Quiet : Entry → Prop
  | .dcCallback _ n => n ≠ 64
  | _ => True

theorem Calm.note' {a b : St} {e : Entry} (h : Calm P a b) (he : Quiet e) : Calm P a (b.note e) :=
  h.trans ⟨fun _ h => h, fun _ j hj => by
    rw [note_log, List.mem_cons] at hj
    rcases hj with hj | hj
    · subst hj; exact absurd rfl he
    · exact hj⟩

theorem Calm.setSess' {a b : St} {s : Nat} {x : Sess} (h : Calm P a b) : Calm P a (b.setSess s x) := h.trans (Calm.same rfl rfl)
theorem Calm.sess' {a b : St} {s : Nat} (h : Calm P a b) : Calm P a (sessRelease b s) := h.trans (Calm.same (by simp) (by simp))

theorem Calm.use' {a b : St} {s : Nat} (h : Calm P a b) : Calm P a (useSess b s) := by
  unfold useSess
  split
  · exact h
  · exact (h.setSess').note' trivial

theorem Calm.setAr' {a b : St} {i : Nat} {x : Ar} (h : Calm P a b) (hx : Bad x → Bad (b.ars i)) : Calm P a (b.setAr i x) :=
  h.trans ⟨fun k hk => by
    by_cases e : k = i
    · subst e; simp at hk; exact hx hk
    · simp [e] at hk; exact hk, fun _ _ hj => hj⟩

theorem zero_not_bad : ¬ Bad Ar.zero := fun h => by cases h.2.1

theorem pbe_data (b : Cmpbe) : pbeNext b .data ≠ .idle := by cases b <;> simp [pbeNext]

theorem pbe_idle {b : Cmpbe} {e : Event} (he : e ≠ .abort) (h : pbeNext b e = .idle) : b = .idle := by
  cases b <;> cases e <;> simp_all [pbeNext]

theorem Calm.stateInd' {a b : St} {i : Nat} {e : Event} (h : Calm P a b) : Calm P a (stateInd b i e) :=
  h.trans ⟨fun k hk => by
    rw [stateInd_ars] at hk
    by_cases hki : k = i
    · subst hki
      by_cases he : e = .abort
      · simp only [he, if_true] at hk; exact absurd hk zero_not_bad
      · simp only [he, if_true, if_false] at hk
        obtain ⟨h1, h2, h3⟩ := hk
        rw [arInd_access] at h1
        rw [arInd_cmdev] at h2
        rw [arInd_cmpbe] at h3
        exact ⟨h1, h2, pbe_idle he h3⟩
    · simp only [hki, if_false] at hk; exact hk, fun _ j hj => by
    rw [stateInd_log] at hj
    rcases List.mem_cons.1 hj with hj | hj
    · cases hj
    · exact hj⟩

theorem Calm.setState' {a b : St} {i : Nat} {v : Cmdev} (h : Calm P a b) (hv : v ≠ .data) : Calm P a (setState b i v) := by
  by_cases e : v = .abort
  · rw [e, setState_abort_eq]; exact h.stateInd'
  · rw [setState_of_ne _ _ _ e]
    exact h.setAr' fun hb => absurd hb.2.1 hv

/-- Data exchange starts: the CMPBE machine is started with it. -/
theorem Calm.data' {a b : St} {i : Nat} (h : Calm P a b) : Calm P a (setState (stateInd b i .data) i .data) := by
  rw [setState_of_ne _ _ _ (by simp)]
  refine h.stateInd'.setAr' fun hb => ?_
  have := hb.2.2
  simp only [stateInd_ars, if_true] at this
  rw [if_neg (by simp), arInd_cmpbe] at this
  exact absurd this (pbe_data _)

theorem Calm.cmAbort' {a b : St} {i : Nat} (h : Calm P a b) : Calm P a (cmAbort b i) := by
  unfold cmAbort
  dsimp only
  repeat' split
  all_goals first | exact h.setState' (by simp) | exact h

macro "calm" : tactic => `(tactic| (
  repeat' first
    | with_reducible exact Calm.refl _
    | with_reducible assumption
    | with_reducible apply Calm.data'
    | with_reducible apply Calm.stateInd'
    | (with_reducible refine Calm.setState' ?_ (by simp))
    | with_reducible apply Calm.cmAbort'
    | with_reducible apply Calm.sess'
    | with_reducible apply Calm.use'
    | (with_reducible refine Calm.note' ?_ (by simp [Quiet, cmdPrmEnd]))
    | with_reducible apply Calm.setSess'
    | with_reducible apply Calm.setAr'
    | exact fun (h : Bad _) => h))

theorem Calm.infoInd (st : St) (i : Nat) (b : Bool) : Calm P st (infoInd st i b) := by
  unfold Startup.infoInd
  dsimp only
  repeat' split
  all_goals (try dsimp only)
  all_goals calm

theorem Calm.refuse' {a b : St} {i s : Nat} (h : Calm P a b) : Calm P a (refuse b i s) := by
  unfold Startup.refuse
  exact ((h.setAr' fun hb => absurd hb zero_not_bad).setSess').sess'

theorem Calm.connectInd' {a b : St} {i s : Nat} {v : Verdict} (h : Calm P a b) : Calm P a (connectInd b i s v) := by
  unfold Startup.connectInd
  dsimp only
  repeat' split
  case h_2.isTrue hacc =>
    rw [setState_of_ne _ _ _ (show Cmdev.data ≠ .abort by simp)]
    refine Calm.setAr' (by calm) fun hb => ?_
    have := hb.1
    simp only [stateInd_ars, if_true, note_ars] at this
    rw [if_neg (by simp), arInd_access, hacc] at this
    cases this
  all_goals first
    | (calm; done)
    | (apply Calm.refuse'; calm; done)
    | skip

theorem Calm.connect (c : Cfg) (st : St) (s u : Nat) (a b : Bool) (f : Nat) (io : List Bool) (v : Verdict) :
    Calm P st (connect c st s u a b f io v) := by
  unfold Startup.connect
  dsimp only
  repeat' split
  · calm
  · calm
  · apply Calm.connectInd'
    apply Calm.setSess'
    refine Calm.setAr' (by calm) fun hb => ?_
    cases hb.2.1

theorem Calm.release (c : Cfg) (st : St) (s u : Nat) : Calm P st (release c st s u) := by
  unfold Startup.release
  dsimp only
  repeat' split
  all_goals (try dsimp only)
  all_goals calm

/-- The state of CMPBE a connection can have; see `Good`. -/
def PbeOk (a : Ar) : Prop := (a.cmpbe = .idle ∨ a.cmpbe = .wfind ∨ a.cmpbe = .wfrsp) ∧ a.stored = 0

theorem Calm.cmpbeDcontrol (st : St) (i cmd : Nat) (b : Bool) (h : PbeOk (st.ars i)) :
    Calm (cmd ≠ 64) st (cmpbeDcontrol st i cmd b).1 := by
  unfold Startup.cmpbeDcontrol
  dsimp only
  obtain ⟨h1, h2⟩ := h
  rcases h1 with e | e | e <;> rw [e] <;> dsimp only
  · exact Calm.refl _
  · rw [if_neg (by simp [h2])]
    split
    · rename_i hc
      refine ⟨fun k hk => ?_, fun hp => absurd hc hp⟩
      by_cases hki : k = i
      · subst hki; simp at hk; cases hk.2.2
      · simp [hki] at hk; exact hk
    · exact Calm.refl _
  · exact Calm.refl _

theorem Calm.cmdevDcontrol (st : St) (i cmd : Nat) (a b : Bool) (h : PbeOk (st.ars i)) :
    Calm (cmd ≠ 64) st (cmdevDcontrol st i cmd a b).1 := by
  unfold Startup.cmdevDcontrol
  dsimp only
  have hp := Calm.cmpbeDcontrol st i cmd a h
  repeat' split
  all_goals (try dsimp only)
  all_goals calm

theorem Calm.dcontrol (c : Cfg) (st : St) (q : DcReq) (h : ∀ i, PbeOk (st.ars i)) :
    Calm (q.parseOk = true → q.cmd ≠ 64) st (dcontrol c st q) := by
  unfold Startup.dcontrol
  dsimp only
  refine (Calm.use' (s := q.s) (Calm.refl _)).trans ?_
  by_cases hpar : q.parseOk = true
  · have hp := fun i => Calm.cmdevDcontrol (useSess st q.s) i q.cmd q.appOk q.pdevOk (by simpa using h i)
    have hP : (q.parseOk = true → q.cmd ≠ 64) = (q.cmd ≠ 64) := by simp [hpar]
    rw [hP]
    repeat' split
    all_goals calm
    all_goals exact hp _
  · rw [if_pos (by simpa using hpar)]
    calm

theorem Calm.appReady (st : St) (i : Nat) (d : Bool) (o : Option Nat) : Calm P st (appReady st i d o) := by
  unfold Startup.appReady
  dsimp only
  repeat' split
  all_goals (try dsimp only)
  all_goals calm

theorem Calm.ccontrolCnf (st : St) (i : Nat) : Calm P st (ccontrolCnf st i).1 := by
  unfold Startup.ccontrolCnf
  dsimp only
  repeat' split
  all_goals (try dsimp only)
  all_goals calm

theorem Calm.sess (st : St) (s : Nat) : Calm P st (sessRelease st s) := (Calm.refl _).sess'

theorem Calm.response {st st' : St} {s x : Nat} {d p : Bool} (h : response st s x d p = some st') :
    Calm P st st' := by
  have hn : ∀ j y z, Calm P st (st.note (.readyRsp j y z)) := fun j y z => (Calm.refl _).note' trivial
  unfold Startup.response at h
  dsimp only at h
  repeat' split at h
  all_goals first
    | (cases h; done)
    | skip
  all_goals (have h := Option.some.inj h; subst h)
  all_goals first
    | exact Calm.refl _
    | exact hn _ _ _
    | exact (hn _ _ _).trans (Calm.sess _ _)
    | exact (hn _ _ _).trans ((Calm.ccontrolCnf _ _).trans (Calm.sess _ _))
    | exact (hn _ _ _).trans (Calm.ccontrolCnf _ _)
    | exact Calm.sess _ _

theorem Calm.cancel (st : St) (s : Nat) : Calm P st (cancel st s) := by
  unfold Startup.cancel
  repeat' split
  all_goals (try dsimp only)
  all_goals calm

theorem Calm.restart' {a b : St} {i : Nat} (h : Calm P a b) : Calm P a (cmsmRestart b i) := by
  unfold Startup.cmsmRestart
  dsimp only
  repeat' split
  all_goals (try dsimp only)
  all_goals calm

theorem Calm.read {c : Cfg} {st st' : St} {s u t idx : Nat} {imp ck : Bool}
    (h : read c st s u imp t idx ck = some st') : Calm P st st' := by
  unfold Startup.read at h
  dsimp only at h
  refine (Calm.use' (Calm.refl _) : Calm P st (useSess st s)).trans ?_
  split at h
  · cases h; exact Calm.sess _ _
  split at h
  · cases h; exact Calm.sess _ _
  rw [Option.bind_eq_some_iff] at h
  obtain ⟨st1, h1, h2⟩ := h
  have k1 : Calm P (useSess st s) st1 := by
    repeat' split at h1
    all_goals first
      | (cases h1; done)
      | (cases h1
         first
          | exact Calm.refl _
          | exact (Calm.refl _).note' trivial
          | exact Calm.restart' (Calm.note' (Calm.note' (Calm.refl _) (by trivial)) (by trivial)))
  refine k1.trans ?_
  split at h2
  · cases h2; exact Calm.sess _ _
  · cases h2; exact Calm.refl _

theorem Calm.cmwrr (st : St) (i : Nat) (p : Place) (idx : Nat) (ok : Bool) :
    Calm P st (cmwrrInd' st i p idx ok).1 := by
  unfold Startup.cmwrrInd' Startup.cmwrrWrite
  repeat' split
  all_goals first | exact Calm.refl _ | exact (Calm.refl _).note' trivial

theorem Calm.write (c : Cfg) (st : St) (s u : Nat) (p : Place) (idx : Nat) (ck ok : Bool) :
    Calm P st (write c st s u p idx ck ok) := by
  unfold Startup.write
  dsimp only
  refine (Calm.use' (Calm.refl _) : Calm P st (useSess st s)).trans ?_
  repeat' split
  all_goals first
    | exact Calm.sess _ _
    | exact (Calm.refl _).note' trivial
    | exact Calm.note' (Calm.restart' (Calm.note' (Calm.cmwrr _ _ _ _ _) (by trivial))) (by trivial)

theorem Calm.cmioTimer (st : St) (i : Nat) : Calm P st (cmioTimer st i) := by
  unfold Startup.cmioTimer
  dsimp only
  split
  · exact Calm.infoInd _ _ _
  · calm

theorem Calm.cmsmTimer (st : St) (i : Nat) : Calm P st (cmsmTimer st i) := by
  unfold Startup.cmsmTimer
  dsimp only
  repeat' split
  all_goals (try dsimp only)
  all_goals calm

theorem Calm.cpm (st : St) (i crep : Nat) (b : Bool) : Calm P st (cpmStateInd st i crep b) := by
  unfold Startup.cpmStateInd
  dsimp only
  repeat' split
  all_goals (try dsimp only)
  all_goals calm

theorem Calm.newData (st : St) (i crep : Nat) (b : Bool) : Calm P st (newDataInd st i crep b) := by
  unfold Startup.newDataInd
  dsimp only
  repeat' split
  all_goals (try dsimp only)
  all_goals calm

/-- A DControl request that the RPC layer lets through does not carry "parameter begin". -/
def NoBegin : Op → Prop
  | .dcontrol q => q.parseOk = true → q.cmd ≠ 64
  | _ => True

theorem Calm.step {c : Cfg} {st st' : St} {op : Op} (h : ∀ i, PbeOk (st.ars i)) (hs : step c st op = some st') :
    Calm (NoBegin op) st st' := by
  cases op with
  | response s x d p => exact Calm.response hs
  | read s u a b d e => exact Calm.read hs
  | connect s u a b f io v => cases hs; exact Calm.connect _ _ _ _ _ _ _ _ _
  | release s u => cases hs; exact Calm.release _ _ _ _
  | dcontrol q => cases hs; exact Calm.dcontrol _ _ _ h
  | cancel s => cases hs; exact Calm.cancel _ _
  | write s u p idx a b => cases hs; exact Calm.write _ _ _ _ _ _ _ _
  | other s => cases hs; exact (Calm.refl _).use'
  | appReady i d o => cases hs; exact Calm.appReady _ _ _ _
  | abort i =>
    cases hs
    split
    · exact (Calm.refl _).cmAbort'
    · exact Calm.refl _
  | cmioTimer i => cases hs; exact Calm.cmioTimer _ _
  | cmsmTimer i => cases hs; exact Calm.cmsmTimer _ _
  | cpmState i r b => cases hs; exact Calm.cpm _ _ _ _
  | newData i r b => cases hs; exact Calm.newData _ _ _ _
  | tick d => cases hs; exact Calm.same rfl rfl
  | own p o => cases hs; exact Calm.same rfl rfl

theorem Calm.exec {c : Cfg} : ∀ {ops : List Op} {st st' : St}, Good False st →
    Startup.exec c st ops = some st' → Calm (∀ o ∈ ops, NoBegin o) st st'
  | [], st, st', _, he => by cases he; exact Calm.refl _
  | o :: os, st, st', hg, he => by
    simp only [Startup.exec, Option.bind_eq_some_iff] at he
    obtain ⟨st1, h1, h2⟩ := he
    have a := Calm.step (fun i => (hg.l i).pbe) h1
    have b := Calm.exec (hg.step (fun t => t.elim) h1) h2
    exact ⟨fun k hk => a.1 k (b.1 k hk), fun hp j hj =>
      a.2 (hp o (by simp)) j (b.2 (fun x hx => hp x (by simp [hx])) j hj)⟩

/-! ## Facts about a connection in data exchange -/

theorem inData_weak (i : Nat) (l : List Entry) : weak i l = .bad ∨ (inData i l = true ↔ weak i l = .data) := by
  induction l with
  | nil => right; simp [inData, weak]
  | cons e l ih =>
    rw [weak_cons]
    cases e with
    | event j e t =>
      by_cases hj : j = i
      · subst hj
        cases e <;> cases hw : weak j l <;> simp [weakNext, inData, hw] at ih ⊢ <;> exact ih
      · cases e <;> simp [weakNext, inData, hj] <;> exact ih
    | readyCall j =>
      simp only [weakNext, inData]
      split
      · rename_i h; simp [h.2] at ih ⊢; exact ih
      · exact ih
    | readyRsp j x d =>
      simp only [weakNext, inData]
      split
      · rename_i h; simp [h.2.1] at ih ⊢; exact ih
      · exact ih
    | _ => simpa [weakNext, inData] using ih

theorem data_facts {c : Cfg} {ops : List Op} {st : St} {i : Nat} (h : exec c init ops = some st) (hd : inData i st.log = true) :
    (st.ars i).cmdev = .data ∧ (st.ars i).access = false ∧ ((st.ars i).cmpbe = .wfind ∨ (st.ars i).cmpbe = .wfrsp) ∧
      (st.ars i).stored = 0 := by
  have hg : Good False st := Good.exec Good.init (fun t => t.elim) h
  have hw : weak i st.log = .data := by
    rcases inData_weak i st.log with e | e
    · exact absurd e (hg.weak_ok i)
    · exact e.1 hd
  have hin : (st.ars i).inUse = true := by
    cases e : (st.ars i).inUse with
    | true => rfl
    | false => have := ((hg.l i).zero e).2; rw [hw] at this; cases this
  have hl := (hg.l i).live hin
  have key : (st.ars i).cmdev = .data ∧ (st.ars i).access = false := by
    unfold Live at hl
    rw [hw] at hl
    cases hc : (st.ars i).cmdev <;> rw [hc] at hl <;> simp at hl ⊢
    exact hl.1
  have hb : ¬ Bad (st.ars i) := fun hb => zero_not_bad ((Calm.exec Good.init h).1 i hb)
  refine ⟨key.1, key.2, ?_, (hg.l i).pbe.2⟩
  rcases (hg.l i).pbe.1 with e | e
  · exact absurd ⟨key.2, key.1, e⟩ hb
  · exact e

/-- What a fresh request does to a connection in data exchange. -/
theorem fresh_data {c : Cfg} {ops : List Op} {st st' : St} {i cmd : Nat} {q : DcReq} (h : exec c init ops = some st)
    (hd : inData i st.log = true) (hq : Fresh st i cmd q) (hs : step c st (.dcontrol q) = some st') :
    ∃ x res, st' = ((if (cmpbeDcontrol st i cmd true).2 = true then (cmpbeDcontrol st i cmd true).1
      else stateInd (cmpbeDcontrol st i cmd true).1 i .abort).setSess q.s x).note (.dcAnswer q.s q.seq res true) := by
  obtain ⟨hp, hpl, hcmd, happ, hu, hseq, hfirst, hin, huu⟩ := hq
  have hg : Good False st := Good.exec Good.init (fun t => t.elim) h
  have hui := UInv.exec Good.init (UInv.init c) h
  obtain ⟨h1, h2, h3, h4⟩ := data_facts h hd
  have hdc := hg.s.dc q.s hu
  have hne : ¬ (st.sess q.s).dcSeq = q.seq := by
    intro he
    cases hx : lastDc q.s st.log with
    | none => rw [hx] at hdc; exact hfirst hx (by rw [← he]; exact hdc.1)
    | some x =>
      obtain ⟨n, r⟩ := x
      rw [hx] at hdc
      exact hseq n r hx (by rw [← he]; exact hdc.1.symm)
  have huse : useSess st q.s = st := by unfold useSess; rw [if_pos hu]
  have hf := findUuid_of hg hui hin
  rw [huu] at hf
  have hcm : cmdevDcontrol st i q.cmd q.appOk q.pdevOk =
      (if (cmpbeDcontrol st i cmd true).2 = true then (cmpbeDcontrol st i cmd true).1
        else stateInd (cmpbeDcontrol st i cmd true).1 i .abort, false) := by
    unfold cmdevDcontrol
    dsimp only
    rw [if_neg (by simp [h2]), h1, hcmd, happ]
    dsimp only
    split <;> rfl
  simp only [step, Option.some.injEq] at hs
  unfold dcontrol at hs
  dsimp only at hs
  rw [huse, if_neg (by simp [hp]), if_neg hne, hf] at hs
  dsimp only at hs
  rw [if_neg (by simp [hpl]), hcm] at hs
  dsimp only at hs
  rw [if_neg (by simp)] at hs
  exact ⟨_, _, hs.symm⟩

/-! ## Theorems -/

/-- **C159** fails, every run: a "parameter end" that reaches a connection in data exchange aborts it, whether or not a "parameter begin" came before;
the application is told ABORT and not "parameter end". -/
theorem C159_fails_end_aborts (c : Cfg) (ops : List Op) (st st' : St) (i : Nat) (q : DcReq) (h : exec c init ops = some st)
    (hd : inData i st.log = true) (hq : Fresh st i 1 q) (hs : step c st (.dcontrol q) = some st') :
    inData i st'.log = false ∧ (st'.ars i).inUse = false ∧
      ∃ res, st'.log = .dcAnswer q.s q.seq res true :: .event i .abort st.now :: st.log := by
  obtain ⟨x, res, e⟩ := fresh_data h hd hq hs
  obtain ⟨h1, h2, h3, h4⟩ := data_facts h hd
  have hp : cmpbeDcontrol st i 1 true = (st, false) := by
    unfold cmpbeDcontrol
    dsimp only
    rcases h3 with e | e <;> rw [e] <;> dsimp only
    rw [if_neg (by simp [h4]), if_neg (by decide)]
  rw [hp, if_neg (by simp)] at e
  subst e
  refine ⟨?_, ?_, res, ?_⟩
  · simp [inData, stateInd_log]
  · simp [stateInd_ars, Ar.zero]
  · simp [stateInd_log]

/-- What a "parameter begin" would do if it were let through: told to the application and data exchange goes on the first time, after that the connection is aborted. -/
theorem C159_begin (c : Cfg) (ops : List Op) (st st' : St) (i : Nat) (q : DcReq) (h : exec c init ops = some st)
    (hd : inData i st.log = true) (hq : Fresh st i 64 q) (hs : step c st (.dcontrol q) = some st') :
    (inData i st'.log = true ∧ ∃ res, st'.log = .dcAnswer q.s q.seq res true :: .dcCallback i 64 :: st.log) ∨
    (inData i st'.log = false ∧ ∃ res, st'.log = .dcAnswer q.s q.seq res true :: .event i .abort st.now :: st.log) := by
  obtain ⟨x, res, e⟩ := fresh_data h hd hq hs
  obtain ⟨h1, h2, h3, h4⟩ := data_facts h hd
  rcases h3 with e3 | e3
  · left
    have hp : cmpbeDcontrol st i 64 true =
        ((st.note (.dcCallback i 64)).setAr i { st.ars i with cmpbe := .wfrsp }, true) := by
      unfold cmpbeDcontrol
      dsimp only
      rw [e3]
      dsimp only
      rw [if_neg (by simp [h4]), if_pos (by decide)]
      rfl
    rw [hp, if_pos rfl] at e
    subst e
    exact ⟨by simpa [inData] using hd, res, by simp⟩
  · right
    have hp : cmpbeDcontrol st i 64 true = (st, false) := by
      unfold cmpbeDcontrol
      dsimp only
      rw [e3]
    rw [hp, if_neg (by simp)] at e
    subst e
    exact ⟨by simp [inData, stateInd_log], res, by simp [stateInd_log]⟩

/-- The application is never told "parameter begin" if the RPC layer lets no such request through (`Verif.Control.C159_begin_refused`). -/
theorem C159_never_told (c : Cfg) (ops : List Op) (st : St) (h : exec c init ops = some st) (hn : ∀ o ∈ ops, NoBegin o)
    (i : Nat) : Entry.dcCallback i 64 ∉ st.log := fun hm => by
  have := (Calm.exec Good.init h).2 hn i hm
  simp [init] at this

/-- **C159**, the part that holds: a request that the RPC layer refuses (as "parameter begin") changes nothing for any connection: data exchange goes on, nothing is
told to the application, and the refusal is answered. -/
theorem C159_undisturbed_partial (c : Cfg) (st st' : St) (q : DcReq) (hq : q.parseOk = false) (hs : step c st (.dcontrol q) = some st') :
    st'.ars = st.ars ∧ (∀ i, inData i st'.log = inData i st.log) ∧
      ∃ pre, st'.log = .dcAnswer q.s q.seq resParse false :: pre ++ st.log ∧ (pre = [] ∨ pre = [.opened q.s]) := by
  simp only [step, Option.some.injEq] at hs
  unfold dcontrol at hs
  dsimp only at hs
  rw [if_pos (by simp [hq])] at hs
  subst hs
  refine ⟨by simp, fun i => ?_, ?_⟩
  · rw [note_log, useSess_log]
    split <;> simp [inData]
  · rw [note_log, useSess_log]
    split
    · exact ⟨[], rfl, .inl rfl⟩
    · exact ⟨[.opened q.s], rfl, .inr rfl⟩

/-! ### A concrete run -/

def begin0 : DcReq := ⟨0, 4, 77, 64, true, false, true, 0, true⟩
def end0 : DcReq := ⟨0, 5, 77, 1, true, false, true, 0, true⟩

/-- The state after start-up, and after "parameter begin". -/
def stGood : St := (exec cfg1 init goodOps).get (by rfl)
def stBegin : St := dcontrol cfg1 stGood begin0

theorem stGood_run : exec cfg1 init goodOps = some stGood := (Option.some_get _).symm

theorem C159_example : inData 0 stGood.log = true ∧ Fresh stGood 0 64 begin0 ∧ Fresh stGood 0 1 end0 ∧ Fresh stBegin 0 1 end0 ∧
    inData 0 stBegin.log = true := by
  have l1 : lastDc 0 stGood.log = some (3, 0) := by rfl
  have l2 : lastDc 0 stBegin.log = some (4, 0) := by rfl
  refine ⟨by rfl, ⟨rfl, rfl, rfl, rfl, by rfl, ?_, ?_, by rfl, by rfl⟩, ⟨rfl, rfl, rfl, rfl, by rfl, ?_, ?_, by rfl, by rfl⟩,
    ⟨rfl, rfl, rfl, rfl, by rfl, ?_, ?_, by rfl, by rfl⟩, by rfl⟩
  · intro n r hn; rw [show begin0.s = 0 from rfl, l1] at hn; cases hn; decide
  · intro _; decide
  · intro n r hn; rw [show end0.s = 0 from rfl, l1] at hn; cases hn; decide
  · intro _; decide
  · intro n r hn; rw [show end0.s = 0 from rfl, l2] at hn; cases hn; decide
  · intro _; decide

/-- **C159** fails: even with "parameter begin" let through, the "parameter end" that belongs to it aborts the connection. -/
theorem C159_fails : ¬ C159_statement := fun hc => by
  obtain ⟨h1, h2, h3, h4, h5⟩ := C159_example
  have := (hc cfg1 goodOps stGood stBegin _ 0 begin0 end0 stGood_run h1 h2 rfl h4 rfl).2.2
  have hr : exec cfg1 init (goodOps ++ [.dcontrol begin0]) = some stBegin := by rfl
  rw [(C159_fails_end_aborts cfg1 _ stBegin _ 0 end0 hr h5 h4 rfl).1] at this
  cases this

end Verif.Startup
