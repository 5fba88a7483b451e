import Verif.Startup.Told
/-!
C163: when the application is told that the controller has confirmed "application ready" (call-back `pnet_ccontrol_cnf`), and with which result.
include/pnet_api.h says that it is called on every CControl confirmation from the controller, with detailed error information.
The effect of a response on the connections is that of `Verif.Startup.response`; here the call is added.
-/
set_option linter.unusedSimpArgs false
set_option linter.unusedVariables false
namespace Verif.Startup

/-! ## Model -/

/-- pf_fspm_ccontrol_cnf (src/device/pf_fspm.c:641-657): the calls of `ccontrol_cb` (connection and error code of the result; 0: no error).  `cb`: it is implemented. -/
def fspmCnf (cb : Bool) (i res : Nat) : List (Nat × Nat) := if cb then [(i, res)] else []

/-- pf_cmdev_rm_ccontrol_cnf (src/device/pf_cmdev.c:5016-5088): the calls it makes for connection `i` with a control block that says "done".  Both for a result without and with an error the application is
told; in any other state it is not. -/
def cmdevCnf (cb : Bool) (a : Ar) (i res : Nat) : List (Nat × Nat) :=
  match a.cmdev with
  | .wArdycnf => fspmCnf cb i res
  | _ => []

/-- pf_cmrpc_rm_ccontrol_cnf (src/device/pf_cmrpc.c:4145-4225): the calls made for a response on session `s`.  `done`: there is a control block with command "done"; `plug`: it is about a
plugged submodule.  The result is that of the session, in which no error was noted so far, whatever status the response has. -/
def cnfCalls (cb : Bool) (st : St) (s : Nat) (done plug : Bool) : List (Nat × Nat) :=
  if (st.sess s).inUse then
    match (st.sess s).ar with
    | none => []
    | some i => if done then if plug then [] else cmdevCnf cb (st.ars i) i 0 else []
  else []

/-- The calls of `ccontrol_cb` in one step; only responses make them. -/
def cnfStep (cb : Bool) (st : St) : Op → List (Nat × Nat)
  | .response s _ done plug => cnfCalls cb st s done plug
  | _ => []

/-- The calls of `ccontrol_cb` in a run, the oldest first. -/
def cnfRun (cb : Bool) (c : Cfg) (st : St) : List Op → List (Nat × Nat)
  | [] => []
  | o :: os => cnfStep cb st o ++ match step c st o with
    | none => []
    | some st' => cnfRun cb c st' os

/-! ## Specification -/

/-- How often "application ready" of connection `i` was confirmed: the request was open (`phase`: the application was told APPLRDY) and an answer
with status 0 and "done" arrived. -/
def confirmations (i : Nat) : List Entry → Nat
  | [] => 0
  | e :: l => (if phase i l = .ready ∧ e = .readyRsp i 0 true then 1 else 0) + confirmations i l

/-- How often the application was told STARTUP of connection `i`. -/
def startups (i : Nat) : List Entry → Nat
  | [] => 0
  | .event j .startup _ :: l => (if j = i then 1 else 0) + startups i l
  | _ :: l => startups i l

/-- **C163** as include/pnet_api.h has it: every response with "done" to a request of the device for connection `i` that is open is told to the application, with its status. -/
def C163_statement : Prop :=
  ∀ (c : Cfg) (ops : List Op) (st : St) (i s status : Nat) (plug : Bool), exec c init ops = some st → Run c (Orderly c) init ops →
    (st.sess s).fromMe = true → (st.sess s).ar = some i → phase i st.log = .ready → cnfStep true st (.response s status true plug) = [(i, status)]

/-! ## Only responses are noted as responses -/

def NotRsp : Entry → Prop
  | .readyRsp _ _ _ => False
  | _ => True

/-- Entries are added, none of them a response. -/
def Mute (st st' : St) : Prop := ∃ l, st'.log = l ++ st.log ∧ ∀ e ∈ l, NotRsp e

theorem Mute.refl (st : St) : Mute st st := ⟨[], rfl, fun _ h => by cases h⟩

theorem Mute.trans {a b d : St} (h1 : Mute a b) (h2 : Mute b d) : Mute a d := by
  obtain ⟨l, e1, f1⟩ := h1
  obtain ⟨m, e2, f2⟩ := h2
  refine ⟨m ++ l, by rw [e2, e1, List.append_assoc], fun e he => ?_⟩
  rcases List.mem_append.1 he with h | h
  · exact f2 e h
  · exact f1 e h

theorem Mute.same {st st' : St} (h1 : st'.ars = st.ars) (h2 : st'.log = st.log) : Mute st st' := ⟨[], h2, fun _ h => by cases h⟩

theorem Mute.note' {a b : St} {e : Entry} (h : Mute a b) (he : NotRsp e) : Mute a (b.note e) :=
  h.trans ⟨[e], rfl, fun x hx => by rw [List.mem_singleton] at hx; subst hx; exact he⟩

theorem Mute.setSess' {a b : St} {s : Nat} {x : Sess} (h : Mute a b) : Mute a (b.setSess s x) := h.trans (Mute.same rfl rfl)
theorem Mute.sess' {a b : St} {s : Nat} (h : Mute a b) : Mute a (sessRelease b s) := h.trans (Mute.same (by simp) (by simp))

theorem Mute.use' {a b : St} {s : Nat} (h : Mute a b) : Mute a (useSess b s) := by
  unfold useSess
  split
  · exact h
  · exact (h.setSess').note' trivial

theorem Mute.setAr' {a b : St} {i : Nat} {x : Ar} (h : Mute a b) : Mute a (b.setAr i x) := h.trans ⟨[], rfl, fun _ h => by cases h⟩

theorem Mute.stateInd' {a b : St} {i : Nat} {e : Event} (h : Mute a b) : Mute a (stateInd b i e) :=
  h.trans ⟨[.event i e b.now], by rw [stateInd_log]; rfl, fun x hx => by rw [List.mem_singleton] at hx; subst hx; trivial⟩

theorem Mute.setState' {a b : St} {i : Nat} {v : Cmdev} (h : Mute a b) : Mute a (setState b i v) := by
  by_cases e : v = .abort
  · rw [e, setState_abort_eq]; exact h.stateInd'
  · rw [setState_of_ne _ _ _ e]; exact h.setAr'

theorem Mute.cmAbort' {a b : St} {i : Nat} (h : Mute a b) : Mute a (cmAbort b i) := by
  unfold cmAbort
  dsimp only
  repeat' split
  all_goals first | exact h.setState' | exact h

theorem Mute.refuse' {a b : St} {i s : Nat} (h : Mute a b) : Mute a (refuse b i s) := by
  unfold Startup.refuse
  exact ((h.setAr').setSess').sess'

macro "mute" : tactic => `(tactic| (
  repeat' first
    | with_reducible exact Mute.refl _
    | with_reducible assumption
    | with_reducible apply Mute.stateInd'
    | with_reducible apply Mute.setState'
    | with_reducible apply Mute.cmAbort'
    | with_reducible apply Mute.refuse'
    | with_reducible apply Mute.sess'
    | with_reducible apply Mute.use'
    | (with_reducible refine Mute.note' ?_ (by simp [NotRsp]))
    | with_reducible apply Mute.setSess'
    | with_reducible apply Mute.setAr'))

theorem Mute.infoInd (st : St) (i : Nat) (b : Bool) : Mute st (infoInd st i b) := by
  unfold Startup.infoInd
  dsimp only
  repeat' split
  all_goals (try dsimp only)
  all_goals mute

theorem Mute.connectInd' {a b : St} {i s : Nat} {v : Verdict} (h : Mute a b) : Mute a (connectInd b i s v) := by
  unfold Startup.connectInd
  dsimp only
  repeat' split
  all_goals (try dsimp only)
  all_goals mute

theorem Mute.connect (c : Cfg) (st : St) (s u : Nat) (a b : Bool) (f : Nat) (io : List Bool) (v : Verdict) :
    Mute st (connect c st s u a b f io v) := by
  unfold Startup.connect
  dsimp only
  repeat' split
  · mute
  · mute
  · apply Mute.connectInd'
    mute

theorem Mute.release (c : Cfg) (st : St) (s u : Nat) : Mute st (release c st s u) := by
  unfold Startup.release
  dsimp only
  repeat' split
  all_goals (try dsimp only)
  all_goals mute

theorem Mute.cmpbeDcontrol (st : St) (i cmd : Nat) (b : Bool) : Mute st (cmpbeDcontrol st i cmd b).1 := by
  unfold Startup.cmpbeDcontrol
  dsimp only
  repeat' split
  all_goals (try dsimp only)
  all_goals mute

theorem Mute.cmdevDcontrol (st : St) (i cmd : Nat) (a b : Bool) : Mute st (cmdevDcontrol st i cmd a b).1 := by
  unfold Startup.cmdevDcontrol
  dsimp only
  have hp := Mute.cmpbeDcontrol st i cmd a
  repeat' split
  all_goals (try dsimp only)
  all_goals mute

theorem Mute.dcontrol (c : Cfg) (st : St) (q : DcReq) : Mute st (dcontrol c st q) := by
  unfold Startup.dcontrol
  dsimp only
  refine (Mute.use' (s := q.s) (Mute.refl _)).trans ?_
  have hp := fun i => Mute.cmdevDcontrol (useSess st q.s) i q.cmd q.appOk q.pdevOk
  repeat' split
  all_goals mute
  all_goals exact hp _

theorem Mute.appReady (st : St) (i : Nat) (d : Bool) (o : Option Nat) : Mute st (appReady st i d o) := by
  unfold Startup.appReady
  dsimp only
  repeat' split
  all_goals (try dsimp only)
  all_goals mute

theorem Mute.ccontrolCnf (st : St) (i : Nat) : Mute st (ccontrolCnf st i).1 := by
  unfold Startup.ccontrolCnf
  dsimp only
  repeat' split
  all_goals (try dsimp only)
  all_goals mute

theorem Mute.sess (st : St) (s : Nat) : Mute st (sessRelease st s) := (Mute.refl _).sess'

theorem Mute.cancel (st : St) (s : Nat) : Mute st (cancel st s) := by
  unfold Startup.cancel
  repeat' split
  all_goals (try dsimp only)
  all_goals mute

theorem Mute.restart' {a b : St} {i : Nat} (h : Mute a b) : Mute a (cmsmRestart b i) := by
  unfold Startup.cmsmRestart
  dsimp only
  repeat' split
  all_goals (try dsimp only)
  all_goals mute

theorem Mute.read {c : Cfg} {st st' : St} {s u t idx : Nat} {imp ck : Bool}
    (h : read c st s u imp t idx ck = some st') : Mute st st' := by
  unfold Startup.read at h
  dsimp only at h
  refine (Mute.use' (Mute.refl _) : Mute st (useSess st s)).trans ?_
  split at h
  · cases h; exact Mute.sess _ _
  split at h
  · cases h; exact Mute.sess _ _
  rw [Option.bind_eq_some_iff] at h
  obtain ⟨st1, h1, h2⟩ := h
  have k1 : Mute (useSess st s) st1 := by
    repeat' split at h1
    all_goals first
      | (cases h1; done)
      | (cases h1
         first
          | exact Mute.refl _
          | exact (Mute.refl _).note' trivial
          | exact Mute.restart' (Mute.note' (Mute.note' (Mute.refl _) (by trivial)) (by trivial)))
  refine k1.trans ?_
  split at h2
  · cases h2; exact Mute.sess _ _
  · cases h2; exact Mute.refl _

theorem Mute.cmwrr (st : St) (i : Nat) (p : Place) (idx : Nat) (ok : Bool) :
    Mute st (cmwrrInd' st i p idx ok).1 := by
  unfold Startup.cmwrrInd' Startup.cmwrrWrite
  repeat' split
  all_goals first | exact Mute.refl _ | exact (Mute.refl _).note' trivial

theorem Mute.write (c : Cfg) (st : St) (s u : Nat) (p : Place) (idx : Nat) (ck ok : Bool) :
    Mute st (write c st s u p idx ck ok) := by
  unfold Startup.write
  dsimp only
  refine (Mute.use' (Mute.refl _) : Mute st (useSess st s)).trans ?_
  repeat' split
  all_goals first
    | exact Mute.sess _ _
    | exact (Mute.refl _).note' trivial
    | exact Mute.note' (Mute.restart' (Mute.note' (Mute.cmwrr _ _ _ _ _) (by trivial))) (by trivial)

theorem Mute.cmioTimer (st : St) (i : Nat) : Mute st (cmioTimer st i) := by
  unfold Startup.cmioTimer
  dsimp only
  split
  · exact Mute.infoInd _ _ _
  · mute

theorem Mute.cmsmTimer (st : St) (i : Nat) : Mute st (cmsmTimer st i) := by
  unfold Startup.cmsmTimer
  dsimp only
  repeat' split
  all_goals (try dsimp only)
  all_goals mute

theorem Mute.cpm (st : St) (i crep : Nat) (b : Bool) : Mute st (cpmStateInd st i crep b) := by
  unfold Startup.cpmStateInd
  dsimp only
  repeat' split
  all_goals (try dsimp only)
  all_goals mute

theorem Mute.newData (st : St) (i crep : Nat) (b : Bool) : Mute st (newDataInd st i crep b) := by
  unfold Startup.newDataInd
  dsimp only
  repeat' split
  all_goals (try dsimp only)
  all_goals mute

theorem Mute.step {c : Cfg} {st st' : St} {op : Op} (h : ∀ s x d p, op ≠ .response s x d p) (hs : step c st op = some st') : Mute st st' := by
  cases op with
  | response s x d p => exact absurd rfl (h s x d p)
  | read s u a b d e => exact Mute.read hs
  | connect s u a b f io v => cases hs; exact Mute.connect _ _ _ _ _ _ _ _ _
  | release s u => cases hs; exact Mute.release _ _ _ _
  | dcontrol q => cases hs; exact Mute.dcontrol _ _ _
  | cancel s => cases hs; exact Mute.cancel _ _
  | write s u p idx a b => cases hs; exact Mute.write _ _ _ _ _ _ _ _
  | other s => cases hs; exact (Mute.refl _).use'
  | appReady i d o => cases hs; exact Mute.appReady _ _ _ _
  | abort i =>
    cases hs
    split
    · exact (Mute.refl _).cmAbort'
    · exact Mute.refl _
  | cmioTimer i => cases hs; exact Mute.cmioTimer _ _
  | cmsmTimer i => cases hs; exact Mute.cmsmTimer _ _
  | cpmState i r b => cases hs; exact Mute.cpm _ _ _ _
  | newData i r b => cases hs; exact Mute.newData _ _ _ _
  | tick d => cases hs; exact Mute.same rfl rfl
  | own p o => cases hs; exact Mute.same rfl rfl


/-- A response on a session that refers to connection `i`: one entry that says so, and entries that are no responses. -/
theorem response_log {st st' : St} {s x i : Nat} {d p : Bool} (hu : (st.sess s).inUse = true) (hi : (st.sess s).ar = some i)
    (h : response st s x d p = some st') : Mute (st.note (.readyRsp i x (d && !p))) st' := by
  unfold Startup.response at h
  rw [if_pos hu, hi] at h
  dsimp only at h
  repeat' split at h
  all_goals (have h := Option.some.inj h; subst h)
  all_goals first
    | exact Mute.sess _ _
    | exact (Mute.ccontrolCnf _ _).trans (Mute.sess _ _)
    | exact Mute.ccontrolCnf _ _
    | exact Mute.refl _

theorem Mute.confirmations {st st' : St} (h : Mute st st') (i : Nat) : confirmations i st'.log = confirmations i st.log := by
  obtain ⟨l, e, f⟩ := h
  rw [e]
  clear e
  induction l with
  | nil => rfl
  | cons a l ih =>
    rw [List.cons_append, Startup.confirmations, ih (fun x hx => f x (List.mem_cons_of_mem _ hx)), if_neg, Nat.zero_add]
    rintro ⟨_, rfl⟩
    exact f _ (List.mem_cons_self ..)

/-! ## When the application is told -/

theorem sess_used {T : Prop} {st : St} (hg : Good T st) {s i : Nat} (hs : (st.sess s).ar = some i) :
    (st.sess s).inUse = true ∧ (st.ars i).inUse = true := by
  refine ⟨?_, (hg.s.sar s i hs).1⟩
  cases hc : (st.sess s).inUse
  · rw [(hg.s.sfree s hc).1] at hs; cases hs
  · rfl

theorem cmdev_ready {st : St} (hg : Good True st) {i : Nat} (hin : (st.ars i).inUse = true) :
    (st.ars i).cmdev = .wArdycnf ↔ phase i st.log = .ready := by
  have hf := (hg.l i).flive trivial hin
  unfold FullLive at hf
  constructor
  · intro h; rw [h] at hf; exact hf.1
  · intro h
    rw [h] at hf
    cases hc : (st.ars i).cmdev <;> rw [hc] at hf <;> simp at hf ⊢

/-- **C163**, one response, orderly runs: the application is told exactly if the request of this connection is open and the response has a "done" block that is not about a plugged
submodule; it is told once, for this connection, with "no error".  Missing: responses about plugged submodules are not told (`C163_fails_plug`), the status of the response is not told (`C163_fails_status`). -/
theorem C163_told_partial (c : Cfg) (ops : List Op) (st : St) (s i status : Nat) (done plug : Bool) (h : exec c init ops = some st) (ho : Run c (Orderly c) init ops)
    (hs : (st.sess s).ar = some i) :
    cnfStep true st (.response s status done plug) = if done = true ∧ plug = false ∧ phase i st.log = .ready then [(i, 0)] else [] := by
  have hg : Good True st := Good.exec Good.init (fun _ => ho) h
  obtain ⟨hu, hin⟩ := sess_used hg hs
  have hr := cmdev_ready hg hin
  unfold cnfStep cnfCalls
  simp only [hu, hs, if_true]
  cases done
  · simp
  cases plug
  · simp only [if_true, Bool.false_eq_true, if_false, true_and]
    by_cases hp : phase i st.log = .ready
    · rw [if_pos hp]
      unfold cmdevCnf
      rw [hr.2 hp]
      rfl
    · rw [if_neg hp]
      unfold cmdevCnf
      split
      · rename_i hc; exact absurd (hr.1 hc) hp
      · rfl
  · simp

/-- **C163**, every run (whatever the controller does): the application is told only of a connection it was told STARTUP of and for which it called application-ready since, and not
after DATA or ABORT; and only by a response. -/
theorem C163_only_after (cb : Bool) (c : Cfg) (ops : List Op) (st : St) (op : Op) (i res : Nat) (h : exec c init ops = some st)
    (hm : (i, res) ∈ cnfStep cb st op) :
    (∃ s status, op = .response s status true false ∧ (st.sess s).ar = some i) ∧ (weak i st.log = .called ∨ weak i st.log = .answered) := by
  have hg : Good False st := Good.exec Good.init (fun t => t.elim) h
  cases op
  case response s status done plug =>
    simp only [cnfStep, cnfCalls] at hm
    split at hm
    · cases hs : (st.sess s).ar with
      | none => rw [hs] at hm; cases hm
      | some j =>
        rw [hs] at hm
        cases done
        · simp at hm
        cases plug
        · simp only [if_true, Bool.false_eq_true, if_false] at hm
          unfold cmdevCnf fspmCnf at hm
          split at hm
          · rename_i hc
            have hj : i = j := by
              cases cb
              · simp at hm
              · simp at hm; exact hm.1
            subst hj
            have lv := (hg.l i).live (sess_used hg hs).2
            unfold Live at lv
            rw [hc] at lv
            exact ⟨⟨s, status, rfl, hs⟩, lv.2.1⟩
          · cases hm
        · simp at hm
    · cases hm
  all_goals cases hm

/-! ## How often the application is told -/

def callsFor (i : Nat) (l : List (Nat × Nat)) : Nat := (l.filter fun x => x.1 = i).length

theorem step_count {c : Cfg} {st st' : St} {op : Op} (hg : Good True st) (ho : Orderly c st op) (h : step c st op = some st') (i : Nat) :
    callsFor i (cnfStep true st op) + confirmations i st.log = confirmations i st'.log := by
  by_cases hop : ∃ s x d p, op = .response s x d p
  · obtain ⟨s, x, d, p, rfl⟩ := hop
    have h' : response st s x d p = some st' := h
    cases hu : (st.sess s).inUse
    · have : st' = st := by
        unfold Startup.response at h'
        rw [if_neg (by simp [hu])] at h'
        exact (Option.some.inj h').symm
      subst this
      simp [cnfStep, cnfCalls, hu, callsFor]
    · cases hs : (st.sess s).ar with
      | none =>
        unfold Startup.response at h'
        rw [if_pos hu, hs] at h'
        cases h'
      | some j =>
        rw [(response_log hu hs h').confirmations, note_log, Startup.confirmations]
        congr 1
        have hin := (sess_used hg hs).2
        have hr := cmdev_ready hg hin
        simp only [cnfStep, cnfCalls, hu, hs, if_true]
        cases d
        · simp [callsFor]
        cases p
        · have hx : x = 0 := (ho hu).2 rfl
          subst hx
          simp only [if_true, Bool.false_eq_true, if_false, Bool.not_false, Bool.and_self]
          unfold cmdevCnf fspmCnf
          by_cases hp : phase j st.log = .ready
          · rw [hr.2 hp]
            by_cases hij : j = i
            · subst hij; simp [callsFor, hp]
            · simp [callsFor, hij]
          · have : (match (st.ars j).cmdev with | .wArdycnf => if true = true then [(j, 0)] else [] | _ => ([] : List (Nat × Nat))) = [] := by
              split
              · rename_i hc; exact absurd (hr.1 hc) hp
              · rfl
            rw [this]
            rw [if_neg]
            · rfl
            · rintro ⟨h1, h2⟩
              cases h2
              exact hp h1
        · simp [callsFor]
  · rw [(Mute.step (fun s x d p e => hop ⟨s, x, d, p, e⟩) h).confirmations]
    cases op <;> first | exact absurd ⟨_, _, _, _, rfl⟩ hop | simp [cnfStep, callsFor]

theorem run_count {c : Cfg} (i : Nat) : ∀ {ops : List Op} {st st' : St}, Good True st → Run c (Orderly c) st ops → exec c st ops = some st' →
    callsFor i (cnfRun true c st ops) + confirmations i st.log = confirmations i st'.log
  | [], st, st', _, _, he => by cases he; simp [cnfRun, callsFor]
  | o :: os, st, st', hg, hr, he => by
    simp only [Startup.exec, Option.bind_eq_some_iff] at he
    obtain ⟨st1, h1, h2⟩ := he
    have a := step_count hg hr.1 h1 i
    have b := run_count i (hg.step (fun _ => hr.1) h1) (hr.2 st1 h1) h2
    simp only [cnfRun, h1]
    unfold callsFor at *
    rw [List.filter_append, List.length_append]
    omega

/-- **C163**, orderly runs of any length: the application is told as often as application ready of the connection was confirmed. -/
theorem C163_as_often (c : Cfg) (ops : List Op) (st : St) (h : exec c init ops = some st) (ho : Run c (Orderly c) init ops) (i : Nat) :
    callsFor i (cnfRun true c init ops) = confirmations i st.log := by
  have := run_count i (Good.init (T := True)) ho h
  simpa [init, confirmations] using this

/-- 1 from STARTUP to the confirmation, else 0. -/
def waiting : Phase → Nat
  | .started | .prmended | .called | .ready => 1
  | _ => 0

theorem startups_le (i : Nat) (l : List Entry) : confirmations i l + waiting (phase i l) ≤ startups i l := by
  induction l with
  | nil => simp [confirmations, waiting, phase, startups]
  | cons e l ih =>
    rw [phase_cons]
    have hs : startups i l ≤ startups i (e :: l) := by
      cases e with
      | event j ev t => cases ev <;> simp [startups]
      | _ => exact Nat.le_refl _
    generalize hp : phase i l = p at ih
    cases e
    case event j ev t =>
      have hc : confirmations i (.event j ev t :: l) = confirmations i l := by simp [confirmations]
      rw [hc]
      by_cases hj : j = i
      · subst hj
        cases ev
        case startup =>
          have : startups j (.event j .startup t :: l) = 1 + startups j l := by simp [startups]
          rw [this]
          cases p <;> simp [phaseNext, waiting] at ih ⊢ <;> omega
        all_goals (cases p <;> simp [phaseNext, waiting] at ih ⊢ <;> omega)
      · simp only [phaseNext, hj, if_false]
        omega
    case readyRsp j x d =>
      have hst : startups i (.readyRsp j x d :: l) = startups i l := rfl
      rw [hst, confirmations, hp]
      by_cases hc : p = .ready ∧ Entry.readyRsp j x d = .readyRsp i 0 true
      · obtain ⟨rfl, h2⟩ := hc
        cases h2
        simp [phaseNext, waiting] at ih ⊢
        omega
      · rw [if_neg hc]
        simp only [phaseNext]
        split
        · rename_i hq
          obtain ⟨rfl, rfl, rfl, rfl⟩ := hq
          exact absurd ⟨rfl, rfl⟩ hc
        · omega
    case readyCall j =>
      have hst : startups i (.readyCall j :: l) = startups i l := rfl
      have hc : confirmations i (.readyCall j :: l) = confirmations i l := by simp [confirmations]
      rw [hst, hc]
      simp only [phaseNext]
      split
      · rename_i hq
        obtain ⟨rfl, rfl⟩ := hq
        simpa [waiting] using ih
      · exact ih
    all_goals
      (have hc : ∀ e : Entry, e ≠ .readyRsp i 0 true → confirmations i (e :: l) = confirmations i l := by
        intro e he; simp [confirmations, he]
       rw [hc _ (by simp)]
       simp only [phaseNext]
       omega)

/-- **C163**, orderly runs of any length: the application is told at most once per connection (per STARTUP), and while the connection is on its way to the confirmation it has not been told yet. -/
theorem C163_at_most_once (c : Cfg) (ops : List Op) (st : St) (h : exec c init ops = some st) (ho : Run c (Orderly c) init ops) (i : Nat) :
    callsFor i (cnfRun true c init ops) ≤ startups i st.log ∧
    (phase i st.log = .started ∨ phase i st.log = .prmended ∨ phase i st.log = .called ∨ phase i st.log = .ready →
      callsFor i (cnfRun true c init ops) < startups i st.log) := by
  rw [C163_as_often c ops st h ho i]
  have := startups_le i st.log
  refine ⟨by omega, fun hp => ?_⟩
  rcases hp with e | e | e | e <;> rw [e] at this <;> simp [waiting] at this <;> omega

/-! ## Where it fails -/

/-- **C163** fails for plugged submodules, in every state: the confirmation for a plugged submodule is not told to the application. -/
theorem C163_fails_plug (cb : Bool) (st : St) (s status : Nat) (done : Bool) : cnfStep cb st (.response s status done true) = [] := by
  simp only [cnfStep, cnfCalls, if_true]
  repeat' split
  all_goals rfl

/-- **C163** fails for negative responses: after every orderly run with an open request, whatever status the response with a "done" block has, the application is told "no error". -/
theorem C163_fails_status (c : Cfg) (ops : List Op) (st : St) (s i status : Nat) (h : exec c init ops = some st) (ho : Run c (Orderly c) init ops)
    (hs : (st.sess s).ar = some i) (hp : phase i st.log = .ready) : cnfStep true st (.response s status true false) = [(i, 0)] := by
  rw [C163_told_partial c ops st s i status true false h ho hs, if_pos ⟨rfl, rfl, hp⟩]

/-! ## Examples -/

theorem C163_orderly_open : Run cfg1 (Orderly cfg1) init (goodOps.take 7) := by
  refine ⟨⟨.inl rfl, by simp, by simp⟩, fun _ h => ?_⟩; cases h
  refine ⟨trivial, fun _ h => ?_⟩; cases h
  refine ⟨.inr rfl, fun _ h => ?_⟩; cases h
  refine ⟨rfl, fun _ h => ?_⟩; cases h
  refine ⟨⟨1, rfl, rfl⟩, fun _ h => ?_⟩; cases h
  refine ⟨trivial, fun _ h => ?_⟩; cases h
  exact ⟨trivial, fun _ _ => trivial⟩

/-- A run that meets the hypotheses: the request is open on session 1; with the confirmation the application is told once. -/
theorem C163_example :
    (∃ st, exec cfg1 init (goodOps.take 7) = some st ∧ (st.sess 1).ar = some 0 ∧ (st.sess 1).fromMe = true ∧ phase 0 st.log = .ready) ∧
    (∃ st, exec cfg1 init goodOps = some st ∧ startups 0 st.log = 1 ∧ confirmations 0 st.log = 1) ∧
    cnfRun true cfg1 init goodOps = [(0, 0)] ∧ cnfRun true cfg1 init (goodOps.take 7) = [] :=
  ⟨⟨(exec cfg1 init (goodOps.take 7)).get (by rfl), (Option.some_get _).symm, by rfl, by rfl, by rfl⟩,
    ⟨(exec cfg1 init goodOps).get (by rfl), (Option.some_get _).symm, by rfl, by rfl⟩, by rfl, by rfl⟩

/-- **C163** fails: the controller answers with an error, and the application is told that all is well. -/
theorem C163_fails : ¬ C163_statement := fun hc => by
  obtain ⟨⟨st, h1, h2, h3, h4⟩, _⟩ := C163_example
  have := hc cfg1 _ st 0 1 7 false h1 C163_orderly_open h3 h2 h4
  rw [C163_fails_status cfg1 _ st 1 0 7 h1 C163_orderly_open h2 h4] at this
  cases this

end Verif.Startup
