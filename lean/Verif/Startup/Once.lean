import Verif.Startup.Confirmed
/-!
C163, every run (also with a controller or application that does not keep to the rules): the confirmation call-back is called at most once per connection.
-/
set_option linter.unusedSimpArgs false
set_option linter.unusedVariables false
set_option linter.unusedTactic false
set_option linter.unreachableTactic false
namespace Verif.Startup

/-- 1 in the states from STARTUP to the confirmation, else 0. -/
def pre : Cmdev → Nat
  | .wPeind | .wPeres | .wArdy | .wArdycnf => 1
  | _ => 0

theorem pre_le (v : Cmdev) : pre v ≤ 1 := by cases v <;> simp [pre]

/-- A connection enters these states only with a STARTUP. -/
def Rise (st st' : St) : Prop := ∀ k, pre (st'.ars k).cmdev + startups k st.log ≤ pre (st.ars k).cmdev + startups k st'.log

theorem Rise.refl (st : St) : Rise st st := fun _ => Nat.le_refl _

theorem Rise.trans {a b d : St} (h1 : Rise a b) (h2 : Rise b d) : Rise a d := fun k => by
  have := h1 k
  have := h2 k
  omega

theorem Rise.same {st st' : St} (h1 : st'.ars = st.ars) (h2 : st'.log = st.log) : Rise st st' := fun k => by rw [h1, h2]; exact Nat.le_refl _

theorem startups_mono (k : Nat) (e : Entry) (l : List Entry) : startups k l ≤ startups k (e :: l) := by
  cases e with
  | event j ev t => cases ev <;> simp [startups]
  | _ => exact Nat.le_refl _

theorem Rise.note' {a b : St} {e : Entry} (h : Rise a b) : Rise a (b.note e) :=
  h.trans fun k => by
    have := startups_mono k e b.log
    rw [note_log, note_ars]
    omega

theorem Rise.setSess' {a b : St} {s : Nat} {x : Sess} (h : Rise a b) : Rise a (b.setSess s x) := h.trans (Rise.same rfl rfl)
theorem Rise.sess' {a b : St} {s : Nat} (h : Rise a b) : Rise a (sessRelease b s) := h.trans (Rise.same (by simp) (by simp))

theorem Rise.use' {a b : St} {s : Nat} (h : Rise a b) : Rise a (useSess b s) := by
  unfold useSess
  split
  · exact h
  · exact (h.setSess').note'

theorem Rise.setAr' {a b : St} {i : Nat} {x : Ar} (h : Rise a b) (hx : pre x.cmdev ≤ pre (b.ars i).cmdev) : Rise a (b.setAr i x) :=
  h.trans fun k => by
    have e : (b.setAr i x).log = b.log := rfl
    rw [e]
    by_cases hk : k = i
    · subst hk; simp; exact hx
    · simp [hk]

theorem Rise.stateInd' {a b : St} {i : Nat} {e : Event} (h : Rise a b) : Rise a (stateInd b i e) :=
  h.trans fun k => by
    have hm := startups_mono k (.event i e b.now) b.log
    rw [stateInd_log, stateInd_ars]
    by_cases hk : k = i
    · subst hk
      by_cases he : e = .abort
      · simp only [if_true, he] at hm ⊢
        have : pre Ar.zero.cmdev = 0 := rfl
        omega
      · simp only [if_true, he, if_false, arInd_cmdev]
        omega
    · simp only [hk, if_false]
      omega

theorem Rise.setState' {a b : St} {i : Nat} {v : Cmdev} (h : Rise a b) (hv : pre v ≤ pre (b.ars i).cmdev) : Rise a (setState b i v) := by
  by_cases e : v = .abort
  · rw [e, setState_abort_eq]; exact h.stateInd'
  · rw [setState_of_ne _ _ _ e]; exact h.setAr' hv

/-- With STARTUP every state can be entered. -/
theorem Rise.startup' {a b : St} {i : Nat} {v : Cmdev} (h : Rise a b) (hv : v ≠ .abort) : Rise a (setState (stateInd b i .startup) i v) :=
  h.trans fun k => by
    rw [setState_of_ne _ _ _ hv]
    have e : ∀ x, ((stateInd b i .startup).setAr i x).log = (stateInd b i .startup).log := fun _ => rfl
    rw [e, stateInd_log]
    have := pre_le v
    by_cases hk : k = i
    · subst hk; simp [startups]; omega
    · simp [hk, stateInd_ars, startups]

theorem Rise.cmAbort' {a b : St} {i : Nat} (h : Rise a b) : Rise a (cmAbort b i) := by
  unfold cmAbort
  dsimp only
  repeat' split
  all_goals first | exact h.setState' (Nat.zero_le _) | exact h

theorem Rise.refuse' {a b : St} {i s : Nat} (h : Rise a b) : Rise a (refuse b i s) := by
  unfold Startup.refuse
  exact ((h.setAr' (Nat.zero_le _)).setSess').sess'

macro "rise" : tactic => `(tactic| (
  repeat' first
    | with_reducible exact Rise.refl _
    | with_reducible assumption
    | (with_reducible refine Rise.startup' ?_ (by simp))
    | with_reducible apply Rise.stateInd'
    | (with_reducible refine Rise.setState' ?_ ?_)
    | with_reducible apply Rise.cmAbort'
    | with_reducible apply Rise.refuse'
    | with_reducible apply Rise.sess'
    | with_reducible apply Rise.use'
    | with_reducible apply Rise.note'
    | with_reducible apply Rise.setSess'
    | (with_reducible refine Rise.setAr' ?_ ?_)
    | exact Nat.zero_le _
    | exact Nat.le_refl _
    | (simp [stateInd_ars, setState_of_ne, pre, *]; done)
    | (simp_all [stateInd_ars, setState_of_ne, pre]; done)))

theorem Rise.infoInd (st : St) (i : Nat) (b : Bool) : Rise st (infoInd st i b) := by
  unfold Startup.infoInd
  dsimp only
  repeat' split
  all_goals (try dsimp only)
  all_goals rise

theorem Rise.connectInd' {a b : St} {i s : Nat} {v : Verdict} (h : Rise a b) : Rise a (connectInd b i s v) := by
  unfold Startup.connectInd
  dsimp only
  repeat' split
  all_goals (try dsimp only)
  all_goals rise

theorem Rise.connect (c : Cfg) (st : St) (s u : Nat) (a b : Bool) (f : Nat) (io : List Bool) (v : Verdict) :
    Rise st (connect c st s u a b f io v) := by
  unfold Startup.connect
  dsimp only
  repeat' split
  · rise
  · rise
  · apply Rise.connectInd'
    rise

theorem Rise.release (c : Cfg) (st : St) (s u : Nat) : Rise st (release c st s u) := by
  unfold Startup.release
  dsimp only
  repeat' split
  all_goals (try dsimp only)
  all_goals rise

theorem Rise.cmpbeDcontrol (st : St) (i cmd : Nat) (b : Bool) : Rise st (cmpbeDcontrol st i cmd b).1 := by
  unfold Startup.cmpbeDcontrol
  dsimp only
  repeat' split
  all_goals (try dsimp only)
  all_goals rise

theorem Rise.cmdevDcontrol (st : St) (i cmd : Nat) (a b : Bool) : Rise st (cmdevDcontrol st i cmd a b).1 := by
  unfold Startup.cmdevDcontrol
  dsimp only
  have hp := Rise.cmpbeDcontrol st i cmd a
  repeat' split
  all_goals (try dsimp only)
  all_goals rise

theorem Rise.dcontrol (c : Cfg) (st : St) (q : DcReq) : Rise st (dcontrol c st q) := by
  unfold Startup.dcontrol
  dsimp only
  refine (Rise.use' (s := q.s) (Rise.refl _)).trans ?_
  have hp := fun i => Rise.cmdevDcontrol (useSess st q.s) i q.cmd q.appOk q.pdevOk
  repeat' split
  all_goals rise
  all_goals exact hp _

theorem Rise.appReady (st : St) (i : Nat) (d : Bool) (o : Option Nat) : Rise st (appReady st i d o) := by
  unfold Startup.appReady
  dsimp only
  repeat' split
  all_goals (try dsimp only)
  all_goals rise

theorem Rise.ccontrolCnf (st : St) (i : Nat) : Rise st (ccontrolCnf st i).1 := by
  unfold Startup.ccontrolCnf
  dsimp only
  repeat' split
  all_goals (try dsimp only)
  all_goals rise

theorem Rise.sess (st : St) (s : Nat) : Rise st (sessRelease st s) := (Rise.refl _).sess'

theorem Rise.cancel (st : St) (s : Nat) : Rise st (cancel st s) := by
  unfold Startup.cancel
  repeat' split
  all_goals (try dsimp only)
  all_goals rise

theorem Rise.restart' {a b : St} {i : Nat} (h : Rise a b) : Rise a (cmsmRestart b i) := by
  unfold Startup.cmsmRestart
  dsimp only
  repeat' split
  all_goals (try dsimp only)
  all_goals rise

theorem Rise.read {c : Cfg} {st st' : St} {s u t idx : Nat} {imp ck : Bool}
    (h : read c st s u imp t idx ck = some st') : Rise st st' := by
  unfold Startup.read at h
  dsimp only at h
  refine (Rise.use' (Rise.refl _) : Rise st (useSess st s)).trans ?_
  split at h
  · cases h; exact Rise.sess _ _
  split at h
  · cases h; exact Rise.sess _ _
  rw [Option.bind_eq_some_iff] at h
  obtain ⟨st1, h1, h2⟩ := h
  have k1 : Rise (useSess st s) st1 := by
    repeat' split at h1
    all_goals first
      | (cases h1; done)
      | (cases h1
         first
          | exact Rise.refl _
          | exact (Rise.refl _).note'
          | exact Rise.restart' (Rise.note' (Rise.note' (Rise.refl _))))
  refine k1.trans ?_
  split at h2
  · cases h2; exact Rise.sess _ _
  · cases h2; exact Rise.refl _

theorem Rise.cmwrr (st : St) (i : Nat) (p : Place) (idx : Nat) (ok : Bool) :
    Rise st (cmwrrInd' st i p idx ok).1 := by
  unfold Startup.cmwrrInd' Startup.cmwrrWrite
  repeat' split
  all_goals first | exact Rise.refl _ | exact (Rise.refl _).note'

theorem Rise.write (c : Cfg) (st : St) (s u : Nat) (p : Place) (idx : Nat) (ck ok : Bool) :
    Rise st (write c st s u p idx ck ok) := by
  unfold Startup.write
  dsimp only
  refine (Rise.use' (Rise.refl _) : Rise st (useSess st s)).trans ?_
  repeat' split
  all_goals first
    | exact Rise.sess _ _
    | exact (Rise.refl _).note'
    | exact Rise.note' (Rise.restart' (Rise.note' (Rise.cmwrr _ _ _ _ _)))

theorem Rise.cmioTimer (st : St) (i : Nat) : Rise st (cmioTimer st i) := by
  unfold Startup.cmioTimer
  dsimp only
  split
  · exact Rise.infoInd _ _ _
  · rise

theorem Rise.cmsmTimer (st : St) (i : Nat) : Rise st (cmsmTimer st i) := by
  unfold Startup.cmsmTimer
  dsimp only
  repeat' split
  all_goals (try dsimp only)
  all_goals rise

theorem Rise.cpm (st : St) (i crep : Nat) (b : Bool) : Rise st (cpmStateInd st i crep b) := by
  unfold Startup.cpmStateInd
  dsimp only
  repeat' split
  all_goals (try dsimp only)
  all_goals rise

theorem Rise.newData (st : St) (i crep : Nat) (b : Bool) : Rise st (newDataInd st i crep b) := by
  unfold Startup.newDataInd
  dsimp only
  repeat' split
  all_goals (try dsimp only)
  all_goals rise

theorem Rise.step {c : Cfg} {st st' : St} {op : Op} (h : ∀ s x d p, op ≠ .response s x d p) (hs : step c st op = some st') : Rise st st' := by
  cases op with
  | response s x d p => exact absurd rfl (h s x d p)
  | read s u a b d e => exact Rise.read hs
  | connect s u a b f io v => cases hs; exact Rise.connect _ _ _ _ _ _ _ _ _
  | release s u => cases hs; exact Rise.release _ _ _ _
  | dcontrol q => cases hs; exact Rise.dcontrol _ _ _
  | cancel s => cases hs; exact Rise.cancel _ _
  | write s u p idx a b => cases hs; exact Rise.write _ _ _ _ _ _ _ _
  | other s => cases hs; exact (Rise.refl _).use'
  | appReady i d o => cases hs; exact Rise.appReady _ _ _ _
  | abort i =>
    cases hs
    split
    · exact (Rise.refl _).cmAbort'
    · exact Rise.refl _
  | cmioTimer i => cases hs; exact Rise.cmioTimer _ _
  | cmsmTimer i => cases hs; exact Rise.cmsmTimer _ _
  | cpmState i r b => cases hs; exact Rise.cpm _ _ _ _
  | newData i r b => cases hs; exact Rise.newData _ _ _ _
  | tick d => cases hs; exact Rise.same rfl rfl
  | own p o => cases hs; exact Rise.same rfl rfl


theorem rise_response {st st' : St} {s x i : Nat} {d p : Bool} (hu : (st.sess s).inUse = true) (hi : (st.sess s).ar = some i)
    (h : response st s x d p = some st') (k : Nat) :
    pre (st'.ars k).cmdev + callsFor k (cnfCalls true st s d p) + startups k st.log ≤ pre (st.ars k).cmdev + startups k st'.log := by
  unfold Startup.response at h
  rw [if_pos hu, hi] at h
  dsimp only at h
  have hn : Rise st (st.note (.readyRsp i x (d && !p))) := (Rise.refl _).note'
  simp only [cnfCalls, hu, hi, if_true]
  cases d
  · simp only [Bool.false_eq_true, if_false] at h ⊢
    cases h
    have := hn k
    simpa [callsFor] using this
  cases p
  · simp only [if_true, Bool.false_eq_true, if_false] at h ⊢
    by_cases hc : (st.ars i).cmdev = .wArdycnf
    · have hc' : ((st.note (.readyRsp i x (true && !false))).ars i).cmdev = .wArdycnf := hc
      have hcall : callsFor k (cmdevCnf true (st.ars i) i 0) = if k = i then 1 else 0 := by
        unfold cmdevCnf
        rw [hc]
        by_cases hk : k = i
        · subst hk; simp [callsFor, fspmCnf]
        · have : ¬ i = k := fun e => hk e.symm
          simp [callsFor, fspmCnf, hk, this]
      rw [hcall]
      by_cases hr : ((st.note (.readyRsp i x (true && !false))).ars i).ready = true
      · rw [cnf_ready hc' hr] at h
        simp only [if_true] at h
        cases h
        have e := ((hn.stateInd' (i := i) (e := .data)).setState' (i := i) (v := .data) (Nat.zero_le _)).sess' (s := s) k
        by_cases hk : k = i
        · subst hk
          have hz : startups k st.log ≤ startups k (sessRelease (setState (stateInd (st.note (.readyRsp k x (true && !false))) k .data) k .data) s).log := by
            have : (sessRelease (setState (stateInd (st.note (.readyRsp k x (true && !false))) k .data) k .data) s).log =
                .event k .data st.now :: .readyRsp k x true :: st.log := by
              rw [setState_of_ne _ _ _ (by simp)]
              simp [stateInd_log]
            rw [this]
            simp [startups]
          have h1 : pre ((sessRelease (setState (stateInd (st.note (.readyRsp k x (true && !false))) k .data) k .data) s).ars k).cmdev = 0 := by
            rw [setState_of_ne _ _ _ (by simp)]
            simp [pre]
          have h2 : pre (st.ars k).cmdev = 1 := by rw [hc]; rfl
          rw [h1, h2, if_pos rfl]
          omega
        · rw [if_neg hk]; exact e
      · rw [cnf_wait hc' hr] at h
        simp only [if_true] at h
        cases h
        have e := (hn.setState' (i := i) (v := .wdata) (Nat.zero_le _)).sess' (s := s) k
        by_cases hk : k = i
        · subst hk
          have hz : (sessRelease (setState (st.note (.readyRsp k x (true && !false))) k .wdata) s).log = .readyRsp k x true :: st.log := by
            rw [setState_of_ne _ _ _ (by simp)]
            simp
          have h1 : pre ((sessRelease (setState (st.note (.readyRsp k x (true && !false))) k .wdata) s).ars k).cmdev = 0 := by
            rw [setState_of_ne _ _ _ (by simp)]
            simp [pre]
          have h2 : pre (st.ars k).cmdev = 1 := by rw [hc]; rfl
          rw [h1, h2, if_pos rfl, hz]
          simp [startups]
        · rw [if_neg hk]; exact e
    · have hc' : ((st.note (.readyRsp i x (true && !false))).ars i).cmdev ≠ .wArdycnf := hc
      rw [cnf_other hc'] at h
      simp only [Bool.false_eq_true, if_false] at h
      cases h
      have hcall : cmdevCnf true (st.ars i) i 0 = [] := by
        unfold cmdevCnf
        split
        · rename_i e; exact absurd e hc
        · rfl
      rw [hcall]
      exact hn k
  · simp only [if_true] at h ⊢
    cases h
    exact (hn.sess' (s := s)) k

theorem rise_calls {c : Cfg} {st st' : St} {op : Op} (h : step c st op = some st') (k : Nat) :
    pre (st'.ars k).cmdev + callsFor k (cnfStep true st op) + startups k st.log ≤ pre (st.ars k).cmdev + startups k st'.log := by
  by_cases hop : ∃ s x d p, op = .response s x d p
  · obtain ⟨s, x, d, p, rfl⟩ := hop
    have h' : response st s x d p = some st' := h
    cases hu : (st.sess s).inUse
    · have : st' = st := by
        unfold Startup.response at h'
        rw [if_neg (by simp [hu])] at h'
        exact (Option.some.inj h').symm
      subst this
      simp [cnfStep, cnfCalls, hu, callsFor]
    · cases hs : (st.sess s).ar with
      | none =>
        unfold Startup.response at h'
        rw [if_pos hu, hs] at h'
        cases h'
      | some j => exact rise_response hu hs h' k
  · have hr := Rise.step (fun s x d p e => hop ⟨s, x, d, p, e⟩) h k
    have : cnfStep true st op = [] := by
      cases op <;> first | exact absurd ⟨_, _, _, _, rfl⟩ hop | rfl
    rw [this]
    exact hr

theorem rise_run {c : Cfg} (k : Nat) : ∀ {ops : List Op} {st st' : St}, exec c st ops = some st' →
    pre (st'.ars k).cmdev + callsFor k (cnfRun true c st ops) + startups k st.log ≤ pre (st.ars k).cmdev + startups k st'.log
  | [], st, st', he => by cases he; simp [cnfRun, callsFor]
  | o :: os, st, st', he => by
    simp only [Startup.exec, Option.bind_eq_some_iff] at he
    obtain ⟨st1, h1, h2⟩ := he
    have a := rise_calls h1 k
    have b := rise_run k h2
    simp only [cnfRun, h1]
    unfold callsFor at *
    rw [List.filter_append, List.length_append]
    omega

/-- **C163**, every run of any length, whatever the controller and the application do: the application is told at most once for each STARTUP of the connection. -/
theorem C163_once (c : Cfg) (ops : List Op) (st : St) (h : exec c init ops = some st) (i : Nat) :
    callsFor i (cnfRun true c init ops) ≤ startups i st.log := by
  have := rise_run i h
  have e1 : pre (init.ars i).cmdev = 0 := rfl
  have e2 : startups i init.log = 0 := rfl
  omega

/-- A run that is not orderly: a response with the (negative) status 7 and a done block comes twice; there is one call. -/
theorem C163_once_example : ∃ ops st, ops = goodOps.take 7 ++ [.response 1 7 true false, .response 1 7 true false] ∧ exec cfg1 init ops = some st ∧
    callsFor 0 (cnfRun true cfg1 init ops) = 1 ∧ startups 0 st.log = 1 :=
  ⟨_, (exec cfg1 init (goodOps.take 7 ++ [.response 1 7 true false, .response 1 7 true false])).get (by rfl), rfl, (Option.some_get _).symm, by rfl, by rfl⟩

end Verif.Startup
