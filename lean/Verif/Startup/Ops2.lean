import Verif.Startup.Ops
/-! The remaining operations, and runs. -/
set_option linter.unusedSimpArgs false
set_option linter.unusedVariables false
namespace Verif.Startup

variable {T : Prop}

theorem SInv.openMe {st : St} (s i : Nat) (h : SInv T st) (hu : (st.sess s).inUse = false)
    (hin : (st.ars i).inUse = true) :
    SInv T ((st.setSess s ⟨true, true, some i, 0xFFFFFFFF, 0⟩).note (.opened s)) := by
  refine ⟨?_, ?_, ?_, h.dead, ?_, ?_⟩
  · intro t ht
    by_cases hts : t = s
    · simp [hts] at ht
    · simp [hts] at ht ⊢; exact h.sfree t ht
  · intro t k hk
    by_cases hts : t = s
    · simp [hts] at hk ⊢; subst hk; exact hin
    · simp [hts] at hk ⊢; exact h.sar t k hk
  · intro t ht
    by_cases hts : t = s
    · simp [hts]
    · simp [hts] at ht ⊢; exact h.fme t ht
  · intro hT k hk
    obtain ⟨t, a1, a2, a3, a4⟩ := h.link hT k hk
    have hts : t ≠ s := by rintro rfl; rw [hu] at a2; cases a2
    exact ⟨t, a1, by simpa [hts] using a2, by simpa [hts] using a3, by simpa [hts] using a4⟩
  · intro t ht
    by_cases hts : t = s
    · subst hts; simp [lastDc_cons, dcNext, DcOk]
    · have h' : ¬ s = t := fun x => hts x.symm
      simp [hts, h', lastDc_cons, dcNext] at ht ⊢; exact h.dc t ht

/-- The call of application-ready alone. -/
theorem Good.readyCall {st : St} {i : Nat} (h : Good T st) : Good T (st.note (.readyCall i)) := by
  refine ⟨h.s.note (by trivial), h.l.only i (Only.note (fun k hk => by
    simp [About]; exact fun x => hk x.symm)) ?_⟩
  have hl := h.l i
  simp only [note_ars, note_log, weak_cons, phase_cons, sup_cons]
  have hsv : supNext i (factorOf i st.log) (supervised i st.log) (.readyCall i) = supervised i st.log := rfl
  rw [hsv]
  refine ⟨?_, ?_, hl.sup, hl.pbe, ?_, ?_⟩
  · intro hu
    obtain ⟨a, b⟩ := hl.zero hu
    exact ⟨a, by simp [b, weakNext]⟩
  · intro hu
    have := hl.live hu
    unfold Live at this ⊢
    cases hc : (st.ars i).cmdev <;> rw [hc] at this <;> dsimp only at this ⊢ <;>
      cases hw : weak i st.log <;> simp_all [weakNext]
  · intro t hu; simp [hl.fzero t hu, phaseNext]
  · intro t hu
    have := hl.flive t hu
    unfold FullLive at this ⊢
    cases hc : (st.ars i).cmdev <;> rw [hc] at this <;> dsimp only at this ⊢ <;>
      cases hw : phase i st.log <;> simp_all [phaseNext]

theorem Good.appReady {st : St} {c : Cfg} {i : Nat} {d : Bool} {out : Option Nat} (h : Good T st)
    (ho : T → Orderly c st (.appReady i d out)) : Good T (appReady st i d out) := by
  unfold Startup.appReady
  by_cases hin : (st.ars i).inUse = false
  · rw [if_neg (by simp [hin])]; exact h
  have hin : (st.ars i).inUse = true := by simpa using hin
  rw [if_pos hin]
  dsimp only
  have h1 := h.readyCall (i := i)
  have hin1 : ((st.note (.readyCall i)).ars i).inUse = true := by simpa using hin
  by_cases ha : ((st.note (.readyCall i)).ars i).access = true
  · rw [if_pos ha]; exact h1.abort i hin1
  rw [if_neg ha]
  cases hc : ((st.note (.readyCall i)).ars i).cmdev <;> dsimp only <;> try exact h1
  cases d with
  | false => simp only [Bool.false_eq_true, if_false]; exact h1
  | true =>
    simp only [if_true]
    have hl := h1.l i
    have lv := hl.live hin1
    unfold Live at lv
    rw [hc] at lv
    dsimp only at lv
    -- the weak sequence: the call has been made
    have hw : weak i (st.note (.readyCall i)).log = .called ∨
        weak i (st.note (.readyCall i)).log = .answered := by
      simp only [note_log, weak_cons] at lv ⊢
      rcases lv.2.1 with e | e | e
      · exfalso
        cases hx : weak i st.log <;> rw [hx] at e <;> simp [weakNext] at e
      · exact .inl e
      · exact .inr e
    have hp : T → phase i (st.note (.readyCall i)).log = .called := by
      intro t
      have hfl := hl.flive t hin1
      unfold FullLive at hfl
      rw [hc] at hfl
      dsimp only at hfl
      rcases hfl.1 with e | e
      · exfalso
        simp only [note_log, phase_cons] at e
        cases hx : phase i st.log <;> rw [hx] at e <;> simp [phaseNext] at e
      · exact e
    generalize hX : st.note (.readyCall i) = X at *
    have hXs : X.sess = st.sess := by rw [← hX]; rfl
    have hsm : ∀ m, smNext m .applrdy = m := by intro m; cases m <;> rfl
    have hdl : ∀ f m d, dlNext X.now f m d .applrdy = d := by intro f m d; cases m <;> rfl
    have hpb : ∀ m, pbeNext m .applrdy = m := by intro m; cases m <;> rfl
    have hwr : T → wrrNext (X.ars i).cmwrr .applrdy = .data := by
      intro t
      have hfl := hl.flive t hin1
      unfold FullLive at hfl
      rw [hc] at hfl
      rw [hfl.2]; rfl
    -- connection i after the event, with state `v`
    have fin : ∀ v, (v = .wArdy ∧ ¬ T) ∨ v = .wArdycnf →
        Loc T { arInd X.now (X.ars i) .applrdy with cmdev := v }
          (weak i (.event i .applrdy X.now :: X.log)) (phase i (.event i .applrdy X.now :: X.log))
          (supervised i (.event i .applrdy X.now :: X.log)) := by
      intro v hv
      have e1 : weak i (.event i .applrdy X.now :: X.log) = weak i X.log := by simp [weak_cons, weakNext]
      have e3 : supervised i (.event i .applrdy X.now :: X.log) = supervised i X.log := by
        simp [sup_cons, supNext]
      rw [e1, e3]
      refine ⟨by simp [hin1], ?_, ?_, ?_, by simp [hin1], ?_⟩
      · intro _
        rcases hv with ⟨rfl, _⟩ | rfl
        · simp only [Live, arInd_access, arInd_cmsm, hsm]; exact lv
        · simp only [Live, arInd_access, arInd_cmsm, hsm]; exact ⟨lv.1, hw, lv.2.2⟩
      · have := hl.sup
        cases hx : supervised i X.log with
        | none => rw [hx] at this; simpa [SupOk, hsm, hdl] using this
        | some x => rw [hx] at this; simpa [SupOk, hsm, hdl] using this
      · simpa [hpb] using hl.pbe
      · intro t _
        rcases hv with ⟨_, hT⟩ | rfl
        · exact absurd t hT
        · simp [FullLive, phase_cons, hp t, phaseNext, hwr t]
    have hs1 := h1.s.stateInd i .applrdy
    have stay : ¬ T → Good T (stateInd X i .applrdy) := by
      intro hT
      refine ⟨hs1, h1.l.only i Only.stateInd ?_⟩
      have := fin .wArdy (.inl ⟨rfl, hT⟩)
      rw [stateInd_ars, stateInd_log]
      simp only [if_true, reduceCtorEq, if_false]
      have e : { arInd X.now (X.ars i) .applrdy with cmdev := .wArdy } = arInd X.now (X.ars i) .applrdy := by
        have : (arInd X.now (X.ars i) .applrdy).cmdev = .wArdy := by simp [hc]
        rw [← this]
      rw [e] at this
      exact this
    cases out with
    | none =>
      dsimp only
      apply stay
      intro t
      obtain ⟨s, a, _⟩ := ho t
      cases a
    | some s =>
      dsimp only
      have hss : (stateInd X i .applrdy).sess s = st.sess s := by
        rw [stateInd_sess]; simp [hXs]
      rw [hss]
      by_cases hu : (st.sess s).inUse = true
      · rw [if_pos hu]
        apply stay
        intro t
        obtain ⟨s', a, b⟩ := ho t
        cases a
        rw [hu] at b; cases b
      · rw [if_neg hu]
        rw [setState_of_ne _ _ _ (by simp)]
        have hin2 : ((stateInd X i .applrdy).ars i).inUse = true := by
          rw [stateInd_ars]; simp [hin1]
        refine ⟨(hs1.openMe s i (by rw [hss]; simpa using hu) hin2).setAr rfl rfl, ?_⟩
        refine h1.l.only i (((Only.stateInd.trans Only.setSess).trans (Only.note (fun k hk => by
          simp [About]))).trans Only.setAr) ?_
        simp only [setAr_ars, if_true, setAr_log, note_log, note_ars, setSess_ars, setSess_log, stateInd_ars,
          stateInd_log, reduceCtorEq, if_false]
        have g : ¬ About i (.opened s) := by simp [About]
        rw [weak_other g, phase_other g, supervised_other g]
        exact fin .wArdycnf (.inr rfl)

/-! ## DATA -/

/-- Reporting DATA. -/
theorem Good.data {st : St} {i : Nat} (h : Good T st) (hin : (st.ars i).inUse = true)
    (hacc : (st.ars i).access = false) (hsm : (st.ars i).cmsm = .run)
    (hw : weak i st.log = .answered) (hp : T → phase i st.log = .confirmed)
    (hwr : T → (st.ars i).cmwrr = .data) :
    Good T (setState (stateInd st i .data) i .data) := by
  rw [setState_of_ne _ _ _ (by simp)]
  refine ⟨(h.s.stateInd i _).setAr rfl rfl, h.l.only i (Only.stateInd.trans Only.setAr) ?_⟩
  simp only [setAr_ars, if_true, setAr_log, stateInd_ars, stateInd_log, reduceCtorEq, if_false,
    weak_cons, phase_cons, sup_cons]
  refine ⟨by simp [hin], ?_, ?_, ?_, by simp [hin], ?_⟩
  · intro _; right; simp [hacc, weakNext, hw, hsm, smNext]
  · simp [supNext, SupOk, hsm, smNext, dlNext]
  · obtain ⟨a, b⟩ := (h.l i).pbe
    refine ⟨?_, by simpa using b⟩
    rcases a with e | e | e <;> simp [e, pbeNext]
  · intro t _; right; simp [hacc, phaseNext, hp t, hwr t, wrrNext]

/-- Like `data`, from a state in which only the sequence has advanced. -/
theorem Good.dataFrom {st0 st : St} {i : Nat} (h : Good T st0) (hs : SInv T st) (ho : Only i st0 st)
    (hin : (st.ars i).inUse = true)
    (hacc : (st.ars i).access = false) (hsm : (st.ars i).cmsm = .run)
    (hpb : ((st.ars i).cmpbe = .idle ∨ (st.ars i).cmpbe = .wfind ∨ (st.ars i).cmpbe = .wfrsp) ∧
      (st.ars i).stored = 0)
    (hw : weak i st.log = .answered) (hp : T → phase i st.log = .confirmed)
    (hwr : T → (st.ars i).cmwrr = .data) :
    Good T (setState (stateInd st i .data) i .data) := by
  rw [setState_of_ne _ _ _ (by simp)]
  refine ⟨(hs.stateInd i _).setAr rfl rfl, h.l.only i (ho.trans (Only.stateInd.trans Only.setAr)) ?_⟩
  simp only [setAr_ars, if_true, setAr_log, stateInd_ars, stateInd_log, reduceCtorEq, if_false,
    weak_cons, phase_cons, sup_cons]
  refine ⟨by simp [hin], ?_, ?_, ?_, by simp [hin], ?_⟩
  · intro _; right; simp [hacc, weakNext, hw, hsm, smNext]
  · simp [supNext, SupOk, hsm, smNext, dlNext]
  · obtain ⟨a, b⟩ := hpb
    refine ⟨?_, by simpa using b⟩
    rcases a with e | e | e <;> simp [e, pbeNext]
  · intro t _; right; simp [hacc, phaseNext, hp t, hwr t, wrrNext]

theorem Good.infoInd {st : St} {i : Nat} {b : Bool} (h : Good T st) (hin : (st.ars i).inUse = true) :
    Good T (infoInd st i b) := by
  have hr : Good T (st.setAr i { st.ars i with ready := b }) :=
    h.setAr rfl rfl (fun hu => by rw [hin] at hu; cases hu) rfl rfl rfl rfl rfl rfl (.inl rfl) rfl
  unfold Startup.infoInd
  dsimp only
  split <;> try first | exact h | exact hr
  rename_i hc
  cases b with
  | false => simp only [Bool.false_eq_true, if_false]; exact hr
  | true =>
    simp only [if_true]
    have lv := (h.l i).live hin
    unfold Live at lv
    rw [hc] at lv
    have fl : T → FullLive (st.ars i) (phase i st.log) := fun t => (h.l i).flive t hin
    unfold FullLive at fl
    rw [hc] at fl
    dsimp only at lv fl
    refine hr.data (by simp [hin]) (by simp [lv.1]) (by simp [lv.2.2]) (by simp [lv.2.1])
      (fun t => by simp [(fl t).1]) (fun t => by simp [(fl t).2])

theorem zero_of_not {st : St} {i : Nat} (h : Good T st) (hu : (st.ars i).inUse = false) :
    st.ars i = Ar.zero := ((h.l i).zero hu).1

theorem Good.cmioTimer {st : St} {i : Nat} (h : Good T st) : Good T (cmioTimer st i) := by
  unfold Startup.cmioTimer
  dsimp only
  split
  · rename_i hx
    refine h.infoInd ?_
    cases hc : (st.ars i).inUse
    · rw [zero_of_not h hc] at hx; simp [Ar.zero] at hx
    · rfl
  · refine h.setAr rfl rfl ?_ rfl rfl rfl rfl rfl rfl (.inl rfl) rfl
    intro hu; rw [zero_of_not h hu]; rfl

theorem Good.cpmState {st : St} {i crep : Nat} {b : Bool} (h : Good T st) :
    Good T (cpmStateInd st i crep b) := by
  have hin : (st.ars i).cmio ≠ .idle → (st.ars i).inUse = true := by
    intro hx
    cases hc : (st.ars i).inUse
    · rw [zero_of_not h hc] at hx; simp [Ar.zero] at hx
    · rfl
  unfold Startup.cpmStateInd
  dsimp only
  cases hc : (st.ars i).cmio <;> dsimp only
  · exact h
  · split
    · exact h.abort i (hin (by simp [hc]))
    · exact h
  · split
    · refine h.setAr rfl rfl ?_ rfl rfl rfl rfl rfl rfl (.inl rfl) rfl
      intro hu; rw [hin (by simp [hc])] at hu; cases hu
    · exact h
  · split
    · exact h
    · exact h.abort i (hin (by simp [hc]))

theorem Good.newData {st : St} {i crep : Nat} {b : Bool} (h : Good T st) :
    Good T (newDataInd st i crep b) := by
  unfold Startup.newDataInd
  dsimp only
  cases hc : (st.ars i).cmio <;> dsimp only <;> try exact h
  split
  · refine h.setAr rfl rfl ?_ rfl rfl rfl rfl rfl rfl (.inl rfl) rfl
    intro hu; rw [zero_of_not h hu] at hc; simp [Ar.zero] at hc
  · exact h

/-! ## Supervision timer -/

theorem stateInd_abort_congr {st : St} {i : Nat} {a : Ar} (h : a.sess = (st.ars i).sess) :
    stateInd (st.setAr i a) i .abort = stateInd st i .abort := by
  have hr : ∀ s, released (st.setAr i a) i s = released st i s := by
    intro s; unfold released; simp [h]
  have a1 : (stateInd (st.setAr i a) i .abort).ars = (stateInd st i .abort).ars := by
    funext k; simp only [stateInd_ars, if_true]; by_cases hk : k = i <;> simp [hk]
  have a2 : (stateInd (st.setAr i a) i .abort).sess = (stateInd st i .abort).sess := by
    funext k; simp only [stateInd_sess, hr, setAr_sess]
  have a3 : (stateInd (st.setAr i a) i .abort).subs = (stateInd st i .abort).subs := by
    funext k; simp only [stateInd_subs, setAr_subs]
  have a4 : (stateInd (st.setAr i a) i .abort).log = (stateInd st i .abort).log := by
    simp only [stateInd_log, setAr_log, setAr_now]
  have a5 : (stateInd (st.setAr i a) i .abort).now = (stateInd st i .abort).now := by
    simp only [stateInd_now, setAr_now]
  revert a1 a2 a3 a4 a5
  generalize stateInd (st.setAr i a) i .abort = x
  generalize stateInd st i .abort = y
  cases x; cases y
  simp only [St.mk.injEq]
  intro a1 a2 a3 a4 a5
  exact ⟨a1, a2, a3, a5, a4⟩

/-- The timer ends the connection as an abort does. -/
theorem cmsmTimer_eq {st : St} {i : Nat} (h : Good T st) : cmsmTimer st i =
    if (st.ars i).cmsm = .run ∧ ∃ d, (st.ars i).deadline = some d ∧ d ≤ st.now then stateInd st i .abort
    else st := by
  have hsup := (h.l i).sup
  unfold cmsmTimer
  dsimp only
  cases hd : (st.ars i).deadline with
  | none => simp
  | some d =>
    dsimp only
    have hrun : (st.ars i).cmsm = .run := by
      cases hx : supervised i st.log with
      | none => rw [hx] at hsup; simp [SupOk, hd] at hsup
      | some x => rw [hx] at hsup; exact hsup.1
    by_cases hn : st.now < d
    · rw [if_pos hn, if_neg]
      rintro ⟨_, d', h1, h2⟩
      cases h1; omega
    · rw [if_neg hn, if_pos ⟨hrun, d, rfl, by omega⟩]
      split
      · rename_i hi; rw [hrun] at hi; cases hi
      have e : stateInd (st.setAr i { st.ars i with deadline := none }) i .abort = stateInd st i .abort :=
        stateInd_abort_congr rfl
      rw [e]
      have hz : (stateInd st i .abort).ars i = Ar.zero := by rw [stateInd_ars]; simp
      have : ∀ x : St, x.ars i = Ar.zero → x.setAr i { x.ars i with cmsm := .idle } = x := by
        intro x hx
        cases x
        simp only [St.setAr, St.mk.injEq, and_true, true_and] at hx ⊢
        funext k
        by_cases hk : k = i
        · subst hk; simp [hx]; rfl
        · simp [hk]
      exact this _ hz

theorem Good.cmsmTimer {st : St} {i : Nat} (h : Good T st) : Good T (cmsmTimer st i) := by
  rw [cmsmTimer_eq h]
  split
  · rename_i hx
    refine h.abort i ?_
    cases hc : (st.ars i).inUse
    · rw [zero_of_not h hc] at hx; simp [Ar.zero] at hx
    · rfl
  · exact h

/-! ## Responses -/

theorem readyRsp_quiet {i st : Nat} {p : Phase} {w : Weak} :
    phaseNext i p (.readyRsp i st false) = p ∧ weakNext i w (.readyRsp i st false) = w := by
  simp [phaseNext, weakNext]

theorem cnf_ready {st : St} {i : Nat} (h : (st.ars i).cmdev = .wArdycnf) (hr : (st.ars i).ready = true) :
    ccontrolCnf st i = (setState (stateInd st i .data) i .data, true) := by
  unfold ccontrolCnf; simp [h, hr]

theorem cnf_wait {st : St} {i : Nat} (h : (st.ars i).cmdev = .wArdycnf) (hr : ¬ (st.ars i).ready = true) :
    ccontrolCnf st i = (setState st i .wdata, true) := by
  unfold ccontrolCnf; simp [h, hr]

theorem cnf_other {st : St} {i : Nat} (h : (st.ars i).cmdev ≠ .wArdycnf) :
    ccontrolCnf st i = (st, false) := by
  unfold ccontrolCnf
  cases hx : (st.ars i).cmdev <;> simp_all

theorem Good.response {st st' : St} {c : Cfg} {s status : Nat} {done plug : Bool} (h : Good T st)
    (ho : T → Orderly c st (.response s status done plug))
    (hr : response st s status done plug = some st') : Good T st' := by
  unfold Startup.response at hr
  by_cases hu : (st.sess s).inUse = false
  · rw [if_neg (by simp [hu])] at hr; cases hr; exact h
  have hu : (st.sess s).inUse = true := by simpa using hu
  rw [if_pos hu] at hr
  cases hs : (st.sess s).ar with
  | none => rw [hs] at hr; cases hr
  | some i =>
    rw [hs] at hr
    dsimp only at hr
    have hin := (h.s.sar s i hs).1
    have hon : ∀ b, Only i st (st.note (.readyRsp i status b)) := fun b =>
      Only.note (fun k hk => by simp [About]; exact fun x => hk x.symm)
    have hfm : T → (st.sess s).fromMe = true := fun t => (ho t hu).1
    have hquiet : Good T (st.note (.readyRsp i status false)) := by
      refine ⟨h.s.note (by trivial), h.l.only i (hon _) ?_⟩
      simp only [note_ars, note_log, weak_cons, phase_cons, sup_cons]
      rw [(readyRsp_quiet (w := .idle)).1, (readyRsp_quiet (p := .idle)).2]
      exact h.l i
    cases done with
    | false =>
      simp only [Bool.false_and, Bool.false_eq_true, if_false] at hr
      cases hr; exact hquiet
    | true =>
      simp only [if_true, Bool.true_and] at hr
      cases plug with
      | true =>
        simp only [if_true, Bool.not_true] at hr
        cases hr
        exact hquiet.sessRelease s (fun t => .inr (by simpa using hfm t))
      | false =>
        simp only [Bool.false_eq_true, if_false, Bool.not_false] at hr
        have hs1 : SInv T (st.note (.readyRsp i status true)) := h.s.note (by trivial)
        have hl := h.l i
        have lv := hl.live hin
        have fl : T → FullLive (st.ars i) (phase i st.log) := fun t => hl.flive t hin
        have hst0 : T → status = 0 := fun t => (ho t hu).2 rfl
        by_cases hc : (st.ars i).cmdev = .wArdycnf
        · have hc' : ((st.note (.readyRsp i status true)).ars i).cmdev = .wArdycnf := hc
          unfold Live at lv
          unfold FullLive at fl
          rw [hc] at lv fl
          dsimp only at lv fl
          have hw : weak i (st.note (.readyRsp i status true)).log = .answered := by
            simp only [note_log, weak_cons]
            rcases lv.2.1 with e | e <;> simp [e, weakNext]
          have hp : T → phase i (st.note (.readyRsp i status true)).log = .confirmed := by
            intro t
            simp only [note_log, phase_cons]
            simp [(fl t).1, phaseNext, hst0 t]
          by_cases hrd : (st.ars i).ready = true
          · rw [cnf_ready hc' hrd] at hr
            simp only [if_true] at hr
            cases hr
            refine (Good.dataFrom h hs1 (hon _) (by simpa using hin) (by simpa using lv.1)
              (by simpa using lv.2.2) (by simpa using hl.pbe) hw hp (fun t => by simpa using (fl t).2)).sessRelease
              s (fun t => .inr ?_)
            rw [setState_of_ne _ _ _ (by simp)]
            simp only [setAr_sess]
            rw [stateInd_sess]
            simpa using hfm t
          · rw [cnf_wait hc' hrd] at hr
            simp only [if_true] at hr
            cases hr
            rw [setState_of_ne _ _ _ (by simp)]
            have hg : Good T ((st.note (.readyRsp i status true)).setAr i
                { (st.note (.readyRsp i status true)).ars i with cmdev := .wdata }) := by
              refine ⟨hs1.setAr rfl rfl, h.l.only i ((hon _).trans Only.setAr) ?_⟩
              simp only [setAr_ars, if_true, setAr_log, note_ars]
              have e3 : supervised i (st.note (.readyRsp i status true)).log = supervised i st.log := rfl
              rw [hw, e3]
              refine ⟨by simp [hin], fun _ => ?_, ?_, hl.pbe, by simp [hin], fun t _ => ?_⟩
              · simp only [Live, true_and]; exact ⟨lv.1, lv.2.2⟩
              · have := hl.sup
                cases hx : supervised i st.log with
                | none => rw [hx] at this; exact this
                | some x => rw [hx] at this; exact this
              · rw [hp t]; simp only [FullLive, true_and]; exact (fl t).2
            refine hg.sessRelease s (fun t => .inr ?_)
            simpa using hfm t
        · rw [cnf_other (st := st.note (.readyRsp i status true)) hc] at hr
          simp only [Bool.false_eq_true, if_false, Option.some.injEq] at hr
          have hr' := hr.symm
          rw [hr']
          refine ⟨hs1, h.l.only i (hon _) ?_⟩
          simp only [note_ars, note_log, weak_cons, phase_cons, sup_cons]
          have e3 : supNext i (factorOf i st.log) (supervised i st.log) (.readyRsp i status true) =
            supervised i st.log := rfl
          rw [e3]
          refine ⟨fun hu => by simp [hin] at hu, fun _ => ?_, hl.sup, hl.pbe,
            fun _ hu => by simp [hin] at hu, fun t _ => ?_⟩
          · revert lv
            unfold Live
            generalize weak i st.log = w
            cases hx : (st.ars i).cmdev <;> dsimp only <;> cases w <;> simp [weakNext]
          · have := fl t
            revert this
            unfold FullLive
            generalize phase i st.log = w
            cases hx : (st.ars i).cmdev <;> dsimp only <;> cases w <;> simp [phaseNext]
            exact fun _ => absurd hx hc

/-! ## All operations -/

theorem Good.step {st st' : St} {c : Cfg} {op : Op} (h : Good T st) (ho : T → Orderly c st op)
    (hs : step c st op = some st') : Good T st' := by
  cases op with
  | response s status done plug => exact h.response ho hs
  | connect s u a b f io v => cases hs; exact h.connect ho
  | release s u => cases hs; exact h.release ho
  | dcontrol q => cases hs; exact h.dcontrol ho
  | cancel s => cases hs; exact h.cancel
  | read s u im tg idx ch => exact h.read ho hs
  | write s u p idx ch ok => cases hs; exact h.write ho
  | other s => cases hs; exact h.useSess s
  | appReady i d out => cases hs; exact h.appReady ho
  | abort i =>
    simp only [Startup.step, Option.some.injEq] at hs
    subst hs
    split
    · rename_i hin; exact h.cmAbort i hin
    · exact h
  | cmioTimer i => cases hs; exact h.cmioTimer
  | cmsmTimer i => cases hs; exact h.cmsmTimer
  | cpmState i cr b => cases hs; exact h.cpmState
  | newData i cr b => cases hs; exact h.newData
  | tick d => cases hs; exact h.same rfl rfl rfl
  | own p o => cases hs; exact h.same rfl rfl rfl

theorem Good.init : Good T init := by
  refine ⟨⟨fun _ _ => ⟨rfl, rfl⟩, ?_, ?_, fun _ _ => rfl, ?_, ?_⟩, fun i => Loc.zeroed⟩
  · intro s i h; simp [Startup.init, Sess.zero] at h
  · intro s h; simp [Startup.init, Sess.zero] at h
  · intro _ i h; simp [Startup.init, Ar.zero] at h
  · intro s h; simp [Startup.init, Sess.zero] at h

theorem Good.exec {c : Cfg} : ∀ {ops : List Op} {st st' : St}, Good T st →
    (T → Run c (Orderly c) st ops) → exec c st ops = some st' → Good T st'
  | [], st, st', h, _, he => by cases he; exact h
  | o :: os, st, st', h, hr, he => by
    simp only [Startup.exec, Option.bind_eq_some_iff] at he
    obtain ⟨st1, h1, h2⟩ := he
    exact Good.exec (h.step (fun t => (hr t).1) h1) (fun t => (hr t).2 st1 h1) h2

end Verif.Startup
