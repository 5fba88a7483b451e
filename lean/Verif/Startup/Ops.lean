import Verif.Startup.Inv
/-! Every operation keeps the invariants. -/
set_option linter.unusedSimpArgs false
set_option linter.unusedVariables false
namespace Verif.Startup

variable {T : Prop}

theorem SInv.mono {T' : Prop} {st : St} (h : SInv T st) (hT : T' → T) : SInv T' st :=
  ⟨h.sfree, h.sar, h.fme, h.dead, fun t => h.link (hT t), h.dc⟩

theorem LInv.mono {T' : Prop} {st : St} (h : LInv T st) (hT : T' → T) : LInv T' st := fun i =>
  ⟨(h i).zero, (h i).live, (h i).sup, (h i).pbe, fun t => (h i).fzero (hT t), fun t => (h i).flive (hT t)⟩

/-- Both invariants. -/
structure Good (T : Prop) (st : St) : Prop where
  s : SInv T st
  l : LInv T st

theorem Good.note {st : St} {e : Entry} (h : Good T st) (h1 : NotDc e) (h2 : ∀ k, ¬ About k e) :
    Good T (st.note e) := ⟨h.s.note h1, h.l.note h2⟩

theorem Good.useSess {st : St} (s : Nat) (h : Good T st) : Good T (useSess st s) :=
  ⟨h.s.useSess s, h.l.useSess s⟩

theorem Good.sessRelease {st : St} (s : Nat) (h : Good T st)
    (hs : T → (st.sess s).ar = none ∨ (st.sess s).fromMe = true) : Good T (sessRelease st s) :=
  ⟨h.s.sessRelease s hs, h.l.sessRelease s⟩

theorem Good.abort {st : St} (i : Nat) (h : Good T st) (hin : (st.ars i).inUse = true) :
    Good T (stateInd st i .abort) := ⟨h.s.stateInd i _, h.l.abort i hin⟩

theorem Good.setAbort {st : St} (i : Nat) (h : Good T st) (hin : (st.ars i).inUse = true) :
    Good T (setState st i .abort) := by rw [setState_abort_eq]; exact h.abort i hin

theorem Good.same {st st' : St} (h : Good T st) (h1 : st'.ars = st.ars) (h2 : st'.sess = st.sess)
    (h3 : st'.log = st.log) : Good T st' := ⟨h.s.same h1 h2 h3, h.l.same h1 h3⟩

/-- Change of members of an AR that the invariants do not look at. -/
theorem Good.setAr {st : St} {i : Nat} {a : Ar} (h : Good T st) (hin : a.inUse = (st.ars i).inUse)
    (hs : a.sess = (st.ars i).sess)
    (hz : (st.ars i).inUse = false → a = st.ars i) (h1 : a.cmdev = (st.ars i).cmdev)
    (h2 : a.access = (st.ars i).access) (h3 : a.cmsm = (st.ars i).cmsm)
    (h4 : a.cmwrr = (st.ars i).cmwrr) (h5 : a.factor = (st.ars i).factor)
    (h6 : a.deadline = (st.ars i).deadline) (h7 : a.cmpbe = (st.ars i).cmpbe ∨ a.cmpbe = .wfrsp)
    (h8 : a.stored = (st.ars i).stored) : Good T (st.setAr i a) := by
  refine ⟨h.s.setAr hin hs, h.l.only i Only.setAr ?_⟩
  simp only [setAr_ars, setAr_log, if_true]
  exact (h.l i).ofSame hin hz h1 h2 h3 h4 h5 h6 h7 h8

theorem Good.cmAbort {st : St} (i : Nat) (h : Good T st) (hin : (st.ars i).inUse = true) :
    Good T (cmAbort st i) := by
  unfold Startup.cmAbort
  dsimp only
  split
  · split
    · exact h.setAbort i hin
    · exact h.setAbort i hin
    · exact h
  · exact h.setAbort i hin

/-- A connection that reported STARTUP is always ended by an abort. -/
theorem cmAbort_eq {st : St} {i : Nat} (h : Live (st.ars i) (weak i st.log))
    (hc : (st.ars i).cmdev ≠ .wCind) : cmAbort st i = stateInd st i .abort := by
  unfold cmAbort
  dsimp only
  unfold Live at h
  rw [← setState_abort_eq]
  cases hd : (st.ars i).cmdev <;> rw [hd] at h <;> simp at h hc <;> simp [h]
  · exact absurd hd hc

/-- After an abort no session refers to the connection. -/
theorem abort_no_ref {st : St} {i s : Nat} (h : Good T st) :
    ((stateInd st i .abort).sess s).ar ≠ some i := by
  intro hs
  have := (h.s.stateInd i .abort).sar s i hs
  rw [stateInd_ars] at this
  simp [Ar.zero] at this

theorem stateInd_ar {st : St} {i s : Nat} {e : Event} :
    ((stateInd st i e).sess s).ar = none ∨ ((stateInd st i e).sess s).ar = (st.sess s).ar := by
  rw [stateInd_sess]
  split
  · exact .inl rfl
  · exact .inr rfl

theorem findUuid_inUse {c : Cfg} {st : St} {u i : Nat} (h : findUuid c st u = some i) :
    (st.ars i).inUse = true ∧ i < c.maxAr ∧ (st.ars i).uuid = u := by
  unfold findUuid at h
  have h1 := List.find?_some h
  have h2 := List.mem_of_find?_eq_some h
  simp at h1 h2
  exact ⟨h1.1.1, h2, h1.2⟩

theorem findFree_free {c : Cfg} {st : St} {i : Nat} (h : findFree c st = some i) :
    (st.ars i).inUse = false ∧ i < c.maxAr := by
  unfold findFree at h
  have h1 := List.find?_some h
  have h2 := List.mem_of_find?_eq_some h
  simp at h1 h2
  exact ⟨h1, h2⟩

theorem findUuid_useSess {c : Cfg} {st : St} {u s : Nat} :
    findUuid c (useSess st s) u = findUuid c st u := by
  unfold findUuid; simp

theorem useSess_ar {st : St} {s : Nat} (h : SInv T st) :
    ((useSess st s).sess s).ar = (st.sess s).ar := by
  unfold useSess
  split
  · rfl
  · rename_i hu
    simp [(h.sfree s (by simpa using hu)).1]

theorem useSess_inUse {st : St} {s : Nat} : ((useSess st s).sess s).inUse = true := by
  unfold useSess
  split
  · rename_i h; simpa using h
  · simp

/-- The session of a request was the connection's, and the connection is gone. -/
theorem gone_ar {st : St} {i s : Nat} (h : Good T st)
    (hs : (st.sess s).ar = none ∨ (st.sess s).ar = some i) :
    ((stateInd st i .abort).sess s).ar = none := by
  have h1 := abort_no_ref (i := i) (s := s) h
  rcases stateInd_ar (st := st) (i := i) (s := s) (e := .abort) with h2 | h2
  · exact h2
  · rcases hs with h3 | h3
    · rw [h2, h3]
    · rw [h2, h3] at h1; exact absurd rfl h1

theorem full_not_cind {a : Ar} {p : Phase} (h : FullLive a p) : a.cmdev ≠ .wCind := by
  intro hc; unfold FullLive at h; rw [hc] at h; exact h

/-! ## Connect -/

theorem Good.refuse {st st0 : St} {i s : Nat} (h : Good T st0) (hf : (st0.ars i).inUse = false)
    (hs : SInv T st) (hlog : st.log = st0.log) (hars : ∀ k, k ≠ i → st.ars k = st0.ars k)
    (hu : (st.sess s).inUse = true) (h1 : (st.ars i).sess = some s) (h2 : (st.ars i).inUse = true)
    (h3 : (st.sess s).ar = some i) (h4 : ∀ t, (st.sess t).ar = some i → t = s) :
    Good T (refuse st i s) := by
  refine ⟨hs.refuse i s hu h1 h2 h3 h4, ?_⟩
  intro k
  have e1 : (Startup.refuse st i s).log = st0.log := by unfold Startup.refuse; simp [hlog]
  have e2 : (Startup.refuse st i s).ars k = st0.ars k := by
    unfold Startup.refuse
    by_cases hk : k = i
    · subst hk; simp [((h.l k).zero hf).1]
    · simp [hk, hars k hk]
  rw [e1, e2]; exact h.l k

theorem setState_abort_cmdev (st : St) (i : Nat) (x : Cmdev) :
    setState (st.setAr i { st.ars i with cmdev := x }) i .abort = setState st i .abort := by
  unfold Startup.setState
  simp only [if_true]
  congr 1
  unfold St.setAr
  congr 1
  funext k
  by_cases hk : k = i <;> simp [hk]

theorem Good.connectInd {st st0 : St} {i s u f : Nat} {access legacy : Bool} {io : List Iocr} {v : Verdict}
    (h : Good T st0) (hf : (st0.ars i).inUse = false)
    (hs : SInv T st) (hlog : st.log = st0.log) (hars : ∀ k, k ≠ i → st.ars k = st0.ars k)
    (ha : st.ars i = { Ar.zero with
        inUse := true, uuid := u, access := access, legacy := legacy, factor := f,
        iocrs := io, sess := some s })
    (hu : (st.sess s).inUse = true) (h3 : (st.sess s).ar = some i)
    (h4 : ∀ t, (st.sess t).ar = some i → t = s) (hv : T → v ≠ .refused 0 ∧ v ≠ .accept .noTimer) :
    Good T (connectInd st i s v) := by
  have hz := h.l i
  obtain ⟨hz1, hz2⟩ := hz.zero hf
  have hz3 := fun t => hz.fzero t hf
  have hz4 : supervised i st0.log = none := by
    have := hz.sup
    cases hc : supervised i st0.log with
    | none => rfl
    | some x => rw [hc, hz1] at this; simp [SupOk, Ar.zero] at this
  have hr0 : ¬ T → Good T (Startup.connectInd st i s (.refused 0)) := by
    intro hT
    unfold Startup.connectInd
    dsimp only
    rw [setState_of_ne _ _ _ (by simp), if_pos rfl]
    refine ⟨hs.setAr rfl rfl, ?_⟩
    intro k
    by_cases hk : k = i
    · subst hk
      simp only [setAr_ars, setAr_log, if_true, ha, hlog, hz2, hz4]
      refine ⟨by simp, ?_, ?_, ?_, fun t => absurd t hT, fun t => absurd t hT⟩
      · intro _; simp [Live, Ar.zero]
      · simp [SupOk, Ar.zero]
      · simp [Ar.zero]
    · simp only [setAr_ars, setAr_log, hk, if_false, hlog, hars k hk]; exact h.l k
  unfold Startup.connectInd
  cases v with
  | refused code =>
    dsimp only
    by_cases hc0 : code = 0
    · have hr := hr0 (fun t => (hv t).1 (by rw [hc0]))
      unfold Startup.connectInd at hr
      dsimp only at hr
      rw [if_pos rfl] at hr
      rw [if_pos hc0]
      exact hr
    rw [setState_of_ne _ _ _ (by simp)]
    rw [if_neg hc0]
    refine h.refuse hf (hs.setAr rfl rfl) (by simp [hlog]) ?_ (by simp [hu]) (by simp [ha])
      (by simp [ha]) (by simp [h3]) (by simpa using h4)
    intro k hk; simp [hk, hars k hk]
  | accept start =>
    dsimp only
    simp only [setState_of_ne _ _ _ (show Cmdev.wCres ≠ .abort by simp),
      setState_of_ne _ _ _ (show Cmdev.wSucnf ≠ .abort by simp),
      setState_of_ne _ _ _ (show Cmdev.data ≠ .abort by simp),
      setState_of_ne _ _ _ (show Cmdev.wPeind ≠ .abort by simp)]
    have fin : ∀ (st1 : St) (d1 d2 : Cmdev), (d2 = .data ∧ access = true) ∨ (d2 = .wPeind ∧ access = false) →
        SInv T st1 → st1.log = st0.log → (∀ k, k ≠ i → st1.ars k = st0.ars k) →
        st1.ars i = { st.ars i with cmdev := d1 } →
        Good T ((stateInd (st1.note (.connected i (st1.ars i).factor)) i .startup).setAr i
          { (stateInd (st1.note (.connected i (st1.ars i).factor)) i .startup).ars i with cmdev := d2 }) := by
      intro st1 d1 d2 hd hs1 hl1 hk1 ha1
      refine ⟨((hs1.note (by trivial)).stateInd i _).setAr rfl rfl, ?_⟩
      intro k
      by_cases hk : k = i
      · subst hk
        simp only [setAr_ars, setAr_log, if_true, stateInd_ars, stateInd_log, note_log, note_ars, note_now,
          weak_cons, phase_cons, sup_cons, hl1, hz2, hz4, ha1, ha]
        refine ⟨by simp, ?_, ?_, ?_, by simp, ?_⟩
        · intro _
          rcases hd with ⟨rfl, rfl⟩ | ⟨rfl, rfl⟩ <;> simp [Live, Ar.zero, weakNext, smNext]
        · simp [SupOk, supNext, factorOf, Ar.zero, smNext, dlNext]
        · simp [Ar.zero, pbeNext]
        · intro t _
          rw [hz3 t]
          rcases hd with ⟨rfl, rfl⟩ | ⟨rfl, rfl⟩ <;> simp [FullLive, Ar.zero, phaseNext, wrrNext]
      · have hk' : ¬ i = k := fun x => hk x.symm
        have g1 : ∀ e t, ¬ About k (.event i e t) := by intro e t; simp [About, hk']
        have g2 : ∀ f, ¬ About k (.connected i f) := by intro e; simp [About, hk']
        simp only [setAr_ars, setAr_log, hk, if_false, stateInd_ars, stateInd_log, note_log, note_ars,
          weak_other (g1 _ _), weak_other (g2 _), phase_other (g1 _ _), phase_other (g2 _),
          supervised_other (g1 _ _), supervised_other (g2 _), hl1, hk1 k hk]
        exact h.l k
    have hacc : ((st.setAr i { st.ars i with cmdev := .wCres }).ars i).access = access := by simp [ha]
    have s1 : SInv T (st.setAr i { st.ars i with cmdev := .wCres }) := hs.setAr rfl rfl
    by_cases hacc' : access = true
    · rw [if_pos (by rw [hacc, hacc'])]
      exact fin (st.setAr i { st.ars i with cmdev := .wCres }) .wCres .data (.inl ⟨rfl, hacc'⟩) s1
        (by simp [hlog]) (fun k hk => by simp [hk, hars k hk]) (by simp)
    · rw [if_neg (by rw [hacc]; exact hacc')]
      have s2 := s1.setAr (i := i) (a := { (st.setAr i { st.ars i with cmdev := .wCres }).ars i with
        cmdev := .wSucnf }) rfl rfl
      cases start with
      | ok =>
        dsimp only
        exact fin _ .wSucnf .wPeind (.inr ⟨rfl, by simpa using hacc'⟩) s2
          (by simp [hlog]) (fun k hk => by simp [hk, hars k hk]) (by simp)
      | noTimer =>
        dsimp only
        have hT : ¬ T := fun t => (hv t).2 rfl
        have hr : Good T (Startup.connectInd st i s (.refused 0)) := hr0 hT
        have := hr.cmAbort i (by
          unfold Startup.connectInd
          rw [setState_of_ne _ _ _ (by simp)]
          simp [ha])
        have e : Startup.cmAbort (Startup.connectInd st i s (.refused 0)) i =
            Startup.stateInd (st.setAr i { st.ars i with cmdev := .wCres }) i .abort := by
          unfold Startup.connectInd Startup.cmAbort
          rw [setState_of_ne _ _ _ (by simp)]
          have ha' : (((st.setAr i { st.ars i with cmdev := .wCind })).ars i).access = false := by simp [ha]; simpa using hacc'
          simp only [if_true, ha', if_false, Bool.false_eq_true]
          rw [setState_abort_cmdev, ← setState_abort_eq, setState_abort_cmdev]
        rw [e] at this
        exact this
      | failed =>
        dsimp only
        refine h.refuse hf s2 (by simp [hlog]) ?_ (by simp [hu]) (by simp [ha])
          (by simp [ha]) (by simp [h3]) (by simpa using h4)
        intro k hk; simp [hk, hars k hk]

theorem Good.connect {st : St} {c : Cfg} {s u f : Nat} {access legacy : Bool} {io : List Bool} {v : Verdict}
    (h : Good T st) (ho : T → Orderly c st (.connect s u access legacy f io v)) :
    Good T (connect c st s u access legacy f io v) := by
  unfold Startup.connect
  dsimp only
  have h1 := h.useSess s
  have hfu : findUuid c (Startup.useSess st s) u = findUuid c st u := findUuid_useSess
  have har := useSess_ar (s := s) h.s
  rw [hfu]
  cases hf : findUuid c st u with
  | some j =>
    dsimp only
    have hin : ((Startup.useSess st s).ars j).inUse = true := by
      simpa using (findUuid_inUse hf).1
    refine (h1.cmAbort j hin).sessRelease s ?_
    intro t
    left
    rw [cmAbort_eq ((h1.l j).live hin) (full_not_cind ((h1.l j).flive t hin))]
    have := (ho t).1
    rw [hf] at this
    exact gone_ar h1 (by rw [har]; exact this)
  | none =>
    dsimp only
    have hn : T → ((Startup.useSess st s).sess s).ar = none := by
      intro t
      have := (ho t).1
      rw [hf] at this
      rw [har]; simpa using this
    cases hg : findFree c (Startup.useSess st s) with
    | none => exact h1.sessRelease s (fun t => .inl (hn t))
    | some i =>
      dsimp only
      have hfree := (findFree_free hg).1
      obtain ⟨hs, h4⟩ := h1.s.setup i s { Ar.zero with
        inUse := true, uuid := u, access := access, legacy := legacy, factor := f,
        iocrs := io.map (fun o => ⟨o, false⟩), sess := some s } useSess_inUse hn hfree rfl rfl
      exact Good.connectInd (u := u) (f := f) (access := access) (legacy := legacy)
        (io := io.map (fun o => ⟨o, false⟩)) h1 hfree hs (by simp) (fun k hk => by simp [hk]) (by simp)
        (by simp [useSess_inUse]) (by simp) h4 (fun t => (ho t).2)

/-! ## Release, cancel, abort -/

theorem Good.release {st : St} {c : Cfg} {s u : Nat} (h : Good T st)
    (ho : T → Orderly c st (.release s u)) : Good T (release c st s u) := by
  unfold Startup.release
  dsimp only
  have h1 := h.useSess s
  have har := useSess_ar (s := s) h.s
  rw [findUuid_useSess]
  cases hf : findUuid c st u with
  | none =>
    dsimp only
    refine h1.sessRelease s (fun t => .inl ?_)
    have := ho t
    simp only [Orderly, hf] at this
    rw [har]; simpa using this
  | some i =>
    dsimp only
    have hin : ((Startup.useSess st s).ars i).inUse = true := by simpa using (findUuid_inUse hf).1
    have hl := (h1.l i).live hin
    have hfl := fun t => (h1.l i).flive t hin
    have hab := h1.abort i hin
    have hgone : T → ((stateInd (Startup.useSess st s) i .abort).sess s).ar = none := by
      intro t
      have := ho t
      simp only [Orderly, hf] at this
      exact gone_ar h1 (by rw [har]; exact this)
    simp only [setState_abort_eq]
    by_cases ha : ((Startup.useSess st s).ars i).access = true
    · rw [if_pos ha]
      by_cases hd : ((Startup.useSess st s).ars i).cmdev = .data
      · rw [if_pos hd]; exact hab.sessRelease s (fun t => .inl (hgone t))
      · rw [if_neg hd]
        refine h1.sessRelease s ?_
        intro t
        exfalso
        have := hfl t
        unfold FullLive at this
        unfold Live at hl
        cases hc : ((Startup.useSess st s).ars i).cmdev <;> rw [hc] at this hl <;> simp_all
    · rw [if_neg ha]
      split <;> try exact hab.sessRelease s (fun t => .inl (hgone t))
      refine h1.sessRelease s ?_
      intro t
      exfalso
      have := hfl t
      unfold FullLive at this
      cases hc : ((Startup.useSess st s).ars i).cmdev <;> rw [hc] at this <;> simp_all

theorem Good.cancel {st : St} {s : Nat} (h : Good T st) : Good T (cancel st s) := by
  unfold Startup.cancel
  split
  · cases hs : (st.sess s).ar with
    | none => exact h.sessRelease s (fun _ => .inl hs)
    | some i =>
      dsimp only
      have hin := (h.s.sar s i hs).1
      refine (h.cmAbort i hin).sessRelease s ?_
      intro t
      left
      rw [cmAbort_eq ((h.l i).live hin) (full_not_cind ((h.l i).flive t hin))]
      exact gone_ar h (.inr hs)
  · exact h

/-! ## Records -/

theorem Good.restart {st : St} {i : Nat} (h : Good T st) (hin : (st.ars i).inUse = true) :
    Good T (cmsmRestart (st.note (.activity i st.now)) i) := by
  have hl := h.l i
  have hon : Only i st (st.note (.activity i st.now)) :=
    Only.note (fun k hk => by simp [About]; exact fun x => hk x.symm)
  unfold cmsmRestart
  dsimp only [note_ars]
  split
  · rename_i hc
    refine ⟨h.s.note (by trivial), h.l.only i hon ?_⟩
    have hsv : supervised i st.log = none := by
      have := hl.sup
      cases hx : supervised i st.log with
      | none => rfl
      | some x => rw [hx] at this; simp [SupOk, hc] at this
    simp only [note_ars, note_log, weak_cons, phase_cons, sup_cons, weakNext, phaseNext, supNext, if_true,
      hsv, Option.map_none]
    rw [hsv] at hl; exact hl
  · rename_i hc
    refine ⟨(h.s.note (by trivial)).setAr rfl rfl, h.l.only i (hon.trans Only.setAr) ?_⟩
    simp only [note_ars, note_log, setAr_ars, setAr_log, note_now, weak_cons, phase_cons, sup_cons,
      weakNext, phaseNext, supNext, if_true]
    have hsup := hl.sup
    refine ⟨?_, hl.live, ?_, hl.pbe, hl.fzero, hl.flive⟩
    · intro hu; rw [show (st.ars i).inUse = true from hin] at hu; cases hu
    · cases hx : supervised i st.log with
      | none => rw [hx] at hsup; simp [SupOk, hc] at hsup
      | some x =>
        obtain ⟨a, b⟩ := x
        rw [hx] at hsup
        simp only [SupOk, Option.map_some] at hsup ⊢
        exact ⟨hsup.1, hsup.2.1, by rw [hsup.2.1]⟩

theorem cmsmRestart_log (st : St) (i : Nat) : (cmsmRestart st i).log = st.log := by
  unfold cmsmRestart; dsimp only; split <;> simp

theorem cmsmRestart_subs (st : St) (i : Nat) : (cmsmRestart st i).subs = st.subs := by
  unfold cmsmRestart; dsimp only; split <;> simp

theorem cmsmRestart_sess (st : St) (i : Nat) : (cmsmRestart st i).sess = st.sess := by
  unfold cmsmRestart; dsimp only; split <;> simp

theorem readAr_useSess (c : Cfg) (st : St) (s u : Nat) (im : Bool) (tg : Nat) :
    readAr c (useSess st s) u im tg = readAr c st u im tg := by
  simp [readAr, findUuid_useSess]

theorem Good.read {st st' : St} {c : Cfg} {s u : Nat} {implicit : Bool} {target idx : Nat} {checks : Bool}
    (h : Good T st) (ho : T → Orderly c st (.read s u implicit target idx checks))
    (hr : read c st s u implicit target idx checks = some st') : Good T st' := by
  unfold Startup.read at hr
  dsimp only at hr
  have h1 := h.useSess s
  have har := useSess_ar (s := s) h.s
  simp only [findUuid_useSess, readAr_useSess] at hr
  by_cases c1 : u = 0 ∧ implicit = false
  · rw [if_pos c1] at hr
    cases hr
    exact h1.sessRelease s (fun t => .inl (by rw [har]; exact ho t (.inr c1.1)))
  rw [if_neg c1] at hr
  by_cases c2 : (findUuid c st u).isSome = true ∧ implicit = true
  · rw [if_pos c2] at hr
    cases hr
    exact h1.sessRelease s (fun t => .inl (by rw [har]; exact ho t (.inl c2.2)))
  rw [if_neg c2] at hr
  have fin : ∀ X : St, Good T X → X.sess = (Startup.useSess st s).sess →
      (if implicit = true ∨ (X.sess s).ar = none then some (Startup.sessRelease X s) else some X) = some st' →
      Good T st' := by
    intro X hX hs hx
    split at hx
    · rename_i hc
      cases hx
      refine hX.sessRelease s (fun t => .inl ?_)
      rcases hc with hc | hc
      · rw [hs, har]; exact ho t (.inl hc)
      · exact hc
    · cases hx; exact hX
  cases checks with
  | false => exact fin _ h1 rfl hr
  | true =>
    simp only [if_true] at hr
    generalize hA : readAr c st u implicit target = A at hr
    cases A with
    | none =>
      dsimp only at hr
      split at hr
      · cases hr
      · exact fin _ (h1.note (by trivial) (fun k => by simp [About])) rfl hr
    | some i =>
      have hin : (st.ars i).inUse = true := by
        cases hf : findUuid c st u with
        | some j => unfold readAr at hA; rw [hf] at hA; cases hA; exact (findUuid_inUse hf).1
        | none =>
          unfold readAr at hA; rw [hf] at hA
          dsimp only at hA
          split at hA
          · exact (findUuid_inUse hA).1
          · cases hA
      have h2 : Good T ((Startup.useSess st s).note (.readServed (some i) u idx)) :=
        h1.note (by trivial) (fun k => by simp [About])
      exact fin _ (h2.restart (by simpa using hin)) (by simp [cmsmRestart_sess]) hr

theorem cmwrrWrite_cases (st : St) (i : Nat) (p : Place) (idx : Nat) (ok : Bool) :
    (cmwrrWrite st i p idx ok).1 = st ∨ (cmwrrWrite st i p idx ok).1 = st.note (.wrote i p idx) ∨
      (cmwrrWrite st i p idx ok).1 = st.note (.wrotePort i p idx) := by
  unfold cmwrrWrite
  repeat' split
  all_goals simp

theorem cmwrrInd'_cases (st : St) (i : Nat) (p : Place) (idx : Nat) (ok : Bool) :
    (cmwrrInd' st i p idx ok).1 = st ∨ (cmwrrInd' st i p idx ok).1 = st.note (.wrote i p idx) ∨
      (cmwrrInd' st i p idx ok).1 = st.note (.wrotePort i p idx) := by
  unfold cmwrrInd'
  split
  · simp
  · exact cmwrrWrite_cases ..
  · simp
  · exact cmwrrWrite_cases ..

theorem Good.write {st : St} {c : Cfg} {s u : Nat} {p : Place} {idx : Nat} {checks ok : Bool}
    (h : Good T st) (ho : T → Orderly c st (.write s u p idx checks ok)) :
    Good T (write c st s u p idx checks ok) := by
  unfold Startup.write
  dsimp only
  have h1 := h.useSess s
  rw [findUuid_useSess]
  cases hf : findUuid c st u with
  | none =>
    refine h1.sessRelease s (fun t => .inl ?_)
    have := ho t
    simp only [Orderly, hf] at this
    rw [useSess_ar h.s]; simpa using this
  | some i =>
    dsimp only
    have hin : ((Startup.useSess st s).ars i).inUse = true := by simpa using (findUuid_inUse hf).1
    split
    · refine Good.note ?_ (by trivial) (fun k => by simp [About])
      rcases cmwrrInd'_cases (Startup.useSess st s) i p idx ok with h2 | h2 | h2 <;> rw [h2]
      · exact h1.restart hin
      · exact (h1.note (by trivial) (fun k => by simp [About])).restart (by simpa using hin)
      · exact (h1.note (by trivial) (fun k => by simp [About])).restart (by simpa using hin)
    · exact h1.note (by trivial) (fun k => by simp [About])

/-! ## DControl -/

theorem cmpbe_good {st : St} {i cmd : Nat} {appOk : Bool} (h : Good T st) (hin : (st.ars i).inUse = true) :
    Good T (cmpbeDcontrol st i cmd appOk).1 ∧ ((cmpbeDcontrol st i cmd appOk).1.ars i).inUse = true ∧
    (cmpbeDcontrol st i cmd appOk).1.sess = st.sess := by
  have hp := (h.l i).pbe
  unfold cmpbeDcontrol
  dsimp only
  rcases hp with ⟨hp | hp | hp, hst⟩
  · rw [hp]; exact ⟨h, hin, rfl⟩
  · rw [hp]; dsimp only
    rw [if_neg (by simp [hst])]
    split
    · refine ⟨?_, by simp [hin], by simp⟩
      have hn : Good T (st.note (.dcCallback i cmdPrmBegin)) :=
        h.note (by trivial) (fun k => by simp [About])
      refine hn.setAr rfl rfl ?_ rfl rfl rfl rfl rfl rfl (.inr rfl) rfl
      intro hu; simp [hin] at hu
    · exact ⟨h, hin, rfl⟩
  · rw [hp]; exact ⟨h, hin, rfl⟩

theorem cmdevDcontrol_good {st : St} {i cmd : Nat} {appOk pdevOk : Bool} (h : Good T st)
    (hin : (st.ars i).inUse = true) :
    ((cmdevDcontrol st i cmd appOk pdevOk).2 = false → Good T (cmdevDcontrol st i cmd appOk pdevOk).1) ∧
    ((cmdevDcontrol st i cmd appOk pdevOk).2 = true →
      (st.ars i).cmdev = .wPeind ∧ (st.ars i).access = false ∧ (cmdevDcontrol st i cmd appOk pdevOk).1 =
        (st.note (.dcCallback i cmdPrmEnd)).setAr i { st.ars i with cmdev := .wArdy }) := by
  unfold cmdevDcontrol
  dsimp only
  by_cases ha : (st.ars i).access = true
  · rw [if_pos ha]; exact ⟨fun _ => h.abort i hin, by simp⟩
  rw [if_neg ha]
  cases hc : (st.ars i).cmdev <;> dsimp only <;> try exact ⟨fun _ => h, by simp⟩
  · -- wPeind
    simp only [setState_of_ne _ _ _ (show Cmdev.wPeres ≠ .abort by simp),
      setState_of_ne _ _ _ (show Cmdev.wArdy ≠ .abort by simp)]
    -- the state at an abort in the middle: only the state of CMDEV and the log differ
    have mid : ∀ (st1 : St), st1.sess = st.sess → st1.subs = st.subs → st1.now = st.now →
        (∃ d, st1.ars = (st.setAr i { st.ars i with cmdev := d }).ars) →
        (st1.log = .dcCallback i cmdPrmEnd :: st.log) → Good T (stateInd st1 i .abort) := by
      intro st1 h1 h1' h1n ⟨d, h2⟩ h3
      have hn : Good T (st.note (.dcCallback i cmdPrmEnd)) :=
        h.note (by trivial) (fun k => by simp [About])
      have : stateInd st1 i .abort = stateInd (st.note (.dcCallback i cmdPrmEnd)) i .abort := by
        have e1 : st1 = (st.note (.dcCallback i cmdPrmEnd)).setAr i
            { (st.note (.dcCallback i cmdPrmEnd)).ars i with cmdev := d } := by
          cases st1; simp only at h1 h1' h1n h2 h3; subst h1 h1' h1n h2 h3; rfl
        rw [e1]
        have e2 : ∀ s2 : St, stateInd (s2.setAr i { s2.ars i with cmdev := d }) i .abort =
            stateInd s2 i .abort := by
          intro s2
          have a1 : (stateInd (s2.setAr i { s2.ars i with cmdev := d }) i .abort).ars =
              (stateInd s2 i .abort).ars := by
            funext k; simp only [stateInd_ars, if_true]; by_cases hk : k = i <;> simp [hk]
          have a2 : (stateInd (s2.setAr i { s2.ars i with cmdev := d }) i .abort).sess =
              (stateInd s2 i .abort).sess := by
            funext k; simp only [stateInd_sess, released_setAr_cmdev, setAr_sess]
          have a3 : (stateInd (s2.setAr i { s2.ars i with cmdev := d }) i .abort).subs =
              (stateInd s2 i .abort).subs := by
            funext k; simp only [stateInd_subs, setAr_subs]
          have a4 : (stateInd (s2.setAr i { s2.ars i with cmdev := d }) i .abort).log =
              (stateInd s2 i .abort).log := by
            simp only [stateInd_log, setAr_log, setAr_now]
          have a5 : (stateInd (s2.setAr i { s2.ars i with cmdev := d }) i .abort).now =
              (stateInd s2 i .abort).now := by
            simp only [stateInd_now, setAr_now]
          revert a1 a2 a3 a4 a5
          generalize stateInd (s2.setAr i { s2.ars i with cmdev := d }) i .abort = x
          generalize stateInd s2 i .abort = y
          cases x; cases y
          simp only [St.mk.injEq]
          intro a1 a2 a3 a4 a5
          exact ⟨a1, a2, a3, a5, a4⟩
        exact e2 _
      rw [this]
      exact hn.abort i (by simpa using hin)
    by_cases hcmd : cmd = cmdPrmEnd
    · rw [if_pos hcmd]
      cases appOk with
      | false =>
        simp only [Bool.false_eq_true, if_false]
        exact ⟨fun _ => mid _ rfl rfl rfl ⟨.wPeres, rfl⟩ (by simp), by simp⟩
      | true =>
        simp only [if_true]
        cases pdevOk with
        | false =>
          simp only [Bool.false_eq_true, if_false]
          refine ⟨fun _ => mid _ rfl rfl rfl ⟨.wArdy, ?_⟩ (by simp), by simp⟩
          funext k; by_cases hk : k = i <;> simp [hk]
        | true =>
          simp only [if_true]
          refine ⟨by simp, fun _ => ⟨trivial, by simpa using ha, ?_⟩⟩
          unfold St.setAr St.note
          simp only [St.mk.injEq, and_true, true_and]
          funext k
          by_cases hk : k = i <;> simp [hk]
    · rw [if_neg hcmd]; exact ⟨fun _ => h.abort i hin, by simp⟩
  · -- data
    obtain ⟨g1, g2, g3⟩ := cmpbe_good (cmd := cmd) (appOk := appOk) h hin
    split
    · exact ⟨fun _ => g1, by simp⟩
    · exact ⟨fun _ => g1.abort i g2, by simp⟩

theorem Good.answer {st : St} (s q r : Nat) (h : Good T st) :
    Good T ((st.setSess s { st.sess s with dcSeq := q, dcRes := r }).note (.dcAnswer s q r true)) :=
  ⟨h.s.answer s q r, LInv.note (h.l.same rfl rfl) (fun k => by simp [About])⟩

theorem Good.dcontrol {st : St} {c : Cfg} {q : DcReq} (h : Good T st)
    (ho : T → Orderly c st (.dcontrol q)) : Good T (dcontrol c st q) := by
  unfold Startup.dcontrol
  dsimp only
  have h1 := h.useSess q.s
  have har := useSess_ar (s := q.s) h.s
  rw [findUuid_useSess]
  by_cases hp : q.parseOk = false
  · rw [if_pos (by simp [hp])]
    exact h1.note (by trivial) (fun k => by simp [About])
  rw [if_neg (by simp [hp])]
  by_cases hq : ((Startup.useSess st q.s).sess q.s).dcSeq = q.seq
  · rw [if_pos hq]
    refine ⟨?_, h1.l.note (fun k => by simp [About])⟩
    have := h1.s.again q.s
    rw [hq] at this
    exact this
  rw [if_neg hq]
  cases hf : findUuid c st q.u with
  | none =>
    dsimp only
    refine ⟨h1.s.answerKill _ _ _ useSess_inUse (fun t => .inl ?_),
      (h1.l.note (fun k => by simp [About])).sessRelease _⟩
    have := ho t
    simp only [Orderly, hf] at this
    rw [har]; exact this
  | some i =>
    dsimp only
    have hin : ((Startup.useSess st q.s).ars i).inUse = true := by simpa using (findUuid_inUse hf).1
    generalize Startup.useSess st q.s = U at *
    by_cases hpl : q.plug = true
    · rw [if_pos hpl]; exact h1.answer _ _ _
    rw [if_neg hpl]
    obtain ⟨g1, g2⟩ := cmdevDcontrol_good (cmd := q.cmd) (appOk := q.appOk) (pdevOk := q.pdevOk) h1 hin
    generalize dcResult _ _ _ = res
    generalize cmdevDcontrol U i q.cmd q.appOk q.pdevOk = r at *
    obtain ⟨st2, b⟩ := r
    cases b with
    | false =>
      simp only [Bool.false_eq_true, if_false]
      exact (g1 rfl).answer _ _ _
    | true =>
      simp only [if_true]
      obtain ⟨w1, w2, w3⟩ := g2 rfl
      dsimp only at w3
      have hsess : st2.sess = U.sess := by rw [w3]; rfl
      have hs2 : SInv T st2 := by
        rw [w3]; exact (h1.s.note (by trivial)).setAr rfl rfl
      have hs3 := hs2.answer q.s q.seq res
      have hl := h1.l i
      have hz2 : (U.ars i).inUse = true := hin
      -- what LInv gives without the sequence of events
      have base : ∀ k, k ≠ i → Loc T (st2.ars k) (weak k st2.log) (phase k st2.log) (supervised k st2.log) := by
        intro k hk
        rw [w3]
        simp only [setAr_ars, hk, if_false, note_ars, setAr_log, note_log]
        have g : ¬ About k (.dcCallback i cmdPrmEnd) := by simp [About]
        rw [weak_other g, phase_other g, supervised_other g]
        exact h1.l k
      have hlog2 : st2.log = .dcCallback i cmdPrmEnd :: U.log := by rw [w3]; rfl
      have hars2 : st2.ars i = { U.ars i with cmdev := .wArdy } := by
        rw [w3]; simp
      have g : ¬ About i (.dcCallback i cmdPrmEnd) := by simp [About]
      have lv := hl.live hin
      unfold Live at lv
      rw [w1] at lv
      dsimp only at lv
      -- at `i`, without the sequence of events
      have weaki : ¬ T → Loc T (st2.ars i) (weak i st2.log) (phase i st2.log) (supervised i st2.log) := by
        intro hT
        rw [hlog2, weak_other g, phase_other g, supervised_other g, hars2]
        refine ⟨by simp [hin], ?_, ?_, hl.pbe, fun t => absurd t hT, fun t => absurd t hT⟩
        · intro _; simp only [Live]; exact lv
        · have := hl.sup
          cases hx : supervised i U.log with
          | none => rw [hx] at this; exact this
          | some x => rw [hx] at this; exact this
      have hans : ((st2.setSess q.s { st2.sess q.s with dcSeq := q.seq, dcRes := res }).note
        (.dcAnswer q.s q.seq res true)).ars = st2.ars := rfl
      have gd : ∀ k, ¬ About k (.dcAnswer q.s q.seq res true) := by intro k; simp [About]
      have har2 : (((st2.setSess q.s { st2.sess q.s with dcSeq := q.seq, dcRes := res }).note
        (.dcAnswer q.s q.seq res true)).sess q.s).ar = (st.sess q.s).ar := by
        simp [hsess, har]
      rw [har2]
      generalize hX : (st2.setSess q.s { st2.sess q.s with dcSeq := q.seq, dcRes := res }).note
        (.dcAnswer q.s q.seq res true) = X at *
      have hXlog : X.log = .dcAnswer q.s q.seq res true :: st2.log := by rw [← hX]; rfl
      have hXnow : X.now = st2.now := by rw [← hX]; rfl
      cases hj : (st.sess q.s).ar with
      | none =>
        dsimp only
        refine ⟨hs3, ?_⟩
        have hT : ¬ T := by
          intro t
          have := ho t
          simp only [Orderly, hf, hj] at this
          cases this
        intro k
        rw [hans, hXlog, weak_other (gd k), phase_other (gd k), supervised_other (gd k)]
        by_cases hk : k = i
        · rw [hk]; exact weaki hT
        · exact base k hk
      | some j =>
        dsimp only
        refine ⟨hs3.stateInd j _, ?_⟩
        have hji : T → j = i := by
          intro t
          have := ho t
          simp only [Orderly, hf, hj] at this
          exact Option.some.inj this
        by_cases hT : T
        · have hji := hji hT
          subst hji
          have hfl := hl.flive hT hin
          unfold FullLive at hfl
          rw [w1] at hfl
          dsimp only at hfl
          intro k
          by_cases hk : k = j
          · subst hk
            simp only [stateInd_ars, if_true, stateInd_log, hans, hXlog, weak_cons, phase_cons, sup_cons]
            rw [show weak k st2.log = weak k U.log by rw [hlog2, weak_other g],
              show phase k st2.log = phase k U.log by rw [hlog2, phase_other g],
              show supervised k st2.log = supervised k U.log by
                rw [hlog2, supervised_other g], hars2]
            simp only [weakNext, phaseNext, supNext, if_true, hfl.1]
            have hsup := hl.sup
            refine ⟨by simp [hin], ?_, ?_, ?_, by simp [hin], ?_⟩
            · intro _
              simp only [Live, arInd_cmdev, arInd_access, arInd_cmsm, reduceCtorEq, if_false]
              refine ⟨lv.1, ?_, by simp [lv.2.2, smNext]⟩
              rcases lv.2.1 with e | e | e <;> simp [e]
            · cases hx : supervised k U.log with
              | none =>
                rw [hx] at hsup
                have := hsup.1; rw [lv.2.2] at this; cases this
              | some x =>
                obtain ⟨a, b⟩ := x
                rw [hx] at hsup
                simp only [SupOk] at hsup
                simp [SupOk, lv.2.2, smNext, dlNext, hsup]
            · obtain ⟨pb, st0⟩ := hl.pbe
              refine ⟨?_, by simp [st0]⟩
              rcases pb with e | e | e <;> simp [e, pbeNext]
            · intro _ _
              simp [FullLive, hfl.2, wrrNext]
          · simp only [stateInd_ars, hk, if_false, stateInd_log, hans]
            have g' : ¬ About k (.event j .prmend X.now) := by
              simp [About]; exact fun x => hk x.symm
            rw [weak_other g', phase_other g', supervised_other g', hXlog, weak_other (gd k),
              phase_other (gd k), supervised_other (gd k)]
            exact base k hk
        · -- not orderly: the event may go to any connection
          have hX2 : LInv T X := by
            intro k
            rw [hans, hXlog, weak_other (gd k), phase_other (gd k), supervised_other (gd k)]
            by_cases hk : k = i
            · rw [hk]; exact weaki hT
            · exact base k hk
          have hjin : (X.ars j).inUse = true := by
            have : (X.sess q.s).ar = some j := by rw [har2, hj]
            exact (hs3.sar q.s j this).1
          refine hX2.only j Only.stateInd ?_
          have hlj := hX2 j
          simp only [stateInd_ars, if_true, stateInd_log, weak_cons, phase_cons, sup_cons, reduceCtorEq, if_false]
          have hw : weakNext j (weak j X.log) (.event j .prmend X.now) = weak j X.log := by
            simp [weakNext]
          have hsv : supNext j (factorOf j X.log) (supervised j X.log) (.event j .prmend X.now) =
              supervised j X.log := by simp [supNext]
          rw [hw, hsv]
          have hdl : ∀ m f d, dlNext X.now f m d .prmend = d := by intro m f d; cases m <;> rfl
          have hsm : ∀ m, smNext m .prmend = m := by intro m; cases m <;> rfl
          have hpb : ∀ m, pbeNext m .prmend = m := by intro m; cases m <;> rfl
          refine ⟨by simp [hjin], ?_, ?_, ?_, fun t => absurd t hT, fun t => absurd t hT⟩
          · intro _
            have := hlj.live hjin
            unfold Live at this ⊢
            simpa [hsm] using this
          · have := hlj.sup
            cases hx : supervised j X.log with
            | none => rw [hx] at this; simpa [SupOk, hsm, hdl] using this
            | some x => rw [hx] at this; simpa [SupOk, hsm, hdl] using this
          · simpa [hpb] using hlj.pbe

end Verif.Startup
