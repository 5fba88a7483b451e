import Verif.Reason.Model
/-! Which connections end in an operation. -/
set_option linter.unusedSimpArgs false
set_option linter.unusedVariables false
namespace Verif.Reason

open Verif.Startup

variable {c : Cfg} {s s' : Startup.St}

/-- From `s` to `s'` the log gets longer, and the connections in `l` end. -/
def Adds (s s' : Startup.St) (l : List Nat) : Prop := ∃ L, s'.log = L ++ s.log ∧ abortsIn L = l

theorem newAborts_of_adds {l : List Nat} (h : Adds s s' l) : newAborts s s' = l := by
  obtain ⟨L, h1, h2⟩ := h
  unfold newAborts
  rw [h1, List.length_append, Nat.add_sub_cancel, List.take_left']
  · exact h2
  · rfl

theorem Adds.refl (s : Startup.St) : Adds s s [] := ⟨[], rfl, rfl⟩

theorem Adds.of_log (h : s'.log = s.log) : Adds s s' [] := ⟨[], h, rfl⟩

theorem Adds.trans {a b d : Startup.St} {l m : List Nat} (h : Adds a b l) (g : Adds b d m) : Adds a d (m ++ l) := by
  obtain ⟨L, h1, h2⟩ := h
  obtain ⟨M, g1, g2⟩ := g
  exact ⟨M ++ L, by rw [g1, h1, List.append_assoc], by unfold abortsIn at *; rw [List.filterMap_append, h2, g2]⟩

theorem Adds.trans0 {a b d : Startup.St} {m : List Nat} (h : Adds a b []) (g : Adds b d m) : Adds a d m := by
  have := h.trans g; rwa [List.append_nil] at this

theorem Adds.then0 {a b d : Startup.St} {l : List Nat} (h : Adds a b l) (g : Adds b d []) : Adds a d l := by
  have := h.trans g; rwa [List.nil_append] at this

theorem Adds.note {st : Startup.St} {e : Entry} (h : abortsIn [e] = []) : Adds st (st.note e) [] := ⟨[e], rfl, h⟩

theorem Adds.setAr {st : Startup.St} {i : Nat} {a : Ar} : Adds st (st.setAr i a) [] := .of_log rfl
theorem Adds.setSess {st : Startup.St} {i : Nat} {a : Sess} : Adds st (st.setSess i a) [] := .of_log rfl

theorem Adds.stateInd {st : Startup.St} {i : Nat} {e : Event} :
    Adds st (Startup.stateInd st i e) (if e = .abort then [i] else []) := by
  refine ⟨[.event i e st.now], ?_, ?_⟩
  · rw [stateInd_log]; rfl
  · cases e <;> rfl

theorem Adds.abort {st : Startup.St} {i : Nat} : Adds st (Startup.stateInd st i .abort) [i] := Adds.stateInd

theorem Adds.event {st : Startup.St} {i : Nat} {e : Event} (h : e ≠ .abort) : Adds st (Startup.stateInd st i e) [] := by
  have := Adds.stateInd (st := st) (i := i) (e := e); rwa [if_neg h] at this

theorem Adds.setState {st : Startup.St} {i : Nat} {v : Cmdev} : Adds st (Startup.setState st i v) (if v = .abort then [i] else []) := by
  by_cases h : v = .abort
  · subst h
    rw [setState_abort_eq, if_pos rfl]; exact .abort
  · rw [setState_of_ne _ _ _ h, if_neg h]; exact .setAr

theorem Adds.state {st : Startup.St} {i : Nat} {v : Cmdev} (h : v ≠ .abort) : Adds st (Startup.setState st i v) [] := by
  have := Adds.setState (st := st) (i := i) (v := v); rwa [if_neg h] at this

theorem Adds.useSess {st : Startup.St} {n : Nat} : Adds st (Startup.useSess st n) [] := by
  unfold Startup.useSess
  split
  · exact .refl _
  · exact Adds.setSess.trans0 (.note rfl)

theorem Adds.sessRelease {st : Startup.St} {n : Nat} : Adds st (Startup.sessRelease st n) [] := by
  unfold Startup.sessRelease
  split
  · exact .setSess
  · exact .refl _

theorem Adds.cmAbort {st : Startup.St} {i : Nat} : Adds st (Startup.cmAbort st i) [] ∨ Adds st (Startup.cmAbort st i) [i] := by
  unfold Startup.cmAbort
  dsimp only
  split
  · split
    · exact .inr .setState
    · exact .inr .setState
    · exact .inl (.refl _)
  · exact .inr .setState

theorem useSess_ars' {st : Startup.St} {n : Nat} : (Startup.useSess st n).ars = st.ars := by
  unfold Startup.useSess; split <;> rfl

theorem useSess_find {st : Startup.St} {n u : Nat} : findUuid c (Startup.useSess st n) u = findUuid c st u := by
  unfold findUuid; rw [useSess_ars']

theorem useSess_free {st : Startup.St} {n : Nat} : findFree c (Startup.useSess st n) = findFree c st := by
  unfold findFree; rw [useSess_ars']

theorem adds_refuse {st : Startup.St} {i n : Nat} : Adds st (refuse st i n) [] := by
  unfold refuse
  exact Adds.setAr.trans0 (Adds.setSess.trans0 .sessRelease)

theorem adds_infoInd {st : Startup.St} {i : Nat} {b : Bool} : Adds st (infoInd st i b) [] := by
  unfold infoInd
  dsimp only
  split
  · exact .setAr
  · exact .setAr
  · split
    · exact Adds.setAr.trans0 ((Adds.event (by decide)).trans0 (.state (by decide)))
    · exact .setAr
  · exact .refl _

theorem adds_restart {st : Startup.St} {i : Nat} : Adds st (cmsmRestart st i) [] := by
  unfold cmsmRestart; dsimp only; split
  · exact .refl _
  · exact .setAr

/-- A connect request ends the connection with the same UUID, or the new one if no timer is left. -/
theorem adds_connect {n u : Nat} {access legacy : Bool} {factor : Nat} {iocrs : List Bool} {v : Verdict} :
    Adds s (connect c s n u access legacy factor iocrs v) [] ∨
    (∃ j, findUuid c s u = some j ∧ Adds s (connect c s n u access legacy factor iocrs v) [j]) ∨
    (∃ i, findUuid c s u = none ∧ findFree c s = some i ∧ access = false ∧ v = .accept .noTimer ∧
      Adds s (connect c s n u access legacy factor iocrs v) [i]) := by
  unfold connect
  dsimp only
  rw [useSess_find, useSess_free]
  cases hf : findUuid c s u with
  | some j =>
    dsimp only
    rcases Adds.cmAbort (st := Startup.useSess s n) (i := j) with h | h
    · exact .inl (Adds.useSess.trans0 (h.then0 .sessRelease))
    · exact .inr (.inl ⟨j, rfl, Adds.useSess.trans0 (h.then0 .sessRelease)⟩)
  | none =>
    dsimp only
    cases hg : findFree c s with
    | none => exact .inl (Adds.useSess.trans0 .sessRelease)
    | some i =>
      dsimp only
      generalize hst : St.setSess _ n _ = st
      have h0 : Adds s st [] := by
        rw [← hst]; exact Adds.useSess.trans0 (Adds.setAr.trans0 .setSess)
      have hacc : ((Startup.setState st i .wCres).ars i).access = access := by
        rw [setState_of_ne _ _ _ (by decide), ← hst]
        simp [St.setAr, St.setSess]
      unfold connectInd
      cases v with
      | refused code =>
        left
        dsimp only
        split
        · exact h0.trans0 (.state (by decide))
        · exact h0.trans0 ((Adds.state (by decide)).trans0 adds_refuse)
      | accept start =>
        dsimp only
        rw [hacc]
        cases access with
        | true =>
          left
          rw [if_pos rfl]
          exact h0.trans0 ((Adds.state (by decide)).trans0 ((Adds.note rfl).trans0 ((Adds.event (by decide)).trans0 (.state (by decide)))))
        | false =>
          rw [if_neg (by simp)]
          cases start with
          | ok =>
            left
            exact h0.trans0 ((Adds.state (by decide)).trans0 ((Adds.state (by decide)).trans0 ((Adds.note rfl).trans0
              ((Adds.event (by decide)).trans0 (.state (by decide))))))
          | noTimer =>
            right; right
            exact ⟨i, rfl, rfl, rfl, rfl, h0.trans0 ((Adds.state (by decide)).trans0 .abort)⟩
          | failed =>
            left
            exact h0.trans0 ((Adds.state (by decide)).trans0 ((Adds.state (by decide)).trans0 adds_refuse))

/-- A connect request that finds no timer ends the new connection. -/
theorem adds_connect_noTimer {n u i : Nat} {legacy : Bool} {factor : Nat} {iocrs : List Bool} (h1 : findUuid c s u = none)
    (h2 : findFree c s = some i) : Adds s (connect c s n u false legacy factor iocrs (.accept .noTimer)) [i] := by
  unfold connect
  dsimp only
  rw [useSess_find, useSess_free, h1, h2]
  dsimp only
  unfold connectInd
  dsimp only
  rw [if_neg]
  · exact Adds.useSess.trans0 (Adds.setAr.trans0 (Adds.setSess.trans0 ((Adds.state (by decide)).trans0 .abort)))
  · rw [setState_of_ne _ _ _ (by decide)]
    simp [St.setAr, St.setSess]

theorem adds_release {n u : Nat} :
    (∃ i, releases c s u i = true ∧ Adds s (release c s n u) [i]) ∨ ((∀ i, releases c s u i = false) ∧ Adds s (release c s n u) []) := by
  unfold release
  dsimp only
  rw [useSess_find]
  cases hf : findUuid c s u with
  | none =>
    right
    exact ⟨fun i => by simp [releases, hf], Adds.useSess.trans0 .sessRelease⟩
  | some i =>
    dsimp only
    rw [useSess_ars']
    have other : ∀ k, k ≠ i → releases c s u k = false := fun k hk => by
      simp [releases, hf]; intro h; exact absurd h.symm hk
    have no : releases c s u i = false → Adds s (Startup.sessRelease (Startup.useSess s n) n) [] →
        (∀ k, releases c s u k = false) ∧ Adds s (Startup.sessRelease (Startup.useSess s n) n) [] := fun h h' =>
      ⟨fun k => by
        by_cases hk : k = i
        · rw [hk]; exact h
        · exact other k hk, h'⟩
    have b0 : Adds s (Startup.sessRelease (Startup.useSess s n) n) [] := Adds.useSess.trans0 .sessRelease
    have b1 : Adds s (Startup.sessRelease (Startup.stateInd (Startup.useSess s n) i .abort) n) [i] :=
      Adds.useSess.trans0 (Adds.abort.then0 .sessRelease)
    have b2 : Adds s (Startup.sessRelease (Startup.setState (Startup.useSess s n) i .abort) n) [i] := by
      rw [setState_abort_eq]; exact b1
    by_cases ha : (s.ars i).access = true
    · rw [if_pos ha]
      by_cases hd : (s.ars i).cmdev = .data
      · rw [if_pos hd]
        exact .inl ⟨i, by simp [releases, hf, ha, hd], b1⟩
      · rw [if_neg hd]
        exact .inr (no (by simp [releases, hf, ha, hd]) b0)
    · rw [if_neg ha]
      cases hd : (s.ars i).cmdev <;>
        first
        | exact .inl ⟨i, by simp [releases, hf, ha, hd], b2⟩
        | exact .inr (no (by simp [releases, hf, ha, hd]) b0)

theorem adds_cmpbe {i cmd : Nat} {ok : Bool} : Adds s (cmpbeDcontrol s i cmd ok).1 [] ∨ Adds s (cmpbeDcontrol s i cmd ok).1 [i] := by
  unfold cmpbeDcontrol
  dsimp only
  repeat' first
    | exact .inl (.refl _)
    | exact .inl .setAr
    | exact .inr (Adds.abort.then0 .setAr)
    | exact .inl ((Adds.note rfl).trans0 .setAr)
    | exact .inl (Adds.setAr.trans0 (Adds.note rfl))
    | exact .inl (Adds.setAr.trans0 ((Adds.note rfl).trans0 .setAr))
    | split

/-- A control request ends at most the connection it is for; if the port check fails, it does, once. -/
theorem adds_cmdevDcontrol {i cmd : Nat} {ok pdev : Bool} :
    (∃ l, (∀ k ∈ l, k = i) ∧ Adds s (cmdevDcontrol s i cmd ok pdev).1 l) ∧
    ((s.ars i).access = false → (s.ars i).cmdev = .wPeind → cmd = cmdPrmEnd → ok = true → pdev = false →
      Adds s (cmdevDcontrol s i cmd ok pdev).1 [i]) := by
  constructor
  · unfold cmdevDcontrol
    dsimp only
    have one : ∀ k ∈ [i], k = i := by simp
    split
    · exact ⟨[i], one, .abort⟩
    · split
      · split
        · split
          · split
            · exact ⟨[], by simp, (Adds.state (by decide)).trans0 ((Adds.note rfl).trans0 (.state (by decide)))⟩
            · exact ⟨[i], one, (Adds.state (by decide)).trans0 ((Adds.note rfl).trans0 ((Adds.state (by decide)).trans0 .abort))⟩
          · exact ⟨[i], one, (Adds.state (by decide)).trans0 ((Adds.note rfl).trans0 .abort)⟩
        · exact ⟨[i], one, .abort⟩
      · split
        · rcases adds_cmpbe (s := s) (i := i) (cmd := cmd) (ok := ok) with h | h
          · exact ⟨[], by simp, h⟩
          · exact ⟨[i], one, h⟩
        · rcases adds_cmpbe (s := s) (i := i) (cmd := cmd) (ok := ok) with h | h
          · exact ⟨[i], one, h.trans0 .abort⟩
          · exact ⟨[i, i], by simp, h.trans .abort⟩
      · exact ⟨[], by simp, .refl _⟩
  · intro h1 h2 h3 h4 h5
    subst h3 h4 h5
    unfold cmdevDcontrol
    simp only [h1, h2, Bool.false_eq_true, if_false, if_true]
    exact (Adds.state (by decide)).trans0 ((Adds.note rfl).trans0 ((Adds.state (by decide)).trans0 .abort))

theorem adds_dcontrol {q : DcReq} :
    (∃ l, (∀ k ∈ l, findUuid c s q.u = some k) ∧ Adds s (dcontrol c s q) l) ∧
    ∀ i, portFails c s q i = true → Adds s (dcontrol c s q) [i] := by
  have tailStep : ∀ (st : Startup.St) (b : Bool), Adds st (if b = true then
        match (st.sess q.s).ar with
        | none => st
        | some j => Startup.stateInd st j .prmend else st) [] := by
    intro st b
    split
    · split
      · exact .refl _
      · exact .event (by decide)
    · exact .refl _
  constructor
  · unfold dcontrol
    dsimp only
    rw [useSess_find]
    split
    · exact ⟨[], by simp, Adds.useSess.trans0 (.note rfl)⟩
    · split
      · exact ⟨[], by simp, Adds.useSess.trans0 (.note rfl)⟩
      · split
        · exact ⟨[], by simp, Adds.useSess.trans0 ((Adds.note rfl).trans0 .sessRelease)⟩
        · rename_i i hi
          split
          · exact ⟨[], by simp, Adds.useSess.trans0 (Adds.setSess.trans0 (.note rfl))⟩
          · obtain ⟨⟨l, h1, h2⟩, _⟩ := adds_cmdevDcontrol (s := Startup.useSess s q.s) (i := i) (cmd := q.cmd) (ok := q.appOk) (pdev := q.pdevOk)
            refine ⟨l, fun k hk => by rw [h1 k hk]; exact hi, ?_⟩
            refine Adds.useSess.trans0 (h2.then0 (Adds.setSess.trans0 ((Adds.note rfl).trans0 (tailStep _ _))))
  · intro i hi
    unfold portFails at hi
    simp only [Bool.and_eq_true, decide_eq_true_eq, Bool.not_eq_true', decide_eq_false_iff_not] at hi
    obtain ⟨⟨⟨⟨⟨⟨⟨⟨a1, a2⟩, a3⟩, a4⟩, a5⟩, a6⟩, a7⟩, a8⟩, a9⟩ := hi
    unfold dcontrol
    dsimp only
    rw [useSess_find, a3]
    simp only [a1, a2, a4, Bool.not_true, Bool.false_eq_true, if_false]
    have h := (adds_cmdevDcontrol (s := Startup.useSess s q.s) (i := i) (cmd := q.cmd) (ok := q.appOk) (pdev := q.pdevOk)).2
      (by rw [useSess_ars']; exact a5) (by rw [useSess_ars']; exact a6) a7 a8 a9
    exact Adds.useSess.trans0 (h.then0 (Adds.setSess.trans0 ((Adds.note rfl).trans0 (tailStep _ _))))

theorem adds_appReady {i : Nat} {b : Bool} {out : Option Nat} : Adds s (appReady s i b out) [] ∨ Adds s (appReady s i b out) [i] := by
  unfold appReady
  dsimp only
  split
  · split
    · exact .inr ((Adds.note rfl).trans0 .abort)
    · left
      split
      · split
        · split
          · exact (Adds.note rfl).trans0 (.event (by decide))
          · split
            · exact (Adds.note rfl).trans0 (.event (by decide))
            · exact (Adds.note rfl).trans0 ((Adds.event (by decide)).trans0 (Adds.setSess.trans0 ((Adds.note rfl).trans0 (.state (by decide)))))
        · exact .note rfl
      · exact .note rfl
  · exact .inl (.refl _)

theorem adds_response {n status : Nat} {done plug : Bool} (h : response s n status done plug = some s') : Adds s s' [] := by
  unfold response at h
  split at h
  · split at h
    · cases h
    · dsimp only at h
      split at h
      · split at h
        · cases h; exact (Adds.note rfl).trans0 .sessRelease
        · rename_i i _ _ _
          have hc : ∀ st : Startup.St, Adds st (ccontrolCnf st i).1 [] := by
            intro st
            unfold ccontrolCnf
            dsimp only
            split
            · split
              · exact (Adds.event (by decide)).trans0 (.state (by decide))
              · exact .state (by decide)
            · exact .refl _
          split at h
          · cases h; exact (Adds.note rfl).trans0 ((hc _).trans0 .sessRelease)
          · cases h; exact (Adds.note rfl).trans0 (hc _)
      · cases h; exact .note rfl
  · cases h; exact .refl _

theorem adds_cancel {n : Nat} : ∃ l, Adds s (cancel s n) l := by
  unfold cancel
  split
  · split
    · exact ⟨[], .sessRelease⟩
    · rename_i i _
      rcases Adds.cmAbort (st := s) (i := i) with h | h
      · exact ⟨_, h.then0 .sessRelease⟩
      · exact ⟨_, h.then0 .sessRelease⟩
  · exact ⟨[], .refl _⟩

theorem adds_read {n u : Nat} {implicit : Bool} {target idx : Nat} {checks : Bool}
    (h : Startup.read c s n u implicit target idx checks = some s') : Adds s s' [] := by
  unfold Startup.read at h
  dsimp only at h
  split at h
  · cases h; exact Adds.useSess.trans0 .sessRelease
  · split at h
    · cases h; exact Adds.useSess.trans0 .sessRelease
    · have fin : ∀ r : Option Startup.St, (∀ st, r = some st → Adds s st []) →
          (r.bind fun st => if implicit = true ∨ (st.sess n).ar = none then some (Startup.sessRelease st n) else some st) = some s' →
          Adds s s' [] := by
        intro r hr h
        cases r with
        | none => cases h
        | some st =>
          simp only [Option.bind_some] at h
          split at h
          · cases h; exact (hr st rfl).then0 .sessRelease
          · cases h; exact hr _ rfl
      refine fin _ ?_ h
      intro st hst
      split at hst
      · split at hst
        · split at hst
          · cases hst
          · cases hst; exact Adds.useSess.trans0 (.note rfl)
        · cases hst; exact Adds.useSess.trans0 ((Adds.note rfl).trans0 ((Adds.note rfl).trans0 adds_restart))
      · cases hst; exact .useSess

theorem adds_write {n u : Nat} {p : Place} {idx : Nat} {checks ok : Bool} : Adds s (write c s n u p idx checks ok) [] := by
  unfold write
  dsimp only
  split
  · exact Adds.useSess.trans0 .sessRelease
  · rename_i i _
    split
    · have hw : ∀ st : Startup.St, Adds st (cmwrrWrite st i p idx ok).1 [] := by
        intro st
        unfold cmwrrWrite
        repeat' first | exact .refl _ | exact .note rfl | split
      have hi : ∀ st : Startup.St, Adds st (cmwrrInd' st i p idx ok).1 [] := by
        intro st
        unfold cmwrrInd'
        split
        · exact .refl _
        · exact hw st
        · exact .refl _
        · exact hw st
      exact Adds.useSess.trans0 ((hi _).trans0 ((Adds.note rfl).trans0 (adds_restart.trans0 (.note rfl))))
    · exact Adds.useSess.trans0 (.note rfl)

theorem adds_cmsmTimer {i : Nat} :
    (((s.ars i).cmsm = .run ∧ ∃ d ∈ (s.ars i).deadline, d ≤ s.now) ∧ Adds s (cmsmTimer s i) [i]) ∨
    (¬ ((s.ars i).cmsm = .run ∧ ∃ d ∈ (s.ars i).deadline, d ≤ s.now) ∧ Adds s (cmsmTimer s i) []) := by
  unfold cmsmTimer
  dsimp only
  cases hd : (s.ars i).deadline with
  | none => right; exact ⟨by simp, .refl _⟩
  | some d =>
    dsimp only
    by_cases h : s.now < d
    · rw [if_pos h]; right; exact ⟨by simp; omega, .refl _⟩
    · rw [if_neg h]
      cases hm : (s.ars i).cmsm with
      | idle => right; exact ⟨by simp, .setAr⟩
      | run => left; exact ⟨by simp; omega, Adds.setAr.trans0 (Adds.abort.then0 .setAr)⟩

theorem adds_cpmState {i crep : Nat} {start : Bool} :
    Adds s (cpmStateInd s i crep start) [] ∨ (start = false ∧ Adds s (cpmStateInd s i crep start) [i]) := by
  unfold cpmStateInd
  dsimp only
  split
  · exact .inl (.refl _)
  · split
    · rename_i h; simp at h; exact .inr ⟨h.2, .abort⟩
    · exact .inl (.refl _)
  · split
    · exact .inl .setAr
    · exact .inl (.refl _)
  · cases start
    · exact .inr ⟨rfl, .abort⟩
    · exact .inl (.refl _)

theorem adds_sweep (A : Ar → Bool) : ∀ (l : List Nat) (st : Startup.St), l.Nodup →
    Adds st (sweep A l st) (l.filter fun i => A (st.ars i)).reverse
  | [], st, _ => .refl _
  | j :: l, st, hn => by
    obtain ⟨hj, hn'⟩ := List.nodup_cons.1 hn
    rw [sweep_cons]
    by_cases h : A (st.ars j) = true
    · rw [if_pos h, List.filter_cons_of_pos (p := fun i => A (st.ars i)) h, List.reverse_cons]
      have := adds_sweep A l (Startup.stateInd st j .abort) hn'
      have e : (l.filter fun i => A ((Startup.stateInd st j .abort).ars i)) = l.filter fun i => A (st.ars i) := by
        refine List.filter_congr fun k hk => ?_
        rw [stateInd_ars, if_neg]
        rintro rfl; exact hj hk
      rw [e] at this
      exact Adds.abort.trans this
    · rw [if_neg h, List.filter_cons_of_neg (p := fun i => A (st.ars i)) h]
      exact adds_sweep A l st hn'

theorem adds_dcp : Adds s (abortActive c s).1 ((List.range c.maxAr).filter fun i => (s.ars i).inUse).reverse := by
  unfold abortActive
  rw [abortActive_eq _ _ _ List.nodup_range]
  exact adds_sweep _ _ _ List.nodup_range

theorem adds_reset : Adds s (abortAll c s) ((List.range c.maxAr).filter fun i => canAbort (s.ars i)).reverse := by
  rw [abortAll_eq]
  exact adds_sweep _ _ _ List.nodup_range

end Verif.Reason
