import Verif.Reason.Lemmas
import Verif.Reason.Spec
/-! # C156 The reason for the end of a connection is told -/
set_option linter.unusedSimpArgs false
set_option linter.unusedVariables false
namespace Verif.Reason

open Verif.Startup (Cfg findUuid findFree)

variable {c : Cfg} {s s' : Startup.St}

/-- The codes that the stack sets for a cause. -/
def Cause.set : Cause → Option Codes
  | .failure f => some f.codes
  | c => if c.silent then none else c.forApp

/-- The connections that end in an operation, and what is set for them. -/
structure Ends (c : Cfg) (s s' : Startup.St) (o : Op) : Prop where
  /-- The log grows. -/
  grows : ∃ L, s'.log = L ++ s.log
  /-- For a connection that ends the codes of the cause are set. -/
  set : ∀ i ∈ newAborts s s', records c s o i = (why c s o i).set
  /-- It ends once, if codes are set. -/
  once : ∀ i, (records c s o i).isSome = true → (newAborts s s').count i ≤ 1
  /-- If codes are set and it does not end, they are in the list. -/
  left : ∀ i k, records c s o i = some k → i ∉ newAborts s s' → k ∈ leftOver ∧ o.leaves = true

theorem Ends.of_adds {o : Op} {l : List Nat} (h : Adds s s' l) (h1 : ∀ i ∈ l, records c s o i = (why c s o i).set)
    (h2 : ∀ i, (records c s o i).isSome = true → l.count i ≤ 1)
    (h3 : ∀ i k, records c s o i = some k → i ∉ l → k ∈ leftOver ∧ o.leaves = true) : Ends c s s' o := by
  have e := newAborts_of_adds h
  obtain ⟨L, g, _⟩ := h
  exact ⟨⟨L, g⟩, by rw [e]; exact h1, by rw [e]; exact h2, by rw [e]; exact h3⟩

theorem count_nil_le (i : Nat) : ([] : List Nat).count i ≤ 1 := by simp
theorem count_one_le (i j : Nat) : [j].count i ≤ 1 := by simp [List.count_cons]; split <;> omega

theorem Ends.silent {o : Op} {l : List Nat} (h : Adds s s' l) (h1 : ∀ i, records c s o i = none) (h2 : ∀ i ∈ l, (why c s o i).set = none) :
    Ends c s s' o :=
  .of_adds h (fun i hi => by rw [h1, h2 i hi]) (fun i hi => by rw [h1] at hi; cases hi) (fun i k hi => by rw [h1] at hi; cases hi)

theorem ends_release {n u : Nat} {o : Op} {k : Nat → Codes} (hr : ∀ i, records c s o i = if releases c s u i then some (k i) else none)
    (hw : ∀ i, (why c s o i).set = some (k i)) : Ends c s (Startup.release c s n u) o := by
  have uniq : ∀ i j, releases c s u i = true → releases c s u j = true → i = j := by
    intro i j hi hj
    unfold releases at hi hj
    simp only [Bool.and_eq_true, decide_eq_true_eq] at hi hj
    exact Option.some.inj (hi.1.symm.trans hj.1)
  rcases adds_release (c := c) (s := s) (n := n) (u := u) with ⟨i, h1, h2⟩ | ⟨h1, h2⟩
  · refine .of_adds h2 ?_ (fun j _ => count_one_le j i) ?_
    · intro j hj
      rw [List.mem_singleton] at hj
      subst hj
      rw [hr, if_pos h1, hw]
    · intro j x hj hn
      rw [hr] at hj
      by_cases h : releases c s u j = true
      · exact absurd (List.mem_singleton.2 (uniq j i h h1)) hn
      · rw [if_neg h] at hj; cases hj
  · refine .of_adds h2 (by simp) (fun j _ => count_nil_le j) ?_
    intro j x hj
    rw [hr, h1 j] at hj
    cases hj

/-- All operations. -/
theorem ends_effect {o : Op} (h : effect c s o = some s') : Ends c s s' o := by
  cases o with
  | releaseError n u code =>
    cases h
    exact ends_release (k := fun i => ⟨clsProtocol, if (s.ars i).access then 0x0f else code⟩) (fun i => rfl) (fun i => by
      simp only [why]; split <;> rfl)
  | failure j f =>
    simp only [effect] at h
    by_cases hu : (s.ars j).inUse = true
    · rw [if_pos hu] at h
      cases h
      refine .of_adds .abort ?_ (fun i _ => count_one_le i j) ?_
      · intro i hi
        rw [List.mem_singleton] at hi
        subst hi
        simp [records, why, Cause.set, hu]
      · intro i k hi hn
        simp only [records] at hi
        split at hi
        · rename_i hc; exact absurd (List.mem_singleton.2 hc.1) hn
        · cases hi
    · rw [if_neg hu] at h
      cases h
      refine .silent (.refl _) (fun i => ?_) (by simp)
      simp only [records]
      rw [if_neg (fun hc => hu hc.2)]
  | noAnswer j =>
    simp only [effect] at h
    have hk : ∀ i k, records c s (.noAnswer j) i = some k → k ∈ leftOver ∧ (Op.noAnswer j).leaves = true := by
      intro i k hi
      simp only [records] at hi
      split at hi
      · cases hi; exact ⟨by decide, rfl⟩
      · cases hi
    by_cases hu : (s.ars j).inUse = true
    · rw [if_pos hu] at h
      cases h
      rcases Adds.cmAbort (st := s) (i := j) with g | g
      · exact .of_adds g (by simp) (fun i _ => count_nil_le i) fun i k hi _ => hk i k hi
      · refine .of_adds g ?_ (fun i _ => count_one_le i j) fun i k hi _ => hk i k hi
        intro i hi
        rw [List.mem_singleton] at hi
        subst hi
        simp only [records, hu, and_self, if_true]; rfl
    · rw [if_neg hu] at h
      cases h
      exact .of_adds (.refl _) (by simp) (fun i _ => count_nil_le i) fun i k hi _ => hk i k hi
  | dcp reset =>
    cases h
    refine .of_adds adds_dcp ?_ ?_ ?_
    · intro i hi
      simp only [List.mem_reverse, List.mem_filter, List.mem_range] at hi
      simp only [records, if_pos hi, why]
      cases reset <;> rfl
    · intro i _
      rw [List.count_reverse]; exact List.nodup_iff_count.1 (List.nodup_range.filter _) i
    · intro i k hi hn
      simp only [records] at hi
      split at hi
      · rename_i hc
        exact absurd (by simp only [List.mem_reverse, List.mem_filter, List.mem_range]; exact hc) hn
      · cases hi
  | factoryReset =>
    cases h
    exact .silent adds_reset (fun i => rfl) (fun i _ => rfl)
  | mishap j m =>
    cases h
    refine .of_adds (.refl _) (by simp) (fun i _ => count_nil_le i) ?_
    intro i k hi _
    simp only [records] at hi
    split at hi
    · cases hi; exact ⟨by cases m <;> decide, rfl⟩
    · cases hi
  | base o =>
    simp only [effect] at h
    cases o with
    | connect n u access legacy factor iocrs v =>
      cases h
      rcases adds_connect (c := c) (s := s) (n := n) (u := u) (access := access) (legacy := legacy) (factor := factor)
        (iocrs := iocrs) (v := v) with g | ⟨j, g1, g2⟩ | ⟨j, g1, g2, g3, g4, g5⟩
      · refine .of_adds g (by simp) (fun i _ => count_nil_le i) ?_
        intro i k hi hn
        exfalso
        cases v with
        | refused code => cases hi
        | accept st =>
          cases st with
          | ok => cases hi
          | failed => cases hi
          | noTimer =>
            simp only [records] at hi
            split at hi
            · rename_i hc
              obtain ⟨c1, c2, c3⟩ := hc
              subst c3
              have := newAborts_of_adds (adds_connect_noTimer (c := c) (s := s) (n := n) (legacy := legacy) (factor := factor)
                (iocrs := iocrs) c1 c2)
              rw [newAborts_of_adds g] at this
              cases this
            · cases hi
      · have hnone : ∀ i, records c s (.base (.connect n u access legacy factor iocrs v)) i = none := by
          intro i
          cases v with
          | refused code => rfl
          | accept st =>
            cases st with
            | noTimer => simp [records, g1]
            | ok => rfl
            | failed => rfl
        refine .silent g2 hnone ?_
        intro i hi
        simp only [why, g1]; rfl
      · subst g3 g4
        refine .of_adds g5 ?_ (fun i _ => count_one_le i j) ?_
        · intro i hi
          rw [List.mem_singleton] at hi
          subst hi
          simp only [records, why, g1, g2, and_self, if_true]; rfl
        · intro i k hi hn
          simp only [records] at hi
          split at hi
          · rename_i hc
            exact absurd (List.mem_singleton.2 (Option.some.inj (hc.2.1.symm.trans g2))) hn
          · cases hi
    | release n u =>
      cases h
      exact ends_release (k := fun _ => ⟨clsProtocol, 0x0f⟩) (fun i => rfl) (fun i => rfl)
    | dcontrol q =>
      cases h
      by_cases hp : ∃ i, portFails c s q i = true
      · obtain ⟨j, hj⟩ := hp
        have uniq : ∀ i, portFails c s q i = true → i = j := by
          intro i hi
          unfold portFails at hi hj
          simp only [Bool.and_eq_true, decide_eq_true_eq] at hi hj
          exact Option.some.inj (hi.1.1.1.1.1.1.2.symm.trans hj.1.1.1.1.1.1.2)
        refine .of_adds (adds_dcontrol.2 j hj) ?_ (fun i _ => count_one_le i j) ?_
        · intro i hi
          rw [List.mem_singleton] at hi
          subst hi
          simp only [records, why, hj, if_true]; rfl
        · intro i k hi hn
          simp only [records] at hi
          split at hi
          · rename_i hc; exact absurd (List.mem_singleton.2 (uniq i hc)) hn
          · cases hi
      · have hp' : ∀ i, portFails c s q i = false := fun i => by
          cases h : portFails c s q i with
          | false => rfl
          | true => exact absurd ⟨i, h⟩ hp
        obtain ⟨l, h1, h2⟩ := (adds_dcontrol (c := c) (s := s) (q := q)).1
        refine .silent h2 (fun i => by simp [records, hp' i]) (fun i _ => ?_)
        simp only [why, hp' i]; rfl
    | response n status done plug => exact .silent (adds_response h) (fun _ => rfl) (by simp)
    | cancel n =>
      cases h
      obtain ⟨l, h1⟩ := adds_cancel (s := s) (n := n)
      exact .silent h1 (fun _ => rfl) (fun _ _ => rfl)
    | read n u implicit target idx checks => exact .silent (adds_read h) (fun _ => rfl) (by simp)
    | write n u p idx checks ok => cases h; exact .silent adds_write (fun _ => rfl) (by simp)
    | other n => cases h; exact .silent .useSess (fun _ => rfl) (by simp)
    | appReady j b out =>
      cases h
      rcases adds_appReady (s := s) (i := j) (b := b) (out := out) with g | g
      · exact .silent g (fun _ => rfl) (fun _ _ => rfl)
      · exact .silent g (fun _ => rfl) (fun _ _ => rfl)
    | abort j =>
      cases h
      by_cases hu : (s.ars j).inUse = true
      · rw [if_pos hu]
        rcases Adds.cmAbort (st := s) (i := j) with g | g
        · exact .silent g (fun _ => rfl) (fun _ _ => rfl)
        · exact .silent g (fun _ => rfl) (fun _ _ => rfl)
      · rw [if_neg hu]
        exact .silent (.refl _) (fun _ => rfl) (by simp)
    | cmioTimer j =>
      cases h
      refine .silent (l := []) ?_ (fun _ => rfl) (by simp)
      unfold Startup.cmioTimer
      dsimp only
      split
      · exact adds_infoInd
      · exact .setAr
    | cmsmTimer j =>
      cases h
      rcases adds_cmsmTimer (s := s) (i := j) with ⟨g1, g2⟩ | ⟨g1, g2⟩
      · refine .of_adds g2 ?_ (fun i _ => count_one_le i j) ?_
        · intro i hi
          rw [List.mem_singleton] at hi
          subst hi
          simp only [records, true_and]
          rw [if_pos g1]; rfl
        · intro i k hi hn
          simp only [records] at hi
          split at hi
          · rename_i hc; exact absurd (List.mem_singleton.2 hc.1) hn
          · cases hi
      · refine .silent g2 (fun i => ?_) (by simp)
        simp only [records]
        rw [if_neg (fun hc => g1 hc.2)]
    | cpmState j crep start =>
      cases h
      have hk : ∀ i k, records c s (.base (.cpmState j crep start)) i = some k →
          k ∈ leftOver ∧ (Op.base (.cpmState j crep start)).leaves = true := by
        intro i k hi
        cases start with
        | true => cases hi
        | false =>
          simp only [records] at hi
          split at hi
          · cases hi; exact ⟨by decide, rfl⟩
          · cases hi
      rcases adds_cpmState (s := s) (i := j) (crep := crep) (start := start) with g | ⟨g1, g2⟩
      · exact .of_adds g (by simp) (fun i _ => count_nil_le i) fun i k hi _ => hk i k hi
      · subst g1
        refine .of_adds g2 ?_ (fun i _ => count_one_le i j) fun i k hi _ => hk i k hi
        intro i hi
        rw [List.mem_singleton] at hi
        subst hi
        simp only [records, if_true]; rfl
    | newData j crep new =>
      cases h
      refine .silent (l := []) ?_ (fun _ => rfl) (by simp)
      unfold Startup.newDataInd
      dsimp only
      split
      · split
        · exact .setAr
        · exact .refl _
      · exact .refl _
    | tick d => cases h; exact .silent (.of_log rfl) (fun _ => rfl) (by simp)
    | own p o => cases h; exact .silent (.of_log rfl) (fun _ => rfl) (by simp)

/-- An entry of the report, from the operation that made it. -/
theorem mem_tell {o : Op} {tx : Bool} {codes : Nat → Codes} {t : Told} : ∀ {l : List Nat}, t ∈ tell c s o tx codes l →
    t.i ∈ l ∧ t.cause = why c s o t.i ∧
    ((t.app = codes t.i ∧ t.frame = errorFrame (s.ars t.i) (codes t.i) tx) ∨ (2 ≤ l.count t.i ∧ t.app = Codes.zero ∧ t.frame = none))
  | [], h => by cases h
  | i :: l, h => by
    unfold tell at h
    rcases List.mem_cons.1 h with rfl | h
    · refine ⟨List.mem_cons_self .., rfl, ?_⟩
      by_cases hi : i ∈ l
      · right
        refine ⟨?_, by simp [hi], by simp [hi]⟩
        have := List.count_pos_iff.2 hi
        simp [List.count_cons]; omega
      · left
        simp [hi]
    · obtain ⟨h1, h2, h3⟩ := mem_tell h
      refine ⟨List.mem_cons_of_mem _ h1, h2, h3.imp id fun g => ⟨?_, g.2⟩⟩
      rw [List.count_cons]; omega

/-- What holds of every entry of the report and of the codes kept. -/
structure Inv (quiet : Prop) (x : St) : Prop where
  /-- Codes kept are left over. -/
  codes : ∀ i, x.codes i ∈ leftOver
  zero : quiet → ∀ i, x.codes i = Codes.zero
  told : ∀ t ∈ x.told, (∀ k, t.cause.set = some k → t.app = k) ∧ (t.cause.set = none → t.app ∈ leftOver ∧ (quiet → t.app = Codes.zero)) ∧
    (∀ w ∈ t.frame, w = ⟨0xFD, t.app.code⟩)
  /-- Each end of which the application is told is in the report, in order. -/
  all : x.told.map (·.i) = abortsIn x.s.log

theorem tell_ids {o : Op} {tx : Bool} {codes : Nat → Codes} : ∀ l : List Nat, (tell c s o tx codes l).map (·.i) = l
  | [] => rfl
  | i :: l => by unfold tell; rw [List.map_cons, tell_ids l]

theorem Inv.step {quiet : Prop} {x x' : St} {o : Op} {tx : Bool} (hi : Inv quiet x) (hq : quiet → o.leaves = false)
    (h : step c x o tx = some x') : Inv quiet x' := by
  unfold Reason.step at h
  cases he : effect c x.s o with
  | none => rw [he] at h; cases h
  | some s' =>
    rw [he] at h
    simp only [Option.map_some, Option.some.injEq] at h
    subst h
    have E := ends_effect he
    refine ⟨?_, ?_, ?_, ?_⟩
    · intro i
      dsimp only
      split
      · decide
      · rename_i hn
        rw [not_or] at hn
        cases hr : records c x.s o i with
        | none => exact hi.codes i
        | some k => exact (E.left i k hr hn.1).1
    · intro q i
      dsimp only
      split
      · rfl
      · rename_i hn
        rw [not_or] at hn
        cases hr : records c x.s o i with
        | none => exact hi.zero q i
        | some k => have := (E.left i k hr hn.1).2; rw [hq q] at this; cases this
    · intro t ht
      dsimp only at ht
      rcases List.mem_append.1 ht with ht | ht
      · obtain ⟨h1, h2, h3⟩ := mem_tell ht
        have hset := E.set t.i h1
        rw [← h2] at hset
        refine ⟨?_, ?_, ?_⟩
        · intro k hk
          rw [hk] at hset
          rcases h3 with ⟨g, _⟩ | ⟨g, _⟩
          · rw [g, hset]; rfl
          · have := E.once t.i (by rw [hset]; rfl)
            omega
        · intro hk
          rw [hk] at hset
          rcases h3 with ⟨g, _⟩ | ⟨_, g, _⟩
          · rw [g, hset]; exact ⟨hi.codes _, fun q => hi.zero q _⟩
          · rw [g]; exact ⟨by decide, fun _ => rfl⟩
        · intro w hw
          rcases h3 with ⟨g1, g2⟩ | ⟨_, _, g2⟩
          · rw [g2] at hw
            unfold errorFrame at hw
            split at hw
            · rw [g1]; simp at hw; exact hw.symm
            · cases hw
          · rw [g2] at hw; cases hw
      · exact hi.told t ht
    · dsimp only
      rw [List.map_append, tell_ids, hi.all]
      obtain ⟨L, hL⟩ := E.grows
      have e : newAborts x.s s' = abortsIn L := newAborts_of_adds ⟨L, hL, rfl⟩
      rw [e, hL]
      unfold abortsIn
      rw [List.filterMap_append]

theorem Inv.exec {quiet : Prop} : ∀ {ops : List (Op × Bool)} {x x' : St}, Inv quiet x → (quiet → ∀ o ∈ ops, o.1.leaves = false) →
    exec c x ops = some x' → Inv quiet x'
  | [], x, x', hi, _, h => by cases h; exact hi
  | (o, tx) :: ops, x, x', hi, hq, h => by
    unfold Reason.exec at h
    cases hs : Reason.step c x o tx with
    | none => rw [hs] at h; cases h
    | some y =>
      rw [hs] at h
      exact Inv.exec (hi.step (fun q => hq q _ (List.mem_cons_self ..)) hs) (fun q o' ho => hq q o' (List.mem_cons_of_mem _ ho)) h

theorem Inv.init {quiet : Prop} : Inv quiet init :=
  { codes := fun _ => by show Codes.zero ∈ leftOver; decide
    zero := fun _ _ => rfl
    told := fun t ht => absurd ht List.not_mem_nil
    all := rfl }

theorem inv_of {ops : List (Op × Bool)} {x : St} (h : exec c init ops = some x) : Inv False x :=
  Inv.exec Inv.init (fun q => q.elim) h

/-- **C156 (partial)** For every run: if a connection ends by one of the causes of `Cause.toldRight`, class and code that the application gets
in its callback are those documented for the cause.

Missing: the other causes, for which it is false (below). -/
theorem C156_application_partial (ops : List (Op × Bool)) (x : St) (h : exec c init ops = some x) (t : Told) (ht : t ∈ x.told)
    (hc : t.cause.toldRight = true) : some t.app = t.cause.forApp := by
  have h1 := ((inv_of h).told t ht).1
  cases hca : t.cause with
  | failure f =>
    rw [hca] at hc h1
    rw [h1 _ rfl]
    cases f <;> first | rfl | cases hc | skip
    rename_i cls code busy
    cases busy
    · rfl
    · cases hc
  | _ => rw [hca] at hc h1; first | (rw [h1 _ rfl]; rfl) | cases hc

/-- **C156 (partial)** For every run: the frame to the controller names the cause if the connection ends by one of the causes of
`Cause.toldRight` other than a missing timer, or by an alarm that is not acknowledged.

Missing: the other causes, for which it is false (below). -/
theorem C156_controller_partial (ops : List (Op × Bool)) (x : St) (h : exec c init ops = some x) (t : Told) (ht : t ∈ x.told)
    (w : Codes) (hw : w ∈ t.frame) (hc : t.cause.toldRight = true ∨ t.cause = .failure .alarmUnacked)
    (hn : t.cause ≠ .failure .noCpmTimer ∧ t.cause ≠ .failure .noPpmTimer) : ∀ k ∈ t.cause.forController, w = k := by
  intro k hk
  obtain ⟨h1, _, h3⟩ := (inv_of h).told t ht
  rw [h3 w hw]
  cases hca : t.cause with
  | failure f =>
    rw [hca] at hc h1 hn hk
    cases f with
    | alarmUnacked => rw [h1 _ rfl]; cases hk; rfl
    | alarmTooEarly => rw [h1 _ rfl]; cases hk; rfl
    | alarmUnknown => rw [h1 _ rfl]; cases hk; rfl
    | errorFrame cls code busy => cases hk
    | noCpmTimer => exact absurd rfl hn.1
    | noPpmTimer => exact absurd rfl hn.2
  | _ =>
    rw [hca] at hc h1 hk
    first
      | (rw [h1 _ rfl]; cases hk; rfl)
      | (rcases hc with hc | hc <;> cases hc; done)

/-- **C156** The controller is always told the code that the application gets, with class PROTOCOL. -/
theorem C156_same_code (ops : List (Op × Bool)) (x : St) (h : exec c init ops = some x) (t : Told) (ht : t ∈ x.told) (w : Codes)
    (hw : w ∈ t.frame) : w = ⟨0xFD, t.app.code⟩ := ((inv_of h).told t ht).2.2 w hw

/-- **C156** The report has an entry for each end of a connection that the application is told of, in order. -/
theorem C156_complete (ops : List (Op × Bool)) (x : St) (h : exec c init ops = some x) : x.told.map (·.i) = abortsIn x.s.log :=
  (inv_of h).all

/-- **C156** If a connection ends by a cause for which the stack sets no codes, the application gets zero or what is left over from an
event that did not end the connection; zero if there was no such event in the whole run. -/
theorem C156_silent (ops : List (Op × Bool)) (x : St) (h : exec c init ops = some x) (t : Told) (ht : t ∈ x.told)
    (hc : t.cause.silent = true) : t.app ∈ leftOver ∧ ((∀ o ∈ ops, o.1.leaves = false) → t.app = ⟨0, 0⟩) := by
  have hset : t.cause.set = none := by
    cases hca : t.cause <;> rw [hca] at hc <;> first | rfl | cases hc
  refine ⟨(((inv_of h).told t ht).2.1 hset).1, fun hq => ?_⟩
  exact (((Inv.exec (quiet := True) Inv.init (fun _ => hq) h).told t ht).2.1 hset).2 trivial

/-- **C156 (finding)** An abort by the application (pnet_ar_abort, pnet_factory_reset) or by a new connect request is never named: the
codes documented for them, ABORT_REQ and RE_RUN_ABORTS_EXISTING, are told in no run, neither to the application nor to the controller. -/
theorem C156_fails_never_named (ops : List (Op × Bool)) (x : St) (h : exec c init ops = some x) (t : Told) (ht : t ∈ x.told)
    (hc : t.cause = .appAbort ∨ t.cause = .appReset ∨ t.cause = .newConnect) :
    some t.app ≠ t.cause.forApp ∧ ∀ w ∈ t.frame, some w ≠ t.cause.forController := by
  have hs : t.cause.silent = true := by rcases hc with e | e | e <;> rw [e] <;> rfl
  have hl := (C156_silent ops x h t ht hs).1
  have hd : t.app.code ≠ 0x0d ∧ t.app.code ≠ 0x0e := by
    have : ∀ k ∈ leftOver, k.code ≠ 0x0d ∧ k.code ≠ 0x0e := by decide
    exact this _ hl
  refine ⟨?_, fun w hw => ?_⟩
  · intro e
    rcases hc with e' | e' | e' <;> rw [e'] at e <;> simp only [Cause.forApp, Option.some.injEq] at e <;> rw [e] at hd <;> simp at hd
  · rw [C156_same_code ops x h t ht w hw]
    intro e
    rcases hc with e' | e' | e' <;> rw [e'] at e <;> simp only [Cause.forController, Cause.forApp, Option.some.injEq, Codes.mk.injEq] at e
    · exact hd.1 e.2
    · exact hd.1 e.2
    · exact hd.2 e.2

/-- **C156 (finding)** If a connection ends because no timer is left, the controller is told the code of an error in sequence numbers
(ABORT_CODE_SEQ). -/
theorem C156_fails_no_timer (ops : List (Op × Bool)) (x : St) (h : exec c init ops = some x) (t : Told) (ht : t ∈ x.told)
    (hc : t.cause = .failure .noCpmTimer ∨ t.cause = .failure .noPpmTimer) : ∀ w ∈ t.frame, w = ⟨0xFD, 0x01⟩ := by
  intro w hw
  obtain ⟨h1, _, h3⟩ := (inv_of h).told t ht
  rw [h3 w hw]
  rcases hc with e | e <;> rw [e] at h1 <;> rw [h1 _ rfl] <;> rfl

/-- **C156 (finding)** If a connection ends because an alarm is not acknowledged, the application gets the code 0x08 with class APMS; this code is
documented for class PROTOCOL only. -/
theorem C156_fails_alarm_class (ops : List (Op × Bool)) (x : St) (h : exec c init ops = some x) (t : Told) (ht : t ∈ x.told)
    (hc : t.cause = .failure .alarmUnacked) : t.app = ⟨0x47, 0x08⟩ := by
  have h1 := ((inv_of h).told t ht).1
  rw [hc] at h1
  exact h1 _ rfl

/-! ## Runs -/

/-- A connection that starts up. -/
def up : Op := .base (.connect 1 7 false false 10 [false, true] (.accept .ok))

/-- **C156 (finding)** After each of the events that do not end a connection, an abort by the application is told with the codes
of that event, to the application and to the controller. -/
theorem C156_fails_left_over (m : Mishap) (tx tx' : Bool) : (exec ⟨1⟩ init [(up, tx), (.mishap 0 m, tx'), (.base (.abort 0), true)]).map
    (fun x => x.told.map fun t => (t.i, t.cause, t.app, t.frame)) =
    some [(0, .appAbort, m.codes, some ⟨0xFD, m.codes.code⟩)] := by
  cases m <;> cases tx <;> cases tx' <;> decide +kernel

theorem C156_fails : ¬ C156_statement := by
  intro h
  have hx : (exec ⟨1⟩ init [(up, true), (.base (.abort 0), true)]).map
    (fun x => x.told.map fun t => (t.i, t.cause, t.app, t.frame)) = some [(0, .appAbort, ⟨0, 0⟩, some ⟨0xFD, 0⟩)] := by decide +kernel
  cases he : exec ⟨1⟩ init [(up, true), (.base (.abort 0), true)] with
  | none => rw [he] at hx; cases hx
  | some x =>
    rw [he] at hx
    simp only [Option.map_some, Option.some.injEq] at hx
    cases ht : x.told with
    | nil => rw [ht] at hx; cases hx
    | cons t l =>
      rw [ht] at hx
      simp only [List.map_cons, List.cons.injEq, Prod.mk.injEq] at hx
      obtain ⟨⟨_, h2, h3, _⟩, _⟩ := hx
      have := (h _ _ x he t (by rw [ht]; exact List.mem_cons_self ..)).1
      rw [h2, h3] at this
      exact absurd this (by decide)

/-- Runs that meet the hypotheses of the theorems above: a connection ends because its outputs are lost, by a release, by the
application, and because no timer is left. -/
theorem C156_example : (exec ⟨1⟩ init [(up, true), (.base (.cmsmTimer 0), true), (.base (.tick 2000000), true), (.base (.cmsmTimer 0), true),
    (up, true), (.base (.release 1 7), true), (up, true), (.base (.abort 0), true), (up, true), (.failure 0 .noPpmTimer, true)]).map
    (fun x => x.told.map fun t => (t.i, t.cause, t.app, t.frame)) =
    some [(0, .failure .noPpmTimer, ⟨0x49, 0x01⟩, some ⟨0xFD, 0x01⟩), (0, .appAbort, ⟨0, 0⟩, some ⟨0xFD, 0⟩),
      (0, .released, ⟨0xFD, 0x0f⟩, some ⟨0xFD, 0x0f⟩), (0, .startupTimeout, ⟨0xFD, 0x06⟩, some ⟨0xFD, 0x06⟩)] := by
  decide +kernel

end Verif.Reason
