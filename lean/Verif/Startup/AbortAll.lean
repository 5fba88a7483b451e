import Verif.Startup.Ending
/-!
C148: a factory reset, a change of name and a removal of the IP address end all connections.
-/
set_option linter.unusedSimpArgs false
set_option linter.unusedVariables false
namespace Verif.Startup

/-- The loop over all connections in pnet_factory_reset (src/device/pnet_api.c:509-530). -/
def abortAll (c : Cfg) (st : St) : St :=
  (List.range c.maxAr).foldl (fun st i => if (st.ars i).inUse then cmAbort st i else st) st

/-- pf_cmina_abort_active_ars (src/device/pf_cmina.c:586-604), with the number it returns. -/
def abortActive (c : Cfg) (st : St) : St × Nat :=
  (List.range c.maxAr).foldl
    (fun x i => if (x.1.ars i).inUse then (stateInd x.1 i .abort, x.2 + 1) else x) (st, 0)

/-- pf_cmina_nbr_of_active_ars (src/device/pf_cmina.c:611-626). -/
def activeArs (c : Cfg) (st : St) : Nat :=
  (List.range c.maxAr).foldl (fun n i => if (st.ars i).inUse then n + 1 else n) 0

/-- What the end of all connections looks like. -/
structure AllEnded (st st' : St) : Prop where
  /-- The application is told ABORT of each connection that is up, once, and nothing else. -/
  told : ∃ new, st'.log = new ++ st.log ∧
    (∀ e ∈ new, ∃ i, (st.ars i).inUse = true ∧ e = .event i .abort st.now) ∧
    ∀ i, upOf i st.log = true → new.count (.event i .abort st.now) = 1
  down : ∀ i, upOf i st'.log = false
  /-- Their entries are free. -/
  free : ∀ i, upOf i st.log = true → (st'.ars i).inUse = false
  /-- No session and no submodule belongs to one of them. -/
  unlinked : ∀ i s, upOf i st.log = true → (st'.sess s).ar ≠ some i
  given : ∀ i p, upOf i st.log = true → st'.subs p ≠ some (some i)

/-- A loop that aborts the connections for which `A` holds. -/
def sweep (A : Ar → Bool) (l : List Nat) (st : St) : St :=
  l.foldl (fun st i => if A (st.ars i) then stateInd st i .abort else st) st

theorem sweep_cons (A : Ar → Bool) (i : Nat) (l : List Nat) (st : St) :
    sweep A (i :: l) st = sweep A l (if A (st.ars i) then stateInd st i .abort else st) := rfl

theorem sweep_spec (A : Ar → Bool) (hA : ∀ a, A a = true → a.inUse = true) :
    ∀ (l : List Nat) (st : St), l.Nodup → Good False st →
      Good False (sweep A l st) ∧
      (∀ k, (sweep A l st).ars k = if k ∈ l ∧ A (st.ars k) = true then Ar.zero else st.ars k) ∧
      (sweep A l st).log =
        ((l.filter fun i => A (st.ars i)).reverse.map fun i => .event i .abort st.now) ++ st.log ∧
      (sweep A l st).now = st.now ∧
      ∀ p i, (sweep A l st).subs p = some (some i) →
        st.subs p = some (some i) ∧ ¬ (i ∈ l ∧ A (st.ars i) = true)
  | [], st, _, hg => ⟨hg, fun k => by simp [sweep], by simp [sweep], rfl, fun p i h => ⟨h, by simp⟩⟩
  | j :: l, st, hn, hg => by
    rw [sweep_cons]
    obtain ⟨hj, hn'⟩ := List.nodup_cons.1 hn
    by_cases h : A (st.ars j) = true
    · rw [if_pos h]
      have hars : ∀ k, (stateInd st j .abort).ars k = if k = j then Ar.zero else st.ars k := fun k => by
        rw [stateInd_ars]; simp
      obtain ⟨g1, g2, g3, g4, g5⟩ := sweep_spec A hA l _ hn' (hg.abort j (hA _ h))
      have hl : ∀ k ∈ l, (stateInd st j .abort).ars k = st.ars k := fun k hk => by
        rw [hars, if_neg]; rintro rfl; exact hj hk
      refine ⟨g1, fun k => ?_, ?_, by rw [g4, stateInd_now], fun p i hp => ?_⟩
      · rw [g2]
        by_cases hk : k = j
        · subst hk; simp [hj, hars, h]
        · simp [hk, hars]
      · rw [g3, stateInd_log, stateInd_now]
        have : (l.filter fun i => A ((stateInd st j .abort).ars i)) = l.filter fun i => A (st.ars i) :=
          List.filter_congr fun k hk => by rw [hl k hk]
        rw [this, List.filter_cons, if_pos h]
        simp
      · obtain ⟨q1, q2⟩ := g5 p i hp
        rw [stateInd_subs] at q1
        have hij : i ≠ j ∧ st.subs p = some (some i) := by
          by_cases hs : st.subs p = some (some j)
          · simp [hs] at q1
          · simp [hs] at q1
            refine ⟨?_, q1⟩
            rintro rfl; exact hs q1
        refine ⟨hij.2, ?_⟩
        rintro ⟨m, a⟩
        rcases List.mem_cons.1 m with m | m
        · exact hij.1 m
        · exact q2 ⟨m, by rw [hl i m]; exact a⟩
    · rw [if_neg h]
      obtain ⟨g1, g2, g3, g4, g5⟩ := sweep_spec A hA l st hn' hg
      refine ⟨g1, fun k => ?_, ?_, g4, fun p i hp => ?_⟩
      · rw [g2]
        by_cases hk : k = j
        · subst hk; simp [hj, h]
        · simp [hk]
      · rw [g3, List.filter_cons, if_neg h]
      · obtain ⟨q1, q2⟩ := g5 p i hp
        refine ⟨q1, ?_⟩
        rintro ⟨m, a⟩
        rcases List.mem_cons.1 m with m | m
        · subst m; exact h a
        · exact q2 ⟨m, a⟩

theorem upOf_events (i t : Nat) (l : List Nat) (L : List Entry) :
    upOf i (l.map (fun j => Entry.event j .abort t) ++ L) = if i ∈ l then false else upOf i L := by
  induction l with
  | nil => simp
  | cons j l ih =>
    simp only [List.map_cons, List.cons_append, upOf, ih]
    by_cases h : j = i
    · simp [h]
    · have : ¬ i = j := fun e => h e.symm
      simp [h, this]

theorem sweep_ended {c : Cfg} {st : St} (A : Ar → Bool) (hA : ∀ a, A a = true → a.inUse = true)
    (hg : Good False st) (hu : UInv c st)
    (hup : ∀ i, upOf i st.log = true → A (st.ars i) = true) :
    AllEnded st (sweep A (List.range c.maxAr) st) := by
  obtain ⟨g1, g2, g3, g4, g5⟩ := sweep_spec A hA (List.range c.maxAr) st List.nodup_range hg
  have hm : ∀ i, upOf i st.log = true → i ∈ List.range c.maxAr := fun i h =>
    List.mem_range.2 (hu.1 i (hA _ (hup i h)))
  have hfree : ∀ i, upOf i st.log = true → ((sweep A (List.range c.maxAr) st).ars i).inUse = false := by
    intro i h
    rw [g2, if_pos ⟨hm i h, hup i h⟩]; rfl
  refine ⟨⟨_, g3, fun e he => ?_, fun i hi => ?_⟩, fun i => ?_, hfree, fun i s hi hs => ?_, fun i p hi hp => ?_⟩
  · rw [List.mem_map] at he
    obtain ⟨i, h1, rfl⟩ := he
    rw [List.mem_reverse, List.mem_filter] at h1
    exact ⟨i, hA _ h1.2, rfl⟩
  · rw [List.count_eq_countP, List.countP_map]
    have e : (fun x => x == Entry.event i .abort st.now) ∘ (fun j => Entry.event j .abort st.now) =
        fun j => j == i := by
      funext j
      rw [Bool.eq_iff_iff]
      simp [Function.comp]
    rw [e, ← List.count_eq_countP, List.count_reverse, List.count_filter (p := fun i => A (st.ars i)) (hup i hi)]
    rw [List.nodup_range.count, if_pos (hm i hi)]
  · rw [g3, upOf_events]
    by_cases h : upOf i st.log = true
    · rw [if_pos]
      rw [List.mem_reverse, List.mem_filter]
      exact ⟨hm i h, hup i h⟩
    · split
      · rfl
      · simpa using h
  · have := (g1.s.sar s i hs).1
    rw [hfree i hi] at this; cases this
  · exact (g5 p i hp).2 ⟨hm i hi, hup i hi⟩

/-- The connections that pf_cmdev_cm_abort ends. -/
def canAbort (a : Ar) : Bool :=
  a.inUse && (!a.access || a.cmdev == .wCres || a.cmdev == .data)

theorem cmAbort_canAbort (st : St) (i : Nat) : (if (st.ars i).inUse then cmAbort st i else st) =
    if canAbort (st.ars i) then stateInd st i .abort else st := by
  unfold canAbort cmAbort
  dsimp only
  cases (st.ars i).inUse <;> simp
  cases (st.ars i).access <;> simp [setState_abort_eq]
  cases (st.ars i).cmdev <;> simp [setState_abort_eq]

theorem abortAll_eq (c : Cfg) (st : St) : abortAll c st = sweep canAbort (List.range c.maxAr) st := by
  unfold abortAll sweep
  congr 1
  funext s i
  exact cmAbort_canAbort s i

/-- **C148**, factory reset: whatever happened before, all connections that are up are ended. -/
theorem C148_factory_reset (c : Cfg) (ops : List Op) (st : St) (h : exec c init ops = some st) :
    AllEnded st (abortAll c st) := by
  have hg : Good False st := Good.exec Good.init (fun t => t.elim) h
  have hu := UInv.exec Good.init (UInv.init c) h
  rw [abortAll_eq]
  refine sweep_ended _ (fun a ha => ?_) hg hu fun i hi => ?_
  · unfold canAbort at ha; simp at ha; exact ha.1
  · obtain ⟨hin, hl, hc⟩ := up_facts hg hi
    unfold canAbort
    unfold Live at hl
    cases hd : (st.ars i).cmdev <;> rw [hd] at hl <;> simp [hin] at hl hc ⊢ <;>
      first | exact absurd hd hc | (simp [hl]; done) | skip

theorem abortActive_eq (l : List Nat) (st : St) (n : Nat) : l.Nodup →
    l.foldl (fun (x : St × Nat) i => if (x.1.ars i).inUse then (stateInd x.1 i .abort, x.2 + 1) else x) (st, n) =
      (sweep (·.inUse) l st, n + l.countP fun i => (st.ars i).inUse) := by
  induction l generalizing st n with
  | nil => intro _; rfl
  | cons j l ih =>
    intro hn
    obtain ⟨hj, hn'⟩ := List.nodup_cons.1 hn
    rw [List.foldl_cons, sweep_cons]
    by_cases h : (st.ars j).inUse = true
    · have e : (l.countP fun i => ((stateInd st j .abort).ars i).inUse) = l.countP fun i => (st.ars i).inUse := by
        refine List.countP_congr fun k hk => ?_
        rw [stateInd_ars, if_neg]
        rintro rfl; exact hj hk
      simp only [h, if_true, List.countP_cons]
      rw [ih _ _ hn', e]
      simp; omega
    · simp only [h, List.countP_cons]
      simp
      rw [ih _ _ hn']

/-- **C148**, change of name, removal of the IP address, reset by DCP: all connections are ended, also those the application was
not told of; the number returned is the number there were. -/
theorem C148_abort_active (c : Cfg) (ops : List Op) (st : St) (h : exec c init ops = some st) :
    AllEnded st (abortActive c st).1 ∧ (∀ i, ((abortActive c st).1.ars i).inUse = false) ∧
    (∀ s, ((abortActive c st).1.sess s).ar = none) ∧
    (abortActive c st).2 = ((List.range c.maxAr).filter fun i => (st.ars i).inUse).length ∧
    activeArs c (abortActive c st).1 = 0 := by
  have hg : Good False st := Good.exec Good.init (fun t => t.elim) h
  have hu := UInv.exec Good.init (UInv.init c) h
  have e := abortActive_eq (List.range c.maxAr) st 0 List.nodup_range
  have e1 : abortActive c st = _ := e
  rw [e1]
  have hfree : ∀ i, ((sweep (·.inUse) (List.range c.maxAr) st).ars i).inUse = false := by
    intro i
    obtain ⟨_, g2, _⟩ := sweep_spec (·.inUse) (fun a h => h) (List.range c.maxAr) st List.nodup_range hg
    rw [g2]
    split
    · rfl
    · rename_i hn
      cases hi : (st.ars i).inUse
      · rfl
      · exact absurd ⟨List.mem_range.2 (hu.1 i hi), hi⟩ hn
  refine ⟨sweep_ended _ (fun a h => h) hg hu fun i hi => (up_facts hg hi).1, hfree, fun s => ?_, ?_, ?_⟩
  · obtain ⟨g1, _⟩ := sweep_spec (·.inUse) (fun a h => h) (List.range c.maxAr) st List.nodup_range hg
    cases hs : ((sweep (·.inUse) (List.range c.maxAr) st).sess s).ar with
    | none => rfl
    | some i =>
      have := (g1.s.sar s i hs).1
      rw [hfree i] at this; cases this
  · simp [List.countP_eq_length_filter]
  · unfold activeArs
    generalize sweep (·.inUse) (List.range c.maxAr) st = s at hfree
    induction List.range c.maxAr with
    | nil => rfl
    | cons i l ih => rw [List.foldl_cons, hfree i]; exact ih

/-- pf_cmina_nbr_of_active_ars counts the connections in use. -/
theorem C148_number (c : Cfg) (st : St) :
    activeArs c st = ((List.range c.maxAr).filter fun i => (st.ars i).inUse).length := by
  unfold activeArs
  have : ∀ (l : List Nat) (n : Nat), l.foldl (fun n i => if (st.ars i).inUse then n + 1 else n) n =
      n + (l.filter fun i => (st.ars i).inUse).length := by
    intro l
    induction l with
    | nil => intro n; rfl
    | cons i l ih =>
      intro n
      rw [List.foldl_cons, ih, List.filter_cons]
      cases (st.ars i).inUse <;> simp
      omega
  rw [this]; omega

/-- Two connections, one in data exchange: both are ended. -/
theorem C148_example : ∃ st, exec cfg1 init twoOps = some st ∧ upOf 0 st.log = true ∧ upOf 1 st.log = true ∧
    st.subs (0, 1, 1) = some (some 0) ∧ activeArs cfg1 st = 2 ∧ (abortActive cfg1 st).2 = 2 :=
  ⟨(exec cfg1 init twoOps).get (by rfl), (Option.some_get _).symm, by rfl, by rfl, by rfl, by rfl, by rfl⟩

end Verif.Startup
