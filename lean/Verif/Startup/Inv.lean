import Verif.Startup.Lemmas
/-! Invariants.  `T` stands for "the run was orderly so far". -/
set_option linter.unusedSimpArgs false
set_option linter.unusedVariables false
namespace Verif.Startup

theorem phase_cons (i : Nat) (e : Entry) (l : List Entry) :
    phase i (e :: l) = phaseNext i (phase i l) e := rfl
theorem weak_cons (i : Nat) (e : Entry) (l : List Entry) :
    weak i (e :: l) = weakNext i (weak i l) e := rfl
theorem sup_cons (i : Nat) (e : Entry) (l : List Entry) :
    supervised i (e :: l) = supNext i (factorOf i l) (supervised i l) e := rfl
theorem lastDc_cons (s : Nat) (e : Entry) (l : List Entry) :
    lastDc s (e :: l) = dcNext s (lastDc s l) e := rfl

/-! ## Sessions -/

def DcOk (x : Sess) : Option (Nat × Nat) → Prop
  | none => x.dcSeq = 0xFFFFFFFF ∧ x.dcRes = 0
  | some (q, r) => x.dcSeq = q ∧ x.dcRes = r

structure SInv (T : Prop) (st : St) : Prop where
  sfree : ∀ s, (st.sess s).inUse = false → (st.sess s).ar = none ∧ (st.sess s).fromMe = false
  sar : ∀ s i, (st.sess s).ar = some i →
    (st.ars i).inUse = true ∧ ((st.ars i).sess = some s ∨ (st.sess s).fromMe = true)
  fme : ∀ s, (st.sess s).fromMe = true → (st.sess s).ar ≠ none
  dead : ∀ i, (st.ars i).inUse = false → (st.ars i).sess = none
  link : T → ∀ i, (st.ars i).inUse = true → ∃ s, (st.ars i).sess = some s ∧
    (st.sess s).inUse = true ∧ (st.sess s).ar = some i ∧ (st.sess s).fromMe = false
  dc : ∀ s, (st.sess s).inUse = true → DcOk (st.sess s) (lastDc s st.log)

variable {T : Prop}

def NotDc : Entry → Prop
  | .opened _ => False
  | .dcAnswer _ _ _ true => False
  | _ => True

theorem dcNext_of_not {s : Nat} {v : Option (Nat × Nat)} {e : Entry} (h : NotDc e) :
    dcNext s v e = v := by
  cases e <;> simp_all [NotDc, dcNext]
  rename_i b; cases b <;> simp_all [NotDc, dcNext]

theorem SInv.note {st : St} {e : Entry} (hi : SInv T st) (he : NotDc e) : SInv T (st.note e) :=
  ⟨hi.sfree, hi.sar, hi.fme, hi.dead, hi.link, fun s hs => by
    simp only [note_log, lastDc_cons, dcNext_of_not he]; exact hi.dc s hs⟩

theorem SInv.setAr {st : St} {i : Nat} {a : Ar} (hi : SInv T st) (h1 : a.inUse = (st.ars i).inUse)
    (h2 : a.sess = (st.ars i).sess) : SInv T (st.setAr i a) := by
  have e1 : ∀ k, ((st.setAr i a).ars k).inUse = (st.ars k).inUse := by
    intro k; by_cases hk : k = i <;> simp [hk, h1]
  have e2 : ∀ k, ((st.setAr i a).ars k).sess = (st.ars k).sess := by
    intro k; by_cases hk : k = i <;> simp [hk, h2]
  refine ⟨hi.sfree, ?_, hi.fme, ?_, ?_, hi.dc⟩
  · intro s k hk; rw [e1, e2]; exact hi.sar s k hk
  · intro k; rw [e1, e2]; exact hi.dead k
  · intro hT k; rw [e1, e2]; exact hi.link hT k

theorem SInv.same {st st' : St} (hi : SInv T st) (h1 : st'.ars = st.ars) (h2 : st'.sess = st.sess)
    (h3 : st'.log = st.log) : SInv T st' := by
  refine ⟨?_, ?_, ?_, ?_, ?_, ?_⟩
  · rw [h2]; exact hi.sfree
  · rw [h1, h2]; exact hi.sar
  · rw [h2]; exact hi.fme
  · rw [h1]; exact hi.dead
  · rw [h1, h2]; exact hi.link
  · rw [h2, h3]; exact hi.dc

theorem SInv.useSess {st : St} (s : Nat) (hi : SInv T st) : SInv T (useSess st s) := by
  unfold Startup.useSess
  split
  · exact hi
  rename_i hu
  have hu' : (st.sess s).inUse = false := by simpa using hu
  have hf := hi.sfree s hu'
  refine ⟨?_, ?_, ?_, ?_, ?_, ?_⟩
  · intro t ht
    by_cases h : t = s
    · simp [h] at ht
    · simp [h] at ht ⊢; exact hi.sfree t ht
  · intro t k hk
    by_cases h : t = s
    · simp [h] at hk
    · simp [h] at hk ⊢; exact hi.sar t k hk
  · intro t ht
    by_cases h : t = s
    · simp [h] at ht
    · simp [h] at ht ⊢; exact hi.fme t ht
  · exact hi.dead
  · intro hT k hk
    obtain ⟨t, a1, a2, a3, a4⟩ := hi.link hT k hk
    have h : t ≠ s := by rintro rfl; rw [hu'] at a2; cases a2
    exact ⟨t, a1, by simpa [h] using a2, by simpa [h] using a3, by simpa [h] using a4⟩
  · intro t ht
    by_cases h : t = s
    · subst h; simp [lastDc_cons, dcNext, DcOk]
    · have h' : ¬ s = t := fun x => h x.symm
      simp [h, h', lastDc_cons, dcNext] at ht ⊢; exact hi.dc t ht

theorem SInv.sessRelease {st : St} (s : Nat) (hi : SInv T st)
    (h : T → (st.sess s).ar = none ∨ (st.sess s).fromMe = true) : SInv T (sessRelease st s) := by
  unfold Startup.sessRelease
  split
  · refine ⟨?_, ?_, ?_, ?_, ?_, ?_⟩
    · intro t ht
      by_cases h : t = s
      · simp [h, Sess.zero]
      · simp [h] at ht ⊢; exact hi.sfree t ht
    · intro t k hk
      by_cases h : t = s
      · simp [h, Sess.zero] at hk
      · simp [h] at hk ⊢; exact hi.sar t k hk
    · intro t ht
      by_cases h : t = s
      · simp [h, Sess.zero] at ht
      · simp [h] at ht ⊢; exact hi.fme t ht
    · exact hi.dead
    · intro hT k hk
      obtain ⟨t, a1, a2, a3, a4⟩ := hi.link hT k hk
      have h : t ≠ s := by
        rintro rfl
        rcases h hT with h | h
        · rw [h] at a3; cases a3
        · rw [h] at a4; cases a4
      exact ⟨t, a1, by simpa [h] using a2, by simpa [h] using a3, by simpa [h] using a4⟩
    · intro t ht
      by_cases h : t = s
      · simp [h, Sess.zero] at ht
      · simp [h] at ht ⊢; exact hi.dc t ht
  · exact hi

theorem SInv.stateInd {st : St} (i : Nat) (e : Event) (hi : SInv T st) : SInv T (stateInd st i e) := by
  by_cases he : e = .abort
  · subst he
    have hs : ∀ s, (Startup.stateInd st i .abort).sess s =
        if released st i s = true then Sess.zero else st.sess s := by
      intro s; rw [stateInd_sess]; simp
    have ha : ∀ k, (Startup.stateInd st i .abort).ars k = if k = i then Ar.zero else st.ars k := by
      intro k; rw [stateInd_ars]; simp
    refine ⟨?_, ?_, ?_, ?_, ?_, ?_⟩
    · intro s hu
      rw [hs] at hu ⊢
      by_cases h : released st i s = true
      · simp [h, Sess.zero]
      · simp only [h] at hu ⊢; exact hi.sfree s hu
    · intro s k hk
      rw [hs] at hk ⊢
      by_cases h : released st i s = true
      · simp [h, Sess.zero] at hk
      · rw [if_neg h] at hk ⊢
        obtain ⟨b1, b2⟩ := hi.sar s k hk
        have hki : k ≠ i := by
          rintro rfl
          apply h
          have hin : (st.sess s).inUse = true := by
            cases hc : (st.sess s).inUse
            · rw [(hi.sfree s hc).1] at hk; cases hk
            · rfl
          unfold released
          rcases b2 with b2 | b2
          · simp [hin, b2]
          · simp [hin, b2, hk]
        rw [ha, if_neg hki]
        exact ⟨b1, b2⟩
    · intro s hf
      rw [hs] at hf ⊢
      by_cases h : released st i s = true
      · simp [h, Sess.zero] at hf
      · rw [if_neg h] at hf ⊢; exact hi.fme s hf
    · intro k hk
      rw [ha] at hk ⊢
      by_cases h : k = i
      · simp [h, Ar.zero]
      · rw [if_neg h] at hk ⊢; exact hi.dead k hk
    · intro hT k hk
      rw [ha] at hk
      by_cases h : k = i
      · simp [h, Ar.zero] at hk
      rw [if_neg h] at hk
      obtain ⟨t, a1, a2, a3, a4⟩ := hi.link hT k hk
      have hr : ¬ released st i t = true := by
        unfold released
        have h3 : (st.ars i).sess ≠ some t := by
          intro hst
          have hin : (st.ars i).inUse = true := by
            cases hc : (st.ars i).inUse
            · rw [hi.dead i hc] at hst; cases hst
            · rfl
          obtain ⟨t', c1, _, c3, _⟩ := hi.link hT i hin
          have : t' = t := Option.some.inj (c1.symm.trans hst)
          subst this
          rw [a3] at c3
          exact h (Option.some.inj c3)
        simp [h3, a4]
      refine ⟨t, ?_, ?_, ?_, ?_⟩
      · rw [ha, if_neg h]; exact a1
      · rw [hs, if_neg hr]; exact a2
      · rw [hs, if_neg hr]; exact a3
      · rw [hs, if_neg hr]; exact a4
    · intro s hu
      rw [hs] at hu ⊢
      by_cases h : released st i s = true
      · simp [h, Sess.zero] at hu
      · rw [if_neg h] at hu ⊢
        rw [stateInd_log, lastDc_cons, dcNext_of_not (by trivial)]
        exact hi.dc s hu
  · have h0 : Startup.stateInd st i e = (st.note (.event i e st.now)).setAr i
        (arInd st.now (st.ars i) e) := by
      unfold Startup.stateInd; simp [he]
    rw [h0]
    exact (hi.note (by trivial)).setAr (by simp) (by simp)

theorem SInv.setState {st : St} (i : Nat) (v : Cmdev) (hi : SInv T st) : SInv T (setState st i v) := by
  by_cases h : v = .abort
  · rw [h, setState_abort_eq]; exact hi.stateInd i _
  · rw [setState_of_ne _ _ _ h]; exact hi.setAr rfl rfl

/-- A DControl request is answered and its result is stored. -/
theorem SInv.answer {st : St} (s q r : Nat) (hi : SInv T st) :
    SInv T ((st.setSess s { st.sess s with dcSeq := q, dcRes := r }).note (.dcAnswer s q r true)) := by
  refine ⟨?_, ?_, ?_, hi.dead, ?_, ?_⟩
  · intro t ht
    by_cases h : t = s
    · subst h; simp at ht ⊢; exact hi.sfree t ht
    · simp [h] at ht ⊢; exact hi.sfree t ht
  · intro t k hk
    by_cases h : t = s
    · subst h; simp at hk ⊢; exact hi.sar t k hk
    · simp [h] at hk ⊢; exact hi.sar t k hk
  · intro t ht
    by_cases h : t = s
    · subst h; simp at ht ⊢; exact hi.fme t ht
    · simp [h] at ht ⊢; exact hi.fme t ht
  · intro hT k hk
    obtain ⟨t, a1, a2, a3, a4⟩ := hi.link hT k hk
    refine ⟨t, a1, ?_, ?_, ?_⟩ <;> by_cases h : t = s
    · subst h; simpa using a2
    · simpa [h] using a2
    · subst h; simpa using a3
    · simpa [h] using a3
    · subst h; simpa using a4
    · simpa [h] using a4
  · intro t ht
    by_cases h : t = s
    · subst h; simp [lastDc_cons, dcNext, DcOk]
    · have h' : ¬ s = t := fun x => h x.symm
      simp [h, h', lastDc_cons, dcNext] at ht ⊢; exact hi.dc t ht

/-- A repeated DControl request is answered with the stored result. -/
theorem SInv.again {st : St} (s : Nat) (hi : SInv T st) :
    SInv T (st.note (.dcAnswer s (st.sess s).dcSeq (st.sess s).dcRes true)) := by
  refine ⟨hi.sfree, hi.sar, hi.fme, hi.dead, hi.link, ?_⟩
  intro t ht
  by_cases h : t = s
  · subst h; simp [lastDc_cons, dcNext, DcOk]
  · have h' : ¬ s = t := fun x => h x.symm
    simp [h, h', lastDc_cons, dcNext] at ht ⊢; exact hi.dc t ht

/-- An answer on a session that is released at once. -/
theorem SInv.answerKill {st : St} (s q r : Nat) (hi : SInv T st) (hu : (st.sess s).inUse = true)
    (h : T → (st.sess s).ar = none ∨ (st.sess s).fromMe = true) :
    SInv T (Startup.sessRelease (st.note (.dcAnswer s q r true)) s) := by
  have h1 := hi.sessRelease s h
  have e1 : ∀ t, (Startup.sessRelease (st.note (.dcAnswer s q r true)) s).sess t =
      (Startup.sessRelease st s).sess t := by
    intro t; rw [sessRelease_sess, sessRelease_sess]; simp only [note_sess]; rfl
  refine ⟨?_, ?_, ?_, ?_, ?_, ?_⟩
  · intro t; rw [e1]; exact h1.sfree t
  · intro t k; rw [e1]; simpa using h1.sar t k
  · intro t; rw [e1]; exact h1.fme t
  · simpa using h1.dead
  · intro hT k hk
    obtain ⟨t, a1, a2, a3, a4⟩ := h1.link hT k (by simpa using hk)
    exact ⟨t, by simpa using a1, by rw [e1]; exact a2, by rw [e1]; exact a3, by rw [e1]; exact a4⟩
  · intro t ht
    rw [e1] at ht ⊢
    by_cases hts : t = s
    · subst hts; rw [sessRelease_sess] at ht; simp [hu, Sess.zero] at ht
    · have h' : ¬ s = t := fun x => hts x.symm
      have := h1.dc t ht
      simpa [lastDc_cons, dcNext, h'] using this

/-- The new AR and its session refer to each other (src/device/pf_cmrpc.c:2046-2048). -/
theorem SInv.setup {st : St} (i s : Nat) (a : Ar) (hi : SInv T st) (hu : (st.sess s).inUse = true)
    (hn : T → (st.sess s).ar = none) (hfree : (st.ars i).inUse = false)
    (ha : a.inUse = true) (hs : a.sess = some s) :
    SInv T ((st.setAr i a).setSess s { st.sess s with ar := some i }) ∧
      ∀ t, (((st.setAr i a).setSess s { st.sess s with ar := some i }).sess t).ar = some i → t = s := by
  have hnot : ∀ t, (st.sess t).ar ≠ some i := by
    intro t ht
    rw [(hi.sar t i ht).1] at hfree; cases hfree
  refine ⟨⟨?_, ?_, ?_, ?_, ?_, ?_⟩, ?_⟩
  · intro t ht
    by_cases h : t = s
    · subst h; simp [hu] at ht
    · simp [h] at ht ⊢; exact hi.sfree t ht
  · intro t k hk
    by_cases h : t = s
    · subst h; simp at hk ⊢; subst hk; simp [ha, hs]
    · simp [h] at hk ⊢
      have hki : k ≠ i := by rintro rfl; exact hnot t hk
      simp [hki]; exact hi.sar t k hk
  · intro t ht
    by_cases h : t = s
    · simp [h]
    · simp [h] at ht ⊢; exact hi.fme t ht
  · intro k hk
    by_cases h : k = i
    · simp [h, ha] at hk
    · simp [h] at hk ⊢; exact hi.dead k hk
  · intro hT k hk
    by_cases h : k = i
    · refine ⟨s, by simp [h, hs], by simp [hu], by simp [h], ?_⟩
      simp
      cases hf : (st.sess s).fromMe
      · rfl
      · exact absurd (hn hT) (hi.fme s hf)
    · simp [h] at hk
      obtain ⟨t, a1, a2, a3, a4⟩ := hi.link hT k hk
      have hts : t ≠ s := by rintro rfl; rw [hn hT] at a3; cases a3
      exact ⟨t, by simpa [h] using a1, by simpa [hts] using a2, by simpa [hts] using a3,
        by simpa [hts] using a4⟩
  · intro t ht
    by_cases h : t = s
    · subst h; simp at ht ⊢; exact hi.dc t ht
    · simp [h] at ht ⊢; exact hi.dc t ht
  · intro t ht
    by_cases h : t = s
    · exact h
    · simp [h] at ht; exact absurd ht (hnot t)

theorem SInv.refuse {st : St} (i s : Nat) (hi : SInv T st) (hu : (st.sess s).inUse = true)
    (hs : (st.ars i).sess = some s) (hin : (st.ars i).inUse = true) (hsi : (st.sess s).ar = some i)
    (h1 : ∀ t, (st.sess t).ar = some i → t = s) : SInv T (refuse st i s) := by
  have e1 : ∀ t, (Startup.refuse st i s).sess t = if t = s then Sess.zero else st.sess t := by
    intro t
    unfold Startup.refuse
    dsimp only
    rw [sessRelease_sess]
    by_cases h : t = s
    · simp [h, hu]
    · simp [h]
  have e2 : ∀ k, (Startup.refuse st i s).ars k = if k = i then Ar.zero else st.ars k := by
    intro k; unfold Startup.refuse; simp
  have e3 : (Startup.refuse st i s).log = st.log := by unfold Startup.refuse; simp
  refine ⟨?_, ?_, ?_, ?_, ?_, ?_⟩
  · intro t ht
    rw [e1] at ht ⊢
    by_cases h : t = s
    · simp [h, Sess.zero]
    · simp [h] at ht ⊢; exact hi.sfree t ht
  · intro t k hk
    rw [e1] at hk ⊢
    by_cases h : t = s
    · simp [h, Sess.zero] at hk
    · simp [h] at hk ⊢
      have hki : k ≠ i := by rintro rfl; exact h (h1 t hk)
      rw [e2]; simp [hki]; exact hi.sar t k hk
  · intro t ht
    rw [e1] at ht ⊢
    by_cases h : t = s
    · simp [h, Sess.zero] at ht
    · simp [h] at ht ⊢; exact hi.fme t ht
  · intro k hk
    rw [e2] at hk ⊢
    by_cases h : k = i
    · simp [h, Ar.zero]
    · simp [h] at hk ⊢; exact hi.dead k hk
  · intro hT k hk
    rw [e2] at hk
    by_cases h : k = i
    · simp [h, Ar.zero] at hk
    · simp [h] at hk
      obtain ⟨t, a1, a2, a3, a4⟩ := hi.link hT k hk
      have hts : t ≠ s := by
        rintro rfl; rw [hsi] at a3; exact h (Option.some.inj a3).symm
      refine ⟨t, ?_, ?_, ?_, ?_⟩
      · rw [e2]; simpa [h] using a1
      · rw [e1]; simpa [hts] using a2
      · rw [e1]; simpa [hts] using a3
      · rw [e1]; simpa [hts] using a4
  · intro t ht
    rw [e1] at ht ⊢
    rw [e3]
    by_cases h : t = s
    · simp [h, Sess.zero] at ht
    · simp [h] at ht ⊢; exact hi.dc t ht

/-! ## One connection -/

def Live (a : Ar) (w : Weak) : Prop :=
  match a.cmdev with
  | .wCind => w = .idle ∧ a.cmsm = .idle
  | .wPeind => a.access = false ∧ (w = .up ∨ w = .called ∨ w = .answered) ∧ a.cmsm = .run
  | .wArdy => a.access = false ∧ (w = .up ∨ w = .called ∨ w = .answered) ∧ a.cmsm = .run
  | .wArdycnf => a.access = false ∧ (w = .called ∨ w = .answered) ∧ a.cmsm = .run
  | .wdata => a.access = false ∧ w = .answered ∧ a.cmsm = .run
  | .data =>
    (a.access = true ∧ (w = .up ∨ w = .called ∨ w = .answered) ∧ a.cmsm = .run) ∨
    (a.access = false ∧ w = .data ∧ a.cmsm = .idle)
  | _ => False

def SupOk (a : Ar) : Option (Nat × Nat) → Prop
  | none => a.cmsm = .idle ∧ a.deadline = none
  | some (t, f) => a.cmsm = .run ∧ a.factor = f ∧ a.deadline = some (t + superviseUs f)

def FullLive (a : Ar) (p : Phase) : Prop :=
  match a.cmdev with
  | .wPeind => p = .started ∧ a.cmwrr = .startup
  | .wArdy => (p = .prmended ∨ p = .called) ∧ a.cmwrr = .prmend
  | .wArdycnf => p = .ready ∧ a.cmwrr = .data
  | .wdata => p = .confirmed ∧ a.cmwrr = .data
  | .data =>
    (a.access = true ∧ p = .started ∧ a.cmwrr = .startup) ∨
    (a.access = false ∧ p = .data ∧ a.cmwrr = .data)
  | _ => False

structure Loc (T : Prop) (a : Ar) (w : Weak) (p : Phase) (sv : Option (Nat × Nat)) : Prop where
  zero : a.inUse = false → a = Ar.zero ∧ w = .idle
  live : a.inUse = true → Live a w
  sup : SupOk a sv
  pbe : (a.cmpbe = .idle ∨ a.cmpbe = .wfind ∨ a.cmpbe = .wfrsp) ∧ a.stored = 0
  fzero : T → a.inUse = false → p = .idle
  flive : T → a.inUse = true → FullLive a p

def LInv (T : Prop) (st : St) : Prop :=
  ∀ i, Loc T (st.ars i) (weak i st.log) (phase i st.log) (supervised i st.log)

theorem LInv.only {st st' : St} (i : Nat) (hi : LInv T st) (ho : Only i st st')
    (h : Loc T (st'.ars i) (weak i st'.log) (phase i st'.log) (supervised i st'.log)) :
    LInv T st' := by
  intro k
  by_cases hk : k = i
  · subst hk; exact h
  · obtain ⟨a, b, c, d⟩ := ho k hk
    rw [a, b, c, d]; exact hi k

theorem LInv.same {st st' : St} (hi : LInv T st) (h1 : st'.ars = st.ars) (h3 : st'.log = st.log) :
    LInv T st' := by
  intro k; rw [h1, h3]; exact hi k

theorem LInv.note {st : St} {e : Entry} (hi : LInv T st) (h : ∀ k, ¬ About k e) :
    LInv T (st.note e) := by
  intro k
  simp only [note_ars, note_log, weak_other (h k), phase_other (h k), supervised_other (h k)]
  exact hi k

theorem LInv.useSess {st : St} (s : Nat) (hi : LInv T st) : LInv T (useSess st s) := by
  unfold Startup.useSess
  split
  · exact hi
  · exact LInv.note (hi.same (st' := st.setSess s _) rfl rfl) (fun k => by simp [About])

theorem LInv.sessRelease {st : St} (s : Nat) (hi : LInv T st) : LInv T (sessRelease st s) :=
  hi.same (by simp) (by simp)

theorem Loc.zeroed : Loc T Ar.zero .idle .idle none :=
  ⟨fun _ => ⟨rfl, rfl⟩, fun h => by simp [Ar.zero] at h, ⟨rfl, rfl⟩, ⟨.inl rfl, rfl⟩, fun _ _ => rfl,
    fun _ h => by simp [Ar.zero] at h⟩

theorem LInv.abort {st : St} (i : Nat) (hi : LInv T st) (hin : (st.ars i).inUse = true) :
    LInv T (stateInd st i .abort) := by
  apply hi.only i Only.stateInd
  have h := hi i
  rw [stateInd_ars, stateInd_log, weak_cons, phase_cons, sup_cons]
  have e2 : supNext i (factorOf i st.log) (supervised i st.log) (.event i .abort st.now) = none := by
    simp [supNext]
  rw [e2, if_pos rfl]
  have hw : weak i st.log ≠ .bad := by
    have := h.live hin
    unfold Live at this
    intro hb
    rw [hb] at this
    split at this <;> simp at this
  have e1 : weakNext i (weak i st.log) (.event i .abort st.now) = .idle := by
    cases hc : weak i st.log <;> simp_all [weakNext]
  rw [e1]
  refine ⟨fun _ => ⟨rfl, rfl⟩, fun h => by simp [Ar.zero] at h, ⟨rfl, rfl⟩, ⟨.inl rfl, rfl⟩, ?_,
    fun _ h => by simp [Ar.zero] at h⟩
  intro hT _
  have hf := h.flive hT hin
  unfold FullLive at hf
  cases hc : phase i st.log <;> rw [hc] at hf <;>
    first | (simp [phaseNext]; done) | (split at hf <;> simp at hf)

theorem Loc.ofSame {a a' : Ar} {w : Weak} {p : Phase} {sv : Option (Nat × Nat)} (h : Loc T a w p sv)
    (hin : a'.inUse = a.inUse) (hz : a.inUse = false → a' = a) (h1 : a'.cmdev = a.cmdev)
    (h2 : a'.access = a.access) (h3 : a'.cmsm = a.cmsm) (h4 : a'.cmwrr = a.cmwrr)
    (h5 : a'.factor = a.factor) (h6 : a'.deadline = a.deadline)
    (h7 : a'.cmpbe = a.cmpbe ∨ a'.cmpbe = .wfrsp) (h8 : a'.stored = a.stored) :
    Loc T a' w p sv := by
  refine ⟨?_, ?_, ?_, ?_, ?_, ?_⟩
  · intro hu; rw [hin] at hu; rw [hz hu]; exact h.zero hu
  · intro hu; rw [hin] at hu; unfold Live; rw [h1, h2, h3]; exact h.live hu
  · have := h.sup
    unfold SupOk at *
    cases sv with
    | none => simpa [h3, h6] using this
    | some x => simpa [h3, h5, h6] using this
  · refine ⟨?_, by rw [h8]; exact h.pbe.2⟩
    rcases h7 with h7 | h7
    · rw [h7]; exact h.pbe.1
    · exact .inr (.inr h7)
  · intro hT hu; rw [hin] at hu; exact h.fzero hT hu
  · intro hT hu; rw [hin] at hu; unfold FullLive; rw [h1, h2, h4]; exact h.flive hT hu

end Verif.Startup
