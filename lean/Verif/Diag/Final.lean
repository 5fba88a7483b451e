import Verif.Diag.Props

/-!
The diagnosis store as a map, the leak of pulled submodules, the problem indicator and the summary flags.
-/
set_option linter.unusedVariables false
set_option linter.unusedSimpArgs false

namespace Verif.Diag

/-- The submodule a step works on. -/
def Op.place : Op → Place
  | .add a _ => a.place
  | .update a _ => a.place
  | .remove a _ => a.place
  | .plug p _ => p
  | .pull p => p
  | .own p _ => p

/-- Every step succeeds, does what the specification says, and keeps the invariant. -/
theorem step_inv {T : Prop} {maxData : Nat} {st : St} {F L} (h : DInv T st F L) (o : Op)
    (ht : T → o.TypeGiven) :
    ∃ st' b F' L', step maxData st o = some (st', b) ∧ DInv T st' F' L' ∧
      (T → view st' = (view st).step maxData o) ∧ st'.items.length = st.items.length ∧
      (o.NoPull → Cover st F L → Cover st' F' L') := by
  cases o with
  | add a al =>
    obtain ⟨st', b, F', L', h1, h2, h3, h4, h5, _⟩ := add_step (maxData := maxData) h a al ht
    exact ⟨st', b, F', L', h1, h2, h3, h4, fun _ => h5⟩
  | update a al =>
    obtain ⟨st', b, F', L', h1, h2, h3, h4, h5, _⟩ := update_step (maxData := maxData) h a al
    exact ⟨st', b, F', L', h1, h2, h3, h4, fun _ => h5⟩
  | remove a al =>
    obtain ⟨st', b, F', L', h1, h2, h3, h4, h5, _⟩ := remove_step (maxData := maxData) h a al
    exact ⟨st', b, F', L', h1, h2, h3, h4, fun _ => h5⟩
  | plug p o =>
    unfold step; dsimp only
    cases hs : st.subs p with
    | some s =>
      refine ⟨st, false, F, L, rfl, h, fun _ => ?_, rfl, fun _ => id⟩
      unfold Spec.step; dsimp only
      apply spec_ext
      · funext q
        dsimp only
        by_cases hq : q = p
        · subst hq; simp [view, hs]
        · simp [hq]
      · rfl
      · rfl
    | none =>
      have hLp := h.lists.empty p hs
      have hl : Lists (setSub st p ⟨nul, o, ⟨false, false, false⟩⟩) F L := by
        refine ⟨h.lists.len, h.lists.chainF, fun q s hq => ?_, fun q hq => ?_, h.lists.ndF, h.lists.nd,
          h.lists.disjF, h.lists.disj⟩
        · by_cases hqp : q = p
          · subst hqp
            rw [setSub_self] at hq
            cases hq
            rw [hLp]
            exact rfl
          · rw [setSub_ne _ _ hqp] at hq
            exact h.lists.chain q s hq
        · by_cases hqp : q = p
          · subst hqp; rw [setSub_self] at hq; cases hq
          · rw [setSub_ne _ _ hqp] at hq; exact h.lists.empty q hq
      have hd : DInv T (setSub st p ⟨nul, o, ⟨false, false, false⟩⟩) F L := by
        refine ⟨hl, h.used, h.keys, fun q s hq => ?_⟩
        by_cases hqp : q = p
        · subst hqp
          rw [setSub_self] at hq
          cases hq
          rw [hLp]
          simp [SumOk, ents]
        · rw [setSub_ne _ _ hqp] at hq
          exact h.sums q s hq
      refine ⟨_, true, F, L, rfl, hd, fun _ => ?_, rfl, fun _ => id⟩
      unfold Spec.step; dsimp only
      rw [view_eq hl, view_eq h.lists]
      apply spec_ext
      · funext q
        dsimp only
        by_cases hq : q = p
        · subst hq; simp [setSub_self]
        · simp [hq, setSub_ne]
      · rfl
      · rfl
  | pull p =>
    unfold step
    have hmem : ∀ q i, i ∈ updL L p [] q → i ∈ L q := by
      intro q i hi
      by_cases hq : q = p
      · simp [updL, hq] at hi
      · simpa [updL, hq] using hi
    have hl : Lists { st with subs := fun q => if q = p then none else st.subs q } F (updL L p []) := by
      refine ⟨h.lists.len, h.lists.chainF, fun q s hq => ?_, fun q hq => ?_, h.lists.ndF, fun q => ?_,
          fun q i hi hi' => h.lists.disjF q i hi (hmem q i hi'),
          fun q r i hqr hi hi' => h.lists.disj q r i hqr (hmem q i hi) (hmem r i hi')⟩
      · by_cases hqp : q = p
        · simp [hqp] at hq
        · simp only [hqp, if_false] at hq
          simp only [updL, hqp, if_false]
          exact h.lists.chain q s hq
      · by_cases hqp : q = p
        · simp [updL, hqp]
        · simp only [hqp, if_false] at hq
          simp only [updL, hqp, if_false]
          exact h.lists.empty q hq
      · by_cases hqp : q = p
        · simp [updL, hqp]
        · simp only [updL, hqp, if_false]
          exact h.lists.nd q
    have hents : ∀ q, ents { st with subs := fun q => if q = p then none else st.subs q } (updL L p [] q) =
        if q = p then [] else ents st (L q) := by
      intro q
      by_cases hq : q = p
      · simp [updL, hq, ents]
      · simp only [updL, hq, if_false]
        rfl
    have hd : DInv T { st with subs := fun q => if q = p then none else st.subs q } F (updL L p []) := by
      refine ⟨hl, fun q i hi => h.used q i (hmem q i hi), fun hT q => ?_, fun q s hq => ?_⟩
      · rw [hents q]
        by_cases hqp : q = p
        · simp [hqp]
        · rw [if_neg hqp]; exact h.keys hT q
      · rw [hents q]
        by_cases hqp : q = p
        · simp [hqp] at hq
        · simp only [hqp, if_false] at hq ⊢
          exact h.sums q s hq
    refine ⟨_, true, F, _, rfl, hd, fun _ => ?_, rfl, fun hn => hn.elim⟩
    unfold Spec.step; dsimp only
    rw [view_eq hl, view_eq h.lists]
    apply spec_ext
    · funext q
      dsimp only
      by_cases hq : q = p
      · simp [hq]
      · simp [hq]
    · funext q k
      dsimp only
      rw [hents q]
      by_cases hq : q = p
      · simp [hq, look]
      · simp [hq]
    · rfl
  | own p o =>
    unfold step; dsimp only
    cases hs : st.subs p with
    | none => exact ⟨st, false, F, L, rfl, h, fun _ => rfl, rfl, fun _ => id⟩
    | some s =>
      have hl : Lists (setSub st p { s with owner := o }) F L := by
        refine h.lists.congr rfl (fun _ => rfl) rfl (fun q => ?_)
        by_cases hq : q = p
        · subst hq; rw [setSub_self, hs]; rfl
        · rw [setSub_ne _ _ hq]
      have hd : DInv T (setSub st p { s with owner := o }) F L := by
        refine ⟨hl, h.used, h.keys, fun q s' hq => ?_⟩
        by_cases hqp : q = p
        · subst hqp
          rw [setSub_self] at hq
          cases hq
          exact h.sums q s hs
        · rw [setSub_ne _ _ hqp] at hq
          exact h.sums q s' hq
      refine ⟨_, true, F, L, rfl, hd, fun _ => ?_, rfl, fun _ => id⟩
      unfold Spec.step; dsimp only
      rw [view_eq hl, view_eq h.lists]
      apply spec_ext
      · funext q
        dsimp only
        by_cases hq : q = p
        · subst hq; simp [setSub_self, hs]
        · simp [setSub_ne, hq]
      · rfl
      · rfl

theorem exec_inv {T : Prop} {maxData : Nat} (ops : List Op) : ∀ {st : St} {F L}, DInv T st F L →
    (T → ∀ o ∈ ops, o.TypeGiven) →
    ∃ st' F' L', exec maxData st ops = some st' ∧ DInv T st' F' L' ∧
      (T → view st' = Spec.exec maxData (view st) ops) ∧ st'.items.length = st.items.length ∧
      ((∀ o ∈ ops, o.NoPull) → Cover st F L → Cover st' F' L') := by
  induction ops with
  | nil => intro st F L h _; exact ⟨st, F, L, rfl, h, fun _ => rfl, rfl, fun _ => id⟩
  | cons o os ih =>
    intro st F L h ht
    obtain ⟨st1, b, F1, L1, h1, h2, h3, h4, h5⟩ := step_inv (maxData := maxData) h o (fun hT => ht hT o (by simp))
    obtain ⟨st2, F2, L2, g1, g2, g3, g4, g5⟩ := ih h2 (fun hT o' ho => ht hT o' (by simp [ho]))
    refine ⟨st2, F2, L2, ?_, g2, ?_, by rw [g4, h4], fun hn hc => ?_⟩
    · simp only [exec, h1, Option.bind_some, g1]
    · intro hT; rw [g3 hT, h3 hT]; rfl
    · exact g5 (fun o' ho => hn o' (by simp [ho])) (h5 (hn o (by simp)) hc)

theorem dinv_init (T : Prop) (n : Nat) (hn : n ≤ nul) : DInv T (init n) (List.range n) (fun _ => []) :=
  ⟨lists_init n hn, by simp, by simp [ents], fun p s hp => by simp [init] at hp⟩

theorem view_init (n : Nat) (hn : n ≤ nul) : view (init n) = Spec.init n := by
  rw [view_eq (lists_init n hn)]
  apply spec_ext
  · rfl
  · rfl
  · simp [Spec.init]

theorem run_inv (T : Prop) {maxData n : Nat} (hn : n ≤ nul) {ops : List Op}
    (ht : T → ∀ o ∈ ops, o.TypeGiven) :
    ∃ st F L, exec maxData (init n) ops = some st ∧ DInv T st F L ∧
      (T → view st = Spec.exec maxData (Spec.init n) ops) ∧ st.items.length = n ∧
      ((∀ o ∈ ops, o.NoPull) → Cover st F L) := by
  obtain ⟨st, F, L, h1, h2, h3, h4, h5⟩ := exec_inv (maxData := maxData) ops (dinv_init T n hn) ht
  refine ⟨st, F, L, h1, h2, fun hT => by rw [h3 hT, view_init n hn], by rw [h4]; simp [init], fun hnp => h5 hnp ?_⟩
  intro i hi
  left
  simpa [init] using hi

/-! ## C21 -/

/--
**C21** (integrity of the lists).  For any capacity (at most 65535 items) and every history, also with
error type 0: the lists can always be followed (no undefined access, no endless list), no item is in two
lists or twice in a list, no listed item is free, and, unless something was pulled, no item is lost.
-/
theorem C21_lists_never_corrupt (maxData n : Nat) (hn : n ≤ 65535) (ops : List Op) :
    ∃ st, exec maxData (init n) ops = some st ∧
      (∀ p s, st.subs p = some s → st.walk s.head = some (indices st p)) ∧
      st.walk st.free = some (freeIndices st) ∧
      (∀ p, (indices st p).Nodup) ∧ (freeIndices st).Nodup ∧
      (∀ p i, i ∈ indices st p → i < n ∧ i ∉ freeIndices st ∧ ∀ q, q ≠ p → i ∉ indices st q) ∧
      ((∀ o ∈ ops, o.NoPull) → ∀ i < n, i ∈ freeIndices st ∨ ∃ p, i ∈ indices st p) := by
  obtain ⟨st, F, L, h1, h2, _, h4, h5⟩ := run_inv False (maxData := maxData) (ops := ops) hn (fun h => h.elim)
  refine ⟨st, h1, ?_, ?_, ?_, ?_, ?_, ?_⟩
  · intro p s hs
    rw [indices_eq h2.lists]
    exact h2.lists.walk hs
  · rw [freeIndices_eq h2.lists]
    exact h2.lists.walkF
  · intro p; rw [indices_eq h2.lists]; exact h2.lists.nd p
  · rw [freeIndices_eq h2.lists]; exact h2.lists.ndF
  · intro p i hi
    rw [indices_eq h2.lists] at hi
    rw [freeIndices_eq h2.lists]
    refine ⟨h4 ▸ h2.lists.mem_lt hi, fun hF => h2.lists.disjF p i hF hi, fun q hq => ?_⟩
    rw [indices_eq h2.lists]
    exact h2.lists.disj p q i (Ne.symm hq) hi
  · intro hnp i hi
    rw [freeIndices_eq h2.lists]
    simp only [indices_eq h2.lists]
    exact h5 hnp i (h4 ▸ hi)

/--
**C21** (partial).  For any capacity (at most 65535 items) and any history of add, update and remove
calls on any submodules, plugging, pulling and changes of ownership, in which no standard diagnosis is
added with the reserved error type 0: the lists can always be followed, the diagnoses found at each
submodule are exactly those of the specification (a map from key to diagnosis), there is one entry per
key, and, unless something was pulled, each item is either free or in exactly one list.

Missing: error type 0 (`C21_error_type_zero_breaks`), the reported result
(`C21_add_reports_failure_although_stored`), and pulling (`C22_pull_leaks`).
-/
theorem C21_diagnosis_store_partial (maxData n : Nat) (hn : n ≤ 65535) (ops : List Op)
    (ht : ∀ o ∈ ops, o.TypeGiven) :
    ∃ st, exec maxData (init n) ops = some st ∧
      view st = Spec.exec maxData (Spec.init n) ops ∧
      (∀ p, ((listing st p).map keyOf).Nodup) ∧
      ((∀ o ∈ ops, o.NoPull) → ∀ i < n,
        (i ∈ freeIndices st ∧ ∀ p, i ∉ indices st p) ∨
        (i ∉ freeIndices st ∧ ∃ p, i ∈ indices st p ∧ (indices st p).Nodup ∧
          ∀ q, q ≠ p → i ∉ indices st q)) := by
  obtain ⟨st, F, L, h1, h2, h3, h4, h5⟩ := run_inv True (maxData := maxData) hn (fun _ => ht)
  refine ⟨st, h1, h3 trivial, fun p => by rw [listing_eq h2.lists]; exact h2.keys trivial p, fun hnp i hi => ?_⟩
  rw [freeIndices_eq h2.lists]
  simp only [indices_eq h2.lists]
  by_cases hF : i ∈ F
  · exact Or.inl ⟨hF, fun p => h2.lists.disjF p i hF⟩
  · right
    rcases h5 hnp i (h4 ▸ hi) with h | ⟨p, hp⟩
    · exact absurd h hF
    · exact ⟨hF, p, hp, h2.lists.nd p, fun q hq => h2.lists.disj p q i (Ne.symm hq) hp⟩

/-- A standard diagnosis on channel 1. -/
def exStd (p : Place) (err maint qual usi : Nat) : Args :=
  ⟨p, ⟨1, false, 0, err, 0⟩, 0, maint, 0, qual, usi, 0, none⟩

/-- A manufacturer diagnosis. -/
def exManuf (p : Place) (usi : Nat) (d : List Nat) : Args :=
  ⟨p, ⟨0, false, 0, 0, 0⟩, 0, 0, 0, 0, usi, d.length, some d⟩

/-- The hypotheses are met by a history that uses every kind of call. -/
example : ∃ ops : List Op, (∀ o ∈ ops, o.TypeGiven) ∧
    ∃ st, exec 16 (init 2) ops = some st ∧
      listing st (0, 1, 1) = [(5, .manuf [7, 8])] ∧ freeIndices st = [0] := by
  refine ⟨[.plug (0, 1, 1) none, .add (exStd (0, 1, 1) 3 0 0 0x8000) true,
    .add (exManuf (0, 1, 1) 5 [1]) true, .update (exManuf (0, 1, 1) 5 [7, 8]) true,
    .remove (exStd (0, 1, 1) 3 0 0 0x8000) true], ?_, ?_⟩
  · simp [Op.TypeGiven, exStd, exManuf]
  · refine ⟨(exec 16 (init 2) _).get (by rfl), (Option.some_get _).symm, ?_, ?_⟩
    · rfl
    · rfl

/-- With error type 0 the rule "one entry per key" is broken: a manufacturer add with identifier 5, a
standard add with error type 0 on channel 0, and the manufacturer add again leave two entries for
identifier 5 and none for the standard diagnosis. -/
theorem C21_error_type_zero_breaks :
    ∃ (ops : List Op) (st : St), exec 16 (init 4) ops = some st ∧
      ¬ ((listing st (0, 1, 1)).map keyOf).Nodup ∧
      ¬ view st = Spec.exec 16 (Spec.init 4) ops := by
  refine ⟨[.plug (0, 1, 1) none, .add (exManuf (0, 1, 1) 5 [1]) true,
    .add ⟨(0, 1, 1), ⟨0, false, 0, 0, 0⟩, 0, 0, 0, 0, 0x8000, 0, none⟩ true,
    .add (exManuf (0, 1, 1) 5 [2]) true], (exec 16 (init 4) _).get (by rfl), (Option.some_get _).symm,
    by decide +kernel, ?_⟩
  intro h
  have h1 := congrArg (fun sp => sp.ent (0, 1, 1) (.std ⟨0, false, 0, 0, 0⟩)) h
  have h2 : (view ((exec 16 (init 4) [.plug (0, 1, 1) none, .add (exManuf (0, 1, 1) 5 [1]) true,
    .add ⟨(0, 1, 1), ⟨0, false, 0, 0, 0⟩, 0, 0, 0, 0, 0x8000, 0, none⟩ true,
    .add (exManuf (0, 1, 1) 5 [2]) true]).get (by rfl))).ent (0, 1, 1) (.std ⟨0, false, 0, 0, 0⟩) = none := by
    rfl
  replace h1 := h2.symm.trans h1
  simp [Spec.exec, Spec.step, Spec.init, Spec.put, exManuf, Args.key, Args.val, Args.Valid,
    Args.ValidData, Args.ValidSeverity] at h1

/-- The reported result: in every reachable state a valid add to a plugged submodule without a
connection stores the diagnosis (if there is room) and reports failure. -/
theorem C21_add_reports_failure_although_stored (maxData n : Nat) (hn : n ≤ 65535) (ops : List Op)
    (ht : ∀ o ∈ ops, o.TypeGiven) (st : St) (hst : exec maxData (init n) ops = some st) (a : Args) (al : Bool)
    (hta : 0x8000 ≤ a.usi → a.chan.err ≠ 0) (hv : a.Valid) (hd : a.ValidData maxData) (hsv : a.ValidSeverity)
    (s : Subslot) (hs : st.subs a.place = some s) (ho : s.owner = none) (hroom : freeIndices st ≠ []) :
    ∃ st', add maxData st a al = some (st', false) ∧ (view st').ent a.place a.key = some a.val := by
  obtain ⟨st0, F, L, h1, h2, _⟩ := run_inv True (maxData := maxData) hn (fun _ => ht)
  rw [hst] at h1
  cases h1
  obtain ⟨st', b, F', L', g1, g2, g3, g4, g5, g6, g7, g8⟩ := add_step (maxData := maxData) h2 a al (fun _ => hta)
  have hb : b = false := by
    have hfin : ∀ (x : St) (y : St) (c : Bool), finish x a.place al = some (y, c) →
        (x.subs a.place).map Subslot.owner = some none → c = false := by
      intro x y c hf hx
      unfold finish at hf
      cases hu : updateSummary x a.place with
      | none => rw [hu] at hf; simp at hf
      | some x1 =>
        rw [hu] at hf
        simp only [Option.bind_some] at hf
        have hx1 : (x1.subs a.place).bind Subslot.owner = none := by
          unfold updateSummary at hu
          cases hsx : x.subs a.place with
          | none => simp [hsx] at hx
          | some sx =>
            rw [hsx] at hu hx
            simp only [Option.map_some, Option.some.injEq] at hx
            cases hw : x.walk sx.head with
            | none => simp [hw] at hu
            | some w =>
              simp only [hw, Option.map_some, Option.some.injEq] at hu
              subst hu
              simp [setSub_self, hx]
        rw [hx1] at hf
        simp only [Option.some.injEq, Prod.mk.injEq] at hf
        exact hf.2.symm
    unfold add at g1
    split at g1
    · simp only [Option.some.injEq, Prod.mk.injEq] at g1; exact g1.2.symm
    · rw [hs] at g1
      simp only at g1
      rcases findEntry_inv h2 hs a hv with ⟨f1, _⟩ | ⟨l1, i, l2, u, f, st1, s1, _, _, _, f4, f5, f6, _⟩
      · rw [f1] at g1
        simp only [Option.bind_some] at g1
        rcases newDiag_spec h2.lists with ⟨_, n2⟩ | ⟨i, F1, st1, _, n2, n3, _⟩
        · rw [n2] at g1
          simp only [Option.bind_some, Option.some.injEq, Prod.mk.injEq] at g1
          exact g1.2.symm
        · rw [n2] at g1
          have : st1.subs a.place = some s := by rw [n3]; exact hs
          simp only [Option.bind_some, this] at g1
          exact hfin _ _ _ g1 (by simp [link, setSub_self, ho])
      · rw [f4] at g1
        simp only [Option.bind_some, f5] at g1
        exact hfin _ _ _ g1 (by simp [link, setSub_self, f6, ho])
  refine ⟨st', by rw [g1, hb], ?_⟩
  rw [g3 trivial]
  have hpl : (view st).plugged a.place = true := by simp [view, hs]
  have hr : (view st).room ≠ 0 := by
    simp only [view]
    intro h0
    exact hroom (List.length_eq_zero_iff.1 h0)
  unfold Spec.step
  dsimp only
  rw [if_pos ⟨hpl, hv, hd, hsv⟩]
  rw [if_neg hr]
  split
  · simp [Spec.put]
  · simp [Spec.put]

/-! ## C22 -/

/-- **C22** (first half, partial): in every reachable state, after pulling a submodule it has no
diagnoses, neither then nor after it has been plugged again, and the diagnoses of the other submodules
are as before.  Missing: the storage becomes available again; see `C22_pull_leaks`. -/
theorem C22_pull_removes_diagnoses_partial (maxData n : Nat) (hn : n ≤ 65535) (ops : List Op)
    (ht : ∀ o ∈ ops, o.TypeGiven) (p : Place) (owner : Option Nat) :
    ∃ st st1 st2, exec maxData (init n) ops = some st ∧
      exec maxData (init n) (ops ++ [.pull p]) = some st1 ∧
      exec maxData (init n) (ops ++ [.pull p, .plug p owner]) = some st2 ∧
      listing st1 p = [] ∧ listing st2 p = [] ∧
      (∀ q, q ≠ p → listing st1 q = listing st q ∧ listing st2 q = listing st q) := by
  obtain ⟨st, F, L, h1, h2, _⟩ := run_inv True (maxData := maxData) hn (fun _ => ht)
  have happ : ∀ (l : List Op) (x : St) (m : List Op), exec maxData x (l ++ m) =
      (exec maxData x l).bind fun y => exec maxData y m := by
    intro l
    induction l with
    | nil => intro x m; rfl
    | cons o os ih =>
      intro x m
      simp only [List.cons_append, exec]
      cases step maxData x o with
      | none => rfl
      | some r => simp only [Option.bind_some]; exact ih _ _
  have hpull : step maxData st (.pull p) =
      some ({ st with subs := fun q => if q = p then none else st.subs q }, true) := rfl
  have hplug : step maxData { st with subs := fun q => if q = p then none else st.subs q } (.plug p owner) =
      some (setSub { st with subs := fun q => if q = p then none else st.subs q } p
        ⟨nul, owner, ⟨false, false, false⟩⟩, true) := by
    simp [step]
  refine ⟨st, { st with subs := fun q => if q = p then none else st.subs q },
    setSub { st with subs := fun q => if q = p then none else st.subs q } p
        ⟨nul, owner, ⟨false, false, false⟩⟩, h1, ?_, ?_, ?_, ?_, ?_⟩
  · rw [happ, h1]
    simp only [Option.bind_some, exec, hpull]
  · rw [happ, h1]
    simp only [Option.bind_some, exec, hpull, hplug]
  · simp [listing]
  · simp only [listing, setSub_self]
    have hw : (setSub { st with subs := fun q => if q = p then none else st.subs q } p
        ⟨nul, owner, ⟨false, false, false⟩⟩).walk nul = some [] := by
      have hn : st.items[nul]? = none := List.getElem?_eq_none h2.lists.len
      simp [St.walk, walk, setSub, hn]
    simp [hw]
  · intro q hq
    constructor
    · simp only [listing, hq, if_false]
      rfl
    · simp only [listing, setSub_ne _ _ hq, hq, if_false]
      rfl

/-- One round: plug, one diagnosis, pull. -/
def round (p : Place) (k : Nat) : List Op := [.plug p none, .add (exStd p (k + 1) 0 0 0x8000) true, .pull p]

def rounds (p : Place) : Nat → List Op
  | 0 => []
  | k + 1 => rounds p k ++ round p k

theorem Spec.exec_append (maxData : Nat) (l m : List Op) : ∀ sp : Spec,
    Spec.exec maxData sp (l ++ m) = Spec.exec maxData (Spec.exec maxData sp l) m := by
  induction l with
  | nil => intro sp; rfl
  | cons o os ih => intro sp; exact ih _

theorem rounds_room (p : Place) (maxData n k : Nat) (hk : k ≤ n) :
    (Spec.exec maxData (Spec.init n) (rounds p k)).room = n - k ∧
    (∀ q, (Spec.exec maxData (Spec.init n) (rounds p k)).plugged q = false) ∧
    (∀ q c, (Spec.exec maxData (Spec.init n) (rounds p k)).ent q c = none) := by
  induction k with
  | zero => exact ⟨rfl, fun _ => rfl, fun _ _ => rfl⟩
  | succ k ih =>
    obtain ⟨i1, i2, i3⟩ := ih (by omega)
    rw [rounds, Spec.exec_append]
    generalize Spec.exec maxData (Spec.init n) (rounds p k) = sp at i1 i2 i3
    have hr : sp.room ≠ 0 := by omega
    refine ⟨?_, ?_, ?_⟩
    · simp [round, Spec.exec, Spec.step, exStd, Args.Valid, Args.ValidData, Args.ValidSeverity, i3, hr]
      omega
    · intro q
      simp [round, Spec.exec, Spec.step, exStd, Args.Valid, Args.ValidData, Args.ValidSeverity, i3, hr,
        Spec.put, i2]
    · intro q c
      simp [round, Spec.exec, Spec.step, exStd, Args.Valid, Args.ValidData, Args.ValidSeverity, i3, hr,
        Spec.put, i2]
      intro hq
      simp [hq]

/-- **C22** (second half, refuted): for every capacity `n`, after `n` rounds of plugging a submodule,
adding one diagnosis and pulling it, no submodule has any diagnosis, but nothing can be added any more:
a valid add to a newly plugged submodule leaves it without diagnoses. -/
theorem C22_pull_leaks (maxData n : Nat) (hn : n ≤ 65535) (p : Place) (al : Bool) :
    ∃ st st', exec maxData (init n) (rounds p n) = some st ∧
      (∀ q, listing st q = []) ∧ freeIndices st = [] ∧
      exec maxData (init n) (rounds p n ++
        [.plug p none, .add (exStd p 1 0 0 0x8000) al]) = some st' ∧ st'.subs p ≠ none ∧
      listing st' p = [] := by
  have htr : ∀ k, ∀ o ∈ rounds p k, o.TypeGiven := by
    intro k
    induction k with
    | zero => simp [rounds]
    | succ k ih =>
      intro o ho
      rw [rounds, List.mem_append] at ho
      rcases ho with ho | ho
      · exact ih o ho
      · simp only [round, List.mem_cons, List.not_mem_nil, or_false] at ho
        rcases ho with rfl | rfl | rfl <;> simp [Op.TypeGiven, exStd]
  obtain ⟨st, F, L, h1, h2, h3, _⟩ := run_inv True (maxData := maxData) hn (fun _ => htr n)
  have ht' : ∀ o ∈ rounds p n ++ [.plug p none, .add (exStd p 1 0 0 0x8000) al], o.TypeGiven := by
    intro o ho
    rw [List.mem_append] at ho
    rcases ho with ho | ho
    · exact htr n o ho
    · simp only [List.mem_cons, List.not_mem_nil, or_false] at ho
      rcases ho with rfl | rfl <;> simp [Op.TypeGiven, exStd]
  obtain ⟨st', F', L', g1, g2, g3, _⟩ := run_inv True (maxData := maxData) hn (fun _ => ht')
  obtain ⟨r1, r2, r3⟩ := rounds_room p maxData n n (Nat.le_refl n)
  have hnil : ∀ l : List (Nat × Fmt), (∀ k, look l k = none) → l = [] := by
    intro l hl
    cases l with
    | nil => rfl
    | cons e t =>
      have := hl (keyOf e)
      rw [look_eq_none] at this
      exact absurd rfl (this e (by simp))
  refine ⟨st, st', h1, fun q => ?_, ?_, g1, ?_, ?_⟩
  · apply hnil
    intro k
    have := r3 q k
    rw [← h3 trivial] at this
    exact this
  · rw [← h3 trivial] at r1
    apply List.length_eq_zero_iff.1
    simpa [view] using r1
  · intro hnone
    have : (view st').plugged p = true := by
      rw [g3 trivial, Spec.exec_append]
      generalize Spec.exec maxData (Spec.init n) (rounds p n) = sp at r1 r2 r3
      simp [Spec.exec, Spec.step, exStd, Args.Valid, Args.ValidData, Args.ValidSeverity, r3, r1]
    simp [view, hnone] at this
  · apply hnil
    intro k
    have : (view st').ent p k = none := by
      rw [g3 trivial, Spec.exec_append]
      generalize Spec.exec maxData (Spec.init n) (rounds p n) = sp at r1 r2 r3
      simp [Spec.exec, Spec.step, exStd, Args.Valid, Args.ValidData, Args.ValidSeverity, r3, r1]
    exact this

/-! ## C61 -/

/-- **C61.** After every history the three summary flags of a plugged submodule say exactly whether one
of its diagnoses has severity fault, maintenance demanded or maintenance required. -/
theorem C61_summary_flags_exact (maxData n : Nat) (hn : n ≤ 65535) (ops : List Op) (st : St)
    (hst : exec maxData (init n) ops = some st) (p : Place) (s : Subslot) (hs : st.subs p = some s) :
    (s.summary.fault = true ↔ ∃ e ∈ listing st p, (valOf e).Fault) ∧
    (s.summary.demanded = true ↔ ∃ e ∈ listing st p, (valOf e).Demanded) ∧
    (s.summary.required = true ↔ ∃ e ∈ listing st p, (valOf e).Required) := by
  obtain ⟨st0, F, L, h1, h2, _⟩ := run_inv False (maxData := maxData) (ops := ops) hn (fun h => h.elim)
  rw [hst] at h1
  cases h1
  rw [listing_eq h2.lists]
  exact h2.sums p s hs

/-- A history that sets and clears flags. -/
example : ∃ st s, exec 16 (init 4) [.plug (0, 1, 1) none, .add (exStd (0, 1, 1) 3 0 0 0x8000) true,
      .add (exStd (0, 1, 1) 4 1 0 0x8000) true, .remove (exStd (0, 1, 1) 3 0 0 0x8000) true] = some st ∧
    st.subs (0, 1, 1) = some s ∧ s.summary = ⟨false, false, true⟩ :=
  ⟨_, _, rfl, rfl, rfl⟩

/-! ## C23 -/

/-- Submodule `q` is owned by connection `ar`. -/
def Owned (st : St) (ar : Nat) (q : Place) : Prop := ∃ s, st.subs q = some s ∧ s.owner = some ar

/-- What the indicator should say. -/
def ShouldIndicate (st : St) (ar : Nat) : Prop :=
  ∃ q, Owned st ar q ∧ ∃ e ∈ listing st q, (valOf e).Fault

/-- The three diagnosis calls on submodule `p`. -/
def Op.DiagAt (p : Place) : Op → Prop
  | .add a _ => a.place = p
  | .update a _ => a.place = p
  | .remove a _ => a.place = p
  | _ => False

/-- **C23** (partial).  A diagnosis call that changes the diagnoses of a submodule owned by connection
`ar` leaves the indicator of `ar` right, provided that no other submodule of the connection has a
diagnosis of severity fault and no diagnosis of this submodule has severity "qualified" with a fault bit.
Missing: both provisos (`C23_other_submodule_ignored`, `C23_qualified_fault_ignored`), and diagnoses that
exist before the connection (`C23_present_before_connection_ignored`). -/
theorem C23_problem_indicator_partial (maxData n : Nat) (hn : n ≤ 65535) (ops : List Op)
    (st : St) (hst : exec maxData (init n) ops = some st)
    (p : Place) (o : Op) (ho : o.DiagAt p) (ar : Nat) (how : Owned st ar p)
    (st' : St) (b : Bool) (hstep : step maxData st o = some (st', b))
    (hchg : listing st' p ≠ listing st p)
    (hothers : ∀ q, q ≠ p → Owned st ar q → ∀ e ∈ listing st q, ¬ (valOf e).Fault)
    (hqual : ∀ e ∈ listing st' p, (valOf e).Fault → (valOf e).PlainFault) :
    st'.problem ar = true ↔ ShouldIndicate st' ar := by
  obtain ⟨st0, F, L, h1, h2, _⟩ := run_inv False (maxData := maxData) (ops := ops) hn (fun h => h.elim)
  rw [hst] at h1
  cases h1
  have key : ∃ F' L', DInv False st' F' L' ∧ IndStep st st' p ∧
      (∀ q, (st'.subs q).map Subslot.owner = (st.subs q).map Subslot.owner) ∧
      (∀ q, q ≠ p → listing st' q = listing st q) := by
    cases o with
    | add a al =>
      cases ho
      obtain ⟨x, b', F', L', g1, g2, g3, g4, g5, g6, g7, g8⟩ := add_step (maxData := maxData) h2 a al (fun h => h.elim)
      simp only [step] at hstep
      rw [hstep] at g1
      cases g1
      exact ⟨F', L', g2, g6, g7, g8⟩
    | update a al =>
      cases ho
      obtain ⟨x, b', F', L', g1, g2, g3, g4, g5, g6, g7, g8⟩ := update_step (maxData := maxData) h2 a al
      simp only [step] at hstep
      rw [hstep] at g1
      cases g1
      exact ⟨F', L', g2, g6, g7, g8⟩
    | remove a al =>
      cases ho
      obtain ⟨x, b', F', L', g1, g2, g3, g4, g5, g6, g7, g8⟩ := remove_step (maxData := maxData) h2 a al
      simp only [step] at hstep
      rw [hstep] at g1
      cases g1
      exact ⟨F', L', g2, g6, g7, g8⟩
    | plug _ _ => exact ho.elim
    | pull _ => exact ho.elim
    | own _ _ => exact ho.elim
  obtain ⟨F', L', g2, g6, g7, g8⟩ := key
  obtain ⟨s, hs, hso⟩ := how
  have hown : ∀ q, Owned st' ar q ↔ Owned st ar q := by
    have hiff : ∀ (x : St) q, Owned x ar q ↔ (x.subs q).map Subslot.owner = some (some ar) := by
      intro x q
      unfold Owned
      cases x.subs q <;> simp
    intro q
    rw [hiff, hiff, g7]
  rcases g6 with ⟨_, hl⟩ | ⟨s', hs', i1, _⟩
  · exact absurd hl hchg
  · rw [hs] at hs'
    cases hs'
    rw [i1 ar hso]
    constructor
    · rintro ⟨e, he, hf⟩
      refine ⟨p, (hown p).2 ⟨s, hs, hso⟩, e, he, ?_⟩
      cases hv : valOf e with
      | manuf d => trivial
      | std u t m v q =>
        rw [hv] at hf
        exact Or.inl hf
    · rintro ⟨q, hq, e, he, hf⟩
      by_cases hqp : q = p
      · subst hqp; exact ⟨e, he, hqual e he hf⟩
      · rw [g8 q hqp] at he
        exact absurd hf (hothers q hqp ((hown q).1 hq) e he)

/-- A history and step that meet the hypotheses. -/
example : ∃ st st' b, exec 16 (init 4) [.plug (0, 1, 1) (some 0), .plug (0, 1, 2) (some 0)] = some st ∧
    Owned st 0 (0, 1, 1) ∧ step 16 st (.add (exStd (0, 1, 1) 3 0 0 0x8000) true) = some (st', b) ∧
    listing st' (0, 1, 1) ≠ listing st (0, 1, 1) ∧ listing st (0, 1, 2) = [] ∧ st'.problem 0 = true := by
  refine ⟨(exec 16 (init 4) [.plug (0, 1, 1) (some 0), .plug (0, 1, 2) (some 0)]).get (by rfl), _, _,
    (Option.some_get _).symm, ⟨_, rfl, rfl⟩, rfl, ?_, rfl, rfl⟩
  decide +kernel

/-- Two submodules of one connection, both with a fault; removing one diagnosis clears the indicator
although the other fault remains. -/
theorem C23_other_submodule_ignored :
    ∃ (ops : List Op) (st : St), exec 16 (init 4) ops = some st ∧ ShouldIndicate st 0 ∧ st.problem 0 = false := by
  refine ⟨[.plug (0, 1, 1) (some 0), .plug (0, 1, 2) (some 0), .add (exStd (0, 1, 1) 3 0 0 0x8000) true,
    .add (exStd (0, 1, 2) 3 0 0 0x8000) true, .remove (exStd (0, 1, 2) 3 0 0 0x8000) true],
    (exec 16 (init 4) _).get (by rfl), (Option.some_get _).symm, ⟨(0, 1, 1), ⟨_, rfl, rfl⟩, ?_⟩, rfl⟩
  exact ⟨(0x8000, .std ⟨⟨1, false, 0, 3, 0⟩, 0, 0, 1, 0, 0⟩), by decide +kernel, Or.inl rfl⟩

/-- A diagnosis with qualified severity and a fault bit does not set the indicator. -/
theorem C23_qualified_fault_ignored :
    ∃ (ops : List Op) (st : St), exec 16 (init 4) ops = some st ∧ ShouldIndicate st 0 ∧ st.problem 0 = false := by
  refine ⟨[.plug (0, 1, 1) (some 0), .add (exStd (0, 1, 1) 3 3 (2 ^ 31) 0x8003) true],
    (exec 16 (init 4) _).get (by rfl), (Option.some_get _).symm, ⟨(0, 1, 1), ⟨_, rfl, rfl⟩, ?_⟩, rfl⟩
  exact ⟨(0x8003, .std ⟨⟨1, false, 0, 3, 0⟩, 0, 3, 1, 0, 2 ^ 31⟩), by decide +kernel, Or.inr ⟨rfl, by decide⟩⟩

/-- A fault that is present when a connection takes the submodule is not indicated to it. -/
theorem C23_present_before_connection_ignored :
    ∃ (ops : List Op) (st : St), exec 16 (init 4) ops = some st ∧ ShouldIndicate st 0 ∧ st.problem 0 = false := by
  refine ⟨[.plug (0, 1, 1) none, .add (exStd (0, 1, 1) 3 0 0 0x8000) true, .own (0, 1, 1) (some 0)],
    (exec 16 (init 4) _).get (by rfl), (Option.some_get _).symm, ⟨(0, 1, 1), ⟨_, rfl, rfl⟩, ?_⟩, rfl⟩
  exact ⟨(0x8000, .std ⟨⟨1, false, 0, 3, 0⟩, 0, 0, 1, 0, 0⟩), by decide +kernel, Or.inl rfl⟩

end Verif.Diag
