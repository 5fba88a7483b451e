import Verif.Diag.Lemmas
import Verif.Diag.Spec

/-!
The diagnosis store refines its specification (C21), summary flags (C61), problem indicator (C23),
pulling (C22).
-/
set_option linter.unusedSimpArgs false
set_option linter.unusedVariables false

namespace Verif.Diag

/-! ## Association lists -/

theorem look_cons (e : Nat × Fmt) (l : List (Nat × Fmt)) (k : Key) :
    look (e :: l) k = if keyOf e = k then some (valOf e) else look l k := by
  unfold look
  simp only [List.find?_cons, beq_iff_eq]
  by_cases h : keyOf e = k
  · simp [h]
  · have : (keyOf e == k) = false := by simpa using h
    simp [h, this]

theorem look_eq_none {l : List (Nat × Fmt)} {k : Key} :
    look l k = none ↔ ∀ e ∈ l, keyOf e ≠ k := by
  unfold look
  simp

theorem look_append (l1 l2 : List (Nat × Fmt)) (k : Key) :
    look (l1 ++ l2) k = (look l1 k).or (look l2 k) := by
  induction l1 with
  | nil => simp [look]
  | cons e l ih =>
    rw [List.cons_append, look_cons, look_cons, ih]
    split <;> simp

theorem look_erase (l1 l2 : List (Nat × Fmt)) (e : Nat × Fmt)
    (hn : ((l1 ++ e :: l2).map keyOf).Nodup) (k : Key) :
    look (l1 ++ l2) k = if k = keyOf e then none else look (l1 ++ e :: l2) k := by
  rw [List.map_append, List.map_cons, List.nodup_append] at hn
  obtain ⟨hn1, hn2, hn3⟩ := hn
  rw [List.nodup_cons] at hn2
  by_cases h : k = keyOf e
  · rw [if_pos h, look_eq_none]
    intro x hx hk
    rcases List.mem_append.1 hx with hx | hx
    · exact hn3 (keyOf x) (List.mem_map_of_mem hx) (keyOf e) (by simp) (hk.trans h)
    · exact hn2.1 (by rw [← h, ← hk]; exact List.mem_map_of_mem hx)
  · rw [if_neg h, look_append, look_append, look_cons, if_neg (fun hh => h hh.symm)]

theorem look_mid (l1 l2 : List (Nat × Fmt)) (e : Nat × Fmt)
    (hn : ((l1 ++ e :: l2).map keyOf).Nodup) :
    look (l1 ++ e :: l2) (keyOf e) = some (valOf e) := by
  rw [look_append, look_cons, if_pos rfl]
  have : look l1 (keyOf e) = none := by
    rw [look_eq_none]
    intro x hx hk
    rw [List.map_append, List.map_cons, List.nodup_append] at hn
    exact hn.2.2 (keyOf x) (List.mem_map_of_mem hx) (keyOf e) (by simp) hk
  rw [this]
  rfl

/-! ## Entries -/

/-- Contents of the items of a list. -/
def ents (st : St) (l : List Nat) : List (Nat × Fmt) := l.filterMap (fun i => (st.cont i).map (·.2))

theorem ents_eq (st : St) (l : List Nat) :
    l.filterMap (fun i => (st.items[i]?).map (fun it => (it.usi, it.fmt))) = ents st l := by
  unfold ents St.cont
  congr 1
  funext i
  cases st.items[i]? <;> rfl

theorem ents_congr {st st' : St} {l : List Nat} (h : ∀ i ∈ l, st'.cont i = st.cont i) :
    ents st' l = ents st l := by
  unfold ents
  exact List.filterMap_congr (fun i hi => by rw [h i hi])

theorem ents_cons {st : St} {i : Nat} {l : List Nat} {b : Bool} {u : Nat} {f : Fmt}
    (h : st.cont i = some (b, u, f)) : ents st (i :: l) = (u, f) :: ents st l := by
  simp [ents, h]

theorem ents_append (st : St) (l1 l2 : List Nat) : ents st (l1 ++ l2) = ents st l1 ++ ents st l2 := by
  simp [ents]

section
variable {st : St} {F : List Nat} {L : Place → List Nat}

theorem listing_eq (h : Lists st F L) (p : Place) : listing st p = ents st (L p) := by
  unfold listing
  cases hs : st.subs p with
  | none => rw [h.empty p hs]; rfl
  | some s =>
    simp only [h.walk hs, Option.getD_some]
    exact ents_eq st (L p)

theorem indices_eq (h : Lists st F L) (p : Place) : indices st p = L p := by
  unfold indices
  cases hs : st.subs p with
  | none => rw [h.empty p hs]
  | some s => simp only [h.walk hs, Option.getD_some]

theorem freeIndices_eq (h : Lists st F L) : freeIndices st = F := by
  unfold freeIndices
  rw [h.walkF]; rfl

end

/-! ## Invariant -/

/-- Contents of an item in a list.  `T`: no standard diagnosis has error type 0. -/
def GoodCont (T : Prop) (e : Nat × Fmt) : Prop :=
  (e.1 < 0x8000 ∧ ∃ d, e.2 = .manuf d) ∨
  (0x8000 ≤ e.1 ∧ ∃ s, e.2 = .std s ∧ (T → s.chan.err ≠ 0) ∧ s.spec = specAppears)

/-- The summary flags describe the entries. -/
def SumOk (m : Summary) (l : List (Nat × Fmt)) : Prop :=
  (m.fault = true ↔ ∃ e ∈ l, (valOf e).Fault) ∧
  (m.demanded = true ↔ ∃ e ∈ l, (valOf e).Demanded) ∧
  (m.required = true ↔ ∃ e ∈ l, (valOf e).Required)

structure DInv (T : Prop) (st : St) (F : List Nat) (L : Place → List Nat) : Prop where
  lists : Lists st F L
  used : ∀ (p : Place) (i : Nat), i ∈ L p → ∃ u f, st.cont i = some (true, u, f) ∧ GoodCont T (u, f)
  keys : T → ∀ (p : Place), ((ents st (L p)).map keyOf).Nodup
  sums : ∀ (p : Place) (s : Subslot), st.subs p = some s → SumOk s.summary (ents st (L p))

theorem DInv.cont_of {T : Prop} {st : St} {F L} (h : DInv T st F L) {p : Place} {i : Nat} {it : Item} (hi : i ∈ L p)
    (hit : st.items[i]? = some it) : it.inUse = true ∧ GoodCont T (it.usi, it.fmt) := by
  obtain ⟨u, f, h1, h2⟩ := h.used p i hi
  simp only [St.cont, hit, Option.map_some, Item.cont, Option.some.injEq, Prod.mk.injEq] at h1
  obtain ⟨h3, h4, h5⟩ := h1
  exact ⟨h3, by rw [h4, h5]; exact h2⟩

theorem valid_iff (a : Args) : argsCommon a = true ↔ a.Valid := by
  unfold argsCommon Args.Valid usiQualified usiMultiple usiChannel
  simp only [Bool.and_eq_true, Bool.not_eq_true', Bool.or_eq_false_iff, Bool.and_eq_false_iff,
    decide_eq_false_iff_not, beq_eq_false_iff_ne, bne_eq_false_iff_eq, ne_eq]
  omega

theorem mask_zero (q : Nat) : maskQual q = 0 ↔ q / 8 = 0 := by
  unfold maskQual; omega

theorem validAdd_iff (m : Nat) (a : Args) :
    argsAdd m a = true ↔ a.Valid ∧ a.ValidData m ∧ a.ValidSeverity := by
  unfold argsAdd argsData Args.ValidData Args.ValidSeverity
  simp only [Bool.and_eq_true, valid_iff, Bool.not_eq_true', Bool.and_eq_false_iff,
    decide_eq_false_iff_not, bne_eq_false_iff_eq, beq_eq_false_iff_ne, mask_zero, ne_eq,
    Bool.or_eq_false_iff, Option.isNone_eq_false_iff, Option.isSome_eq_false_iff]
  unfold usiQualified usiChannel maintQualified
  by_cases hV : a.Valid
  · cases hd : a.data with
    | none => simp [hV]; omega
    | some d => simp [hV]; omega
  · simp [hV]

theorem validUpdate_iff (m : Nat) (a : Args) :
    argsUpdate m a = true ↔ a.Valid ∧ a.ValidData m := by
  unfold argsUpdate argsData Args.ValidData
  simp only [Bool.and_eq_true, valid_iff, Bool.not_eq_true', Bool.and_eq_false_iff,
    decide_eq_false_iff_not, bne_eq_false_iff_eq, beq_eq_false_iff_ne, mask_zero, ne_eq,
    Bool.or_eq_false_iff, Option.isNone_eq_false_iff, Option.isSome_eq_false_iff]
  unfold usiChannel
  by_cases hV : a.Valid
  · cases hd : a.data with
    | none => simp [hV]; omega
    | some d => simp [hV]; omega
  · simp [hV]

theorem matches_iff {T : Prop} (hT : T) (a : Args) (ha : a.Valid) (it : Item) (hg : GoodCont T (it.usi, it.fmt)) :
    matches? a.chan a.usi it = true ↔ keyOf (it.usi, it.fmt) = a.key := by
  unfold matches? Args.key usiChannel
  rcases hg with ⟨h1, d, h2⟩ | ⟨h1, s, h2, h3, _⟩
  · simp only at h1 h2
    rw [if_neg (by omega), h2]
    simp only [keyOf, beq_iff_eq]
    split
    · simp
    · simp; omega
  · simp only at h1 h2
    rw [if_pos h1, h2]
    simp only [keyOf, beq_iff_eq]
    split
    · rename_i hlt
      simp only [reduceCtorEq, iff_false]
      intro hc
      rw [hc] at h3
      obtain ⟨_, h4⟩ := ha
      have := h3 hT
      omega
    · simp

/-- Without the summary of the submodule being worked on. -/
structure PInv (T : Prop) (st : St) (F : List Nat) (L : Place → List Nat) (p : Place) : Prop where
  lists : Lists st F L
  used : ∀ (q : Place) (i : Nat), i ∈ L q → ∃ u f, st.cont i = some (true, u, f) ∧ GoodCont T (u, f)
  keys : T → ∀ (q : Place), ((ents st (L q)).map keyOf).Nodup
  sums : ∀ (q : Place) (s : Subslot), q ≠ p → st.subs q = some s → SumOk s.summary (ents st (L q))

theorem anyItem_iff {T : Prop} {st : St} {l : List Nat} {c : Item → Bool} {d : Nat × Fmt → Prop}
    (hu : ∀ i ∈ l, ∃ u f, st.cont i = some (true, u, f) ∧ GoodCont T (u, f))
    (hc : ∀ it : Item, GoodCont T (it.usi, it.fmt) → (c it = true ↔ d (it.usi, it.fmt))) :
    anyItem st.items c l = true ↔ ∃ e ∈ ents st l, d e := by
  unfold anyItem ents
  rw [List.any_eq_true]
  constructor
  · rintro ⟨i, hi, h⟩
    obtain ⟨u, f, h1, h2⟩ := hu i hi
    cases hit : st.items[i]? with
    | none => simp [hit] at h
    | some it =>
      rw [hit] at h
      simp only [Option.any_some, Bool.and_eq_true] at h
      have h1' := h1
      simp only [St.cont, hit, Option.map_some, Item.cont, Option.some.injEq, Prod.mk.injEq] at h1
      obtain ⟨_, rfl, rfl⟩ := h1
      exact ⟨_, List.mem_filterMap.2 ⟨i, hi, by rw [h1']; rfl⟩, (hc it h2).1 h.2⟩
  · rintro ⟨e, he, hd⟩
    obtain ⟨i, hi, hie⟩ := List.mem_filterMap.1 he
    obtain ⟨u, f, h1, h2⟩ := hu i hi
    rw [h1] at hie
    simp only [Option.map_some, Option.some.injEq] at hie
    subst hie
    cases hit : st.items[i]? with
    | none => simp [St.cont, hit] at h1
    | some it =>
      simp only [St.cont, hit, Option.map_some, Item.cont, Option.some.injEq, Prod.mk.injEq] at h1
      obtain ⟨h3, h4, h5⟩ := h1
      refine ⟨i, hi, ?_⟩
      rw [hit]
      simp only [Option.any_some, h3, Bool.true_and]
      rw [hc it (by rw [h4, h5]; exact h2), h4, h5]
      exact hd

theorem fault_iff {T : Prop} (it : Item) (h : GoodCont T (it.usi, it.fmt)) :
    itemFault it = true ↔ (valOf (it.usi, it.fmt)).Fault := by
  unfold itemFault usiChannel
  rcases h with ⟨h1, d, h2⟩ | ⟨h1, s, h2, _, h4⟩
  · simp only at h1 h2
    simp [h1, h2, valOf, Val.Fault]
  · simp only at h1 h2
    rw [if_neg (by omega), h2]
    simp [valOf, Val.Fault, h4, maintFault, maintQualified]

theorem demanded_iff {T : Prop} (it : Item) (h : GoodCont T (it.usi, it.fmt)) :
    itemDemanded it = true ↔ (valOf (it.usi, it.fmt)).Demanded := by
  unfold itemDemanded usiChannel
  rcases h with ⟨h1, d, h2⟩ | ⟨h1, s, h2, _, h4⟩
  · simp only at h1 h2
    simp [h1, h2, valOf, Val.Demanded]
  · simp only at h1 h2
    rw [if_neg (by omega), h2]
    simp [valOf, Val.Demanded, maintDemanded, maintQualified]

theorem required_iff {T : Prop} (it : Item) (h : GoodCont T (it.usi, it.fmt)) :
    itemRequired it = true ↔ (valOf (it.usi, it.fmt)).Required := by
  unfold itemRequired usiChannel
  rcases h with ⟨h1, d, h2⟩ | ⟨h1, s, h2, _, h4⟩
  · simp only at h1 h2
    simp [h1, h2, valOf, Val.Required]
  · simp only at h1 h2
    rw [if_neg (by omega), h2]
    simp [valOf, Val.Required, maintRequired, maintQualified]

/-- What the problem indicator looks at: a manufacturer diagnosis, or plain severity fault. -/
def Val.PlainFault : Val → Prop
  | .manuf _ => True
  | .std _ _ m _ _ => m = 0

theorem problem_iff {T : Prop} (it : Item) (h : GoodCont T (it.usi, it.fmt)) :
    itemProblem it = true ↔ (valOf (it.usi, it.fmt)).PlainFault := by
  unfold itemProblem usiChannel
  rcases h with ⟨h1, d, h2⟩ | ⟨h1, s, h2, _, h4⟩
  · simp only at h1 h2
    simp [h1, h2, valOf, Val.PlainFault]
  · simp only at h1 h2
    rw [h2]
    simp [valOf, Val.PlainFault, maintFault]
    omega

theorem updateSummary_spec {T : Prop} {st : St} {F L} {p : Place} {s : Subslot} (h : PInv T st F L p)
    (hs : st.subs p = some s) :
    ∃ m, updateSummary st p = some (setSub st p { s with summary := m }) ∧
      SumOk m (ents st (L p)) := by
  unfold updateSummary
  rw [hs]
  simp only [h.lists.walk hs, Option.map_some]
  exact ⟨_, rfl, anyItem_iff (h.used p) fault_iff, anyItem_iff (h.used p) demanded_iff,
    anyItem_iff (h.used p) required_iff⟩

/-- The indicator of the owner after a call: some plain fault is present at the submodule. -/
def IndOk (st' : St) (old : Nat → Bool) (owner : Option Nat) (l : List (Nat × Fmt)) : Prop :=
  (∀ ar, owner = some ar → (st'.problem ar = true ↔ ∃ e ∈ l, (valOf e).PlainFault)) ∧
  ∀ i, owner ≠ some i → st'.problem i = old i

theorem finish_spec {T : Prop} {st : St} {F L} {p : Place} {s : Subslot} (h : PInv T st F L p)
    (hs : st.subs p = some s) (al : Bool) :
    ∃ st' b m, finish st p al = some (st', b) ∧ st'.items = st.items ∧ st'.free = st.free ∧
      (∀ q, q ≠ p → st'.subs q = st.subs q) ∧ st'.subs p = some { s with summary := m } ∧
      SumOk m (ents st (L p)) ∧ DInv T st' F L ∧ IndOk st' st.problem s.owner (ents st (L p)) := by
  obtain ⟨m, h1, h2⟩ := updateSummary_spec h hs
  have hbase : ∀ st' : St, st'.items = st.items → st'.free = st.free →
      (∀ q, q ≠ p → st'.subs q = st.subs q) → st'.subs p = some { s with summary := m } →
      DInv T st' F L := by
    intro st' e1 e2 e3 e4
    have hl : Lists st' F L := by
      refine h.lists.congr (by rw [e1]) (fun i => by rw [e1]) e2 (fun q => ?_)
      by_cases hq : q = p
      · subst hq; rw [e4, hs]; rfl
      · rw [e3 q hq]
    have hc : ∀ i, st'.cont i = st.cont i := fun i => by simp [St.cont, e1]
    refine ⟨hl, fun q i hi => by rw [hc]; exact h.used q i hi, fun hT q => ?_, fun q s' hq => ?_⟩
    · rw [ents_congr (fun i _ => hc i)]; exact h.keys hT q
    · rw [ents_congr (fun i _ => hc i)]
      by_cases hqp : q = p
      · subst hqp; rw [e4] at hq; cases hq; exact h2
      · rw [e3 q hqp] at hq; exact h.sums q s' hqp hq
  unfold finish
  rw [h1]
  simp only [Option.bind_some, setSub_self]
  cases ho : s.owner with
  | none =>
    simp only
    refine ⟨_, _, m, rfl, rfl, rfl, fun q hq => setSub_ne _ _ hq, by simp [setSub_self, ho], h2,
      hbase _ rfl rfl (fun q hq => setSub_ne _ _ hq) (by simp [setSub_self, ho]), by simp, fun _ _ => rfl⟩
  | some ar =>
    simp only [updateIndicator, setSub_self]
    have hw : (setSub st p { s with summary := m }).walk s.head = some (L p) := h.lists.walk hs
    rw [← ho]
    rw [hw]
    simp only [Option.map_some]
    refine ⟨_, _, m, rfl, rfl, rfl, fun q hq => setSub_ne _ _ hq, setSub_self _ _ _, h2,
      hbase _ rfl rfl (fun q hq => setSub_ne _ _ hq) (setSub_self _ _ _), ?_, ?_⟩
    · intro ar' har
      rw [ho] at har
      cases har
      simp only [if_true]
      exact anyItem_iff (st := st) (h.used p) problem_iff
    · intro i hi
      dsimp only
      rw [if_neg]
      · rfl
      · rintro rfl
        exact hi ho

/-- Linking a new entry and finishing. -/
theorem place_spec {T : Prop} {st : St} {F L} {p : Place} {s : Subslot} (h : PInv T st F L p)
    (hs : st.subs p = some s) {i : Nat} (hi : i < st.items.length) (hF : i ∉ F) (hL : ∀ q, i ∉ L q)
    (huse : (st.items[i]).inUse = true) (u : Nat) (f : Fmt) (hg : GoodCont T (u, f))
    (hk : T → ∀ e ∈ ents st (L p), keyOf e ≠ keyOf (u, f)) (al : Bool) :
    ∃ st' b m, finish (link st p s i u f) p al = some (st', b) ∧
      DInv T st' F (updL L p (i :: L p)) ∧ st'.items.length = st.items.length ∧
      (∀ q, (st'.subs q).isSome = (st.subs q).isSome) ∧
      (∀ q, ents st' (updL L p (i :: L p) q) =
        if q = p then (u, f) :: ents st (L p) else ents st (L q)) ∧
      st'.subs p = some { s with head := i, summary := m } ∧
      (∀ q, q ≠ p → st'.subs q = st.subs q) ∧
      IndOk st' st.problem s.owner ((u, f) :: ents st (L p)) := by
  obtain ⟨l1, l2, l3⟩ := link_spec h.lists hs hi hF hL u f
  rw [huse] at l2
  have hents : ∀ q, ents (link st p s i u f) (updL L p (i :: L p) q) =
      if q = p then (u, f) :: ents st (L p) else ents st (L q) := by
    intro q
    have hold : ∀ q, ents (link st p s i u f) (L q) = ents st (L q) := fun q =>
      ents_congr (fun k hk => l3 k (by rintro rfl; exact hL q hk))
    by_cases hq : q = p
    · simp only [updL, if_pos hq]
      rw [ents_cons l2, hold]
    · simp only [updL, if_neg hq]
      exact hold q
  have hp : PInv T (link st p s i u f) F (updL L p (i :: L p)) p := by
    refine ⟨l1, ?_, ?_, ?_⟩
    · intro q k hk
      have hold : ∀ q, k ∈ L q → ∃ u' f', (link st p s i u f).cont k = some (true, u', f') ∧
          GoodCont T (u', f') := by
        intro q hq
        rw [l3 k (by rintro rfl; exact hL q hq)]
        exact h.used q k hq
      by_cases hq : q = p
      · simp only [updL, if_pos hq, List.mem_cons] at hk
        rcases hk with rfl | hk
        · exact ⟨u, f, l2, hg⟩
        · exact hold p hk
      · simp only [updL, if_neg hq] at hk
        exact hold q hk
    · intro hT q
      rw [hents q]
      by_cases hq : q = p
      · rw [if_pos hq, List.map_cons, List.nodup_cons]
        refine ⟨?_, h.keys hT p⟩
        intro hm
        obtain ⟨e, he, hee⟩ := List.mem_map.1 hm
        exact hk hT e he hee
      · rw [if_neg hq]; exact h.keys hT q
    · intro q s' hq hs'
      rw [hents q, if_neg hq]
      have : (link st p s i u f).subs q = st.subs q := by
        simp only [link, setSub_ne _ _ hq]
      rw [this] at hs'
      exact h.sums q s' hq hs'
  have hsub : (link st p s i u f).subs p = some { s with head := i } := by
    simp only [link, setSub_self]
  obtain ⟨st', b, m, e1, e2, e3, e4, e5, e6, e7, e8⟩ := finish_spec hp hsub al
  have hne : ∀ q, q ≠ p → st'.subs q = st.subs q := by
    intro q hq
    rw [e4 q hq]
    simp only [link, setSub_ne _ _ hq]
  refine ⟨st', b, m, e1, e7, by rw [e2]; simp [link, setSub], ?_, ?_, e5, hne, ?_⟩
  · intro q
    by_cases hq : q = p
    · subst hq; rw [e5, hs]; rfl
    · rw [hne q hq]
  · intro q
    rw [← hents q]
    exact ents_congr (fun k _ => by simp [St.cont, e2])
  · have : (link st p s i u f).problem = st.problem := rfl
    rw [this, hents p, if_pos rfl] at e8
    exact e8

/-- What a call of a diagnosis function does to the lists: nothing, or it puts an entry in
front of its list (perhaps instead of an old one), or it removes one. -/
theorem view_eq {st : St} {F L} (h : Lists st F L) :
    view st = ⟨fun p => (st.subs p).isSome, fun p k => look (ents st (L p)) k, F.length⟩ := by
  unfold view
  rw [freeIndices_eq h]
  simp only [listing_eq h]

theorem findEntry_inv {T : Prop} {st : St} {F L} (h : DInv T st F L) {p : Place} {s : Subslot}
    (hs : st.subs p = some s) (a : Args) (ha : a.Valid) :
    (findEntry st p s a.chan a.usi = some (st, none) ∧ (T → (view st).ent p a.key = none) ∧
      (T → ∀ e ∈ ents st (L p), keyOf e ≠ a.key)) ∨
    ∃ l1 i l2 u f st' s', L p = l1 ++ i :: l2 ∧ (T → keyOf (u, f) = a.key) ∧ GoodCont T (u, f) ∧
      findEntry st p s a.chan a.usi = some (st', some i) ∧ st'.subs p = some s' ∧
      s'.owner = s.owner ∧ (∀ q, q ≠ p → st'.subs q = st.subs q) ∧ st'.free = st.free ∧
      st'.problem = st.problem ∧ st'.items.length = st.items.length ∧ i < st'.items.length ∧
      st'.cont i = some (true, u, f) ∧ i ∉ F ∧ (∀ q, i ∉ updL L p (l1 ++ l2) q) ∧
      PInv T st' F (updL L p (l1 ++ l2)) p ∧
      (∀ q, ents st' (updL L p (l1 ++ l2) q) =
        if q = p then ents st (l1 ++ l2) else ents st (L q)) ∧
      (T → (view st).ent p a.key = some (valOf (u, f))) ∧
      (T → ∀ k, look (ents st (l1 ++ l2)) k = if k = a.key then none else look (ents st (L p)) k) ∧
      (T → ∀ e ∈ ents st (l1 ++ l2), keyOf e ≠ a.key) := by
  rw [view_eq h.lists]
  rcases findEntry_spec h.lists hs a.chan a.usi with ⟨h1, h2⟩ | ⟨l1, i, l2, it, st', s', h1, h2, h3, h4, h5, h6, h7, h8, h9, h10, h11, h12, h13⟩
  · left
    have hno : T → ∀ e ∈ ents st (L p), keyOf e ≠ a.key := by
      intro hT e he hk
      obtain ⟨i, hi, hie⟩ := List.mem_filterMap.1 he
      cases hit : st.items[i]? with
      | none => simp [St.cont, hit] at hie
      | some it =>
        simp only [St.cont, hit, Option.map_some, Item.cont, Option.some.injEq] at hie
        subst hie
        have := (matches_iff hT a ha it (h.cont_of hi hit).2).2 hk
        rw [h2 i hi it hit] at this
        simp at this
    exact ⟨h1, fun hT => look_eq_none.2 (hno hT), hno⟩
  · right
    have hi : i ∈ L p := by rw [h1]; simp
    obtain ⟨g1, g2⟩ := h.cont_of hi h2
    have hk : T → keyOf (it.usi, it.fmt) = a.key := fun hT => (matches_iff hT a ha it g2).1 h3
    have hci : st.cont i = some (true, it.usi, it.fmt) := by
      simp [St.cont, h2, Item.cont, g1]
    have hkeys := fun hT => h.keys hT p
    have hsplit : ents st (L p) = ents st l1 ++ (it.usi, it.fmt) :: ents st l2 := by
      rw [h1, ents_append, ents_cons hci]
    simp only [hsplit] at hkeys
    have hnd := h.lists.nd p
    rw [h1] at hnd
    have hinot : i ∉ l1 ++ l2 := by
      rw [List.nodup_append] at hnd
      obtain ⟨_, n2, n3⟩ := hnd
      rw [List.nodup_cons] at n2
      intro hm
      rcases List.mem_append.1 hm with hm | hm
      · exact n3 i hm i (by simp) rfl
      · exact n2.1 hm
    have hlook : T → ∀ k, look (ents st (l1 ++ l2)) k =
        if k = a.key then none else look (ents st (L p)) k := by
      intro hT k
      rw [ents_append, hsplit, ← hk hT]
      exact look_erase _ _ _ (hkeys hT) k
    have hents : ∀ q, ents st' (updL L p (l1 ++ l2) q) =
        if q = p then ents st (l1 ++ l2) else ents st (L q) := by
      intro q
      rw [ents_congr (fun k _ => h12 k)]
      by_cases hq : q = p
      · simp [updL, hq]
      · simp [updL, hq]
    have hmem : ∀ q k, k ∈ updL L p (l1 ++ l2) q → k ∈ L q := by
      intro q k hk
      by_cases hq : q = p
      · subst hq
        simp only [updL, if_true] at hk
        rw [h1]
        rcases List.mem_append.1 hk with hk | hk <;> simp [hk]
      · simpa [updL, hq] using hk
    refine ⟨l1, i, l2, it.usi, it.fmt, st', s', h1, hk, g2, h4, h5, h6, h8, h9, h10, h11,
      h11 ▸ h.lists.mem_lt hi, by rw [h12, hci], fun hF => h.lists.disjF p i hF hi, ?_, ?_, hents, ?_,
      hlook, ?_⟩
    · intro q
      by_cases hq : q = p
      · simpa [updL, hq] using hinot
      · simp only [updL, if_neg hq]
        exact h.lists.disj p q i (Ne.symm hq) hi
    · refine ⟨h13, ?_, ?_, ?_⟩
      · intro q k hkq
        rw [h12]
        exact h.used q k (hmem q k hkq)
      · intro hT q
        rw [hents q]
        by_cases hq : q = p
        · rw [if_pos hq, ents_append, List.map_append]
          have hkeys := hkeys hT
          rw [List.map_append, List.map_cons] at hkeys
          exact hkeys.sublist (List.Sublist.append_left (List.sublist_cons_self _ _) _)
        · rw [if_neg hq]; exact h.keys hT q
      · intro q sq hq hsq
        rw [hents q, if_neg hq]
        rw [h8 q hq] at hsq
        exact h.sums q sq hsq
    · intro hT
      simp only
      rw [hsplit, ← hk hT]
      exact look_mid _ _ _ (hkeys hT)
    · exact fun hT => look_eq_none.1 (by rw [hlook hT, if_pos rfl])

/-- Items are free or in a list. -/
def Cover (st : St) (F : List Nat) (L : Place → List Nat) : Prop :=
  ∀ i < st.items.length, i ∈ F ∨ ∃ p, i ∈ L p

/-- Which connection's indicator a call sets, and from which submodule. -/
def IndStep (st st' : St) (p : Place) : Prop :=
  (st'.problem = st.problem ∧ listing st' p = listing st p) ∨
  ∃ s, st.subs p = some s ∧ IndOk st' st.problem s.owner (listing st' p)

theorem key_val (a : Args) : keyOf (a.usi, fillItem a) = a.key ∧ valOf (a.usi, fillItem a) = a.val := by
  unfold fillItem Args.key Args.val usiChannel copyData maskQual
  have : a.qualifier - a.qualifier % 8 = a.qualifier / 8 * 8 := by omega
  split
  · exact ⟨rfl, rfl⟩
  · exact ⟨rfl, by simp [valOf, this]⟩

theorem spec_ext {a b : Spec} (h1 : a.plugged = b.plugged) (h2 : a.ent = b.ent) (h3 : a.room = b.room) :
    a = b := by
  cases a; cases b; simp_all

/-- One call of add. -/
theorem add_step {T : Prop} {maxData : Nat} {st : St} {F L} (h : DInv T st F L) (a : Args) (al : Bool)
    (ht : T → 0x8000 ≤ a.usi → a.chan.err ≠ 0) :
    ∃ st' b F' L', add maxData st a al = some (st', b) ∧ DInv T st' F' L' ∧
      (T → view st' = (view st).step maxData (.add a al)) ∧ st'.items.length = st.items.length ∧
      (Cover st F L → Cover st' F' L') ∧ IndStep st st' a.place ∧
      (∀ q, (st'.subs q).map Subslot.owner = (st.subs q).map Subslot.owner) ∧
      (∀ q, q ≠ a.place → listing st' q = listing st q) := by
  have hsame : (T → view st = (view st).step maxData (.add a al)) →
      ∃ st' b F' L', (some (st, false) : Option (St × Bool)) = some (st', b) ∧ DInv T st' F' L' ∧
      (T → view st' = (view st).step maxData (.add a al)) ∧ st'.items.length = st.items.length ∧
      (Cover st F L → Cover st' F' L') ∧ IndStep st st' a.place ∧
      (∀ q, (st'.subs q).map Subslot.owner = (st.subs q).map Subslot.owner) ∧
      (∀ q, q ≠ a.place → listing st' q = listing st q) :=
    fun hv => ⟨st, false, F, L, rfl, h, hv, rfl, id, Or.inl ⟨rfl, rfl⟩, fun _ => rfl, fun _ _ => rfl⟩
  have hvalid := validAdd_iff maxData a
  unfold add
  by_cases hv : argsAdd maxData a = true
  · have hV := hvalid.1 hv
    simp only [hv, Bool.not_true, Bool.false_eq_true, if_false]
    cases hs : st.subs a.place with
    | none =>
      simp only
      apply hsame; intro hT
      unfold Spec.step; dsimp only
      rw [if_neg]
      rintro ⟨hp, _⟩
      simp [view, hs] at hp
    | some s =>
      simp only
      have hpl : (view st).plugged a.place = true := by simp [view, hs]
      obtain ⟨hkey, hval⟩ := key_val a
      have hgood : GoodCont T (a.usi, fillItem a) := by
        unfold fillItem usiChannel
        by_cases hu : a.usi < 0x8000
        · left
          exact ⟨hu, _, by rw [if_pos hu]⟩
        · right
          refine ⟨by simp only; omega, _, by rw [if_neg hu], fun hT => ht hT (by omega), rfl⟩
      rcases findEntry_inv h hs a hV.1 with ⟨h1, h2, h3⟩ | ⟨l1, i, l2, u, f, st1, s1, h1, h2, h3, h4, h5, h6, h7, h8, h9, h10, h11, h12, h13, h14, h15, h16, h17, h18, h19⟩
      · rw [h1]
        simp only [Option.bind_some]
        rcases newDiag_spec h.lists with ⟨n1, n2⟩ | ⟨i, F', st1, n1, n2, n3, n4, n5, n6, n7, n8, n9, n10, n11⟩
        · rw [n2]
          simp only [Option.bind_some]
          apply hsame; intro hT
          unfold Spec.step; dsimp only
          rw [if_pos ⟨hpl, hV.1, hV.2.1, hV.2.2⟩, if_neg (by simp [h2 hT]), if_pos]
          simp [view, freeIndices_eq h.lists, n1]
        · rw [n2]
          simp only [Option.bind_some]
          have hs1 : st1.subs a.place = some s := by rw [n3]; exact hs
          simp only [hs1]
          have hcont : ∀ q, ∀ k ∈ L q, st1.cont k = st.cont k := fun q k hk =>
            n8 k (by rintro rfl; exact n10 q hk)
          have hents : ∀ q, ents st1 (L q) = ents st (L q) := fun q => ents_congr (hcont q)
          have hP : PInv T st1 F' L a.place :=
            ⟨n11, fun q k hk => by rw [hcont q k hk]; exact h.used q k hk,
              fun hT q => by rw [hents q]; exact h.keys hT q,
              fun q sq _ hsq => by rw [hents q]; rw [n3] at hsq; exact h.sums q sq hsq⟩
          have huse : ∀ hlt : i < st1.items.length, (st1.items[i]).inUse = true := by
            intro hlt
            have := n7
            simp only [St.cont, List.getElem?_eq_getElem hlt, Option.map_some, Item.cont,
              Option.some.injEq, Prod.mk.injEq] at this
            exact this.1
          obtain ⟨st', b, m, e1, e2, e3, e4, e5, e6, e7, e8⟩ :=
            place_spec hP hs1 (n5 ▸ n6) n9 n10 (huse (n5 ▸ n6)) a.usi (fillItem a) hgood
              (fun hT => by rw [hents, hkey]; exact h3 hT) al
          refine ⟨st', b, F', _, e1, e2, ?_, by rw [e3, n5], ?_, ?_, ?_, ?_⟩
          · intro hT; unfold Spec.step; dsimp only
            rw [if_pos ⟨hpl, hV.1, hV.2.1, hV.2.2⟩, if_neg (by simp [h2 hT]), if_neg]
            · apply spec_ext
              · funext q
                simp only [view, Spec.put]
                rw [e4, n3]
              · rw [view_eq e2.lists, view_eq h.lists]
                funext q k
                simp only [Spec.put, e5 q]
                by_cases hq : q = a.place
                · subst hq
                  rw [if_pos rfl, look_cons, hkey, hval, hents]
                  by_cases hk : k = a.key
                  · simp [hk]
                  · simp [hk, Ne.symm hk]
                · simp [hq, hents]
              · rw [view_eq e2.lists, view_eq h.lists]
                simp [Spec.put, n1]
            · simp [view, freeIndices_eq h.lists, n1]
          · intro hc k hk
            rw [e3, n5] at hk
            rcases hc k hk with hF | ⟨q, hq⟩
            · rw [n1] at hF
              rcases List.mem_cons.1 hF with rfl | hF
              · exact Or.inr ⟨a.place, by simp [updL]⟩
              · exact Or.inl hF
            · right
              refine ⟨q, ?_⟩
              by_cases hqp : q = a.place
              · subst hqp; simp [updL, hq]
              · simpa [updL, hqp] using hq
          · right
            refine ⟨s, hs, ?_⟩
            rw [listing_eq e2.lists, e5, if_pos rfl]
            rw [n4] at e8
            exact e8
          · intro q
            by_cases hq : q = a.place
            · subst hq; rw [e6, hs]; rfl
            · rw [e7 q hq, n3]
          · intro q hq
            rw [listing_eq e2.lists, listing_eq h.lists, e5, if_neg hq, hents]
      · rw [h4]
        simp only [Option.bind_some, h5]
        have huse : (st1.items[i]).inUse = true := by
          have := h12
          simp only [St.cont, List.getElem?_eq_getElem h11, Option.map_some, Item.cont,
            Option.some.injEq, Prod.mk.injEq] at this
          exact this.1
        have hentp := h16 a.place
        rw [if_pos rfl] at hentp
        obtain ⟨st', b, m, e1, e2, e3, e4, e5, e6, e7, e8⟩ :=
          place_spec h15 h5 h11 h13 h14 huse a.usi (fillItem a) hgood
            (fun hT => by rw [hentp, hkey]; exact h19 hT) al
        refine ⟨st', b, F, _, e1, e2, ?_, by rw [e3, h10], ?_, ?_, ?_, ?_⟩
        · intro hT; unfold Spec.step; dsimp only
          rw [if_pos ⟨hpl, hV.1, hV.2.1, hV.2.2⟩, if_pos (by rw [h17 hT]; rfl)]
          apply spec_ext
          · funext q
            simp only [view, Spec.put]
            rw [e4]
            by_cases hq : q = a.place
            · subst hq; rw [h5, hs]; rfl
            · rw [h7 q hq]
          · rw [view_eq e2.lists, view_eq h.lists]
            funext q k
            simp only [Spec.put, e5 q]
            by_cases hq : q = a.place
            · subst hq
              rw [if_pos rfl, look_cons, hkey, hval, hentp, h18 hT]
              by_cases hk : k = a.key
              · simp [hk]
              · simp [hk, Ne.symm hk]
            · rw [h16 q]
              simp [hq]
          · rw [view_eq e2.lists, view_eq h.lists]
            simp [Spec.put]
        · intro hc k hk
          rw [e3, h10] at hk
          rcases hc k hk with hF | ⟨q, hq⟩
          · exact Or.inl hF
          · right
            refine ⟨q, ?_⟩
            by_cases hqp : q = a.place
            · subst hqp
              rw [h1] at hq
              simp only [updL, if_true, List.mem_cons, List.mem_append] at hq ⊢
              rcases hq with hq | hq | hq
              · exact Or.inr (Or.inl hq)
              · exact Or.inl hq
              · exact Or.inr (Or.inr hq)
            · simpa [updL, hqp] using hq
        · right
          refine ⟨s, hs, ?_⟩
          rw [listing_eq e2.lists, e5, if_pos rfl]
          rw [h9, h6] at e8
          exact e8
        · intro q
          by_cases hq : q = a.place
          · subst hq; rw [e6, hs]; simp [h6]
          · rw [e7 q hq, h7 q hq]
        · intro q hq
          rw [listing_eq e2.lists, listing_eq h.lists, e5, if_neg hq, h16, if_neg hq]
  · simp only [hv, Bool.not_false, if_true]
    apply hsame; intro hT
    unfold Spec.step; dsimp only
    rw [if_neg]
    rintro ⟨_, hV⟩
    exact hv (hvalid.2 hV)

theorem Spec.put_same (sp : Spec) (p : Place) (k : Key) : sp.put p k (sp.ent p k) = sp := by
  apply spec_ext
  · rfl
  · funext q k'
    simp only [Spec.put]
    split
    · rename_i h; rw [h.1, h.2]
    · rfl
  · rfl

/-- One call of update. -/
theorem update_step {T : Prop} {maxData : Nat} {st : St} {F L} (h : DInv T st F L) (a : Args) (al : Bool) :
    ∃ st' b F' L', update maxData st a al = some (st', b) ∧ DInv T st' F' L' ∧
      (T → view st' = (view st).step maxData (.update a al)) ∧ st'.items.length = st.items.length ∧
      (Cover st F L → Cover st' F' L') ∧ IndStep st st' a.place ∧
      (∀ q, (st'.subs q).map Subslot.owner = (st.subs q).map Subslot.owner) ∧
      (∀ q, q ≠ a.place → listing st' q = listing st q) := by
  have hsame : (T → view st = (view st).step maxData (.update a al)) →
      ∃ st' b F' L', (some (st, false) : Option (St × Bool)) = some (st', b) ∧ DInv T st' F' L' ∧
      (T → view st' = (view st).step maxData (.update a al)) ∧ st'.items.length = st.items.length ∧
      (Cover st F L → Cover st' F' L') ∧ IndStep st st' a.place ∧
      (∀ q, (st'.subs q).map Subslot.owner = (st.subs q).map Subslot.owner) ∧
      (∀ q, q ≠ a.place → listing st' q = listing st q) :=
    fun hv => ⟨st, false, F, L, rfl, h, hv, rfl, id, Or.inl ⟨rfl, rfl⟩, fun _ => rfl, fun _ _ => rfl⟩
  have hvalid := validUpdate_iff maxData a
  unfold update
  by_cases hv : argsUpdate maxData a = true
  · have hV := hvalid.1 hv
    simp only [hv, Bool.not_true, Bool.false_eq_true, if_false]
    cases hs : st.subs a.place with
    | none =>
      simp only
      apply hsame; intro hT
      unfold Spec.step; dsimp only
      rw [if_neg]
      rintro ⟨hp, _⟩
      simp [view, hs] at hp
    | some s =>
      simp only
      have hpl : (view st).plugged a.place = true := by simp [view, hs]
      rcases findEntry_inv h hs a hV.1 with ⟨h1, h2, h3⟩ | ⟨l1, i, l2, u, f, st1, s1, h1, h2, h3, h4, h5, h6, h7, h8, h9, h10, h11, h12, h13, h14, h15, h16, h17, h18, h19⟩
      · rw [h1]
        simp only [Option.bind_some]
        apply hsame; intro hT
        unfold Spec.step; dsimp only
        rw [if_pos ⟨hpl, hV.1, hV.2⟩, h2 hT, Option.map_none, ← h2 hT, Spec.put_same]
      · rw [h4]
        simp only [Option.bind_some, h5, List.getElem?_eq_getElem h11]
        have hc := h12
        simp only [St.cont, List.getElem?_eq_getElem h11, Option.map_some, Item.cont,
          Option.some.injEq, Prod.mk.injEq] at hc
        obtain ⟨huse, hu, hf⟩ := hc
        have hnew : (T → keyOf (u, updItem a (st1.items[i])) = a.key) ∧
            valOf (u, updItem a (st1.items[i])) = a.change (valOf (u, f)) ∧
            GoodCont T (u, updItem a (st1.items[i])) := by
          unfold updItem usiChannel
          rw [hu, hf]
          rcases h3 with ⟨g1, d, g2⟩ | ⟨g1, x, g2, g3, g4⟩
          · simp only at g1 g2
            subst g2
            rw [if_pos g1]
            exact ⟨fun hT => h2 hT, rfl, Or.inl ⟨g1, _, rfl⟩⟩
          · simp only at g1 g2
            subst g2
            rw [if_neg (by omega)]
            exact ⟨fun hT => h2 hT, rfl, Or.inr ⟨g1, _, rfl, g3, rfl⟩⟩
        obtain ⟨hkey, hval, hgood⟩ := hnew
        have hentp := h16 a.place
        rw [if_pos rfl] at hentp
        rw [hu]
        obtain ⟨st', b, m, e1, e2, e3, e4, e5, e6, e7, e8⟩ :=
          place_spec h15 h5 h11 h13 h14 huse u (updItem a (st1.items[i])) hgood
            (fun hT => by rw [hentp, hkey hT]; exact h19 hT) al
        refine ⟨st', b, F, _, e1, e2, ?_, by rw [e3, h10], ?_, ?_, ?_, ?_⟩
        · intro hT; unfold Spec.step; dsimp only
          rw [if_pos ⟨hpl, hV.1, hV.2⟩, h17 hT, Option.map_some]
          apply spec_ext
          · funext q
            simp only [view, Spec.put]
            rw [e4]
            by_cases hq : q = a.place
            · subst hq; rw [h5, hs]; rfl
            · rw [h7 q hq]
          · rw [view_eq e2.lists, view_eq h.lists]
            funext q k
            simp only [Spec.put, e5 q]
            by_cases hq : q = a.place
            · subst hq
              rw [if_pos rfl, look_cons, hkey hT, hval, hentp, h18 hT]
              by_cases hk : k = a.key
              · simp [hk]
              · simp [hk, Ne.symm hk]
            · rw [h16 q]
              simp [hq]
          · rw [view_eq e2.lists, view_eq h.lists]
            simp [Spec.put]
        · intro hc k hk
          rw [e3, h10] at hk
          rcases hc k hk with hF | ⟨q, hq⟩
          · exact Or.inl hF
          · right
            refine ⟨q, ?_⟩
            by_cases hqp : q = a.place
            · subst hqp
              rw [h1] at hq
              simp only [updL, if_true, List.mem_cons, List.mem_append] at hq ⊢
              rcases hq with hq | hq | hq
              · exact Or.inr (Or.inl hq)
              · exact Or.inl hq
              · exact Or.inr (Or.inr hq)
            · simpa [updL, hqp] using hq
        · right
          refine ⟨s, hs, ?_⟩
          rw [listing_eq e2.lists, e5, if_pos rfl]
          rw [h9, h6] at e8
          exact e8
        · intro q
          by_cases hq : q = a.place
          · subst hq; rw [e6, hs]; simp [h6]
          · rw [e7 q hq, h7 q hq]
        · intro q hq
          rw [listing_eq e2.lists, listing_eq h.lists, e5, if_neg hq, h16, if_neg hq]
  · simp only [hv, Bool.not_false, if_true]
    apply hsame; intro hT
    unfold Spec.step; dsimp only
    rw [if_neg]
    rintro ⟨_, hV⟩
    exact hv (hvalid.2 hV)

/-- One call of remove. -/
theorem remove_step {T : Prop} {maxData : Nat} {st : St} {F L} (h : DInv T st F L) (a : Args) (al : Bool) :
    ∃ st' b F' L', remove st a al = some (st', b) ∧ DInv T st' F' L' ∧
      (T → view st' = (view st).step maxData (.remove a al)) ∧ st'.items.length = st.items.length ∧
      (Cover st F L → Cover st' F' L') ∧ IndStep st st' a.place ∧
      (∀ q, (st'.subs q).map Subslot.owner = (st.subs q).map Subslot.owner) ∧
      (∀ q, q ≠ a.place → listing st' q = listing st q) := by
  have hsame : (T → view st = (view st).step maxData (.remove a al)) →
      ∃ st' b F' L', (some (st, false) : Option (St × Bool)) = some (st', b) ∧ DInv T st' F' L' ∧
      (T → view st' = (view st).step maxData (.remove a al)) ∧ st'.items.length = st.items.length ∧
      (Cover st F L → Cover st' F' L') ∧ IndStep st st' a.place ∧
      (∀ q, (st'.subs q).map Subslot.owner = (st.subs q).map Subslot.owner) ∧
      (∀ q, q ≠ a.place → listing st' q = listing st q) :=
    fun hv => ⟨st, false, F, L, rfl, h, hv, rfl, id, Or.inl ⟨rfl, rfl⟩, fun _ => rfl, fun _ _ => rfl⟩
  have hvalid := valid_iff a
  unfold remove
  by_cases hv : argsCommon a = true
  · have hV := hvalid.1 hv
    simp only [hv, Bool.not_true, Bool.false_eq_true, if_false]
    cases hs : st.subs a.place with
    | none =>
      simp only
      apply hsame; intro hT
      unfold Spec.step; dsimp only
      rw [if_neg]
      rintro ⟨hp, _⟩
      simp [view, hs] at hp
    | some s =>
      simp only
      have hpl : (view st).plugged a.place = true := by simp [view, hs]
      rcases findEntry_inv h hs a hV with ⟨h1, h2, h3⟩ | ⟨l1, i, l2, u, f, st1, s1, h1, h2, h3, h4, h5, h6, h7, h8, h9, h10, h11, h12, h13, h14, h15, h16, h17, h18, h19⟩
      · rw [h1]
        simp only [Option.bind_some]
        apply hsame; intro hT
        unfold Spec.step; dsimp only
        rw [if_neg]
        rintro ⟨_, _, hp⟩
        simp [h2 hT] at hp
      · rw [h4]
        simp only [Option.bind_some]
        obtain ⟨m, u1, u2⟩ := updateSummary_spec h15 h5
        rw [u1]
        simp only [Option.bind_some]
        have hl1 : Lists (setSub st1 a.place { s1 with summary := m }) F (updL L a.place (l1 ++ l2)) := by
          refine h15.lists.congr rfl (fun _ => rfl) rfl (fun q => ?_)
          by_cases hq : q = a.place
          · subst hq; rw [setSub_self, h5]; rfl
          · rw [setSub_ne _ _ hq]
        obtain ⟨f1, f2, f3, f4, f5⟩ := freeDiag_spec hl1 (i := i) h11 h13 h14
        generalize hst2 : freeDiag (setSub st1 a.place { s1 with summary := m }) i = st2 at *
        have hcont : ∀ q, ∀ k ∈ updL L a.place (l1 ++ l2) q, st2.cont k = st1.cont k := fun q k hk =>
          f5 k (by rintro rfl; exact h14 q hk)
        have hents : ∀ q, ents st2 (updL L a.place (l1 ++ l2) q) =
            if q = a.place then ents st (l1 ++ l2) else ents st (L q) := fun q => by
          rw [ents_congr (hcont q), h16 q]
        have hentp : ents st2 (updL L a.place (l1 ++ l2) a.place) = ents st (l1 ++ l2) := by
          rw [hents, if_pos rfl]
        have hsubp : st2.subs a.place = some { s1 with summary := m } := by rw [f2, setSub_self]
        have hsubq : ∀ q, q ≠ a.place → st2.subs q = st.subs q := fun q hq => by
          rw [f2, setSub_ne _ _ hq, h7 q hq]
        have hused2 : ∀ (q : Place) (k : Nat), k ∈ updL L a.place (l1 ++ l2) q →
            ∃ u f, st2.cont k = some (true, u, f) ∧ GoodCont T (u, f) := fun q k hk => by
          rw [hcont q k hk]; exact h15.used q k hk
        have hD : ∀ st' : St, st'.items = st2.items → st'.free = st2.free → st'.subs = st2.subs →
            DInv T st' (i :: F) (updL L a.place (l1 ++ l2)) := by
          intro st' g1 g2 g3
          have hc : ∀ k, st'.cont k = st2.cont k := fun k => by simp [St.cont, g1]
          refine ⟨f1.congr (by rw [g1]) (fun k => by rw [g1]) g2 (fun q => by rw [g3]),
            fun q k hk => by rw [hc]; exact hused2 q k hk, fun hT q => ?_, fun q sq hsq => ?_⟩
          · rw [ents_congr (fun k _ => hc k), ents_congr (hcont q)]; exact h15.keys hT q
          · rw [ents_congr (fun k _ => hc k), ents_congr (hcont q)]
            rw [g3] at hsq
            by_cases hq : q = a.place
            · subst hq; rw [hsubp] at hsq; cases hsq; exact u2
            · rw [f2, setSub_ne _ _ hq] at hsq
              exact h15.sums q sq hq hsq
        have hrest : ∀ st' : St, ∀ b : Bool, st'.items = st2.items → st'.free = st2.free →
            st'.subs = st2.subs → IndOk st' st.problem s.owner (ents st (l1 ++ l2)) →
            ∃ st'' b' F' L', some (st', b) = some (st'', b') ∧ DInv T st'' F' L' ∧
      (T → view st'' = (view st).step maxData (.remove a al)) ∧ st''.items.length = st.items.length ∧
      (Cover st F L → Cover st'' F' L') ∧ IndStep st st'' a.place ∧
      (∀ q, (st''.subs q).map Subslot.owner = (st.subs q).map Subslot.owner) ∧
      (∀ q, q ≠ a.place → listing st'' q = listing st q) := by
          intro st' b g1 g2 g3 g4
          have hd := hD st' g1 g2 g3
          have hen : ∀ l, ents st' l = ents st2 l := fun l =>
            ents_congr (fun k _ => by simp [St.cont, g1])
          refine ⟨st', b, i :: F, _, rfl, hd, ?_, ?_, ?_, ?_, ?_, ?_⟩
          · intro hT; unfold Spec.step; dsimp only
            rw [if_pos ⟨hpl, hV, by rw [h17 hT]; rfl⟩]
            apply spec_ext
            · funext q
              simp only [view, Spec.put]
              rw [g3]
              by_cases hq : q = a.place
              · subst hq; rw [hsubp, hs]; rfl
              · rw [hsubq q hq]
            · rw [view_eq hd.lists, view_eq h.lists]
              funext q k
              simp only [Spec.put, hen, hents q]
              by_cases hq : q = a.place
              · subst hq
                rw [if_pos rfl, h18 hT]
                simp
              · simp [hq]
            · rw [view_eq hd.lists, view_eq h.lists]
              simp [Spec.put]
          · rw [g1, f3]; exact h10
          · intro hc k hk
            rw [g1, f3] at hk
            rcases hc k (by rw [← h10]; exact hk) with hF | ⟨q, hq⟩
            · exact Or.inl (List.mem_cons_of_mem _ hF)
            · by_cases hqp : q = a.place
              · subst hqp
                rw [h1] at hq
                simp only [List.mem_cons, List.mem_append] at hq
                rcases hq with hq | rfl | hq
                · exact Or.inr ⟨a.place, by simp [updL, hq]⟩
                · exact Or.inl (by simp)
                · exact Or.inr ⟨a.place, by simp [updL, hq]⟩
              · exact Or.inr ⟨q, by simpa [updL, hqp] using hq⟩
          · right
            refine ⟨s, hs, ?_⟩
            rw [listing_eq hd.lists, hen, hentp]
            exact g4
          · intro q
            rw [g3]
            by_cases hq : q = a.place
            · subst hq; rw [hsubp, hs]; simp [h6]
            · rw [hsubq q hq]
          · intro q hq
            rw [listing_eq hd.lists, listing_eq h.lists, hen, hents, if_neg hq]
        cases ho : s.owner with
        | none =>
          simp only
          refine hrest st2 false rfl rfl rfl ⟨fun ar har => by simp [ho] at har, fun j _ => ?_⟩
          rw [f4]
          exact congrFun h9 j
        | some ar =>
          simp only [updateIndicator, hsubp]
          have hw : st2.walk s1.head = some (updL L a.place (l1 ++ l2) a.place) :=
            f1.walk (s := { s1 with summary := m }) hsubp
          rw [hw]
          simp only [Option.map_some]
          refine hrest _ al rfl rfl rfl ⟨fun ar' har => ?_, fun j hj => ?_⟩
          · rw [ho] at har
            cases har
            simp only [if_true]
            rw [← hentp]
            exact anyItem_iff (st := st2) (hused2 _) problem_iff
          · dsimp only
            rw [if_neg, f4]
            · exact congrFun h9 j
            · rintro rfl
              exact hj ho
  · simp only [hv, Bool.not_false, if_true]
    apply hsame; intro hT
    unfold Spec.step; dsimp only
    rw [if_neg]
    rintro ⟨_, hV, _⟩
    exact hv (hvalid.2 hV)

end Verif.Diag
