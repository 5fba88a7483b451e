import Verif.Diag.Model
import Mathlib.Data.List.Nodup
import Mathlib.Data.List.Perm.Subperm

/-!
Linked lists of the diagnosis store.
-/
set_option linter.unusedSimpArgs false
set_option linter.unusedVariables false

namespace Verif.Diag

/-! ## Chains -/

/-- The list starting at `h` visits exactly the indices `l`. -/
def Chain (items : List Item) : Nat → List Nat → Prop
  | h, [] => h = nul
  | h, i :: l => h = i ∧ ∃ it, items[i]? = some it ∧ Chain items it.next l

theorem Chain.mem_lt {items : List Item} {h : Nat} {l : List Nat} (hc : Chain items h l) :
    ∀ i ∈ l, i < items.length := by
  induction l generalizing h with
  | nil => simp
  | cons a l ih =>
    obtain ⟨rfl, it, hi, hl⟩ := hc
    intro i hm
    rcases List.mem_cons.1 hm with rfl | hm
    · exact (List.getElem?_eq_some_iff.1 hi).1
    · exact ih hl i hm

theorem nodup_length_le {l : List Nat} {n : Nat} (hn : l.Nodup) (hl : ∀ i ∈ l, i < n) :
    l.length ≤ n := by
  have := (List.Nodup.subperm hn (l₂ := List.range n) (fun i hi => List.mem_range.2 (hl i hi))).length_le
  simpa using this

theorem Chain.congr {items items' : List Item} {h : Nat} {l : List Nat} (hc : Chain items h l)
    (he : ∀ i ∈ l, (items'[i]?).map Item.next = (items[i]?).map Item.next) : Chain items' h l := by
  induction l generalizing h with
  | nil => exact hc
  | cons a l ih =>
    obtain ⟨rfl, it, hi, hl⟩ := hc
    have := he h (by simp)
    rw [hi] at this
    cases hj : items'[h]? with
    | none => simp [hj] at this
    | some it' =>
      rw [hj] at this
      simp only [Option.map_some, Option.some.injEq] at this
      exact ⟨rfl, it', hj, this ▸ ih hl (fun i hm => he i (by simp [hm]))⟩

theorem Chain.walk {items : List Item} {h : Nat} {l : List Nat} (hn : items.length ≤ nul)
    (hc : Chain items h l) (f : Nat) (hf : l.length < f) : Diag.walk items f h = some l := by
  induction l generalizing h f with
  | nil =>
    cases f with
    | zero => simp at hf
    | succ f =>
      have : items[h]? = none := by
        rw [List.getElem?_eq_none_iff, hc]; exact hn
      simp [Diag.walk, this]
  | cons a l ih =>
    cases f with
    | zero => simp at hf
    | succ f =>
      obtain ⟨rfl, it, hi, hl⟩ := hc
      simp only [Diag.walk, hi, ih hl f (by simpa using hf), Option.map_some]

theorem Chain.findLoop {items : List Item} {m : Item → Bool} {h : Nat} {l : List Nat}
    (hn : items.length ≤ nul) (hc : Chain items h l) (prev : Option Nat) (f : Nat) (hf : l.length < f) :
    (Diag.findLoop items m f prev h = some none ∧
      ∀ i ∈ l, ∀ it, items[i]? = some it → m it = false) ∨
    ∃ l1 i l2 it, l = l1 ++ i :: l2 ∧ items[i]? = some it ∧ m it = true ∧
      (∀ j ∈ l1, ∀ it', items[j]? = some it' → m it' = false) ∧
      Diag.findLoop items m f prev h =
        some (some (if l1 = [] then prev else l1.getLast?, i)) := by
  induction l generalizing h f prev with
  | nil =>
    cases f with
    | zero => simp at hf
    | succ f =>
      left
      have : items[h]? = none := by
        rw [List.getElem?_eq_none_iff, hc]; exact hn
      simp [Diag.findLoop, this]
  | cons a l ih =>
    cases f with
    | zero => simp at hf
    | succ f =>
      obtain ⟨rfl, it, hi, hl⟩ := hc
      simp only [Diag.findLoop, hi]
      cases hm : m it with
      | true =>
        right
        exact ⟨[], h, l, it, rfl, hi, hm, by simp, by simp⟩
      | false =>
        simp only [Bool.false_eq_true, if_false]
        rcases ih hl (some h) f (by simpa using hf) with ⟨h1, h2⟩ | ⟨l1, i, l2, it', h1, h2, h3, h4, h5⟩
        · left
          refine ⟨h1, ?_⟩
          intro i him it'' hit
          rcases List.mem_cons.1 him with rfl | him
          · rw [hi] at hit; cases hit; exact hm
          · exact h2 i him it'' hit
        · right
          refine ⟨h :: l1, i, l2, it', by rw [h1]; rfl, h2, h3, ?_, ?_⟩
          · intro j hj it'' hit
            rcases List.mem_cons.1 hj with rfl | hj
            · rw [hi] at hit; cases hit; exact hm
            · exact h4 j hj it'' hit
          · rw [h5]
            cases l1 with
            | nil => simp
            | cons b l1 => simp [List.getLast?_cons_cons]

theorem Chain.split {items : List Item} {h : Nat} {l1 : List Nat} {i : Nat} {l2 : List Nat}
    (hc : Chain items h (l1 ++ i :: l2)) : ∃ it, items[i]? = some it ∧ Chain items it.next l2 := by
  induction l1 generalizing h with
  | nil => exact ⟨_, hc.2.choose_spec.1, hc.2.choose_spec.2⟩
  | cons a l1 ih =>
    obtain ⟨rfl, it, hi, hl⟩ := hc
    exact ih hl

theorem getElem_modify {items : List Item} {i j : Nat} {f : Item → Item} :
    (items.modify i f)[j]? = if i = j then (items[j]?).map f else items[j]? := by
  rw [List.getElem?_modify]
  by_cases h : i = j
  · simp [h]
  · simp [h]

/-- Unlinking an item that is not the first. -/
theorem Chain.unlink {items : List Item} {h : Nat} {l1 : List Nat} {i j : Nat} {l2 : List Nat} {it : Item}
    (hc : Chain items h (l1 ++ j :: i :: l2)) (hnd : (l1 ++ j :: i :: l2).Nodup)
    (hi : items[i]? = some it) :
    Chain (items.modify j (fun x => { x with next := it.next })) h (l1 ++ j :: l2) := by
  induction l1 generalizing h with
  | nil =>
    obtain ⟨rfl, it', hj, rfl', it'', hi', hl⟩ := hc
    rw [hi] at hi'
    cases hi'
    refine ⟨rfl, { it' with next := it.next }, by rw [getElem_modify]; simp [hj], ?_⟩
    refine hl.congr ?_
    intro k hk
    rw [getElem_modify, if_neg]
    rintro rfl
    simp at hnd
    exact hnd.1.2 hk
  | cons a l1 ih =>
    obtain ⟨rfl, it', ha, hl⟩ := hc
    have hnd' : (l1 ++ j :: i :: l2).Nodup := (List.nodup_cons.1 hnd).2
    have hne : j ≠ h := by
      rintro rfl
      simp at hnd
    refine ⟨rfl, it', by rw [getElem_modify, if_neg hne]; exact ha, ih hl hnd'⟩

/-! ## All lists -/

/-- Contents of an item apart from the link. -/
def Item.cont (it : Item) : Bool × Nat × Fmt := (it.inUse, it.usi, it.fmt)

def St.cont (st : St) (i : Nat) : Option (Bool × Nat × Fmt) := (st.items[i]?).map Item.cont

/-- `F` is the list of free items, `L p` the list of the submodule at `p`. -/
structure Lists (st : St) (F : List Nat) (L : Place → List Nat) : Prop where
  len : st.items.length ≤ nul
  chainF : Chain st.items st.free F
  chain : ∀ (p : Place) (s : Subslot), st.subs p = some s → Chain st.items s.head (L p)
  empty : ∀ (p : Place), st.subs p = none → L p = []
  ndF : F.Nodup
  nd : ∀ (p : Place), (L p).Nodup
  disjF : ∀ (p : Place) (i : Nat), i ∈ F → i ∉ L p
  disj : ∀ (p q : Place) (i : Nat), p ≠ q → i ∈ L p → i ∉ L q

def updL (L : Place → List Nat) (p : Place) (l : List Nat) : Place → List Nat :=
  fun q => if q = p then l else L q

section
variable {st : St} {F : List Nat} {L : Place → List Nat}

theorem Lists.mem_lt (h : Lists st F L) {p : Place} {i : Nat} (hi : i ∈ L p) : i < st.items.length := by
  cases hs : st.subs p with
  | none => rw [h.empty p hs] at hi; simp at hi
  | some s => exact (h.chain p s hs).mem_lt i hi

theorem Lists.walk (h : Lists st F L) {p : Place} {s : Subslot} (hs : st.subs p = some s) :
    st.walk s.head = some (L p) := by
  have hc := h.chain p s hs
  exact hc.walk h.len _ (Nat.lt_succ_of_le (nodup_length_le (h.nd p) hc.mem_lt))

theorem Lists.walkF (h : Lists st F L) : st.walk st.free = some F :=
  h.chainF.walk h.len _ (Nat.lt_succ_of_le (nodup_length_le h.ndF h.chainF.mem_lt))

/-- Changing nothing but owner, summary or contents. -/
theorem Lists.congr {st' : St} (h : Lists st F L) (hl : st'.items.length = st.items.length)
    (hn : ∀ i : Nat, (st'.items[i]?).map Item.next = (st.items[i]?).map Item.next)
    (hf : st'.free = st.free)
    (hs : ∀ p : Place, (st'.subs p).map Subslot.head = (st.subs p).map Subslot.head) : Lists st' F L := by
  refine ⟨hl ▸ h.len, hf ▸ h.chainF.congr (fun i _ => hn i), ?_, ?_, h.ndF, h.nd, h.disjF, h.disj⟩
  · intro p s hp
    have := hs p
    rw [hp] at this
    cases hq : st.subs p with
    | none => rw [hq] at this; simp at this
    | some s0 =>
      rw [hq] at this
      simp only [Option.map_some, Option.some.injEq] at this
      rw [this]
      exact (h.chain p s0 hq).congr (fun i _ => hn i)
  · intro p hp
    have := hs p
    rw [hp] at this
    cases hq : st.subs p with
    | none => exact h.empty p hq
    | some s0 => rw [hq] at this; simp at this

theorem setSub_self (st : St) (p : Place) (s : Subslot) : (setSub st p s).subs p = some s := by
  simp [setSub]

theorem setSub_ne (st : St) {p q : Place} (s : Subslot) (h : q ≠ p) :
    (setSub st p s).subs q = st.subs q := by simp [setSub, h]

/-- What [findEntry] does. -/
theorem findEntry_spec (h : Lists st F L) {p : Place} {s : Subslot} (hs : st.subs p = some s)
    (c : Chan) (usi : Nat) :
    (findEntry st p s c usi = some (st, none) ∧
      ∀ i ∈ L p, ∀ it, st.items[i]? = some it → matches? c usi it = false) ∨
    ∃ l1 i l2 it st' s', L p = l1 ++ i :: l2 ∧ st.items[i]? = some it ∧ matches? c usi it = true ∧
      findEntry st p s c usi = some (st', some i) ∧
      st'.subs p = some s' ∧ s'.owner = s.owner ∧ s'.summary = s.summary ∧
      (∀ q, q ≠ p → st'.subs q = st.subs q) ∧ st'.free = st.free ∧ st'.problem = st.problem ∧
      st'.items.length = st.items.length ∧ (∀ j, st'.cont j = st.cont j) ∧
      Lists st' F (updL L p (l1 ++ l2)) := by
  have hc := h.chain p s hs
  have hlen := nodup_length_le (h.nd p) hc.mem_lt
  unfold findEntry
  rcases hc.findLoop (m := matches? c usi) h.len none (st.items.length + 1) (by omega) with
    ⟨h1, h2⟩ | ⟨l1, i, l2, it, h1, h2, h3, h4, h5⟩
  · left
    rw [h1]
    exact ⟨rfl, h2⟩
  · right
    rw [h5]
    simp only [Option.bind_some, h2]
    have hnd := h.nd p
    rw [h1] at hnd hc
    have hndl : (l1 ++ l2).Nodup := by
      refine hnd.sublist ?_
      exact List.Sublist.append_left (List.sublist_cons_self i l2) l1
    have hsubl : ∀ k, k ∈ l1 ++ l2 → k ∈ L p := by
      intro k hk
      rw [h1]
      rcases List.mem_append.1 hk with hk | hk
      · exact List.mem_append.2 (Or.inl hk)
      · exact List.mem_append.2 (Or.inr (List.mem_cons.2 (Or.inr hk)))
    have hfin : ∀ st' : St, st'.items.length = st.items.length →
        (∀ k : Nat, k ∉ L p → (st'.items[k]?).map Item.next = (st.items[k]?).map Item.next) →
        st'.free = st.free → (∀ q, q ≠ p → st'.subs q = st.subs q) →
        (∃ s', st'.subs p = some s' ∧ Chain st'.items s'.head (l1 ++ l2)) →
        Lists st' F (updL L p (l1 ++ l2)) := by
      intro st' e1 e2 e3 e4 e5
      obtain ⟨s', e5, e6⟩ := e5
      refine ⟨e1 ▸ h.len, ?_, ?_, ?_, h.ndF, ?_, ?_, ?_⟩
      · rw [e3]
        exact h.chainF.congr (fun k hk => e2 k (h.disjF p k hk))
      · intro q sq hq
        by_cases hqp : q = p
        · subst hqp
          rw [e5] at hq
          cases hq
          simpa [updL] using e6
        · rw [e4 q hqp] at hq
          simp only [updL, if_neg hqp]
          exact (h.chain q sq hq).congr (fun k hk => e2 k (h.disj q p k hqp hk))
      · intro q hq
        by_cases hqp : q = p
        · subst hqp
          rw [e5] at hq; simp at hq
        · rw [e4 q hqp] at hq
          simp only [updL, if_neg hqp]
          exact h.empty q hq
      · intro q
        by_cases hqp : q = p
        · simpa [updL, hqp] using hndl
        · simpa [updL, hqp] using h.nd q
      · intro q k hk
        by_cases hqp : q = p
        · simp only [updL, if_pos hqp]
          exact fun hm => h.disjF p k hk (hsubl k hm)
        · simpa [updL, hqp] using h.disjF q k hk
      · intro q r k hqr hk
        by_cases hqp : q = p
        · have hrp : r ≠ p := fun hh => hqr (hqp.trans hh.symm)
          simp only [updL, if_pos hqp] at hk
          simp only [updL, if_neg hrp]
          exact h.disj p r k (Ne.symm hrp) (hsubl k hk)
        · simp only [updL, if_neg hqp] at hk
          by_cases hrp : r = p
          · simp only [updL, if_pos hrp]
            exact fun hm => h.disj q p k hqp hk (hsubl k hm)
          · simpa [updL, hrp] using h.disj q r k hqr hk
    rcases List.eq_nil_or_concat l1 with rfl | ⟨l1', j, rfl⟩
    · simp only [if_true, unlink]
      refine ⟨[], i, l2, it, _, { s with head := it.next }, h1, h2, h3, rfl, setSub_self _ _ _, rfl,
        rfl, fun q hq => setSub_ne _ _ hq, rfl, rfl, rfl, fun _ => rfl, ?_⟩
      refine hfin _ rfl (fun _ _ => rfl) rfl (fun q hq => setSub_ne _ _ hq)
        ⟨_, setSub_self _ _ _, ?_⟩
      obtain ⟨it', hi', hl⟩ := hc.split
      rw [h2] at hi'
      cases hi'
      exact hl
    · have hlast : (l1'.concat j).getLast? = some j := by simp
      have hne : l1'.concat j ≠ [] := by simp
      simp only [if_neg hne, hlast, unlink]
      have hcat : ∀ l : List Nat, l1'.concat j ++ l = l1' ++ j :: l := by intro l; simp
      have hj : j ∈ L p := by rw [h1]; simp
      refine ⟨_, i, l2, it, _, s, h1, h2, h3, rfl, hs, rfl, rfl, fun q _ => rfl, rfl, rfl,
        by simp [setNext], ?_, ?_⟩
      · intro k
        simp only [St.cont, setNext, getElem_modify]
        split
        · cases st.items[k]? <;> rfl
        · rfl
      · refine hfin _ (by simp [setNext]) ?_ rfl (fun _ _ => rfl) ⟨s, hs, ?_⟩
        · intro k hk
          simp only [setNext, getElem_modify]
          rw [if_neg]
          rintro rfl
          exact hk hj
        · rw [hcat] at hc hnd ⊢
          exact hc.unlink hnd h2

/-- What [newDiag] does. -/
theorem newDiag_spec (h : Lists st F L) :
    (F = [] ∧ newDiag st = some (st, none)) ∨
    ∃ i F' st', F = i :: F' ∧ newDiag st = some (st', some i) ∧ st'.subs = st.subs ∧
      st'.problem = st.problem ∧ st'.items.length = st.items.length ∧ i < st.items.length ∧
      st'.cont i = some (true, 0, .manuf []) ∧ (∀ j, j ≠ i → st'.cont j = st.cont j) ∧
      i ∉ F' ∧ (∀ q, i ∉ L q) ∧ Lists st' F' L := by
  have hF := h.chainF
  have hnd := h.ndF
  unfold newDiag
  cases F with
  | nil =>
    left
    have : st.free = nul := hF
    simp [this]
  | cons i F' =>
    right
    obtain ⟨e, it, hi, hl⟩ := hF
    have hlt := (List.getElem?_eq_some_iff.1 hi).1
    have hne : st.free ≠ nul := by
      have := h.len
      omega
    rw [if_neg hne]
    rw [← e] at hi hlt
    simp only [hi]
    have hi' : i ∉ F' := (List.nodup_cons.1 hnd).1
    have hset : ∀ j : Nat, j ≠ st.free → ∀ x, (st.items.set st.free x)[j]? = st.items[j]? := by
      intro j hj x
      rw [List.getElem?_set, if_neg (fun hh => hj hh.symm)]
    refine ⟨i, F', ⟨st.items.set st.free ⟨true, 0, .manuf [], 0⟩, it.next, st.subs, st.problem⟩,
        rfl, by rw [← e]; rfl, rfl, rfl, by simp, e ▸ hlt, ?_, ?_, hi',
      fun q => h.disjF q i (by simp), ?_⟩
    · subst e
      simp [St.cont, hlt, Item.cont, Item.zero]
    · intro j hj
      simp only [St.cont]
      rw [hset j (by rw [e]; exact hj)]
    · refine ⟨by simpa using h.len, ?_, ?_, h.empty, (List.nodup_cons.1 hnd).2, h.nd,
        fun q k hk => h.disjF q k (by simp [hk]), h.disj⟩
      · refine hl.congr ?_
        intro k hk
        simp only
        rw [hset k (by rw [e]; rintro rfl; exact hi' hk)]
      · intro q s hq
        refine (h.chain q s hq).congr ?_
        intro k hk
        simp only
        rw [hset k (by rw [e]; rintro rfl; exact h.disjF q k (by simp) hk)]

/-- What [link] does. -/
theorem link_spec (h : Lists st F L) {p : Place} {s : Subslot} (hs : st.subs p = some s) {i : Nat}
    (hi : i < st.items.length) (hF : i ∉ F) (hL : ∀ q, i ∉ L q) (usi : Nat) (f : Fmt) :
    Lists (link st p s i usi f) F (updL L p (i :: L p)) ∧
    (link st p s i usi f).cont i = some (((st.items[i]).inUse), usi, f) ∧
    (∀ j, j ≠ i → (link st p s i usi f).cont j = st.cont j) := by
  have hget : ∀ j : Nat, (link st p s i usi f).items[j]? =
      if i = j then (st.items[j]?).map (fun it => { it with usi := usi, fmt := f, next := s.head })
      else st.items[j]? := by
    intro j
    simp only [link, setSub]
    rw [getElem_modify]
  have hne : ∀ j : Nat, j ≠ i → (link st p s i usi f).items[j]? = st.items[j]? := by
    intro j hj
    rw [hget, if_neg (fun hh => hj hh.symm)]
  have hii := List.getElem?_eq_getElem hi
  refine ⟨⟨?_, ?_, ?_, ?_, h.ndF, ?_, ?_, ?_⟩, ?_, ?_⟩
  · simpa [link, setSub] using h.len
  · refine h.chainF.congr ?_
    intro k hk
    rw [hne k (by rintro rfl; exact hF hk)]
  · intro q sq hq
    by_cases hqp : q = p
    · subst hqp
      have : sq = { s with head := i } := by
        simp only [link, setSub_self] at hq
        exact (Option.some.inj hq).symm
      subst this
      simp only [updL, if_true]
      refine ⟨rfl, _, by rw [hget, if_pos rfl, hii]; rfl, ?_⟩
      simp only
      refine (h.chain q s hs).congr ?_
      intro k hk
      rw [hne k (by rintro rfl; exact hL q hk)]
    · simp only [link, setSub_ne _ _ hqp] at hq
      simp only [updL, if_neg hqp]
      refine (h.chain q sq hq).congr ?_
      intro k hk
      rw [hne k (by rintro rfl; exact hL q hk)]
  · intro q hq
    by_cases hqp : q = p
    · subst hqp
      simp [link, setSub_self] at hq
    · simp only [link, setSub_ne _ _ hqp] at hq
      simp only [updL, if_neg hqp]
      exact h.empty q hq
  · intro q
    by_cases hqp : q = p
    · simp only [updL, if_pos hqp]
      exact List.nodup_cons.2 ⟨hL p, h.nd p⟩
    · simpa [updL, hqp] using h.nd q
  · intro q k hk
    by_cases hqp : q = p
    · simp only [updL, if_pos hqp, List.mem_cons, not_or]
      exact ⟨fun hh => hF (hh ▸ hk), h.disjF p k hk⟩
    · simpa [updL, hqp] using h.disjF q k hk
  · intro q r k hqr hk
    by_cases hqp : q = p
    · have hrp : r ≠ p := fun hh => hqr (hqp.trans hh.symm)
      simp only [updL, if_pos hqp, List.mem_cons] at hk
      simp only [updL, if_neg hrp]
      rcases hk with rfl | hk
      · exact hL r
      · exact h.disj p r k (Ne.symm hrp) hk
    · simp only [updL, if_neg hqp] at hk
      by_cases hrp : r = p
      · simp only [updL, if_pos hrp, List.mem_cons, not_or]
        exact ⟨fun hh => hL q (hh ▸ hk), h.disj q p k hqp hk⟩
      · simpa [updL, hrp] using h.disj q r k hqr hk
  · simp [St.cont, hget, hii, Item.cont]
  · intro j hj
    simp only [St.cont, hne j hj]

/-- What [freeDiag] does. -/
theorem freeDiag_spec (h : Lists st F L) {i : Nat} (hi : i < st.items.length) (hF : i ∉ F)
    (hL : ∀ q, i ∉ L q) :
    Lists (freeDiag st i) (i :: F) L ∧ (freeDiag st i).subs = st.subs ∧
    (freeDiag st i).items.length = st.items.length ∧ (freeDiag st i).problem = st.problem ∧
    (∀ j, j ≠ i → (freeDiag st i).cont j = st.cont j) := by
  unfold freeDiag
  rw [if_pos hi]
  have hne : ∀ (f : Item → Item) (j : Nat), j ≠ i → (st.items.modify i f)[j]? = st.items[j]? := by
    intro f j hj
    rw [getElem_modify, if_neg (fun hh => hj hh.symm)]
  have hii := List.getElem?_eq_getElem hi
  refine ⟨⟨by simpa using h.len, ?_, ?_, h.empty, List.nodup_cons.2 ⟨hF, h.ndF⟩, h.nd, ?_, h.disj⟩, rfl,
    by simp, rfl, ?_⟩
  · refine ⟨rfl, _, by rw [getElem_modify, if_pos rfl, hii]; rfl, ?_⟩
    simp only
    refine h.chainF.congr ?_
    intro k hk
    rw [hne _ k (by rintro rfl; exact hF hk)]
  · intro q s hq
    refine (h.chain q s hq).congr ?_
    intro k hk
    simp only
    rw [hne _ k (by rintro rfl; exact hL q hk)]
  · intro q k hk
    rcases List.mem_cons.1 hk with rfl | hk
    · exact hL q
    · exact h.disjF q k hk
  · intro j hj
    simp only [St.cont, hne _ j hj]

end

/-- The initial state. -/
theorem lists_init (n : Nat) (hn : n ≤ nul) : Lists (init n) (List.range n) (fun _ => []) := by
  refine ⟨by simpa [init] using hn, ?_, ?_, fun _ _ => rfl, List.nodup_range, fun _ => List.nodup_nil,
    by simp, by simp⟩
  · have key : ∀ k m, m + k = n → k ≤ n → Chain (init n).items (if m < n then m else nul) (List.range' m k) := by
      intro k
      induction k with
      | zero =>
        intro m hm _
        simp only [List.range', Chain]
        rw [if_neg (by omega)]
      | succ k ih =>
        intro m hm hk
        rw [if_pos (by omega)]
        simp only [List.range', Chain, true_and]
        refine ⟨{ Item.zero with next := if m + 1 < n then m + 1 else nul }, ?_, ?_⟩
        · simp [init, show m < n by omega]
        · exact ih (m + 1) (by omega) (by omega)
    have h0 := key n 0 (by omega) (Nat.le_refl _)
    rw [← List.range_eq_range'] at h0
    have : (init n).free = if 0 < n then 0 else nul := by
      simp only [init]
      by_cases h : n = 0
      · simp [h]
      · simp [h, Nat.pos_of_ne_zero h]
    rw [this]
    exact h0
  · intro p s hs
    simp [init] at hs

end Verif.Diag
