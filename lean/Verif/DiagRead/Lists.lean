import Verif.DiagRead.Emit
import Verif.DiagRead.Spec
import Verif.Diag.Final

/-! The blocks of one submodule. -/
set_option linter.unusedSimpArgs false
set_option linter.unusedVariables false

namespace Verif.DiagRead
open Verif.Diag
open Verif.Device hiding St view step exec listing Inv Op init
open Verif.Wire hiding ExpApi ExpMod ExpSub

/-! ## Identifiers that are stored -/

def UsiOk (u : Nat) : Prop := u ≤ 0x8003 ∧ u ≠ 0x8001

def UOk (st : St) : Prop := ∀ it ∈ st.items, UsiOk it.usi

theorem usi_modify {items : List Item} {i : Nat} {f : Item → Item} (h : ∀ it ∈ items, UsiOk it.usi)
    (hf : ∀ it, UsiOk it.usi → UsiOk (f it).usi) : ∀ it ∈ items.modify i f, UsiOk it.usi := by
  intro it hit
  obtain ⟨j, hj⟩ := List.getElem?_of_mem hit
  rw [List.getElem?_modify] at hj
  cases hi : items[j]? with
  | none => rw [hi] at hj; simp at hj
  | some x =>
    rw [hi] at hj
    have hx := h x (List.mem_of_getElem? hi)
    simp only [Option.map_some, Option.map_eq_map, Option.some.injEq] at hj
    split at hj
    · rw [← hj]; exact hf _ hx
    · rw [← hj]; exact hx

theorem uok_setSub {st : St} {p : Place} {s : Subslot} (h : UOk st) : UOk (setSub st p s) := h

theorem uok_unlink {st : St} {p : Place} {s : Subslot} {prev : Option Nat} {it : Item} (h : UOk st) :
    UOk (unlink st p s prev it) := by
  unfold unlink
  cases prev with
  | none => exact h
  | some i => exact usi_modify h (fun _ h => h)

theorem uok_findEntry {st st' : St} {p : Place} {s : Subslot} {c : Chan} {usi : Nat} {r : Option Nat} (h : UOk st)
    (he : findEntry st p s c usi = some (st', r)) : UOk st' := by
  unfold findEntry at he
  cases hf : findLoop st.items (matches? c usi) (st.items.length + 1) none s.head with
  | none => rw [hf] at he; cases he
  | some x =>
    rw [hf, Option.bind_some] at he
    cases x with
    | none =>
      cases Option.some.inj he
      exact h
    | some y =>
      dsimp only at he
      cases hi : st.items[y.2]? with
      | none => rw [hi] at he; cases he
      | some it =>
        rw [hi] at he
        cases Option.some.inj he
        exact uok_unlink h

theorem uok_newDiag {st st' : St} {r : Option Nat} (h : UOk st) (he : newDiag st = some (st', r)) : UOk st' := by
  unfold newDiag at he
  split at he
  · cases Option.some.inj he
    exact h
  · cases hi : st.items[st.free]? with
    | none => rw [hi] at he; cases he
    | some it =>
      rw [hi] at he
      cases Option.some.inj he
      intro x hx
      rcases List.mem_or_eq_of_mem_set hx with hx | rfl
      · exact h x hx
      · exact ⟨by simp [Item.zero], by simp [Item.zero]⟩

theorem uok_updateSummary {st st' : St} {p : Place} (h : UOk st) (he : updateSummary st p = some st') : UOk st' := by
  unfold updateSummary at he
  cases hs : st.subs p with
  | none => rw [hs] at he; cases he
  | some s =>
    rw [hs] at he
    dsimp only at he
    cases hw : st.walk s.head with
    | none => rw [hw] at he; cases he
    | some l =>
      rw [hw] at he
      cases Option.some.inj he
      exact h

theorem uok_updateIndicator {st st' : St} {ar : Nat} {p : Place} (h : UOk st)
    (he : updateIndicator st ar p = some st') : UOk st' := by
  unfold updateIndicator at he
  cases hs : st.subs p with
  | none => rw [hs] at he; cases he
  | some s =>
    rw [hs] at he
    dsimp only at he
    cases hw : st.walk s.head with
    | none => rw [hw] at he; cases he
    | some l =>
      rw [hw] at he
      cases Option.some.inj he
      exact h

theorem uok_finish {st st' : St} {p : Place} {al b : Bool} (h : UOk st) (he : finish st p al = some (st', b)) :
    UOk st' := by
  unfold finish at he
  cases hu : updateSummary st p with
  | none => rw [hu] at he; cases he
  | some s1 =>
    rw [hu, Option.bind_some] at he
    have h1 := uok_updateSummary h hu
    cases ho : (s1.subs p).bind Subslot.owner with
    | none =>
      rw [ho] at he
      cases Option.some.inj he
      exact h1
    | some ar =>
      rw [ho] at he
      dsimp only at he
      cases hi : updateIndicator s1 ar p with
      | none => rw [hi] at he; cases he
      | some s2 =>
        rw [hi] at he
        cases Option.some.inj he
        exact uok_updateIndicator h1 hi

theorem uok_link {st : St} {p : Place} {s : Subslot} {ix usi : Nat} {f : Fmt} (h : UOk st) (hu : UsiOk usi) :
    UOk (link st p s ix usi f) := usi_modify h (fun _ _ => hu)

theorem usiOk_of_args {a : Args} (h : argsCommon a = true) : UsiOk a.usi := by
  rw [valid_iff] at h
  obtain ⟨_, h⟩ := h
  unfold UsiOk
  omega

theorem uok_step {maxData : Nat} {st st' : St} {o : Op} {b : Bool} (h : UOk st)
    (he : step maxData st o = some (st', b)) : UOk st' := by
  cases o with
  | add a al =>
    simp only [step, add] at he
    by_cases ha : argsAdd maxData a = true
    case neg =>
      rw [if_pos (by simpa using ha)] at he
      cases Option.some.inj he
      exact h
    rw [if_neg (by simp [ha])] at he
    have hu : UsiOk a.usi := usiOk_of_args (by
      unfold argsAdd at ha
      simp only [Bool.and_eq_true] at ha
      exact ha.1.1.1.1.1)
    cases hs : st.subs a.place with
    | none =>
      rw [hs] at he
      cases Option.some.inj he
      exact h
    | some s =>
      rw [hs] at he
      dsimp only at he
      cases hf : findEntry st a.place s a.chan a.usi with
      | none => rw [hf] at he; cases he
      | some r =>
        rw [hf, Option.bind_some] at he
        obtain ⟨s1, r⟩ := r
        have h1 := uok_findEntry h hf
        dsimp only at he
        cases r with
        | some ix =>
          dsimp only [Option.bind_some] at he
          cases hs1 : s1.subs a.place with
          | none => rw [hs1] at he; cases he
          | some x =>
            rw [hs1] at he
            exact uok_finish (uok_link h1 hu) he
        | none =>
          dsimp only at he
          cases hn : newDiag s1 with
          | none => rw [hn] at he; cases he
          | some q =>
            rw [hn, Option.bind_some] at he
            obtain ⟨s2, q⟩ := q
            have h2 := uok_newDiag h1 hn
            cases q with
            | none =>
              cases Option.some.inj he
              exact h2
            | some ix =>
              dsimp only at he
              cases hs1 : s2.subs a.place with
              | none => rw [hs1] at he; cases he
              | some x =>
                rw [hs1] at he
                exact uok_finish (uok_link h2 hu) he
  | update a al =>
    simp only [step, update] at he
    by_cases ha : argsUpdate maxData a = true
    case neg =>
      rw [if_pos (by simpa using ha)] at he
      cases Option.some.inj he
      exact h
    rw [if_neg (by simp [ha])] at he
    cases hs : st.subs a.place with
    | none =>
      rw [hs] at he
      cases Option.some.inj he
      exact h
    | some s =>
      rw [hs] at he
      dsimp only at he
      cases hf : findEntry st a.place s a.chan a.usi with
      | none => rw [hf] at he; cases he
      | some r =>
        rw [hf, Option.bind_some] at he
        obtain ⟨s1, r⟩ := r
        have h1 := uok_findEntry h hf
        cases r with
        | none =>
          cases Option.some.inj he
          exact h1
        | some ix =>
          dsimp only at he
          cases hi : s1.items[ix]? with
          | none => rw [hi] at he; cases he
          | some it =>
            cases hs1 : s1.subs a.place with
            | none => rw [hi, hs1] at he; cases he
            | some x =>
              rw [hi, hs1] at he
              exact uok_finish (uok_link h1 (h1 it (List.mem_of_getElem? hi))) he
  | remove a al =>
    simp only [step, remove] at he
    by_cases ha : argsCommon a = true
    case neg =>
      rw [if_pos (by simpa using ha)] at he
      cases Option.some.inj he
      exact h
    rw [if_neg (by simp [ha])] at he
    cases hs : st.subs a.place with
    | none =>
      rw [hs] at he
      cases Option.some.inj he
      exact h
    | some s =>
      rw [hs] at he
      dsimp only at he
      cases hf : findEntry st a.place s a.chan a.usi with
      | none => rw [hf] at he; cases he
      | some r =>
        rw [hf, Option.bind_some] at he
        obtain ⟨s1, r⟩ := r
        have h1 := uok_findEntry h hf
        cases r with
        | none =>
          cases Option.some.inj he
          exact h1
        | some ix =>
          dsimp only at he
          cases hu : updateSummary s1 a.place with
          | none => rw [hu] at he; cases he
          | some s2 =>
            rw [hu, Option.bind_some] at he
            have h2 := uok_updateSummary h1 hu
            have h3 : UOk (freeDiag s2 ix) := by
              unfold freeDiag
              split
              · exact usi_modify h2 (fun _ h => h)
              · exact h2
            cases ho : s.owner with
            | none =>
              rw [ho] at he
              cases Option.some.inj he
              exact h3
            | some ar =>
              rw [ho] at he
              dsimp only at he
              cases hi : updateIndicator (freeDiag s2 ix) ar a.place with
              | none => rw [hi] at he; cases he
              | some s4 =>
                rw [hi] at he
                cases Option.some.inj he
                exact uok_updateIndicator h3 hi
  | plug p o =>
    simp only [step] at he
    cases hs : st.subs p with
    | none =>
      rw [hs] at he
      cases Option.some.inj he
      exact h
    | some s =>
      rw [hs] at he
      cases Option.some.inj he
      exact h
  | pull p =>
    simp only [step] at he
    cases Option.some.inj he
    exact h
  | own p o =>
    simp only [step] at he
    cases hs : st.subs p with
    | none =>
      rw [hs] at he
      cases Option.some.inj he
      exact h
    | some s =>
      rw [hs] at he
      cases Option.some.inj he
      exact h

theorem uok_exec {maxData : Nat} (ops : List Op) : ∀ {st st' : St}, UOk st → exec maxData st ops = some st' → UOk st' := by
  induction ops with
  | nil =>
    intro st st' h he
    cases Option.some.inj he
    exact h
  | cons o os ih =>
    intro st st' h he
    simp only [exec] at he
    cases hs : step maxData st o with
    | none => rw [hs] at he; cases he
    | some r =>
      rw [hs, Option.bind_some] at he
      obtain ⟨s1, b⟩ := r
      exact ih (uok_step h hs) he

theorem uok_init (n : Nat) : UOk (init n) := by
  intro it hit
  simp only [init, List.mem_map] at hit
  obtain ⟨i, _, rfl⟩ := hit
  exact ⟨by simp [Item.zero], by simp [Item.zero]⟩

/-! ## One item -/

/-- An item that can be written. -/
def ItemOk (it : Item) : Prop := GoodCont False (it.usi, it.fmt) ∧ UsiOk it.usi

theorem encProps_eq (s : Std) : chProps s = encProps s := by
  unfold chProps encProps
  congr 1
  cases s.chan.group <;> simp <;> omega

theorem emits_putStd (s : Std) : Emits (putStd s)
    (enc16 true (BitVec.ofNat 16 s.chan.ch) ++ enc16 true (encProps s) ++ enc16 true (BitVec.ofNat 16 s.chan.err)) := by
  unfold putStd
  rw [encProps_eq]
  exact Emits.seq (Emits.seq (emits_n16 _) (emits_of (writes_putU16 _ _) (wsafe_putU16 _ _))) (emits_n16 _)

theorem emits_putItem {it : Item} (h : ItemOk it) : Emits (putItem it) (encEntry (it.usi, it.fmt)) := by
  obtain ⟨hg, hu⟩ := h
  unfold putItem
  rcases hg with ⟨h1, d, hd⟩ | ⟨h1, s, hs, _⟩
  · simp only at h1 hd
    rw [if_neg (by omega), if_neg (by omega), if_neg (by omega), hd]
    exact emits_of (writes_putMem _) (wsafe_putMem _)
  · simp only at h1 hs
    rw [hs]
    unfold UsiOk at hu
    have : it.usi = 0x8000 ∨ it.usi = 0x8002 ∨ it.usi = 0x8003 := by omega
    rcases this with e | e | e
    · rw [if_pos e, e]
      simp only [encEntry, if_true, List.append_nil]
      rw [if_neg (by decide), List.append_nil]
      exact emits_putStd s
    · rw [if_neg (by omega), if_pos e, e]
      simp only [encEntry]
      rw [if_neg (by decide), if_neg (by decide), List.append_nil, ← List.append_assoc]
      exact Emits.seq (Emits.seq (emits_putStd s) (emits_n16 _)) (emits_n32 _)
    · rw [if_neg (by omega), if_neg (by omega), if_pos e, e]
      simp only [encEntry]
      rw [if_neg (by decide), if_pos trivial, ← List.append_assoc]
      exact Emits.seq (Emits.seq (Emits.seq (emits_putStd s) (emits_n16 _)) (emits_n32 _)) (emits_n32 _)

theorem passes_eq (f : Filter) {it : Item} (h : ItemOk it) : passes f it = some (decide (Shown f (it.usi, it.fmt))) := by
  obtain ⟨hg, hu⟩ := h
  rcases hg with ⟨h1, d, hd⟩ | ⟨h1, s, hs, _⟩
  · simp only at h1 hd
    cases f <;> simp only [passes, manufOr, h1, if_true] <;> congr 1 <;> rw [Bool.eq_iff_iff, decide_eq_true_iff] <;>
      simp [Shown, severity, hd] <;> omega
  · simp only at h1 hs
    have h2 : ¬ it.usi < 0x8000 := by omega
    cases f <;> simp only [passes, manufOr, h2, if_false, maintOf, hs, Option.map_some] <;> congr 1 <;>
      rw [Bool.eq_iff_iff, decide_eq_true_iff] <;> simp [Shown, severity, hs, h1]

/-! ## One list -/

/-- Contents of the items at the indices. -/
def entsOf (items : List Item) (l : List Nat) : List (Nat × Fmt) :=
  l.filterMap (fun i => (items[i]?).map (fun it => (it.usi, it.fmt)))

theorem entsOf_cons {items : List Item} {i : Nat} {it : Item} (l : List Nat) (h : items[i]? = some it) :
    entsOf items (i :: l) = (it.usi, it.fmt) :: entsOf items l := by
  simp [entsOf, h]

/-- The items of a list can be written. -/
def ListOk (items : List Item) (l : List Nat) : Prop := ∀ i ∈ l, ∀ it, items[i]? = some it → ItemOk it

theorem emits_putItems {items : List Item} (hn : items.length ≤ nul) (f : Filter) (usi : Nat) (l : List Nat) :
    ∀ (h fuel : Nat), Chain items h l → l.length < fuel → ListOk items l →
    Emits (putItems items f usi fuel h)
      (((entsOf items l).filter (fun e => decide (e.1 = usi) && decide (Shown f e))).flatMap encEntry) := by
  induction l with
  | nil =>
    intro h fuel hc hf _
    cases fuel with
    | zero => simp at hf
    | succ fuel =>
      have : items[h]? = none := by
        rw [List.getElem?_eq_none_iff, hc]; exact hn
      simp only [putItems, this]
      exact emits_skip
  | cons i l ih =>
    intro h fuel hc hf ho
    cases fuel with
    | zero => simp at hf
    | succ fuel =>
      obtain ⟨rfl, it, hi, hl⟩ := hc
      have hit := ho h (by simp) it hi
      have h2 := ih it.next fuel hl (by simpa using hf) (fun j hj => ho j (by simp [hj]))
      simp only [putItems, hi]
      rw [passes_eq f hit]
      simp only
      rw [entsOf_cons l hi, List.filter_cons]
      by_cases hs : Shown f (it.usi, it.fmt)
      · by_cases hu : it.usi = usi
        · subst hu
          simp only [hs, decide_true, Bool.and_true, Bool.and_self, beq_self_eq_true, if_true]
          rw [List.flatMap_cons]
          exact Emits.seq (emits_putItem hit) h2
        · have : (it.usi == usi) = false := by simpa using hu
          simp only [hs, hu, this, decide_true, decide_false, Bool.and_false, Bool.false_and, Bool.false_eq_true, if_false]
          exact Emits.seq emits_skip h2
      · simp only [hs, decide_false, Bool.and_false, Bool.false_and, Bool.false_eq_true, if_false]
        exact Emits.seq emits_skip h2

theorem emits_putHead (usi api slot sub : Nat) : Emits (putHead usi api slot sub)
    (encBlockHeader true ⟨0x0010, 2, 1, 1⟩ ++ (enc32 true (BitVec.ofNat 32 api) ++ enc16 true (BitVec.ofNat 16 slot) ++
      enc16 true (BitVec.ofNat 16 sub) ++ enc16 true 0x8000 ++ enc16 true 0x0800 ++ enc16 true (BitVec.ofNat 16 usi))) := by
  simp only [← List.append_assoc]
  unfold putHead
  refine Emits.seq (Emits.seq (Emits.seq (Emits.seq (Emits.seq (Emits.seq ?_ (emits_n32 _)) (emits_n16 _))
    (emits_n16 _)) (emits_n16 _)) (emits_n16 _)) (emits_n16 _)
  have := emits_of (writes_putBlockHeader true 0x0010 0 1 1) (wsafe_putBlockHeader true 0x0010 0 1 1)
  exact this

theorem emits_putList {items : List Item} (hn : items.length ≤ nul) (f : Filter) (usi api slot sub head : Nat)
    {l : List Nat} (hc : Chain items head l) (hnd : l.Nodup) (ho : ListOk items l) :
    Emits (putList items f usi api slot sub head)
      (if ((entsOf items l).filter (fun e => decide (e.1 = usi) && decide (Shown f e))).flatMap encEntry = [] then []
       else encDiag (api, slot, sub) usi
        ((entsOf items l).filter (fun e => decide (e.1 = usi) && decide (Shown f e)))) := by
  cases l with
  | nil =>
    have : items[head]? = none := by
      rw [List.getElem?_eq_none_iff, hc]; exact hn
    rw [if_pos (by simp [entsOf])]
    intro w
    simp only [putList, this]
    exact emits_skip w
  | cons i l =>
    have hc' := hc
    obtain ⟨rfl, it, hi, hl⟩ := hc
    have hb := emits_putItems hn f usi (head :: l) head (items.length + 1) hc'
      (Nat.lt_succ_of_le (nodup_length_le hnd hc'.mem_lt)) ho
    have := emits_block (emits_putHead usi api slot sub) hb
      (out := putList items f usi api slot sub head) (by
        intro w
        simp only [putList, hi])
    unfold encDiag
    simp only [List.length_append, ← List.append_assoc] at this ⊢
    exact this

/-! ## One submodule -/

theorem nextLoop_spec {items : List Item} (hn : items.length ≤ nul) (low : Nat) (l : List Nat) :
    ∀ (h fuel best : Nat), Chain items h l → l.length < fuel → ∃ r, nextLoop items low fuel h best = some r ∧
      r ≤ best ∧ (r = best ∨ ∃ e ∈ entsOf items l, e.1 = r ∧ low < r) ∧ ∀ e ∈ entsOf items l, low < e.1 → r ≤ e.1 := by
  induction l with
  | nil =>
    intro h fuel best hc hf
    cases fuel with
    | zero => simp at hf
    | succ fuel =>
      have : items[h]? = none := by
        rw [List.getElem?_eq_none_iff, hc]; exact hn
      simp only [nextLoop, this]
      exact ⟨best, rfl, Nat.le_refl _, Or.inl rfl, fun e he => absurd he (by simp [entsOf])⟩
  | cons i l ih =>
    intro h fuel best hc hf
    cases fuel with
    | zero => simp at hf
    | succ fuel =>
      obtain ⟨rfl, it, hi, hl⟩ := hc
      simp only [nextLoop, hi]
      obtain ⟨r, h1, h2, h3, h4⟩ := ih it.next fuel (if low < it.usi ∧ it.usi < best then it.usi else best) hl
        (by simpa using hf)
      refine ⟨r, h1, ?_, ?_, ?_⟩
      · split at h2 <;> omega
      · rw [entsOf_cons l hi]
        rcases h3 with h3 | ⟨e, he, e1, e2⟩
        · by_cases c : low < it.usi ∧ it.usi < best
          · rw [if_pos c] at h3
            exact Or.inr ⟨(it.usi, it.fmt), by simp, h3.symm, by omega⟩
          · rw [if_neg c] at h3
            exact Or.inl h3
        · exact Or.inr ⟨e, by simp [he], e1, e2⟩
      · rw [entsOf_cons l hi]
        intro e he hlow
        rcases List.mem_cons.1 he with rfl | he
        · simp only at hlow ⊢
          by_cases c : low < it.usi ∧ it.usi < best
          · rw [if_pos c] at h2; exact h2
          · rw [if_neg c] at h2; omega
        · exact h4 e he hlow

theorem flatMap_ne_nil {α β : Type} {l : List α} {g : α → List β} : l.flatMap g ≠ [] ↔ ∃ a ∈ l, g a ≠ [] := by
  rw [Ne, List.flatMap_eq_nil_iff]
  constructor
  · intro h
    apply Classical.byContradiction
    intro hne
    exact h (fun a ha => Classical.byContradiction fun hc => hne ⟨a, ha, hc⟩)
  · rintro ⟨a, ha, hne⟩ h
    exact hne (h a ha)

theorem emits_putUsis {items : List Item} (hn : items.length ≤ nul) (f : Filter) (api slot sub head : Nat)
    {l : List Nat} (hc : Chain items head l) (hnd : l.Nodup) (ho : ListOk items l) :
    ∀ (fuel low : Nat), ((entsOf items l).filter (fun e => decide (low < e.1))).length < fuel →
      ∃ us : List Nat, us.Pairwise (· < ·) ∧
        (∀ u, u ∈ us ↔ low < u ∧ ∃ e ∈ entsOf items l, e.1 = u ∧ Shown f e ∧ encEntry e ≠ []) ∧
        Emits (putUsis items f api slot sub head fuel low) (us.flatMap (fun u => encDiag (api, slot, sub) u
          ((entsOf items l).filter (fun e => decide (e.1 = u) && decide (Shown f e))))) := by
  have husi : ∀ e ∈ entsOf items l, e.1 ≤ 0x8003 := by
    intro e he
    simp only [entsOf, List.mem_filterMap, Option.map_eq_some_iff] at he
    obtain ⟨i, hi, it, hit, rfl⟩ := he
    exact (ho i hi it hit).2.1
  intro fuel
  induction fuel with
  | zero => intro low h; exact absurd h (by omega)
  | succ fuel ih =>
    intro low hfuel
    obtain ⟨r, h1, h2, h3, h4⟩ := nextLoop_spec hn low l head (items.length + 1) 0xFFFF hc
      (Nat.lt_succ_of_le (nodup_length_le hnd hc.mem_lt))
    by_cases hr : r = 0xFFFF
    · -- nothing larger
      refine ⟨[], List.Pairwise.nil, ?_, ?_⟩
      · intro u
        refine ⟨fun h => absurd h (by simp), ?_⟩
        rintro ⟨hu, e, he, rfl, _⟩
        have := h4 e he hu
        have := husi e he
        omega
      · simp only [putUsis, nextUsi, h1, Option.map_some, hr, if_true]
        exact emits_skip
    · rcases h3 with h3 | ⟨e0, he0, e1, e2⟩
      · exact absurd h3 hr
      have hlt : ((entsOf items l).filter (fun e => decide (r < e.1))).length <
          ((entsOf items l).filter (fun e => decide (low < e.1))).length := by
        have hsub : ((entsOf items l).filter (fun e => decide (r < e.1))) =
            ((entsOf items l).filter (fun e => decide (low < e.1))).filter (fun e => decide (r < e.1)) := by
          rw [List.filter_filter]
          apply List.filter_congr
          intro e _
          by_cases c : r < e.1
          · have : low < e.1 := by omega
            simp [c, this]
          · simp [c]
        rw [hsub]
        apply List.length_filter_lt_length_iff_exists.2
        exact ⟨e0, List.mem_filter.2 ⟨he0, by simp; omega⟩, by simp; omega⟩
      obtain ⟨us, u1, u2, u3⟩ := ih r (by omega)
      have hl := emits_putList hn f r api slot sub head hc hnd ho
      have hput : putUsis items f api slot sub head (fuel + 1) low =
          (putList items f r api slot sub head ;; putUsis items f api slot sub head fuel r) := by
        simp only [putUsis, nextUsi, h1, Option.map_some, hr, if_false]
      rw [hput]
      by_cases hne : ((entsOf items l).filter (fun e => decide (e.1 = r) && decide (Shown f e))).flatMap encEntry = []
      · rw [if_pos hne] at hl
        refine ⟨us, u1, ?_, Emits.seq hl u3⟩
        intro u
        rw [u2]
        constructor
        · rintro ⟨a, b⟩
          exact ⟨by omega, b⟩
        · rintro ⟨a, e, he, rfl, b, c⟩
          refine ⟨?_, e, he, rfl, b, c⟩
          have := h4 e he a
          have : e.1 ≠ r := by
            intro hh
            refine flatMap_ne_nil.2 ⟨e, List.mem_filter.2 ⟨he, ?_⟩, c⟩ hne
            simp [hh, b]
          omega
      · rw [if_neg hne] at hl
        obtain ⟨e', he', hne'⟩ := flatMap_ne_nil.1 hne
        have hm := List.mem_filter.1 he'
        clear he'
        obtain ⟨he', hc'⟩ := hm
        simp only [Bool.and_eq_true, decide_eq_true_eq] at hc'
        refine ⟨r :: us, List.pairwise_cons.2 ⟨fun u hu => ((u2 u).1 hu).1, u1⟩, ?_, ?_⟩
        · intro u
          rw [List.mem_cons, u2]
          constructor
          · rintro (rfl | ⟨a, b⟩)
            · exact ⟨e2, e', he', hc'.1, hc'.2, hne'⟩
            · exact ⟨by omega, b⟩
          · rintro ⟨a, e, he, rfl, b, c⟩
            have := h4 e he a
            by_cases hh : e.1 = r
            · exact Or.inl hh
            · exact Or.inr ⟨by omega, e, he, rfl, b, c⟩
        · rw [List.flatMap_cons]
          exact Emits.seq hl u3

/-- The state of the diagnosis store is as after some history. -/
def StOk (st : St) : Prop := ∃ F L, DInv False st F L ∧ UOk st

theorem stOk_exec {maxData n : Nat} (hn : n ≤ 65535) {ops : List Op} {st : St}
    (h : exec maxData (init n) ops = some st) : StOk st := by
  obtain ⟨st', F, L, h1, h2, _⟩ := run_inv False (maxData := maxData) (ops := ops) hn (fun h => h.elim)
  rw [h] at h1
  cases Option.some.inj h1
  exact ⟨F, L, h2, uok_exec ops (uok_init n) h⟩

theorem emits_putSub {st : St} (hst : StOk st) (f : Filter) (api slot sub : Nat) :
    ∃ bs, Reports f (api, slot, sub) (listing st (api, slot, sub)) bs ∧ Emits (putSub st f api slot sub) bs := by
  obtain ⟨F, L, hi, hu⟩ := hst
  have hls := hi.lists
  have hn := hls.len
  have hc : Chain st.items (headOf st (api, slot, sub)) (L (api, slot, sub)) := by
    unfold headOf
    cases hs : st.subs (api, slot, sub) with
    | none => rw [hls.empty _ hs]; rfl
    | some s => exact hls.chain _ _ hs
  have ho : ListOk st.items (L (api, slot, sub)) := by
    intro i him it hit
    exact ⟨(hi.cont_of him hit).2, hu it (List.mem_of_getElem? hit)⟩
  have he : listing st (api, slot, sub) = entsOf st.items (L (api, slot, sub)) := by
    rw [listing_eq hls]
    exact (ents_eq st _).symm
  have hlen : (entsOf st.items (L (api, slot, sub))).length ≤ st.items.length :=
    Nat.le_trans (List.length_filterMap_le _ _) (nodup_length_le (hls.nd _) hc.mem_lt)
  obtain ⟨us, u1, u2, u3⟩ := emits_putUsis hn f api slot sub _ hc (hls.nd _) ho (st.items.length + 1) 0
    (Nat.lt_succ_of_le (Nat.le_trans (List.length_filter_le _ _) hlen))
  refine ⟨_, ⟨us, u1, ?_, rfl⟩, ?_⟩
  · intro u
    rw [u2, he]
    constructor
    · rintro ⟨a, b⟩; exact ⟨by omega, b⟩
    · rintro ⟨a, b⟩; exact ⟨by omega, b⟩
  · rw [he]
    exact u3

end Verif.DiagRead
