import Verif.Epm.Lemmas

set_option linter.unusedSimpArgs false
set_option linter.unusedVariables false

namespace Verif.Epm
open Verif.Wire Verif.Epm.Spec

/-! ## The table -/

/-- No two sessions in use have the same activity. -/
def Unique (t : Table) : Prop :=
  ∀ (i j : Nat) (a b : Sess), t[i]? = some (some a) → t[j]? = some (some b) → a.uuid = b.uuid → i = j

/-- The session of an activity. -/
def view (u : Uuid) (t : Table) : Option Sess := (t.find? fun s => s.any fun x => x.uuid == u).join

theorem locate_none {u : Uuid} {t : Table} (h : locate u t = none) : ∀ (i : Nat) (a : Sess), t[i]? = some (some a) → a.uuid ≠ u := by
  intro i a hi hu
  rw [locate, List.findIdx?_eq_none_iff] at h
  have := h _ (List.mem_of_getElem? hi)
  simp [hu] at this

theorem locate_some {u : Uuid} {t : Table} {i : Nat} (h : locate u t = some i) : ∃ a, t[i]? = some (some a) ∧ a.uuid = u := by
  rw [locate, List.findIdx?_eq_some_iff_getElem] at h
  obtain ⟨hi, h, _⟩ := h
  cases hx : t[i] with
  | none => rw [hx] at h; simp at h
  | some a =>
    rw [hx] at h
    refine ⟨a, ?_, by simpa using h⟩
    rw [List.getElem?_eq_getElem hi, hx]

theorem view_some {u : Uuid} {t : Table} (hu : Unique t) {i : Nat} {a : Sess} (h : t[i]? = some (some a)) (ha : a.uuid = u) :
    view u t = some a := by
  unfold view
  cases hf : t.find? (fun s => s.any fun x => x.uuid == u) with
  | none =>
    rw [List.find?_eq_none] at hf
    have := hf _ (List.mem_of_getElem? h)
    simp [ha] at this
  | some s =>
    have hm := List.mem_of_find?_eq_some hf
    have hp := List.find?_some hf
    cases s with
    | none => simp at hp
    | some b =>
      simp at hp
      obtain ⟨j, hj⟩ := List.getElem?_of_mem hm
      have := hu i j a b h hj (by rw [ha, hp])
      rw [this, hj] at h
      simp at h
      simp [h]

theorem view_none {u : Uuid} {t : Table} (h : ∀ (i : Nat) (a : Sess), t[i]? = some (some a) → a.uuid ≠ u) : view u t = none := by
  unfold view
  have : t.find? (fun s => s.any fun x => x.uuid == u) = none := by
    rw [List.find?_eq_none]
    intro s hs
    obtain ⟨j, hj⟩ := List.getElem?_of_mem hs
    cases s with
    | none => simp
    | some b => simpa using h j b hj
  rw [this]; rfl

theorem view_inv {u : Uuid} {t : Table} {a : Sess} (h : view u t = some a) : ∃ i : Nat, t[i]? = some (some a) ∧ a.uuid = u := by
  unfold view at h
  cases hf : t.find? (fun s => s.any fun x => x.uuid == u) with
  | none => rw [hf] at h; cases h
  | some s =>
    rw [hf] at h
    simp at h
    subst h
    obtain ⟨j, hj⟩ := List.getElem?_of_mem (List.mem_of_find?_eq_some hf)
    have hp := List.find?_some hf
    exact ⟨j, hj, by simpa using hp⟩

/-- The entry that is used for an activity: either its session, or a free one, if it has none. -/
def Mine (u : Uuid) (t : Table) (i : Nat) : Prop :=
  i < t.length ∧ ((∃ a, t[i]? = some (some a) ∧ a.uuid = u) ∨
    (t[i]? = some none ∧ ∀ (i : Nat) (a : Sess), t[i]? = some (some a) → a.uuid ≠ u))

theorem set_unique {u : Uuid} {t : Table} {i : Nat} (hu : Unique t) (hm : Mine u t i) {x : Option Sess}
    (hx : ∀ a, x = some a → a.uuid = u) : Unique (t.set i x) := by
  have key : ∀ j a, (t.set i x)[j]? = some (some a) → (j = i ∧ a.uuid = u) ∨ (j ≠ i ∧ t[j]? = some (some a)) := by
    intro j a hj
    rw [List.getElem?_set] at hj
    split at hj
    · rename_i he
      split at hj
      · exact .inl ⟨he.symm, hx a (by simpa using hj)⟩
      · cases hj
    · rename_i he
      exact .inr ⟨fun h => he h.symm, hj⟩
  have only : ∀ j a, j ≠ i → t[j]? = some (some a) → a.uuid ≠ u := by
    intro j a hj ha hau
    rcases hm.2 with ⟨b, hb, hbu⟩ | ⟨_, h⟩
    · exact hj (hu j i a b ha hb (by rw [hau, hbu]))
    · exact h j a ha hau
  intro j k a b ha hb hab
  rcases key j a ha with ⟨h1, h2⟩ | ⟨h1, h2⟩ <;> rcases key k b hb with ⟨h3, h4⟩ | ⟨h3, h4⟩
  · rw [h1, h3]
  · exact absurd (hab ▸ h2) (only k b h3 h4)
  · exact absurd (hab.trans h4) (only j a h1 h2)
  · exact hu j k a b h2 h4 hab

theorem view_set_same {u : Uuid} {t : Table} {i : Nat} (hu : Unique t) (hm : Mine u t i) {x : Option Sess}
    (hx : ∀ a, x = some a → a.uuid = u) : view u (t.set i x) = x := by
  have hun := set_unique hu hm hx
  cases x with
  | some a =>
    refine view_some hun (i := i) ?_ (hx a rfl)
    rw [List.getElem?_set_self hm.1]
  | none =>
    refine view_none ?_
    intro j a hj
    rw [List.getElem?_set] at hj
    split at hj
    · split at hj <;> simp at hj
    · rename_i he
      intro hau
      rcases hm.2 with ⟨b, hb, hbu⟩ | ⟨_, h⟩
      · exact he (hu j i a b hj hb (by rw [hau, hbu])).symm
      · exact h j a hj hau

theorem view_set_other {u v : Uuid} {t : Table} {i : Nat} (hu : Unique t) (hm : Mine v t i) (hne : v ≠ u) {x : Option Sess}
    (hx : ∀ a, x = some a → a.uuid = v) : view u (t.set i x) = view u t := by
  have hun := set_unique hu hm hx
  cases hv : view u t with
  | some a =>
    obtain ⟨j, hj, hau⟩ := view_inv hv
    refine view_some hun (i := j) ?_ hau
    rw [List.getElem?_set]
    split
    · rename_i he
      subst he
      exfalso
      rcases hm.2 with ⟨b, hb, hbu⟩ | ⟨h, _⟩
      · rw [hb] at hj; simp at hj; subst hj; exact hne (hbu.symm.trans hau)
      · rw [h] at hj; simp at hj
    · exact hj
  | none =>
    refine view_none ?_
    intro j a hj hau
    rw [List.getElem?_set] at hj
    split at hj
    · split at hj
      · exact hne ((hx a (by simpa using hj)).symm.trans hau)
      · cases hj
    · rw [view_some hu hj hau] at hv; cases hv

/-! ## Sessions -/

theorem session_some {u : Uuid} {t : Table} {i : Nat} {s : Sess} (hu : Unique t) (h : session u t = some (i, s)) :
    Mine u t i ∧ s.uuid = u ∧ s = (view u t).getD ⟨u, 0, false⟩ := by
  unfold session at h
  split at h
  · rename_i j hj
    obtain ⟨a, ha, hau⟩ := locate_some hj
    rw [ha] at h
    simp at h
    obtain ⟨rfl, rfl⟩ := h
    exact ⟨⟨(List.getElem?_eq_some_iff.mp ha).1, .inl ⟨a, ha, hau⟩⟩, hau, by rw [view_some hu ha hau]; rfl⟩
  · rename_i hl
    have hno := locate_none hl
    cases hf : t.findIdx? Option.isNone with
    | none => rw [hf] at h; cases h
    | some j =>
      rw [hf] at h
      simp at h
      obtain ⟨rfl, rfl⟩ := h
      rw [List.findIdx?_eq_some_iff_getElem] at hf
      obtain ⟨hj, hx, _⟩ := hf
      refine ⟨⟨hj, .inr ⟨?_, hno⟩⟩, rfl, by rw [view_none hno]; rfl⟩
      rw [List.getElem?_eq_getElem hj]
      simpa using hx

/-- There is no session only if all are in use, none of them by this activity. -/
theorem session_none {u : Uuid} {t : Table} (hu : Unique t) : session u t = none ↔ view u t = none ∧ none ∉ t := by
  unfold session
  split
  · rename_i j hj
    obtain ⟨a, ha, hau⟩ := locate_some hj
    rw [ha, view_some hu ha hau]
    simp
  · rename_i hl
    rw [view_none (locate_none hl)]
    simp only [Option.map_eq_none_iff, List.findIdx?_eq_none_iff, true_and]
    constructor
    · intro h hm
      have := h _ hm
      simp at this
    · intro h x hx
      cases x with
      | none => exact absurd hx h
      | some a => rfl

theorem drop_view {u : Uuid} {t : Table} (hu : Unique t) (v : Uuid) :
    Unique (drop u t) ∧ view v (drop u t) = if v = u then none else view v t := by
  unfold drop
  split
  · rename_i i hi
    obtain ⟨a, ha, hau⟩ := locate_some hi
    have hm : Mine u t i := ⟨(List.getElem?_eq_some_iff.mp ha).1, .inl ⟨a, ha, hau⟩⟩
    refine ⟨set_unique hu hm (by simp), ?_⟩
    split
    · rename_i he; subst he; exact view_set_same hu hm (by simp)
    · rename_i he; exact view_set_other hu hm (fun h => he h.symm) (by simp)
  · rename_i hl
    refine ⟨hu, ?_⟩
    split
    · rename_i he; subst he; exact view_none (locate_none hl)
    · rfl

/-- What an event does to the session of its own activity, and the answer. -/
def own (d : Dev) (v : Option Sess) (s : Sess) : Ev → Option (Option Sess × List Ans)
  | .request u body ts timer => (epmBranch d body ts timer s).map fun x => (x.1, [(u, ts, x.2)])
  | .other _ keep => some (if keep then some s else none, [])
  | .release _ => some (none, [])
  | .timeout _ => some (if s.timer then none else v, [])

theorem epmBranch_total (d : Dev) (body : List Byte) (ts : U32) (timer : Bool) (s : Sess) :
    ∃ x, epmBranch d body ts timer s = some x ∧ ∀ a, x.1 = some a → a.uuid = s.uuid := by
  obtain ⟨q, r, h⟩ := parse_total body
  unfold epmBranch
  rw [h]
  refine ⟨_, rfl, ?_⟩
  intro a ha
  dsimp only at ha
  split at ha
  · cases ha
  · simp at ha; rw [← ha]

theorem step_spec {d : Dev} {t : Table} (hu : Unique t) (e : Ev) :
    ∃ t' a, step d t e = some (t', a) ∧ Unique t' ∧ t'.length = t.length ∧
      (∀ u, u ≠ e.activity → view u t' = view u t) ∧ (∀ x ∈ a, x.1 = e.activity) ∧
      (match session e.activity t with
        | some (_, s) => own d (view e.activity t) s e = some (view e.activity t', a)
        | none => t' = t ∧ a = []) := by
  cases e with
  | request u body ts timer =>
    simp only [step, Ev.activity]
    cases hs : session u t with
    | none => exact ⟨t, [], rfl, hu, rfl, fun _ _ => rfl, by simp, rfl, rfl⟩
    | some is =>
      obtain ⟨i, s⟩ := is
      obtain ⟨hm, hsu, _⟩ := session_some hu hs
      obtain ⟨x, hx, hxu⟩ := epmBranch_total d body ts timer s
      rw [hsu] at hxu
      refine ⟨t.set i x.1, [(u, ts, x.2)], by simp [hx], set_unique hu hm hxu, by simp,
        fun v hv => view_set_other hu hm (fun h => hv h.symm) hxu, by simp, ?_⟩
      simp [own, hx, view_set_same hu hm hxu]
  | other u keep =>
    simp only [step, Ev.activity]
    cases hs : session u t with
    | none => exact ⟨t, [], rfl, hu, rfl, fun _ _ => rfl, by simp, rfl, rfl⟩
    | some is =>
      obtain ⟨i, s⟩ := is
      obtain ⟨hm, hsu, _⟩ := session_some hu hs
      have hxu : ∀ a, (if keep then some s else none) = some a → a.uuid = u := by
        intro a ha
        split at ha
        · simp at ha; rw [← ha]; exact hsu
        · cases ha
      refine ⟨_, [], rfl, set_unique hu hm hxu, by simp, fun v hv => view_set_other hu hm (fun h => hv h.symm) hxu, by simp, ?_⟩
      simp only [own, view_set_same hu hm hxu]
  | release u =>
    simp only [step, Ev.activity]
    refine ⟨drop u t, [], rfl, (drop_view hu u).1, ?_, fun v hv => by rw [(drop_view hu v).2, if_neg hv], by simp, ?_⟩
    · unfold drop; split <;> simp
    · cases hs : session u t with
      | some is => simp [own, (drop_view hu u).2]
      | none =>
        refine ⟨?_, rfl⟩
        unfold drop
        split
        · rename_i i hi
          obtain ⟨a, ha, hau⟩ := locate_some hi
          have := ((session_none hu).mp hs).1
          rw [view_some hu ha hau] at this
          cases this
        · rfl
  | timeout u =>
    simp only [step, Ev.activity]
    cases hs : session u t with
    | none => exact ⟨t, [], rfl, hu, rfl, fun _ _ => rfl, by simp, rfl, rfl⟩
    | some is =>
      obtain ⟨i, s⟩ := is
      obtain ⟨hm, hsu, _⟩ := session_some hu hs
      cases hb : s.timer
      · refine ⟨t, [], by simp [hb], hu, rfl, fun _ _ => rfl, by simp, ?_⟩
        simp [own, hb]
      · refine ⟨t.set i none, [], by simp [hb], set_unique hu hm (by simp), by simp,
          fun v hv => view_set_other hu hm (fun h => hv h.symm) (by simp), by simp, ?_⟩
        simp [own, hb, view_set_same hu hm (x := none) (by simp)]

theorem unique_init (n : Nat) : Unique (List.replicate n none) := by
  intro i j a b ha
  have := List.mem_of_getElem? ha
  simp at this

theorem run_spec {d : Dev} (es : List Ev) : ∀ {t : Table}, Unique t → ∃ t' a, run d t es = some (t', a) ∧ Unique t' := by
  induction es with
  | nil => intro t hu; exact ⟨t, [], rfl, hu⟩
  | cons e es ih =>
    intro t hu
    obtain ⟨t1, a1, h1, u1, _⟩ := step_spec (d := d) hu e
    obtain ⟨t2, a2, h2, u2⟩ := ih u1
    exact ⟨t2, a1 ++ a2, by simp [run, h1, h2], u2⟩

theorem run_append {d : Dev} (xs ys : List Ev) (t : Table) :
    run d t (xs ++ ys) = (run d t xs).bind fun x => (run d x.1 ys).map fun y => (y.1, x.2 ++ y.2) := by
  induction xs generalizing t with
  | nil => simp [run]
  | cons e xs ih =>
    simp only [List.cons_append, run, ih]
    cases step d t e with
    | none => rfl
    | some x =>
      simp only [Option.bind_some]
      cases run d x.1 xs with
      | none => rfl
      | some y =>
        simp only [Option.bind_some, Option.map_some]
        cases run d y.1 ys with
        | none => rfl
        | some z => simp

/-- The step of an activity in its enumeration: how many answers it has got since its session began. -/
def At (u : Uuid) (t : Table) (k : Nat) : Prop :=
  (k = 0 ∧ view u t = none) ∨ (1 ≤ k ∧ k ≤ 2 ∧ ∃ s, view u t = some s ∧ s.seq = BitVec.ofNat 32 k)

/-- As `At`, or the session was there before. -/
def At' (u : Uuid) (t : Table) (k : Nat) : Prop :=
  (k = 0 ∧ view u t = none) ∨ (k ≤ 2 ∧ ∃ s, view u t = some s ∧ s.seq = BitVec.ofNat 32 k)

theorem At.weaken {u : Uuid} {t : Table} {k : Nat} (h : At u t k) : At' u t k := by
  rcases h with h | ⟨_, h2, h⟩
  · exact .inl h
  · exact .inr ⟨h2, h⟩

theorem at_request {d : Dev} {u : Uuid} {t : Table} {k : Nat} {b : List Byte} {ts : U32} {timer : Bool} (hu : Unique t)
    (ha : At' u t k) (hb : AsksNext b) :
    ∃ t' a, step d t (.request u b ts timer) = some (t', a) ∧ Unique t' ∧
      ((a = [] ∧ k = 0 ∧ At u t' 0) ∨ (a = [(u, ts, rspOf d ts (kindAt k))] ∧ At u t' ((k + 1) % 3))) := by
  obtain ⟨t', a, h, hu', _, _, _, hm⟩ := step_spec (d := d) hu (.request u b ts timer)
  refine ⟨t', a, h, hu', ?_⟩
  obtain ⟨q, hq, hq0, hqm⟩ := hb
  obtain ⟨r, hr⟩ := carries_parse hq
  simp only [Ev.activity] at hm
  cases hs : session u t with
  | none =>
    rw [hs] at hm
    have hv := ((session_none hu).mp hs).1
    obtain ⟨rfl, rfl⟩ := hm
    rcases ha with ⟨rfl, _⟩ | ⟨_, s, h, _⟩
    · exact .inl ⟨rfl, rfl, .inl ⟨rfl, hv⟩⟩
    · rw [hv] at h; cases h
  | some is =>
    obtain ⟨i, s⟩ := is
    obtain ⟨_, _, hsv⟩ := session_some hu hs
    rw [hs] at hm
    simp only [own, epmBranch, hr, Option.map_some, lookup, if_neg hqm, if_pos hq0, Option.some.injEq, Prod.mk.injEq] at hm
    right
    have hk : s.seq = BitVec.ofNat 32 k ∧ k ≤ 2 := by
      rcases ha with ⟨rfl, hv⟩ | ⟨h2, s', hv, hs'⟩
      · rw [hv] at hsv; rw [hsv]; exact ⟨rfl, by omega⟩
      · rw [hv] at hsv; rw [hsv]; exact ⟨hs', h2⟩
    obtain ⟨hk, hk2⟩ := hk
    obtain rfl | rfl | rfl : k = 0 ∨ k = 1 ∨ k = 2 := by omega
    · rw [hk] at hm
      simp at hm
      refine ⟨hm.2.symm, .inr ⟨by omega, by omega, _, hm.1.symm, rfl⟩⟩
    · rw [hk] at hm
      simp at hm
      refine ⟨hm.2.symm, .inr ⟨by omega, by omega, _, hm.1.symm, by simp⟩⟩
    · rw [hk] at hm
      simp at hm
      refine ⟨hm.2.symm, .inl ⟨by omega, hm.1.symm⟩⟩

theorem kindAt_mod (i : Nat) : kindAt (i % 3) = kindAt i := by simp [kindAt]

theorem run_at {d : Dev} {u : Uuid} (es : List Ev) : ∀ {t : Table} {k : Nat}, Unique t → At u t (k % 3) → OnlyNext u es →
    ∃ t' a, run d t es = some (t', a) ∧ Unique t' ∧ At u t' ((k + (to u a).length) % 3) ∧
      ∀ i x, (to u a)[i]? = some x → x.2.2 = rspOf d x.2.1 (kindAt (k + i)) := by
  induction es with
  | nil => intro t k hu ha _; exact ⟨t, [], rfl, hu, by simpa [to] using ha, by simp [to]⟩
  | cons e es ih =>
    intro t k hu ha ho
    have ho' : OnlyNext u es := fun e he => ho e (List.mem_cons_of_mem _ he)
    by_cases hu' : e.activity = u
    · obtain ⟨b, ts, timer, rfl, hb⟩ := ho e (List.mem_cons_self ..) hu'
      obtain ⟨t1, a1, h1, u1, hc⟩ := at_request (d := d) (ts := ts) (timer := timer) hu ha.weaken hb
      rcases hc with ⟨rfl, hk, hat⟩ | ⟨rfl, hat⟩
      · obtain ⟨t2, a2, h2, u2, hat2, hall⟩ := ih (k := k) u1 (by rw [hk]; exact hat) ho'
        exact ⟨t2, a2, by simp [run, h1, h2], u2, hat2, hall⟩
      · have e1 : (k % 3 + 1) % 3 = (k + 1) % 3 := by omega
        rw [e1] at hat
        obtain ⟨t2, a2, h2, u2, hat2, hall⟩ := ih (k := k + 1) u1 hat ho'
        have hto : to u ([(u, ts, rspOf d ts (kindAt (k % 3)))] ++ a2) = (u, ts, rspOf d ts (kindAt (k % 3))) :: to u a2 := by
          simp [to]
        refine ⟨t2, [(u, ts, rspOf d ts (kindAt (k % 3)))] ++ a2, by simp only [run, h1, h2, Option.bind_some, Option.map_some], u2,
          ?_, ?_⟩
        · rw [hto]
          rw [List.length_cons, show k + ((to u a2).length + 1) = k + 1 + (to u a2).length by omega]
          exact hat2
        · rw [hto]
          intro i x hx
          cases i with
          | zero =>
            simp at hx
            rw [← hx]
            simp [kindAt_mod]
          | succ i =>
            have := hall i x (by simpa using hx)
            rw [this, show k + 1 + i = k + (i + 1) by omega]
    · obtain ⟨t1, a1, h1, u1, _, hv, hne, _⟩ := step_spec (d := d) hu e
      have hv := hv u (fun h => hu' h.symm)
      obtain ⟨t2, a2, h2, u2, hat2, hall⟩ := ih (k := k) u1 (by unfold At at ha ⊢; rw [hv]; exact ha) ho'
      have hto : to u (a1 ++ a2) = to u a2 := by
        simp only [to, List.filter_append]
        rw [List.filter_eq_nil_iff.mpr, List.nil_append]
        intro x hx
        simp [hne x hx, hu']
      exact ⟨t2, a1 ++ a2, by simp [run, h1, h2], u2, by rw [hto]; exact hat2, by rw [hto]; exact hall⟩

end Verif.Epm
