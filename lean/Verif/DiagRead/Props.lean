import Verif.DiagRead.Lists

/-! Diagnosis read requests (C87). -/
set_option linter.unusedSimpArgs false
set_option linter.unusedVariables false

namespace Verif.DiagRead
open Verif.Diag
open Verif.Device hiding St view step exec listing Inv Op init
open Verif.Wire hiding ExpApi ExpMod ExpSub

/-! ## Loops over tables -/

theorem emits_each_if {α : Type} {u : α → Bool} {p : α → W} {g : α → List Byte} (l : List α)
    (h : ∀ a ∈ l, u a = true → Emits (p a) (g a)) :
    Emits (each (fun a => if u a then p a else skip) l) ((l.filter u).flatMap g) := by
  induction l with
  | nil => exact emits_skip
  | cons a l ih =>
    have ih := ih (fun b hb => h b (by simp [hb]))
    cases hu : u a with
    | true =>
      simp only [each, hu, if_true, List.filter_cons, List.flatMap_cons]
      exact Emits.seq (h a (by simp) hu) ih
    | false =>
      simp only [each, hu, Bool.false_eq_true, if_false, List.filter_cons]
      exact Emits.seq emits_skip ih

section places
variable {st : St} {f : Filter} {g : Place → List Byte}

/-- `g` gives what is written per submodule. -/
def Gives (st : St) (f : Filter) (g : Place → List Byte) : Prop := ∀ a s ss, Emits (putSub st f a s ss) (g (a, s, ss))

def slotPl (a : Nat) (y : Slot) : List Place := (y.subs.filter Sub.inUse).map (fun z => (a, y.number, z.number))
def apiPl (x : Api) : List Place := (x.slots.filter Slot.inUse).flatMap (slotPl x.id)
def devPl (d : Dev) : List Place := (d.filter Api.inUse).flatMap apiPl

/-- The places of the submodules of a slot that are plugged as expected. -/
def expPl (a : Nat) (y : Slot) (m : ExpMod) : List Place :=
  m.subs.flatMap (fun e =>
    match findSub y e.number with
    | none => []
    | some z => if z.ident = e.ident then [(a, y.number, z.number)] else [])

def arPl (d : Dev) (e : List ExpApi) : List Place :=
  e.flatMap (fun ea =>
    match getApi d ea.api with
    | none => []
    | some x => ea.mods.flatMap (fun m =>
      match findSlot x m.slot with
      | none => []
      | some y => if y.ident ≠ m.ident then [] else expPl x.id y m))

theorem emits_putSlot (hg : Gives st f g) (a : Nat) (y : Slot) :
    Emits (putSlot st f a y) ((slotPl a y).flatMap g) := by
  have := emits_each_if (u := Sub.inUse) (p := fun z => putSub st f a y.number z.number)
    (g := fun z => g (a, y.number, z.number)) y.subs (fun z _ _ => hg _ _ _)
  unfold slotPl
  rw [List.flatMap_map]
  exact this

theorem emits_putApi (hg : Gives st f g) (x : Api) : Emits (putApi st f x) ((apiPl x).flatMap g) := by
  have := emits_each_if (u := Slot.inUse) (p := fun y => putSlot st f x.id y)
    (g := fun y => (slotPl x.id y).flatMap g) x.slots (fun y _ _ => emits_putSlot hg _ _)
  unfold apiPl
  rw [List.flatMap_assoc]
  exact this

theorem emits_putArSlot (hg : Gives st f g) (a : Nat) (y : Slot) (m : ExpMod) :
    Emits (putArSlot st f a y m) ((expPl a y m).flatMap g) := by
  unfold expPl putArSlot
  rw [List.flatMap_assoc]
  apply emits_each
  intro e _
  cases findSub y e.number with
  | none => exact emits_skip
  | some z =>
    dsimp only
    by_cases c : z.ident = e.ident
    · rw [if_pos c, if_pos c]
      simp only [List.flatMap_cons, List.flatMap_nil, List.append_nil]
      exact hg _ _ _
    · rw [if_neg c, if_neg c]
      exact emits_skip

theorem emits_readAr (hg : Gives st f g) (d : Dev) (e : List ExpApi) :
    Emits (readAr d st f (some e)) ((arPl d e).flatMap g) := by
  unfold arPl readAr
  rw [List.flatMap_assoc]
  apply emits_each
  intro ea _
  cases getApi d ea.api with
  | none => exact emits_skip
  | some x =>
    dsimp only
    rw [List.flatMap_assoc]
    apply emits_each
    intro m _
    cases findSlot x m.slot with
    | none => exact emits_skip
    | some y =>
      dsimp only
      by_cases c : y.ident ≠ m.ident
      · rw [if_pos c, if_pos c]; exact emits_skip
      · rw [if_neg c, if_neg c]; exact emits_putArSlot hg _ _ _

theorem emits_readDevice (hg : Gives st f g) (d : Dev) : Emits (readDevice d st f) ((devPl d).flatMap g) := by
  have := emits_each_if (u := Api.inUse) (p := fun x => putApi st f x)
    (g := fun x => (apiPl x).flatMap g) d (fun x _ _ => emits_putApi hg _)
  unfold devPl
  rw [List.flatMap_assoc]
  exact this

end places

/-! ## Which submodules -/

/-- Membership in a table of in-use entries with unique keys is finding it. -/
theorem find_uniq {α : Type} (u : α → Bool) (k : α → Nat) (l : List α) (e : α) (hd : (keysOf u k l).Nodup)
    (he : e ∈ l) (hu : u e = true) : l.find? (fun a => u a && k a == k e) = some e := by
  induction l with
  | nil => simp at he
  | cons b l ih =>
    unfold keysOf at hd ih
    rcases List.mem_cons.1 he with rfl | he'
    · simp [hu]
    · cases hub : u b with
      | false =>
        simp only [List.find?_cons, hub, Bool.false_and]
        exact ih (by simpa [List.filter_cons, hub] using hd) he'
      | true =>
        simp only [List.filter_cons, hub, if_true, List.map_cons, List.nodup_cons] at hd
        have hne : k b ≠ k e := fun hh => hd.1 (List.mem_map.2 ⟨e,
          List.mem_filter.2 ⟨he', hu⟩, hh.symm⟩)
        have : (k b == k e) = false := by simpa using hne
        simp only [List.find?_cons, hub, this, Bool.true_and]
        exact ih hd.2 he'

theorem find_key {α : Type} (k : α → Nat) (l : List α) (e : α) (hd : (l.map k).Nodup) (he : e ∈ l) :
    l.find? (fun a => k a == k e) = some e := by
  have := find_uniq (fun _ => true) k l e (by unfold keysOf; simpa using hd) he rfl
  simpa using this

theorem mem_slotPl (a : Nat) (y : Slot) (p : Place) :
    p ∈ slotPl a y ↔ p.1 = a ∧ p.2.1 = y.number ∧ ∃ z, findSub y p.2.2 = some z := by
  unfold slotPl findSub
  constructor
  · intro h
    obtain ⟨z, hz, rfl⟩ := List.mem_map.1 h
    obtain ⟨h1, h2⟩ := List.mem_filter.1 hz
    refine ⟨rfl, rfl, ?_⟩
    cases hf : y.subs.find? (isSub z.number) with
    | some x => exact ⟨x, rfl⟩
    | none =>
      rw [List.find?_eq_none] at hf
      exact absurd (by simp [isSub, h2]) (hf z h1)
  · obtain ⟨p1, p2, p3⟩ := p
    rintro ⟨h1, h2, z, hz⟩
    dsimp only at h1 h2 hz
    have hm := List.mem_of_find?_eq_some hz
    have hi := List.find?_some hz
    simp only [isSub, Bool.and_eq_true, beq_iff_eq] at hi
    exact List.mem_map.2 ⟨z, List.mem_filter.2 ⟨hm, hi.1⟩, by rw [h1, h2, hi.2]⟩

theorem mem_expPl (a : Nat) (y : Slot) (m : ExpMod) (p : Place) :
    p ∈ expPl a y m ↔ p.1 = a ∧ p.2.1 = y.number ∧
      ∃ z, ∃ e ∈ m.subs, findSub y p.2.2 = some z ∧ e.number = p.2.2 ∧ z.ident = e.ident := by
  have hnum : ∀ {n z}, findSub y n = some z → z.number = n := by
    intro n z hz
    have hi := List.find?_some hz
    simp only [isSub, Bool.and_eq_true, beq_iff_eq] at hi
    exact hi.2
  unfold expPl
  rw [List.mem_flatMap]
  constructor
  · rintro ⟨e, he, h⟩
    cases hf : findSub y e.number with
    | none => rw [hf] at h; simp at h
    | some z =>
      rw [hf] at h
      dsimp only at h
      by_cases c : z.ident = e.ident
      · rw [if_pos c] at h
        have h := List.mem_singleton.1 h
        subst h
        have := hnum hf
        exact ⟨rfl, rfl, z, e, he, by rw [this]; exact hf, this.symm, c⟩
      · rw [if_neg c] at h; simp at h
  · obtain ⟨p1, p2, p3⟩ := p
    rintro ⟨h1, h2, z, e, he, hz, hn, hi⟩
    dsimp only at h1 h2 hz hn
    refine ⟨e, he, ?_⟩
    rw [hn, hz]
    dsimp only
    rw [if_pos hi, hnum hz, h1, h2]
    simp

theorem getApi_id {d : Dev} {a : Nat} {x : Api} (h : getApi d a = some x) : x.id = a ∧ x ∈ d ∧ x.inUse = true := by
  have hi := List.find?_some h
  simp only [isApi, Bool.and_eq_true, beq_iff_eq] at hi
  exact ⟨hi.2, List.mem_of_find?_eq_some h, hi.1⟩

theorem findSlot_num {x : Api} {s : Nat} {y : Slot} (h : findSlot x s = some y) :
    y.number = s ∧ y ∈ x.slots ∧ y.inUse = true := by
  have hi := List.find?_some h
  simp only [isSlot, Bool.and_eq_true, beq_iff_eq] at hi
  exact ⟨hi.2, List.mem_of_find?_eq_some h, hi.1⟩

theorem getSlot_num {d : Dev} {a s : Nat} {y : Slot} (h : getSlot d a s = some y) : y.number = s := by
  unfold getSlot at h
  cases hx : getApi d a with
  | none => rw [hx] at h; cases h
  | some x =>
    rw [hx, Option.bind_some] at h
    exact (findSlot_num h).1

theorem plugged_iff {d : Dev} {a s ss : Nat} {y : Slot} (hy : getSlot d a s = some y) :
    (∃ m sm, Plugged d (a, s, ss) m sm) ↔ ∃ z, findSub y ss = some z := by
  constructor
  · rintro ⟨m, sm, y', z, h1, h2, _⟩
    dsimp only at h1 h2
    unfold getSub at h2
    rw [hy, Option.bind_some] at h2
    exact ⟨z, h2⟩
  · rintro ⟨z, hz⟩
    exact ⟨_, _, y, z, hy, by simp [getSub, hy, hz], rfl, rfl⟩

section
variable {nA nS nB : Nat} {d : Dev} (hd : Device.Inv nA nS nB d)
include hd

theorem mem_apiPl {x : Api} {a : Nat} (hx : getApi d a = some x) (p : Place) :
    p ∈ apiPl x ↔ p.1 = a ∧ ∃ m sm, Plugged d p m sm := by
  obtain ⟨i1, i2, i3⟩ := getApi_id hx
  unfold apiPl
  rw [List.mem_flatMap]
  obtain ⟨p1, p2, p3⟩ := p
  constructor
  · rintro ⟨y, hy, h⟩
    obtain ⟨y1, y2⟩ := List.mem_filter.1 hy
    obtain ⟨e1, e2, z, hz⟩ := (mem_slotPl _ _ _).1 h
    dsimp only at e1 e2 hz
    have e3 : findSlot x y.number = some y :=
      find_uniq Slot.inUse Slot.number x.slots y (hd.api i2).slotKeys y1 y2
    have hs : getSlot d p1 p2 = some y := by
      rw [e1, i1, e2]
      simp [getSlot, hx, e3]
    refine ⟨by dsimp only; rw [e1, i1], ?_⟩
    exact (plugged_iff hs).2 ⟨z, hz⟩
  · rintro ⟨e1, h⟩
    dsimp only at e1
    subst e1
    obtain ⟨m, sm, y, z, h1, h2, h3, h4⟩ := h
    dsimp only at h1 h2
    have h1' := h1
    simp only [getSlot, hx, Option.bind_some] at h1'
    obtain ⟨j1, j2, j3⟩ := findSlot_num h1'
    have hz := (plugged_iff (ss := p3) h1).1 ⟨m, sm, y, z, h1, h2, h3, h4⟩
    exact ⟨y, List.mem_filter.2 ⟨j2, j3⟩, (mem_slotPl _ _ _).2 ⟨i1.symm, j1.symm, hz⟩⟩

theorem mem_devPl (p : Place) : p ∈ devPl d ↔ ∃ m sm, Plugged d p m sm := by
  unfold devPl
  rw [List.mem_flatMap]
  constructor
  · rintro ⟨x, hx, h⟩
    obtain ⟨x1, x2⟩ := List.mem_filter.1 hx
    have e1 : getApi d x.id = some x := find_uniq Api.inUse Api.id d x hd.apiKeys x1 x2
    exact ((mem_apiPl hd e1 p).1 h).2
  · rintro ⟨m, sm, hp⟩
    have hp' := hp
    obtain ⟨y, z, h1, _⟩ := hp
    unfold getSlot at h1
    cases hx : getApi d p.1 with
    | none => rw [hx] at h1; cases h1
    | some x =>
      obtain ⟨i1, i2, i3⟩ := getApi_id hx
      exact ⟨x, List.mem_filter.2 ⟨i2, i3⟩, (mem_apiPl hd hx p).2 ⟨rfl, m, sm, hp'⟩⟩

theorem nodup_slotPl (a : Nat) {x : Api} {y : Slot} (hx : x ∈ d) (hy : y ∈ x.slots) : (slotPl a y).Nodup := by
  have := (hd.api hx |>.slot hy).subKeys
  unfold keysOf at this
  have h2 : ((y.subs.filter Sub.inUse).map Sub.number).map
      (fun n => ((a, y.number, n) : Place)) = slotPl a y := by rw [List.map_map]; rfl
  rw [← h2]
  exact this.map (fun _ _ hh => by simpa using hh)

theorem nodup_apiPl {x : Api} (hx : x ∈ d) : (apiPl x).Nodup := by
  refine nodup_flatMap_key Slot.number _ (fun t => t.2.1) _ (hd.api hx).slotKeys ?_ ?_
  · intro y hy
    exact nodup_slotPl hd _ hx (List.mem_of_mem_filter hy)
  · intro y _ b hb
    exact ((mem_slotPl _ _ _).1 hb).2.1

theorem nodup_devPl : (devPl d).Nodup := by
  refine nodup_flatMap_key Api.id _ (fun t => t.1) _ hd.apiKeys ?_ ?_
  · intro x hx
    exact nodup_apiPl hd (List.mem_of_mem_filter hx)
  · intro x hx b hb
    obtain ⟨x1, x2⟩ := List.mem_filter.1 hx
    have e1 : getApi d x.id = some x := find_uniq Api.inUse Api.id d x hd.apiKeys x1 x2
    exact ((mem_apiPl hd e1 b).1 hb).1

omit hd in
theorem nodup_expPl (a : Nat) (y : Slot) {m : ExpMod} (hm : (m.subs.map (·.number)).Nodup) : (expPl a y m).Nodup := by
  refine nodup_flatMap_key (fun e : ExpSub => e.number) _ (fun t => t.2.2) _ hm ?_ ?_
  · intro e _
    cases findSub y e.number with
    | none => simp
    | some z =>
      dsimp only
      split <;> simp
  · intro e _ b hb
    cases hf : findSub y e.number with
    | none => rw [hf] at hb; simp at hb
    | some z =>
      rw [hf] at hb
      dsimp only at hb
      split at hb
      · have hb := List.mem_singleton.1 hb
        subst hb
        have hi := List.find?_some hf
        simp only [isSub, Bool.and_eq_true, beq_iff_eq] at hi
        exact hi.2
      · simp at hb

omit hd in
theorem mem_arPl {e : List ExpApi} (he : NoDuplicates e) (p : Place) :
    p ∈ arPl d e ↔ ∃ m sm, Plugged d p m sm ∧ Expected e p m sm := by
  obtain ⟨n1, n2⟩ := he
  unfold arPl
  rw [List.mem_flatMap]
  obtain ⟨p1, p2, p3⟩ := p
  constructor
  · rintro ⟨ea, hea, h⟩
    cases hx : getApi d ea.api with
    | none => rw [hx] at h; simp at h
    | some x =>
      rw [hx] at h
      dsimp only at h
      obtain ⟨m, hm, h⟩ := List.mem_flatMap.1 h
      cases hy : findSlot x m.slot with
      | none => rw [hy] at h; simp at h
      | some y =>
        rw [hy] at h
        dsimp only at h
        by_cases c : y.ident ≠ m.ident
        · rw [if_pos c] at h; simp at h
        · rw [if_neg c] at h
          have c : y.ident = m.ident := Classical.not_not.1 c
          obtain ⟨e1, e2, z, es, hes, hz, hn, hi⟩ := (mem_expPl _ _ _ _).1 h
          dsimp only at e1 e2 hz hn
          have k1 := (getApi_id hx).1
          have k2 := (findSlot_num hy).1
          have f1 : e.find? (fun x => x.api == p1) = some ea := by
            rw [e1, k1]
            exact find_key (fun x : ExpApi => x.api) e ea n1 hea
          have f2 : ea.mods.find? (fun x => x.slot == p2) = some m := by
            rw [e2, k2]
            exact find_key (fun x : ExpMod => x.slot) ea.mods m (n2 ea hea).1 hm
          have f3 : m.subs.find? (fun x => x.number == p3) = some es := by
            rw [← hn]
            exact find_key (fun x : ExpSub => x.number) m.subs es ((n2 ea hea).2 m hm) hes
          have f4 : expMod e p1 p2 = some m := by simp [expMod, f1, f2]
          have hs : getSlot d p1 p2 = some y := by
            rw [e1, k1, e2, k2]
            simp [getSlot, hx, hy]
          refine ⟨m.ident, es.ident, ⟨y, z, hs, by simp [getSub, hs, hz], c, hi⟩, m, es, f4, ?_, rfl, rfl⟩
          simp [expSub, f4, f3]
  · rintro ⟨m, sm, ⟨y, z, h1, h2, h3, h4⟩, ym, zs, g1, g2, g3, g4⟩
    dsimp only at h1 h2 g1 g2
    unfold expSub at g2
    rw [g1, Option.bind_some] at g2
    unfold expMod at g1
    cases hea : e.find? (fun x => x.api == p1) with
    | none => rw [hea] at g1; cases g1
    | some ea =>
      rw [hea, Option.bind_some] at g1
      have a1 := List.find?_some hea
      have a2 := List.mem_of_find?_eq_some hea
      have b1 := List.find?_some g1
      have b2 := List.mem_of_find?_eq_some g1
      have c1 := List.find?_some g2
      have c2 := List.mem_of_find?_eq_some g2
      simp only [beq_iff_eq] at a1 b1 c1
      unfold getSub at h2
      rw [h1, Option.bind_some] at h2
      have h1' := h1
      unfold getSlot at h1'
      cases hx : getApi d p1 with
      | none => rw [hx] at h1'; cases h1'
      | some x =>
        rw [hx, Option.bind_some] at h1'
        refine ⟨ea, a2, ?_⟩
        rw [a1, hx]
        dsimp only
        refine List.mem_flatMap.2 ⟨ym, b2, ?_⟩
        rw [b1, h1']
        dsimp only
        rw [if_neg (by rw [h3, g3]; simp)]
        exact (mem_expPl _ _ _ _).2 ⟨(getApi_id hx).1.symm, (findSlot_num h1').1.symm, z, zs, c2, h2, c1,
          by rw [h4, g4]⟩

omit hd in
theorem nodup_arPl {e : List ExpApi} (he : NoDuplicates e) : (arPl d e).Nodup := by
  obtain ⟨n1, n2⟩ := he
  unfold arPl
  refine nodup_flatMap_key (fun x : ExpApi => x.api) _ (fun t => t.1) _ n1 ?_ ?_
  · intro ea hea
    cases hx : getApi d ea.api with
    | none => simp
    | some x =>
      dsimp only
      refine nodup_flatMap_key (fun x : ExpMod => x.slot) _ (fun t => t.2.1) _ (n2 ea hea).1 ?_ ?_
      · intro m hm
        cases hy : findSlot x m.slot with
        | none => simp
        | some y =>
          dsimp only
          split
          · simp
          · exact nodup_expPl _ _ ((n2 ea hea).2 m hm)
      · intro m hm b hb
        cases hy : findSlot x m.slot with
        | none => rw [hy] at hb; simp at hb
        | some y =>
          rw [hy] at hb
          dsimp only at hb
          split at hb
          · simp at hb
          · rw [((mem_expPl _ _ _ _).1 hb).2.1]
            exact (findSlot_num hy).1
  · intro ea _ b hb
    cases hx : getApi d ea.api with
    | none => rw [hx] at hb; simp at hb
    | some x =>
      rw [hx] at hb
      dsimp only at hb
      obtain ⟨m, _, hb⟩ := List.mem_flatMap.1 hb
      cases hy : findSlot x m.slot with
      | none => rw [hy] at hb; simp at hb
      | some y =>
        rw [hy] at hb
        dsimp only at hb
        split at hb
        · simp at hb
        · rw [((mem_expPl _ _ _ _).1 hb).1]
          exact (getApi_id hx).1

/-! ## The five scopes -/

/-- `p` writes the reports of the submodules in scope. -/
def Answers (d : Dev) (ar : Option (List ExpApi)) (sc : Scope) (g : Place → List Byte) (p : W) : Prop :=
  ∃ ps : List Place, ps.Nodup ∧ (∀ q, q ∈ ps ↔ InScope d ar sc q) ∧ Emits p (ps.flatMap g)

variable {st : St} {f : Filter} {g : Place → List Byte}

omit hd in
theorem answers_none {ar : Option (List ExpApi)} {sc : Scope} (h : ∀ q, ¬ InScope d ar sc q) : Answers d ar sc g skip :=
  ⟨[], List.nodup_nil, fun q => ⟨fun hh => absurd hh (by simp), fun hh => absurd hh (h q)⟩, emits_skip⟩

omit hd in
theorem answers_one {ar : Option (List ExpApi)} {sc : Scope} {q0 : Place} {p : W} (hp : Emits p (g q0))
    (h : ∀ q, q = q0 ↔ InScope d ar sc q) : Answers d ar sc g p :=
  ⟨[q0], by simp, fun q => by rw [List.mem_singleton]; exact h q, by simpa using hp⟩

omit hd in
theorem answers_readSubslot (hg : Gives st f g) (ar : Option (List ExpApi)) (a s ss : Nat) :
    Answers d ar (.subslot a s ss) g (readSubslot d st f ar a s ss) := by
  unfold readSubslot
  cases hy : getSlot d a s with
  | none =>
    apply answers_none
    rintro q ⟨rfl, m, sm, ⟨y, z, h1, _⟩, _⟩
    dsimp only at h1
    rw [hy] at h1
    cases h1
  | some y =>
    dsimp only
    cases hz : findSub y ss with
    | none =>
      apply answers_none
      rintro q ⟨rfl, m, sm, hp, _⟩
      obtain ⟨z, h⟩ := (plugged_iff hy).1 ⟨m, sm, hp⟩
      rw [hz] at h
      cases h
    | some z =>
      have hnum : z.number = ss := by
        have hi := List.find?_some hz
        simp only [isSub, Bool.and_eq_true, beq_iff_eq] at hi
        exact hi.2
      have hpl : Plugged d (a, s, ss) y.ident z.ident := ⟨y, z, hy, by simp [getSub, hy, hz], rfl, rfl⟩
      have hpu : ∀ m sm, Plugged d (a, s, ss) m sm → m = y.ident ∧ sm = z.ident := by
        rintro m sm ⟨y', z', h1, h2, rfl, rfl⟩
        dsimp only at h1 h2
        rw [hy] at h1
        cases h1
        unfold getSub at h2
        rw [hy, Option.bind_some, hz] at h2
        cases h2
        exact ⟨rfl, rfl⟩
      have hput : Emits (putSub st f a s z.number) (g (a, s, ss)) := by rw [hnum]; exact hg _ _ _
      dsimp only
      cases ar with
      | none =>
        refine answers_one hput (fun q => ⟨?_, fun h => h.1⟩)
        rintro rfl
        exact ⟨rfl, _, _, hpl, fun e he => by cases he⟩
      | some e =>
        dsimp only
        have htriv : (∀ m' sm', ¬ Expected e (a, s, ss) m' sm') → Answers d (some e) (.subslot a s ss) g
            (putSub st f a s z.number) := by
          intro hne
          refine answers_one hput (fun q => ⟨?_, fun h => h.1⟩)
          rintro rfl
          refine ⟨rfl, _, _, hpl, fun e' he' m' sm' hx => ?_⟩
          cases he'
          exact absurd hx (hne _ _)
        cases hm : expMod e a s with
        | none =>
          apply htriv
          rintro m' sm' ⟨y', z', h1, _⟩
          dsimp only at h1
          rw [hm] at h1
          cases h1
        | some m =>
          cases hs : expSub e a s ss with
          | none =>
            apply htriv
            rintro m' sm' ⟨y', z', _, h2, _⟩
            dsimp only at h2
            rw [hs] at h2
            cases h2
          | some es =>
            dsimp only
            have hex : Expected e (a, s, ss) m.ident es.ident := ⟨m, es, hm, hs, rfl, rfl⟩
            by_cases c : m.ident ≠ y.ident ∨ es.ident ≠ z.ident
            · rw [if_pos c]
              apply answers_none
              rintro q ⟨rfl, mi, si, hp, h⟩
              obtain ⟨rfl, rfl⟩ := hpu _ _ hp
              have := h e rfl _ _ hex
              rcases c with c | c
              · exact c this.1
              · exact c this.2
            · rw [if_neg c]
              have c1 : m.ident = y.ident := Classical.not_not.1 (fun h => c (Or.inl h))
              have c2 : es.ident = z.ident := Classical.not_not.1 (fun h => c (Or.inr h))
              refine answers_one hput (fun q => ⟨?_, fun h => h.1⟩)
              rintro rfl
              refine ⟨rfl, _, _, hpl, fun e' he' m' sm' hx => ?_⟩
              cases he'
              obtain ⟨y', z', h1, h2, rfl, rfl⟩ := hx
              dsimp only at h1 h2
              rw [hm] at h1
              rw [hs] at h2
              cases h1
              cases h2
              exact ⟨c1, c2⟩

theorem answers_readSlot (hg : Gives st f g) {ar : Option (List ExpApi)} (hnd : ∀ e, ar = some e → NoDuplicates e)
    (a s : Nat) : Answers d ar (.slot a s) g (readSlot d st f ar a s) := by
  unfold readSlot
  cases hy : getSlot d a s with
  | none =>
    apply answers_none
    rintro ⟨q1, q2, q3⟩ ⟨h1, h2, m, sm, ⟨y, z, h3, _⟩, _⟩
    dsimp only at h1 h2 h3
    subst h1 h2
    rw [hy] at h3
    cases h3
  | some y =>
    have hys := getSlot_num hy
    obtain ⟨x, hx, hyx⟩ : ∃ x, x ∈ d ∧ y ∈ x.slots := by
      have hy' := hy
      unfold getSlot at hy'
      cases hx : getApi d a with
      | none => rw [hx] at hy'; cases hy'
      | some x =>
        rw [hx, Option.bind_some] at hy'
        exact ⟨x, (getApi_id hx).2.1, (findSlot_num hy').2.1⟩
    dsimp only
    cases hm : ar.bind (fun e => expMod e a s) with
    | none =>
      refine ⟨slotPl a y, nodup_slotPl hd a hx hyx, ?_, emits_putSlot hg a y⟩
      rintro ⟨q1, q2, q3⟩
      rw [mem_slotPl]
      dsimp only [InScope]
      rw [hys]
      constructor
      · rintro ⟨rfl, rfl, hz⟩
        obtain ⟨m, sm, hp⟩ := (plugged_iff hy).2 hz
        refine ⟨rfl, rfl, m, sm, hp, ?_⟩
        intro e he hne
        rw [he, Option.bind_some] at hm
        exact absurd hm hne
      · rintro ⟨rfl, rfl, m, sm, hp, _⟩
        exact ⟨rfl, rfl, (plugged_iff hy).1 ⟨m, sm, hp⟩⟩
    | some m =>
      cases har : ar with
      | none => rw [har] at hm; cases hm
      | some e =>
        rw [har, Option.bind_some] at hm
        have hde := hnd e har
        dsimp only
        by_cases c : m.ident = y.ident
        · rw [if_pos c]
          have hmem : m.subs.map (·.number) |>.Nodup := by
            have hm' := hm
            unfold expMod at hm'
            cases hea : e.find? (fun x => x.api == a) with
            | none => rw [hea] at hm'; cases hm'
            | some ea =>
              rw [hea, Option.bind_some] at hm'
              exact (hde.2 ea (List.mem_of_find?_eq_some hea)).2 m (List.mem_of_find?_eq_some hm')
          refine ⟨expPl a y m, nodup_expPl a y hmem, ?_, emits_putArSlot hg a y m⟩
          rintro ⟨q1, q2, q3⟩
          rw [mem_expPl]
          dsimp only [InScope]
          rw [hys]
          constructor
          · rintro ⟨rfl, rfl, z, es, hes, hz, hn, hi⟩
            refine ⟨rfl, rfl, y.ident, z.ident, ⟨y, z, hy, by simp [getSub, hy, hz], rfl, rfl⟩, ?_⟩
            intro e' he' _
            cases he'
            refine ⟨m, es, hm, ?_, c, hi.symm⟩
            have f3 : m.subs.find? (fun x => x.number == q3) = some es := by
              rw [← hn]
              exact find_key (fun x : ExpSub => x.number) m.subs es hmem hes
            simp [expSub, hm, f3]
          · rintro ⟨rfl, rfl, mi, si, ⟨y', z, h1, h2, rfl, rfl⟩, h⟩
            obtain ⟨m', es, g1, g2, g3, g4⟩ := h e rfl (by rw [hm]; simp)
            dsimp only at h1 h2 g1 g2
            unfold getSub at h2
            rw [hy, Option.bind_some] at h2
            unfold expSub at g2
            rw [hm, Option.bind_some] at g2
            have b1 := List.find?_some g2
            have b2 := List.mem_of_find?_eq_some g2
            simp only [beq_iff_eq] at b1
            exact ⟨rfl, rfl, z, es, b2, h2, b1, g4.symm⟩
        · rw [if_neg c]
          apply answers_none
          rintro ⟨q1, q2, q3⟩ ⟨h1, h2, mi, si, ⟨y', z, h3, h4, rfl, rfl⟩, h⟩
          dsimp only at h1 h2 h3
          subst h1 h2
          obtain ⟨m', es, g1, g2, g3, g4⟩ := h e rfl (by rw [hm]; simp)
          dsimp only at g1
          rw [hm] at g1
          rw [hy] at h3
          cases g1
          cases h3
          exact c g3

omit hd in
theorem answers_readAr (hg : Gives st f g) {ar : Option (List ExpApi)} (hnd : ∀ e, ar = some e → NoDuplicates e) :
    Answers d ar .ar g (readAr d st f ar) := by
  cases ar with
  | none =>
    apply answers_none
    rintro q ⟨e, m, sm, h, _⟩
    cases h
  | some e =>
    have he := hnd e rfl
    refine ⟨arPl d e, nodup_arPl he, ?_, emits_readAr hg d e⟩
    intro q
    rw [mem_arPl he]
    constructor
    · rintro ⟨m, sm, h1, h2⟩
      exact ⟨e, m, sm, rfl, h1, h2⟩
    · rintro ⟨e', m, sm, h0, h1, h2⟩
      cases h0
      exact ⟨m, sm, h1, h2⟩

theorem answers_readApi (hg : Gives st f g) (ar : Option (List ExpApi)) (a : Nat) :
    Answers d ar (.api a) g (readApi d st f a) := by
  unfold readApi
  cases hx : getApi d a with
  | none =>
    apply answers_none
    rintro ⟨q1, q2, q3⟩ ⟨h1, m, sm, y, z, h2, _⟩
    dsimp only at h1 h2
    subst h1
    unfold getSlot at h2
    rw [hx] at h2
    cases h2
  | some x =>
    exact ⟨apiPl x, nodup_apiPl hd (getApi_id hx).2.1, fun q => mem_apiPl hd hx q, emits_putApi hg x⟩

theorem answers_readDevice (hg : Gives st f g) (ar : Option (List ExpApi)) :
    Answers d ar .device g (readDevice d st f) :=
  ⟨devPl d, nodup_devPl hd, fun q => mem_devPl hd q, emits_readDevice hg d⟩

end

/-! ## C87 -/

/--
**C87**.  After every history of diagnosis calls and of plugging: a read of one of the diagnosis indices ends,
stays within the response buffer, and, if the buffer is large enough, its answer consists of one report for each
submodule in the scope of the index, each exactly once, and each report has the stored diagnoses of that submodule
that pass the filter of the index, grouped by identifier.  The connection expects no slot twice.
Missing from the full claim (see the theorems below): diagnoses with identifier 0 and manufacturer diagnoses
without data are not reported (`Reports`), a buffer that is too small cuts the answer, and qualified severities
are in none of the severity lists.
-/
theorem C87_diagnosis_read_partial (maxData n : Nat) (hn : n ≤ 65535) (ops : List Op) (st : St)
    (hst : exec maxData (init n) ops = some st) (nA nS nB : Nat) (os : List TOp)
    (ar : Option (List ExpApi)) (hnd : ∀ e, ar = some e → NoDuplicates e)
    (a s ss idx : Nat) (sc : Scope) (f : Filter) (hask : Asks a s ss idx sc f) :
    ∃ p, readIndex (texec (dev0 nA nS nB) os) st ar a s ss idx = some p ∧
      ∃ (ps : List Place) (g : Place → List Byte), ps.Nodup ∧
        (∀ q, q ∈ ps ↔ InScope (texec (dev0 nA nS nB) os) ar sc q) ∧
        (∀ q, Reports f q (listing st q) (g q)) ∧ Emits p (ps.flatMap g) := by
  have hd := inv_texec os (inv_dev0 nA nS nB)
  generalize texec (dev0 nA nS nB) os = d at hd
  have hok := stOk_exec hn hst
  have key : ∀ (f : Filter) (sc : Scope) (p : W),
      (∀ g, Gives st f g → Answers d ar sc g p) →
      ∃ (ps : List Place) (g : Place → List Byte), ps.Nodup ∧ (∀ q, q ∈ ps ↔ InScope d ar sc q) ∧
        (∀ q, Reports f q (listing st q) (g q)) ∧ Emits p (ps.flatMap g) := by
    intro f sc p h
    have hc : ∀ q : Place, ∃ bs, Reports f q (listing st q) bs ∧ Emits (putSub st f q.1 q.2.1 q.2.2) bs :=
      fun q => emits_putSub hok f q.1 q.2.1 q.2.2
    have hg : Gives st f (fun q => Classical.choose (hc q)) := fun a s ss => (Classical.choose_spec (hc (a, s, ss))).2
    obtain ⟨ps, h1, h2, h3⟩ := h _ hg
    exact ⟨ps, _, h1, h2, fun q => (Classical.choose_spec (hc q)).1, h3⟩
  rcases hask with ⟨b, o, hb, ho, rfl⟩ | ⟨rfl, rfl, rfl⟩
  · simp only [scopes, filters, List.mem_cons, List.not_mem_nil, or_false, Prod.mk.injEq] at hb ho
    rcases hb with ⟨rfl, rfl⟩ | ⟨rfl, rfl⟩ | ⟨rfl, rfl⟩ | ⟨rfl, rfl⟩ <;>
      rcases ho with ⟨rfl, rfl⟩ | ⟨rfl, rfl⟩ | ⟨rfl, rfl⟩ | ⟨rfl, rfl⟩ | ⟨rfl, rfl⟩ | ⟨rfl, rfl⟩ | ⟨rfl, rfl⟩ <;>
      first
      | exact ⟨_, rfl, key _ _ _ (fun g hg => answers_readSubslot hg ar a s ss)⟩
      | exact ⟨_, rfl, key _ _ _ (fun g hg => answers_readSlot hd hg hnd a s)⟩
      | exact ⟨_, rfl, key _ _ _ (fun g hg => answers_readAr hg hnd)⟩
      | exact ⟨_, rfl, key _ _ _ (fun g hg => answers_readApi hd hg ar a)⟩
  · exact ⟨_, rfl, key _ _ _ (fun g hg => answers_readDevice hd hg ar)⟩

/-- **C87** (`Reports` determines the bytes): two reports of the same diagnoses are equal. -/
theorem C87_reports_unique {f : Filter} {p : Place} {l : List (Nat × Fmt)} {x y : List Byte} (hx : Reports f p l x)
    (hy : Reports f p l y) : x = y := by
  obtain ⟨us, u1, u2, rfl⟩ := hx
  obtain ⟨vs, v1, v2, rfl⟩ := hy
  have hmem : ∀ u, u ∈ us ↔ u ∈ vs := fun u => by rw [u2, v2]
  have hperm : us.Perm vs := (List.perm_ext_iff_of_nodup (u1.imp (fun h => Nat.ne_of_lt h))
    (v1.imp (fun h => Nat.ne_of_lt h))).2 hmem
  have : us = vs := hperm.eq_of_pairwise (fun a b _ _ h1 h2 => absurd h1 (Nat.lt_asymm h2)) u1 v1
  rw [this]

/-- **C87** (nothing else): only these indices read diagnoses. -/
theorem C87_indices (d : Dev) (st : St) (ar : Option (List ExpApi)) (a s ss idx : Nat) (p : W)
    (h : readIndex d st ar a s ss idx = some p) : ∃ sc f, Asks a s ss idx sc f := by
  have key : ∀ {b o : Nat} {sc : Scope} {f : Filter}, (b, sc) ∈ scopes a s ss → (o, f) ∈ filters →
      ∃ sc f, Asks a s ss (b + o) sc f := fun hb ho => ⟨_, _, Or.inl ⟨_, _, hb, ho, rfl⟩⟩
  unfold readIndex at h
  split at h <;> first
    | exact absurd h (Option.some_ne_none p).symm
    | exact ⟨_, _, Or.inr ⟨rfl, rfl, rfl⟩⟩
    | exact key (b := 0x8000) (o := 0x0A) (sc := .subslot a s ss) (f := .faultStd) (by simp [scopes]) (by simp [filters])
    | exact key (b := 0x8000) (o := 0x0B) (sc := .subslot a s ss) (f := .faultAll) (by simp [scopes]) (by simp [filters])
    | exact key (b := 0x8000) (o := 0x0C) (sc := .subslot a s ss) (f := .all) (by simp [scopes]) (by simp [filters])
    | exact key (b := 0x8000) (o := 0x10) (sc := .subslot a s ss) (f := .mReq) (by simp [scopes]) (by simp [filters])
    | exact key (b := 0x8000) (o := 0x11) (sc := .subslot a s ss) (f := .mDem) (by simp [scopes]) (by simp [filters])
    | exact key (b := 0x8000) (o := 0x12) (sc := .subslot a s ss) (f := .mReq) (by simp [scopes]) (by simp [filters])
    | exact key (b := 0x8000) (o := 0x13) (sc := .subslot a s ss) (f := .mDem) (by simp [scopes]) (by simp [filters])
    | exact key (b := 0xC000) (o := 0x0A) (sc := .slot a s) (f := .faultStd) (by simp [scopes]) (by simp [filters])
    | exact key (b := 0xC000) (o := 0x0B) (sc := .slot a s) (f := .faultAll) (by simp [scopes]) (by simp [filters])
    | exact key (b := 0xC000) (o := 0x0C) (sc := .slot a s) (f := .all) (by simp [scopes]) (by simp [filters])
    | exact key (b := 0xC000) (o := 0x10) (sc := .slot a s) (f := .mReq) (by simp [scopes]) (by simp [filters])
    | exact key (b := 0xC000) (o := 0x11) (sc := .slot a s) (f := .mDem) (by simp [scopes]) (by simp [filters])
    | exact key (b := 0xC000) (o := 0x12) (sc := .slot a s) (f := .mReq) (by simp [scopes]) (by simp [filters])
    | exact key (b := 0xC000) (o := 0x13) (sc := .slot a s) (f := .mDem) (by simp [scopes]) (by simp [filters])
    | exact key (b := 0xE000) (o := 0x0A) (sc := .ar) (f := .faultStd) (by simp [scopes]) (by simp [filters])
    | exact key (b := 0xE000) (o := 0x0B) (sc := .ar) (f := .faultAll) (by simp [scopes]) (by simp [filters])
    | exact key (b := 0xE000) (o := 0x0C) (sc := .ar) (f := .all) (by simp [scopes]) (by simp [filters])
    | exact key (b := 0xE000) (o := 0x10) (sc := .ar) (f := .mReq) (by simp [scopes]) (by simp [filters])
    | exact key (b := 0xE000) (o := 0x11) (sc := .ar) (f := .mDem) (by simp [scopes]) (by simp [filters])
    | exact key (b := 0xE000) (o := 0x12) (sc := .ar) (f := .mReq) (by simp [scopes]) (by simp [filters])
    | exact key (b := 0xE000) (o := 0x13) (sc := .ar) (f := .mDem) (by simp [scopes]) (by simp [filters])
    | exact key (b := 0xF000) (o := 0x0A) (sc := .api a) (f := .faultStd) (by simp [scopes]) (by simp [filters])
    | exact key (b := 0xF000) (o := 0x0B) (sc := .api a) (f := .faultAll) (by simp [scopes]) (by simp [filters])
    | exact key (b := 0xF000) (o := 0x0C) (sc := .api a) (f := .all) (by simp [scopes]) (by simp [filters])
    | exact key (b := 0xF000) (o := 0x10) (sc := .api a) (f := .mReq) (by simp [scopes]) (by simp [filters])
    | exact key (b := 0xF000) (o := 0x11) (sc := .api a) (f := .mDem) (by simp [scopes]) (by simp [filters])
    | exact key (b := 0xF000) (o := 0x12) (sc := .api a) (f := .mReq) (by simp [scopes]) (by simp [filters])
    | exact key (b := 0xF000) (o := 0x13) (sc := .api a) (f := .mDem) (by simp [scopes]) (by simp [filters])

/-- **C87** (nothing is left out): each stored diagnosis that passes the filter, has an identifier other than 0
and has contents is found in the report, in the block with its place and identifier. -/
theorem C87_each_is_reported {f : Filter} {p : Place} {l : List (Nat × Fmt)} {bs : List Byte} (h : Reports f p l bs)
    (e : Nat × Fmt) (he : e ∈ l) (h0 : e.1 ≠ 0) (hs : Shown f e) (hc : encEntry e ≠ []) :
    ∃ es x y before after, e ∈ es ∧ bs = x ++ encDiag p e.1 es ++ y ∧
      es.flatMap encEntry = before ++ encEntry e ++ after := by
  obtain ⟨us, u1, u2, rfl⟩ := h
  have hm : e.1 ∈ us := (u2 _).2 ⟨h0, e, he, rfl, hs, hc⟩
  obtain ⟨us1, us2, rfl⟩ := List.append_of_mem hm
  have hes : e ∈ l.filter (fun e' => decide (e'.1 = e.1) && decide (Shown f e')) :=
    List.mem_filter.2 ⟨he, by simp [hs]⟩
  obtain ⟨e1, e2, heq⟩ := List.append_of_mem hes
  refine ⟨_, us1.flatMap (fun u => encDiag p u (l.filter (fun e => decide (e.1 = u) && decide (Shown f e)))),
    us2.flatMap (fun u => encDiag p u (l.filter (fun e => decide (e.1 = u) && decide (Shown f e)))), e1.flatMap encEntry, e2.flatMap encEntry, hes, ?_, ?_⟩
  · rw [List.flatMap_append, List.flatMap_cons, List.append_assoc]
  · rw [heq, List.flatMap_append, List.flatMap_cons, List.append_assoc]

/-! ## What is missing -/

/-- A manufacturer diagnosis. -/
def manufArgs (p : Place) (usi : Nat) (data : List Nat) : Args :=
  ⟨p, ⟨0, false, 0, 0, 0⟩, 0, 0, 0, 0, usi, data.length, some data⟩

/-- A qualified diagnosis with a fault qualifier. -/
def qualArgs (p : Place) : Args := ⟨p, ⟨1, false, 0, 1, 0⟩, 0, 3, 0, 2 ^ 27, 0x8003, 0, none⟩

/-- One submodule. -/
def oneSub : Dev := texec (dev0 1 1 1) [.plugSub 0 1 1 0x10 0x20 ⟨1, 4, 0⟩ none true]

/-- Bytes of the answer of a read of the device, for a buffer with `cap` bytes. -/
def readBytes (cap : Nat) (st : St) (idx : Nat) : Option (List Byte) :=
  (readIndex oneSub st none 0 1 1 idx).bind fun p =>
    (p ⟨List.replicate cap 0, cap, 0⟩).map fun w => w.buf.take w.pos

/-- **C87, what is false** (1): a stored diagnosis with identifier 0, and a stored manufacturer diagnosis without
data, are in no answer, not even in the one that asks for all of them. -/
theorem C87_not_reported (d : List Nat) (f : Filter) (p : Place) (bs : List Byte) :
    (Reports f p [(0, .manuf d)] bs → bs = []) ∧ (∀ u, Reports f p [(u, .manuf [])] bs → bs = []) := by
  constructor
  · rintro ⟨us, _, h, rfl⟩
    have : us = [] := by
      apply List.eq_nil_iff_forall_not_mem.2
      intro u hu
      obtain ⟨h0, e, he, h1, _⟩ := (h u).1 hu
      simp at he
      subst he
      exact h0 h1.symm
    rw [this]; rfl
  · rintro u ⟨us, _, h, rfl⟩
    have : us = [] := by
      apply List.eq_nil_iff_forall_not_mem.2
      intro u hu
      obtain ⟨_, e, he, _, _, h2⟩ := (h u).1 hu
      simp at he
      subst he
      exact h2 rfl
    rw [this]; rfl

/-- Both can be stored, and the read of all diagnoses of the device is empty. -/
theorem C87_not_reported_example :
    ((exec 4 (init 3) [.plug (0, 1, 1) none, .add (manufArgs (0, 1, 1) 0 [7, 8]) true]).bind fun st =>
      (readBytes 100 st 0xF80C).map fun r => (listing st (0, 1, 1), r)) = some ([(0, .manuf [7, 8])], []) ∧
    ((exec 4 (init 3) [.plug (0, 1, 1) none, .add (manufArgs (0, 1, 1) 5 []) true]).bind fun st =>
      (readBytes 100 st 0xF80C).map fun r => (listing st (0, 1, 1), r)) = some ([(5, .manuf [])], []) := by
  decide +kernel

/-- **C87, what is false** (2): a qualified diagnosis, whatever its qualifier says (here: fault), is missing in
the list of faults and in the lists of maintenance required and demanded. -/
theorem C87_qualified_not_in_severity_lists :
    ((exec 4 (init 3) [.plug (0, 1, 1) none, .add (qualArgs (0, 1, 1)) true]).bind fun st =>
      (readBytes 100 st 0x800B).bind fun x => (readBytes 100 st 0x8012).bind fun y =>
        (readBytes 100 st 0x8013).bind fun z => (readBytes 100 st 0x800C).map fun r => (x, y, z, r.length)) =
      some ([], [], [], 36) := by
  decide +kernel

/-- **C87, what is false** (3): if the response buffer is too small the answer is cut in the middle of an item
without notice: the read still succeeds.  Here 33 of 36 bytes fit, the last three bytes of the qualifier are
missing. -/
theorem C87_full_buffer_cuts :
    ((exec 4 (init 3) [.plug (0, 1, 1) none, .add (qualArgs (0, 1, 1)) true]).bind fun st =>
      (readBytes 100 st 0x800C).bind fun x => (readBytes 33 st 0x800C).map fun y =>
        (x.length, y.length, x.drop 4 |>.take 29, y.drop 4)) =
      some (36, 33, [1, 1, 0, 0, 0, 0, 0, 1, 0, 1, 128, 0, 8, 0, 128, 3, 0, 1, 14, 0, 0, 1, 0, 0, 0, 0, 0, 0, 8],
        [1, 1, 0, 0, 0, 0, 0, 1, 0, 1, 128, 0, 8, 0, 128, 3, 0, 1, 14, 0, 0, 1, 0, 0, 0, 0, 0, 0, 8]) := by
  decide +kernel

/-- Non-vacuity: two diagnoses with different identifiers on one submodule, the read of the device has two
blocks, the read of the faults only has the first one. -/
theorem C87_example :
    ((exec 4 (init 3) [.plug (0, 1, 1) none, .add (qualArgs (0, 1, 1)) true,
        .add (manufArgs (0, 1, 1) 5 [7, 8]) true]).bind fun st =>
      (readBytes 100 st 0xF80C).bind fun x => (readBytes 100 st 0x800B).map fun y => (x.length, y)) =
      some (58, [0, 16, 0, 18, 1, 1, 0, 0, 0, 0, 0, 1, 0, 1, 128, 0, 8, 0, 0, 5, 7, 8]) := by
  decide +kernel

end Verif.DiagRead
