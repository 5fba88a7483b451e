import Verif.Ident.Lemmas

/-! Identification records (C88, C89, C90). -/
set_option linter.unusedSimpArgs false
set_option linter.unusedVariables false

namespace Verif.Ident
open Verif.Device hiding St step exec listing Inv Op init
open Verif.Wire hiding ExpApi ExpMod ExpSub
open Verif.DiagRead hiding readIndex Scope Answers

attribute [local irreducible] n16 n32 putBlockHeader enc16 enc32 encBlockHeader

section
variable {nA nS nB : Nat} {d : Dev} (hd : Device.Inv nA nS nB d)

/-- The submodule lists are what they should be. -/
def SubsOk (y : Slot) (P : Nat → Prop) (B : List (Nat × Nat)) : Prop :=
  (B.map (·.1)).Nodup ∧ ∀ ss i, (ss, i) ∈ B ↔ (∃ z, findSub y ss = some z ∧ z.ident = i) ∧ P ss

/-- The module lists are what they should be. -/
def SlotsOk (x : Api) (P : Nat → Prop) (Q : Nat → Nat → Prop) (L : List (Nat × Nat × List (Nat × Nat))) : Prop :=
  (L.map (·.1)).Nodup ∧ (∀ s, s ∈ L.map (·.1) ↔ (∃ y, findSlot x s = some y) ∧ P s) ∧
  ∀ s m B, (s, m, B) ∈ L → ∃ y, findSlot x s = some y ∧ y.ident = m ∧ SubsOk y (Q s) B

theorem subsOk_all {y : Slot} (h : (keysOf Sub.inUse Sub.number y.subs).Nodup) : SubsOk y (fun _ => True) (allSubs y) := by
  obtain ⟨h1, h2⟩ := table_spec Sub.inUse Sub.number Sub.ident y.subs h
  refine ⟨h1, fun ss i => ?_⟩
  rw [and_true]
  exact h2 ss i

theorem subsOk_one {y : Slot} {ss : Nat} {z : Sub} (h : findSub y ss = some z) :
    SubsOk y (fun n => n = ss) [subT z] := by
  have hn := findSub_num h
  refine ⟨by simp, fun n i => ?_⟩
  simp only [List.mem_singleton, subT, Prod.mk.injEq]
  constructor
  · rintro ⟨rfl, rfl⟩
    exact ⟨⟨z, by rw [hn]; exact h, rfl⟩, hn⟩
  · rintro ⟨⟨z', h1, rfl⟩, rfl⟩
    rw [h] at h1
    cases Option.some.inj h1
    exact ⟨hn.symm, rfl⟩

theorem subsOk_exp {y : Slot} {m : ExpMod} (h : (m.subs.map (·.number)).Nodup) :
    SubsOk y (fun ss => ∃ z ∈ m.subs, z.number = ss) (expSubs y m) := by
  obtain ⟨h1, h2⟩ := expected_spec (fun e : ExpSub => e.number) Sub.number (findSub y) (fun _ z => z.ident) m.subs h
    (fun _ _ hh => findSub_num hh)
  refine ⟨h1, fun ss i => ?_⟩
  refine (h2 ss i).trans ?_
  constructor
  · rintro ⟨b, hb, hk, z, hz, hi⟩
    exact ⟨⟨z, hz, hi⟩, b, hb, hk⟩
  · rintro ⟨⟨z, hz, hi⟩, b, hb, hk⟩
    exact ⟨b, hb, hk, z, hz, hi⟩

theorem slotsOk_one {x : Api} {s : Nat} {y : Slot} (h : findSlot x s = some y) {Q : Nat → Nat → Prop}
    {B : List (Nat × Nat)} (hB : SubsOk y (Q s) B) : SlotsOk x (fun n => n = s) Q [slotT y B] := by
  have hn := (findSlot_num h).1
  refine ⟨by simp, ?_, ?_⟩
  · intro n
    simp only [List.map_cons, List.map_nil, List.mem_singleton, slotT, hn]
    constructor
    · rintro rfl
      exact ⟨⟨y, h⟩, rfl⟩
    · exact fun h => h.2
  · intro n m B' hm
    simp only [List.mem_singleton, slotT, Prod.mk.injEq] at hm
    obtain ⟨rfl, rfl, rfl⟩ := hm
    exact ⟨y, by rw [hn]; exact h, rfl, by rw [hn]; exact hB⟩

theorem slotsOk_exp {x : Api} {ea : ExpApi} (h : (ea.mods.map (·.slot)).Nodup)
    (h' : ∀ m ∈ ea.mods, (m.subs.map (·.number)).Nodup) :
    SlotsOk x (fun s => ∃ m ∈ ea.mods, m.slot = s)
      (fun s ss => ∃ m ∈ ea.mods, m.slot = s ∧ ∃ z ∈ m.subs, z.number = ss) (expSlots x ea) := by
  obtain ⟨h1, h2⟩ := expected_spec (fun e : ExpMod => e.slot) Slot.number (findSlot x)
    (fun m y => (y.ident, expSubs y m)) ea.mods h (fun _ _ hh => (findSlot_num hh).1)
  refine ⟨h1, ?_, ?_⟩
  · intro s
    constructor
    · intro hs
      obtain ⟨⟨n, v⟩, hv, rfl⟩ := List.mem_map.1 hs
      obtain ⟨m, hm, hk, y, hy, _⟩ := (h2 n v).1 hv
      exact ⟨⟨y, hy⟩, m, hm, hk⟩
    · rintro ⟨⟨y, hy⟩, m, hm, hk⟩
      exact List.mem_map.2 ⟨(s, (y.ident, expSubs y m)), (h2 _ _).2 ⟨m, hm, hk, y, hy, rfl⟩, rfl⟩
  · intro s i B hs
    obtain ⟨m, hm, hk, y, hy, he⟩ := (h2 s (i, B)).1 hs
    cases he
    refine ⟨y, hy, rfl, ?_⟩
    have := subsOk_exp (y := y) (h' m hm)
    refine ⟨this.1, fun ss j => ?_⟩
    rw [this.2 ss j]
    constructor
    · rintro ⟨hz, z, hz', hn⟩
      exact ⟨hz, m, hm, hk, z, hz', hn⟩
    · rintro ⟨hz, m', hm', hk', z, hz', hn⟩
      have e1 := find_key (fun m : ExpMod => m.slot) ea.mods m h hm
      have e2 := find_key (fun m : ExpMod => m.slot) ea.mods m' h hm'
      rw [hk] at e1
      rw [hk', e1] at e2
      cases Option.some.inj e2
      exact ⟨hz, z, hz', hn⟩

include hd in
theorem slotsOk_all {x : Api} (hx : x ∈ d) : SlotsOk x (fun _ => True) (fun _ _ => True) (allSlots x) := by
  obtain ⟨h1, h2⟩ := table_spec Slot.inUse Slot.number (fun y => (y.ident, allSubs y)) x.slots (hd.api hx).slotKeys
  refine ⟨h1, ?_, ?_⟩
  · intro s
    rw [and_true]
    constructor
    · intro hs
      obtain ⟨⟨n, v⟩, hv, rfl⟩ := List.mem_map.1 hs
      obtain ⟨y, hy, _⟩ := (h2 n v).1 hv
      exact ⟨y, hy⟩
    · rintro ⟨y, hy⟩
      exact List.mem_map.2 ⟨(s, (y.ident, allSubs y)), (h2 _ _).2 ⟨y, hy, rfl⟩, rfl⟩
  · intro s i B hs
    obtain ⟨y, hy, he⟩ := (h2 s (i, B)).1 hs
    cases he
    exact ⟨y, hy, rfl, subsOk_all (hd.api hx |>.slot (List.mem_of_find?_eq_some hy)).subKeys⟩

/-- From lists of modules to the whole. -/
theorem describes_of {q : Part} {T : Tree} (h1 : (T.map (·.1)).Nodup)
    (h2 : ∀ a, a ∈ T.map (·.1) ↔ (∃ x, getApi d a = some x) ∧ q.api a)
    (h3 : ∀ a L, (a, L) ∈ T → ∃ x, getApi d a = some x ∧ SlotsOk x (q.slot a) (q.sub a) L) :
    Describes (view d) q T := by
  refine ⟨⟨h1, fun a => ?_⟩, fun a L hL => ?_⟩
  · rw [h2]
    simp only [view, Option.isSome_iff_exists]
  · obtain ⟨x, hx, n1, n2, n3⟩ := h3 a L hL
    have hs : ∀ s, getSlot d a s = findSlot x s := fun s => by simp [getSlot, hx]
    refine ⟨⟨n1, fun s m => ?_⟩, fun s m B hB => ?_⟩
    · simp only [view, hs, Option.map_eq_some_iff]
      constructor
      · rintro ⟨B, hB⟩
        obtain ⟨y, hy, hi, _⟩ := n3 s m B hB
        exact ⟨⟨y, hy, hi⟩, ((n2 s).1 (List.mem_map.2 ⟨_, hB, rfl⟩)).2⟩
      · rintro ⟨⟨y, hy, hi⟩, hq⟩
        obtain ⟨⟨s', m', B⟩, hB, he⟩ := List.mem_map.1 ((n2 s).2 ⟨⟨y, hy⟩, hq⟩)
        dsimp only at he
        subst he
        obtain ⟨y', hy', hi', _⟩ := n3 _ _ _ hB
        rw [hy] at hy'
        cases Option.some.inj hy'
        exact ⟨B, by rw [← hi, hi']; exact hB⟩
    · obtain ⟨y, hy, hi, o1, o2⟩ := n3 s m B hB
      refine ⟨o1, fun ss i => ?_⟩
      rw [o2 ss i]
      simp only [view, getSub, hs, hy, Option.bind_some, Option.map_map, Option.map_eq_some_iff, Function.comp_def]

theorem describes_single {q : Part} {a : Nat} {x : Api} {L : List (Nat × Nat × List (Nat × Nat))}
    (hx : getApi d a = some x) (hq : ∀ a', q.api a' ↔ a' = a) (hL : SlotsOk x (q.slot a) (q.sub a) L) :
    Describes (view d) q [(a, L)] := by
  refine describes_of (by simp) ?_ ?_
  · intro a'
    simp only [List.map_cons, List.map_nil, List.mem_singleton, hq]
    constructor
    · rintro rfl
      exact ⟨⟨x, hx⟩, rfl⟩
    · exact fun h => h.2
  · intro a' L' h
    simp only [List.mem_singleton, Prod.mk.injEq] at h
    obtain ⟨rfl, rfl⟩ := h
    exact ⟨x, hx, hL⟩

/-- The contents of the record when there is nothing to describe. -/
theorem describes_none {q : Part} (h : ∀ a, q.api a → getApi d a = none) : Describes (view d) q [] := by
  refine describes_of (by simp) ?_ (fun a L hL => absurd hL (by simp))
  intro a
  constructor
  · intro h; simp at h
  · rintro ⟨⟨x, hx⟩, hq⟩
    rw [h a hq] at hx
    cases hx

theorem emits_real {vl : Byte} {ar : Option Conn} {sc : Scope} {bs : List Byte} (h : Emits (realBody d ar sc) bs) :
    Emits (realIdent d vl ar sc)
      (if bs = [] then [] else encBlock (if sc = .device then 0x001A else 0x0013) vl bs) := by
  have := emits_block (emits_header (if sc = .device then 0x001A else 0x0013) 1 vl) h
    (out := realIdent d vl ar sc) (fun w => rfl)
  simpa [encBlock] using this

theorem emits_one {x : Api} {a : Nat} (hx : getApi d a = some x) (y : Option Slot) (z : Option Sub) :
    Emits (n16 1 ;; putApiData x y z none) (encApis [(a, match y with
          | some y => [slotT y (match z with | some z => [subT z] | none => allSubs y)]
          | none => allSlots x)]) := by
  have := Emits.seq (emits_n16 1) (emits_api x y z none)
  unfold encApis
  simp only [List.length_singleton, List.flatMap_cons, List.flatMap_nil, List.append_nil]
  rw [(getApi_id hx).1] at this
  exact this

theorem enc16_ne (be : Bool) (v : U16) (l : List Byte) : enc16 be v ++ l ≠ [] := by
  intro h
  have := congrArg List.length h
  rw [List.length_append, enc16_length] at this
  simp at this

theorem encApis_ne (T : Tree) : encApis T ≠ [] := enc16_ne _ _ _

/-! ## Real identification -/

include hd in
theorem real_api {a : Nat} (hp : Present (view d) (.api a)) : ∃ T, Describes (view d) (partOf [] (.api a)) T ∧
    Emits (putDevData d none (.api a)) (encApis T) := by
  simp only [Present, view] at hp
  cases hx : getApi d a with
  | none => rw [hx] at hp; cases hp
  | some x =>
    have : putDevData d none (.api a) = (n16 1 ;; putApiData x none none none) := by simp only [putDevData, hx]
    rw [this]
    exact ⟨_, describes_single hx (fun _ => Iff.rfl) (slotsOk_all hd (getApi_id hx).2.1), emits_one hx none none⟩

theorem real_api_none {a : Nat} (hp : ¬ Present (view d) (.api a)) : putDevData d none (.api a) = skip := by
  simp only [Present, view] at hp
  cases hx : getApi d a with
  | none => simp only [putDevData, hx]
  | some x => rw [hx] at hp; exact absurd rfl hp

include hd in
theorem real_slot {a s : Nat} (hp : Present (view d) (.slot a s)) : ∃ T, Describes (view d) (partOf [] (.slot a s)) T ∧
    Emits (putDevData d none (.slot a s)) (encApis T) := by
  simp only [Present, view, getSlot] at hp
  cases hx : getApi d a with
  | none => rw [hx] at hp; exact absurd rfl hp
  | some x =>
    rw [hx, Option.bind_some] at hp
    cases hy : findSlot x s with
    | none => rw [hy] at hp; exact absurd rfl hp
    | some y =>
      obtain ⟨y1, y2, y3⟩ := findSlot_num hy
      have : putDevData d none (.slot a s) = (n16 1 ;; putApiData x (some y) none none) := by
        simp only [putDevData, hx, hy]
      rw [this]
      exact ⟨_, describes_single hx (fun _ => Iff.rfl)
        (slotsOk_one hy (subsOk_all (hd.api (getApi_id hx).2.1 |>.slot y2).subKeys)), emits_one hx (some y) none⟩

theorem real_slot_none {a s : Nat} (hp : ¬ Present (view d) (.slot a s)) : putDevData d none (.slot a s) = skip := by
  simp only [Present, view, getSlot, ne_eq, Classical.not_not, Option.map_eq_none_iff] at hp
  cases hx : getApi d a with
  | none => simp only [putDevData, hx]
  | some x =>
    rw [hx, Option.bind_some] at hp
    simp only [putDevData, hx, hp]

theorem real_sub {a s ss : Nat} (hp : Present (view d) (.subslot a s ss)) :
    ∃ T, Describes (view d) (partOf [] (.subslot a s ss)) T ∧
      Emits (putDevData d none (.subslot a s ss)) (encApis T) := by
  simp only [Present, view, getSub, getSlot] at hp
  cases hx : getApi d a with
  | none => rw [hx] at hp; exact absurd rfl hp
  | some x =>
    rw [hx, Option.bind_some] at hp
    cases hy : findSlot x s with
    | none => rw [hy] at hp; exact absurd rfl hp
    | some y =>
      rw [hy, Option.bind_some] at hp
      cases hz : findSub y ss with
      | none => rw [hz] at hp; exact absurd rfl hp
      | some z =>
        have : putDevData d none (.subslot a s ss) = (n16 1 ;; putApiData x (some y) (some z) none) := by
          simp only [putDevData, hx, hy, hz]
        rw [this]
        exact ⟨_, describes_single hx (fun _ => Iff.rfl) (slotsOk_one hy (subsOk_one hz)),
          emits_one hx (some y) (some z)⟩

theorem real_sub_none {a s ss : Nat} (hp : ¬ Present (view d) (.subslot a s ss)) :
    putDevData d none (.subslot a s ss) = skip := by
  simp only [Present, view, getSub, getSlot, ne_eq, Classical.not_not, Option.map_eq_none_iff] at hp
  cases hx : getApi d a with
  | none => simp only [putDevData, hx]
  | some x =>
    rw [hx, Option.bind_some] at hp
    cases hy : findSlot x s with
    | none => simp only [putDevData, hx, hy]
    | some y =>
      rw [hy, Option.bind_some] at hp
      simp only [putDevData, hx, hy, hp]

theorem real_ar {e : List ExpApi} (he : NoDuplicates e) : ∃ T, Describes (view d) (partOf e .ar) T ∧
    Emits (putDevData d (some e) .ar) (encApis T) := by
  obtain ⟨h1, h2⟩ := expected_spec (fun e : ExpApi => e.api) Api.id (getApi d)
    (fun ea x => expSlots x ea) e he.1 (fun _ _ hh => (getApi_id hh).1)
  refine ⟨expApis d e, ?_, ?_⟩
  · refine describes_of h1 ?_ ?_
    · intro a
      constructor
      · intro hs
        obtain ⟨⟨n, v⟩, hv, rfl⟩ := List.mem_map.1 hs
        obtain ⟨m, hm, hk, y, hy, _⟩ := (h2 n v).1 hv
        exact ⟨⟨y, hy⟩, m, hm, hk⟩
      · rintro ⟨⟨x, hx⟩, m, hm, hk⟩
        exact List.mem_map.2 ⟨(a, expSlots x m), (h2 _ _).2 ⟨m, hm, hk, x, hx, rfl⟩, rfl⟩
    · intro a L hL
      obtain ⟨ea, hea, hk, x, hx, rfl⟩ := (h2 a L).1 hL
      refine ⟨x, hx, ?_⟩
      have hu : ∀ ea', ea' ∈ e → ea'.api = a → ea' = ea := by
        intro ea' hea' hk'
        have e1 := find_key (fun m : ExpApi => m.api) e ea he.1 hea
        have e2 := find_key (fun m : ExpApi => m.api) e ea' he.1 hea'
        rw [hk] at e1
        rw [hk', e1] at e2
        exact (Option.some.inj e2).symm
      have := slotsOk_exp (x := x) (he.2 ea hea).1 (he.2 ea hea).2
      obtain ⟨n1, n2, n3⟩ := this
      refine ⟨n1, ?_, ?_⟩
      · intro s
        rw [n2 s]
        constructor
        · rintro ⟨hy, m, hm, hs⟩
          exact ⟨hy, ea, hea, hk, m, hm, hs⟩
        · rintro ⟨hy, ea', hea', hk', m, hm, hs⟩
          cases hu ea' hea' hk'
          exact ⟨hy, m, hm, hs⟩
      · intro s m B hB
        obtain ⟨y, hy, hi, o1, o2⟩ := n3 s m B hB
        refine ⟨y, hy, hi, o1, fun ss i => ?_⟩
        rw [o2 ss i]
        constructor
        · rintro ⟨hz, m, hm, hs, z, hz', hn⟩
          exact ⟨hz, ea, hea, hk, m, hm, hs, z, hz', hn⟩
        · rintro ⟨hz, ea', hea', hk', m, hm, hs, z, hz', hn⟩
          cases hu ea' hea' hk'
          exact ⟨hz, m, hm, hs, z, hz', hn⟩
  · unfold putDevData
    dsimp only
    have := emits_counted (fun p : Api × ExpApi => putApiData p.1 none none (some p.2)) _
      (e.filterMap (fun m => (getApi d m.api).map (fun y => (y, m)))) (fun p _ => emits_api p.1 none none (some p.2))
    have e1 : (e.filterMap (fun m => (getApi d m.api).map (fun y => (y, m)))).map
        (fun p : Api × ExpApi => putApiData p.1 none none (some p.2)) =
        e.filterMap (fun m => (getApi d m.api).map (fun y => putApiData y none none (some m))) := by
      rw [List.map_filterMap]
      simp only [Option.map_map, Function.comp_def]
    have e2 : expApis d e = (e.filterMap (fun m => (getApi d m.api).map (fun y => (y, m)))).map
        (fun p : Api × ExpApi => (p.1.id, expSlots p.1 p.2)) := by
      unfold expApis
      rw [List.map_filterMap]
      simp only [Option.map_map, Function.comp_def]
    rw [← e1, e2]
    unfold encApis
    rw [List.length_map, List.flatMap_map]
    exact this

end

/-- The tables after any history of calls. -/
def tables (nA nS nB : Nat) (os : List TOp) : Dev := texec (dev0 nA nS nB) os

theorem inv_tables (nA nS nB : Nat) (os : List TOp) : Device.Inv nA nS nB (tables nA nS nB os) :=
  inv_texec os (inv_dev0 nA nS nB)

/-- C88: after any history of plug and pull calls, reading the real identification of a submodule, a slot or an
API gives a record with exactly the plugged modules and submodules that were asked for; if what was asked for
does not exist, the answer is empty.  (C20 is about the view of the tables used here.) -/
theorem C88_real_identification (nA nS nB : Nat) (os : List TOp) (ar : Option Conn) (a s ss idx : Nat) (sc : Scope)
    (hi : (idx, sc) ∈ [(0x8001, .subslot a s ss), (0xC001, .slot a s), (0xF000, Scope.api a)]) :
    (Present (view (tables nA nS nB os)) sc → ∃ T, Describes (view (tables nA nS nB os)) (partOf [] sc) T ∧
      Answers (tables nA nS nB os) ar a s ss idx (encBlock 0x0013 1 (encApis T))) ∧
    (¬ Present (view (tables nA nS nB os)) sc → Answers (tables nA nS nB os) ar a s ss idx []) := by
  have hd := inv_tables nA nS nB os
  simp only [List.mem_cons, Prod.mk.injEq, List.not_mem_nil, or_false] at hi
  have hr : ∀ {sc : Scope} {T : Tree}, sc ≠ .device →
      Emits (realBody (tables nA nS nB os) none sc) (encApis T) →
      Emits (realIdent (tables nA nS nB os) 1 none sc) (encBlock 0x0013 1 (encApis T)) := by
    intro sc T hne h
    have := emits_real (vl := 1) h
    rwa [if_neg (encApis_ne T), if_neg hne] at this
  have hn : ∀ {sc : Scope}, realBody (tables nA nS nB os) none sc = skip →
      Emits (realIdent (tables nA nS nB os) 1 none sc) [] := by
    intro sc h
    have := emits_real (vl := 1) (ar := none) (sc := sc) (by rw [h]; exact emits_skip)
    rwa [if_pos rfl] at this
  rcases hi with ⟨rfl, rfl⟩ | ⟨rfl, rfl⟩ | ⟨rfl, rfl⟩
  · refine ⟨fun hp => ?_, fun hp => ⟨_, rfl, hn (real_sub_none hp)⟩⟩
    obtain ⟨T, h1, h2⟩ := real_sub hp
    exact ⟨T, h1, _, rfl, hr (by simp) h2⟩
  · refine ⟨fun hp => ?_, fun hp => ⟨_, rfl, hn (real_slot_none hp)⟩⟩
    obtain ⟨T, h1, h2⟩ := real_slot hd hp
    exact ⟨T, h1, _, rfl, hr (by simp) h2⟩
  · refine ⟨fun hp => ?_, fun hp => ⟨_, rfl, hn (real_api_none hp)⟩⟩
    obtain ⟨T, h1, h2⟩ := real_api hd hp
    exact ⟨T, h1, _, rfl, hr (by simp) h2⟩

/-- C88: the real identification for a connection has exactly those expected APIs, slots and subslots that are
known or plugged, with what is plugged there.  There is none for a supervisor connection or without connection. -/
theorem C88_connection (nA nS nB : Nat) (os : List TOp) (a s ss : Nat) :
    (∀ c : Conn, c.supervisor = false → NoDuplicates c.exp →
      ∃ T, Describes (view (tables nA nS nB os)) (partOf c.exp .ar) T ∧
        Answers (tables nA nS nB os) (some c) a s ss 0xE001 (encBlock 0x0013 1 (encApis T))) ∧
    (∀ ar : Option Conn, (∀ c, ar = some c → c.supervisor = true) →
      Answers (tables nA nS nB os) ar a s ss 0xE001 []) := by
  constructor
  · intro c hc he
    obtain ⟨T, h1, h2⟩ := real_ar (d := tables nA nS nB os) he
    refine ⟨T, h1, _, rfl, ?_⟩
    have := emits_real (vl := 1) (ar := some c) (sc := .ar) (d := tables nA nS nB os) (bs := encApis T)
      (by simp only [realBody, hc]; exact h2)
    rwa [if_neg (encApis_ne T), if_neg (by simp)] at this
  · intro ar h
    refine ⟨_, rfl, ?_⟩
    have := emits_real (vl := 1) (ar := ar) (sc := .ar) (d := tables nA nS nB os) (bs := []) (by
      cases ar with
      | none => exact emits_skip
      | some c => simp only [realBody, h c rfl]; exact emits_skip)
    rwa [if_pos rfl] at this

/-- C88: the API data record has exactly the known APIs, each once. -/
theorem C88_apis (nA nS nB : Nat) (os : List TOp) (ar : Option Conn) (a s ss : Nat) :
    ∃ l : List Nat, l.Nodup ∧ (∀ x, x ∈ l ↔ (view (tables nA nS nB os)).known x = true) ∧
      Answers (tables nA nS nB os) ar a s ss 0xF821 (encBlock 0x001A 0
        (enc16 true (BitVec.ofNat 16 l.length) ++ l.flatMap (fun x => enc32 true (BitVec.ofNat 32 x)))) := by
  have hd := inv_tables nA nS nB os
  generalize tables nA nS nB os = d at hd
  obtain ⟨h1, h2⟩ := table_spec Api.inUse Api.id (fun _ => ()) d hd.apiKeys
  refine ⟨(d.filter Api.inUse).map Api.id, hd.apiKeys, ?_, _, rfl, ?_⟩
  · intro x
    simp only [view, Option.isSome_iff_exists]
    constructor
    · intro hx
      obtain ⟨y, hy, rfl⟩ := List.mem_map.1 hx
      obtain ⟨z, hz, _⟩ := (h2 y.id ()).1 (List.mem_map.2 ⟨y, hy, rfl⟩)
      exact ⟨z, hz⟩
    · rintro ⟨z, hz⟩
      obtain ⟨y, hy, he⟩ := List.mem_map.1 ((h2 x ()).2 ⟨z, hz, rfl⟩)
      exact List.mem_map.2 ⟨y, hy, (Prod.mk.inj he).1⟩
  · have := emits_counted (fun x : Api => n32 x.id) _ (d.filter Api.inUse) (fun x _ => emits_n32 x.id)
    have := emits_real (vl := 0) (ar := none) (sc := .device) (d := d) this
    rw [if_neg (enc16_ne _ _ _), if_pos rfl] at this
    rw [List.length_map, List.flatMap_map]
    exact this

/-! ## The records can be understood -/

theorem enc16_inj {x y : Nat} {r r' : List Byte} (hx : x < 65536) (hy : y < 65536)
    (h : enc16 true (BitVec.ofNat 16 x) ++ r = enc16 true (BitVec.ofNat 16 y) ++ r') : x = y ∧ r = r' := by
  obtain ⟨h1, h2⟩ := List.append_inj h (by simp [enc16_length])
  refine ⟨?_, h2⟩
  simp only [enc16, if_true, List.cons.injEq, and_true, BitVec.toNat_ofNat] at h1
  obtain ⟨h3, h4⟩ := h1
  have h3 := congrArg BitVec.toNat h3
  have h4 := congrArg BitVec.toNat h4
  simp only [BitVec.toNat_ofNat] at h3 h4
  omega

theorem enc32_inj {x y : Nat} {r r' : List Byte} (hx : x < 4294967296) (hy : y < 4294967296)
    (h : enc32 true (BitVec.ofNat 32 x) ++ r = enc32 true (BitVec.ofNat 32 y) ++ r') : x = y ∧ r = r' := by
  obtain ⟨h1, h2⟩ := List.append_inj h (by simp [enc32_length])
  refine ⟨?_, h2⟩
  simp only [enc32, if_true, List.cons.injEq, and_true, BitVec.toNat_ofNat] at h1
  obtain ⟨h3, h4, h5, h6⟩ := h1
  have h3 := congrArg BitVec.toNat h3
  have h4 := congrArg BitVec.toNat h4
  have h5 := congrArg BitVec.toNat h5
  have h6 := congrArg BitVec.toNat h6
  simp only [BitVec.toNat_ofNat] at h3 h4 h5 h6
  omega

/-- Equal lists of self-delimiting items. -/
theorem flatMap_inj {α : Type} (P : α → Prop) (f : α → List Byte)
    (hf : ∀ a b r r', P a → P b → f a ++ r = f b ++ r' → a = b ∧ r = r') (l l' : List α) (r r' : List Byte)
    (hl : ∀ a ∈ l, P a) (hl' : ∀ a ∈ l', P a) (hlen : l.length = l'.length)
    (h : l.flatMap f ++ r = l'.flatMap f ++ r') : l = l' ∧ r = r' := by
  induction l generalizing l' with
  | nil =>
    cases l' with
    | nil => exact ⟨rfl, by simpa using h⟩
    | cons b l' => simp at hlen
  | cons a l ih =>
    cases l' with
    | nil => simp at hlen
    | cons b l' =>
      rw [List.flatMap_cons, List.flatMap_cons, List.append_assoc, List.append_assoc] at h
      obtain ⟨h1, h2⟩ := hf a b _ _ (hl a (by simp)) (hl' b (by simp)) h
      obtain ⟨h3, h4⟩ := ih l' (fun c hc => hl c (by simp [hc])) (fun c hc => hl' c (by simp [hc]))
        (by simpa using hlen) h2
      exact ⟨by rw [h1, h3], h4⟩

/-- Numbers have the sizes of their C types. -/
def FitsSubs (B : List (Nat × Nat)) : Prop :=
  B.length < 65536 ∧ ∀ p ∈ B, p.1 < 65536 ∧ p.2 < 4294967296
def FitsSlots (L : List (Nat × Nat × List (Nat × Nat))) : Prop :=
  L.length < 65536 ∧ ∀ p ∈ L, p.1 < 65536 ∧ p.2.1 < 4294967296 ∧ FitsSubs p.2.2
def Fits (T : Tree) : Prop :=
  T.length < 65536 ∧ ∀ p ∈ T, p.1 < 4294967296 ∧ FitsSlots p.2

theorem encSubs_inj {B B' : List (Nat × Nat)} {r r' : List Byte} (hB : FitsSubs B) (hB' : FitsSubs B')
    (h : encSubs B ++ r = encSubs B' ++ r') : B = B' ∧ r = r' := by
  unfold encSubs at h
  rw [List.append_assoc, List.append_assoc] at h
  obtain ⟨h1, h2⟩ := enc16_inj hB.1 hB'.1 h
  refine flatMap_inj (fun p => p.1 < 65536 ∧ p.2 < 4294967296) _ ?_ B B' r r' hB.2 hB'.2 h1 h2
  intro p q t t' hp hq he
  rw [List.append_assoc, List.append_assoc] at he
  obtain ⟨e1, e2⟩ := enc16_inj hp.1 hq.1 he
  obtain ⟨e3, e4⟩ := enc32_inj hp.2 hq.2 e2
  exact ⟨Prod.ext e1 e3, e4⟩

theorem encSlots_inj {L L' : List (Nat × Nat × List (Nat × Nat))} {r r' : List Byte} (hL : FitsSlots L)
    (hL' : FitsSlots L') (h : encSlots L ++ r = encSlots L' ++ r') : L = L' ∧ r = r' := by
  unfold encSlots at h
  rw [List.append_assoc, List.append_assoc] at h
  obtain ⟨h1, h2⟩ := enc16_inj hL.1 hL'.1 h
  refine flatMap_inj (fun p => p.1 < 65536 ∧ p.2.1 < 4294967296 ∧ FitsSubs p.2.2) _ ?_ L L' r r' hL.2 hL'.2 h1 h2
  intro p q t t' hp hq he
  rw [List.append_assoc, List.append_assoc, List.append_assoc, List.append_assoc] at he
  obtain ⟨e1, e2⟩ := enc16_inj hp.1 hq.1 he
  obtain ⟨e3, e4⟩ := enc32_inj hp.2.1 hq.2.1 e2
  obtain ⟨e5, e6⟩ := encSubs_inj hp.2.2 hq.2.2 e4
  exact ⟨Prod.ext e1 (Prod.ext e3 e5), e6⟩

/-- C88: the contents of a record can be recovered from its bytes, whatever follows. -/
theorem C88_readable {T T' : Tree} {r r' : List Byte} (hT : Fits T) (hT' : Fits T')
    (h : encApis T ++ r = encApis T' ++ r') : T = T' ∧ r = r' := by
  unfold encApis at h
  rw [List.append_assoc, List.append_assoc] at h
  obtain ⟨h1, h2⟩ := enc16_inj hT.1 hT'.1 h
  refine flatMap_inj (fun p => p.1 < 4294967296 ∧ FitsSlots p.2) _ ?_ T T' r r' hT.2 hT'.2 h1 h2
  intro p q t t' hp hq he
  rw [List.append_assoc, List.append_assoc] at he
  obtain ⟨e1, e2⟩ := enc32_inj hp.1 hq.1 he
  obtain ⟨e3, e4⟩ := encSlots_inj hp.2 hq.2 e2
  exact ⟨Prod.ext e1 e3, e4⟩

/-- Example: module 0x32 with submodule 0x132 in slot 1; the DAP with two submodules. -/
def exOps : List TOp :=
  [.plugSub 0 0 1 1 2 ⟨0, 0, 0⟩ none true, .plugSub 0 0 0x8000 1 3 ⟨0, 0, 0⟩ none true,
   .plugSub 0 1 1 0x32 0x132 ⟨3, 1, 1⟩ none true]

theorem C88_example :
    ((realIdent (tables 2 3 3 exOps) 1 none (.api 0)) ⟨List.replicate 60 0, 60, 0⟩).map (fun w => w.buf.take w.pos) =
      some (encBlock 0x0013 1 (encApis [(0, [(0, 1, [(1, 2), (0x8000, 3)]), (1, 0x32, [(1, 0x132)])])])) ∧
    Present (view (tables 2 3 3 exOps)) (.slot 0 1) ∧ ¬ Present (view (tables 2 3 3 exOps)) (.slot 0 2) := by
  refine ⟨by decide +kernel, ?_, ?_⟩
  · unfold Present; dsimp only; decide +kernel
  · unfold Present; dsimp only; decide +kernel

/-! ## Expected identification -/

theorem emits_expSub (z : ExpSub) : Emits (putExpSub z)
    (enc16 true (BitVec.ofNat 16 z.number) ++ enc32 true (BitVec.ofNat 32 z.ident)) :=
  Emits.seq (emits_n16 _) (emits_n32 _)

def modT (m : ExpMod) : Nat × Nat × List (Nat × Nat) := (m.slot, m.ident, m.subs.map (fun z => (z.number, z.ident)))

theorem emits_expMod (m : ExpMod) (z : Option ExpSub) : Emits (putExpMod m z)
    (enc16 true (BitVec.ofNat 16 m.slot) ++ enc32 true (BitVec.ofNat 32 m.ident) ++
      encSubs (match z with
        | some z => [(z.number, z.ident)]
        | none => m.subs.map (fun z => (z.number, z.ident)))) := by
  unfold putExpMod
  refine Emits.seq (Emits.seq (emits_n16 _) (emits_n32 _)) ?_
  cases z with
  | some z =>
    have := Emits.seq (emits_n16 1) (emits_expSub z)
    unfold encSubs
    simpa using this
  | none =>
    have := Emits.seq (emits_n16 m.subs.length) (emits_each m.subs (fun z _ => emits_expSub z))
    unfold encSubs
    rw [List.length_map, List.flatMap_map]
    exact this

theorem emits_expApi (e : ExpApi) (m : Option ExpMod) (z : Option ExpSub) : Emits (putExpApi e m z)
    (enc32 true (BitVec.ofNat 32 e.api) ++
      encSlots (match m with
        | some m => [(m.slot, m.ident, match z with
            | some z => [(z.number, z.ident)]
            | none => m.subs.map (fun z => (z.number, z.ident)))]
        | none => e.mods.map modT)) := by
  unfold putExpApi
  refine Emits.seq (emits_n32 _) ?_
  cases m with
  | some m =>
    have := Emits.seq (emits_n16 1) (emits_expMod m z)
    unfold encSlots
    simp only [List.length_singleton, List.flatMap_cons, List.flatMap_nil, List.append_nil]
    exact this
  | none =>
    have := Emits.seq (emits_n16 e.mods.length) (emits_each e.mods (fun m _ => emits_expMod m none))
    unfold encSlots
    rw [List.length_map, List.flatMap_map]
    exact this

theorem emits_expOne (e : ExpApi) (m : ExpMod) (z : Option ExpSub) : Emits (n16 1 ;; putExpApi e (some m) z)
    (encApis [(e.api, [(m.slot, m.ident, match z with
            | some z => [(z.number, z.ident)]
            | none => m.subs.map (fun z => (z.number, z.ident)))])]) := by
  have := Emits.seq (emits_n16 1) (emits_expApi e (some m) z)
  unfold encApis
  simp only [List.length_singleton, List.flatMap_cons, List.flatMap_nil, List.append_nil]
  exact this

theorem emits_expNone : Emits (n16 0) (encApis []) := by
  have := emits_n16 0
  unfold encApis
  simpa using this

/-- Looking for a key in a list in which it occurs at most once. -/
theorem find_cases {α : Type} (k : α → Nat) (l : List α) (h : (l.map k).Nodup) (n : Nat) :
    (∃ x ∈ l, k x = n ∧ l.find? (fun a => k a == n) = some x ∧ ∀ y ∈ l, k y = n → y = x) ∨
    ((∀ x ∈ l, k x ≠ n) ∧ l.find? (fun a => k a == n) = none) := by
  cases hf : l.find? (fun a => k a == n) with
  | none =>
    rw [List.find?_eq_none] at hf
    exact Or.inr ⟨fun x hx hk => hf x hx (by simpa using hk), rfl⟩
  | some x =>
    have h1 := List.mem_of_find?_eq_some hf
    have h2 := List.find?_some hf
    simp only [beq_iff_eq] at h2
    refine Or.inl ⟨x, h1, h2, rfl, ?_⟩
    intro y hy hk
    have := find_key k l y h hy
    rw [hk, hf] at this
    exact (Option.some.inj this).symm

theorem mem_treeOf {e : List ExpApi} {a : Nat} {L : List (Nat × Nat × List (Nat × Nat))} :
    (a, L) ∈ treeOf e ↔ ∃ x ∈ e, x.api = a ∧ x.mods.map modT = L := by
  unfold treeOf modT
  rw [List.mem_map]
  constructor
  · rintro ⟨x, hx, h⟩
    exact ⟨x, hx, (Prod.mk.inj h).1, (Prod.mk.inj h).2⟩
  · rintro ⟨x, hx, rfl, rfl⟩
    exact ⟨x, hx, rfl⟩

theorem mem_mods {x : ExpApi} {s m : Nat} {B : List (Nat × Nat)} :
    (s, m, B) ∈ x.mods.map modT ↔ ∃ y ∈ x.mods, y.slot = s ∧ y.ident = m ∧ y.subs.map (fun z => (z.number, z.ident)) = B := by
  unfold modT
  rw [List.mem_map]
  constructor
  · rintro ⟨y, hy, h⟩
    simp only [Prod.mk.injEq] at h
    exact ⟨y, hy, h⟩
  · rintro ⟨y, hy, rfl, rfl, rfl⟩
    exact ⟨y, hy, rfl⟩

theorem expBody_spec {e : List ExpApi} (he : NoDuplicates e) (sc : Scope)
    (hsc : sc = .ar ∨ (∃ a s, sc = .slot a s) ∨ ∃ a s ss, sc = .subslot a s ss) :
    ∃ T, Expects e sc T ∧ Emits (expBody e sc) (encApis T) := by
  rcases hsc with rfl | ⟨a, s, rfl⟩ | ⟨a, s, ss, rfl⟩
  · refine ⟨treeOf e, rfl, ?_⟩
    have := Emits.seq (emits_n16 e.length) (emits_each e (fun m _ => emits_expApi m none none))
    unfold encApis treeOf expBody
    rw [List.length_map, List.flatMap_map]
    exact this
  · unfold Expects
    dsimp only
    rcases find_cases (fun x : ExpApi => x.api) e he.1 a with ⟨x, hx, hk, hf, hu⟩ | ⟨hno, hf⟩
    · rcases find_cases (fun x : ExpMod => x.slot) x.mods (he.2 x hx).1 s with ⟨m, hm, hk', hf', hu'⟩ | ⟨hno, hf'⟩
      · refine ⟨_, Or.inl ⟨_, _, _, mem_treeOf.2 ⟨x, hx, hk, rfl⟩, mem_mods.2 ⟨m, hm, hk', rfl, rfl⟩, rfl⟩, ?_⟩
        have := emits_expOne x m none
        simp only [expBody, hf, hf']
        rw [← hk, ← hk']
        exact this
      · refine ⟨[], Or.inr ⟨?_, rfl⟩, ?_⟩
        · rintro m B L ⟨h1, h2⟩
          obtain ⟨x', hx', hk', rfl⟩ := mem_treeOf.1 h1
          cases hu x' hx' hk'
          obtain ⟨y, hy, hs, _⟩ := mem_mods.1 h2
          exact hno y hy hs
        · simp only [expBody, hf, hf']
          exact emits_expNone
    · refine ⟨[], Or.inr ⟨?_, rfl⟩, ?_⟩
      · rintro m B L ⟨h1, h2⟩
        obtain ⟨x', hx', hk', rfl⟩ := mem_treeOf.1 h1
        exact hno x' hx' hk'
      · simp only [expBody, hf]
        exact emits_expNone
  · unfold Expects
    dsimp only
    rcases find_cases (fun x : ExpApi => x.api) e he.1 a with ⟨x, hx, hk, hf, hu⟩ | ⟨hno, hf⟩
    · rcases find_cases (fun x : ExpMod => x.slot) x.mods (he.2 x hx).1 s with ⟨m, hm, hk', hf', hu'⟩ | ⟨hno, hf'⟩
      · rcases find_cases (fun x : ExpSub => x.number) m.subs ((he.2 x hx).2 m hm) ss with
          ⟨z, hz, hk'', hf'', hu''⟩ | ⟨hno, hf''⟩
        · refine ⟨_, Or.inl ⟨m.ident, z.ident, _, _, mem_treeOf.2 ⟨x, hx, hk, rfl⟩,
            mem_mods.2 ⟨m, hm, hk', rfl, rfl⟩, List.mem_map.2 ⟨z, hz, by rw [hk'']⟩, rfl⟩, ?_⟩
          have := emits_expOne x m (some z)
          simp only [expBody, hf, hf', hf'']
          rw [← hk, ← hk', ← hk'']
          exact this
        · refine ⟨[], Or.inr ⟨?_, rfl⟩, ?_⟩
          · rintro m' i B L ⟨h1, h2, h3⟩
            obtain ⟨x', hx', e1, rfl⟩ := mem_treeOf.1 h1
            cases hu x' hx' e1
            obtain ⟨y, hy, hs, _, rfl⟩ := mem_mods.1 h2
            cases hu' y hy hs
            obtain ⟨z, hz, he⟩ := List.mem_map.1 h3
            exact hno z hz (Prod.mk.inj he).1
          · simp only [expBody, hf, hf', hf'']
            exact emits_expNone
      · refine ⟨[], Or.inr ⟨?_, rfl⟩, ?_⟩
        · rintro m i B L ⟨h1, h2, h3⟩
          obtain ⟨x', hx', hk', rfl⟩ := mem_treeOf.1 h1
          cases hu x' hx' hk'
          obtain ⟨y, hy, hs, _⟩ := mem_mods.1 h2
          exact hno y hy hs
        · simp only [expBody, hf, hf']
          exact emits_expNone
    · refine ⟨[], Or.inr ⟨?_, rfl⟩, ?_⟩
      · rintro m i B L ⟨h1, h2, h3⟩
        obtain ⟨x', hx', hk', rfl⟩ := mem_treeOf.1 h1
        exact hno x' hx' hk'
      · simp only [expBody, hf]
        exact emits_expNone

/-- C89: on a connection, reading the expected identification of a submodule, a slot or the connection gives a
record with exactly what the connection expects there.
Missing: without a connection the read is undefined (`C89_fails_without_connection`). -/
theorem C89_expected_identification_partial (d : Dev) (c : Conn) (he : NoDuplicates c.exp) (a s ss idx : Nat) (sc : Scope)
    (hi : (idx, sc) ∈ [(0x8000, .subslot a s ss), (0xC000, .slot a s), (0xE000, Scope.ar)]) :
    ∃ T, Expects c.exp sc T ∧ Answers d (some c) a s ss idx (encBlock 0x0012 1 (encApis T)) := by
  simp only [List.mem_cons, Prod.mk.injEq, List.not_mem_nil, or_false] at hi
  have hs : sc = .ar ∨ (∃ a s, sc = .slot a s) ∨ ∃ a s ss, sc = .subslot a s ss := by
    rcases hi with ⟨_, rfl⟩ | ⟨_, rfl⟩ | ⟨_, rfl⟩
    · exact Or.inr (Or.inr ⟨_, _, _, rfl⟩)
    · exact Or.inr (Or.inl ⟨_, _, rfl⟩)
    · exact Or.inl rfl
  obtain ⟨T, h1, h2⟩ := expBody_spec he sc hs
  refine ⟨T, h1, expIdent 1 (some c) sc, ?_, emits_fixed h2⟩
  rcases hi with ⟨rfl, rfl⟩ | ⟨rfl, rfl⟩ | ⟨rfl, rfl⟩ <;> rfl

/-- C89 fails for a read without connection (implicit read, or explicit read with an unknown identifier): the
null pointer is used, whatever the request and the buffer are. -/
theorem C89_fails_without_connection (d : Dev) (a s ss idx : Nat) (hi : idx ∈ [0x8000, 0xC000, 0xE000]) :
    ∃ p, readIndex d none a s ss idx = some p ∧ ∀ w, p w = none := by
  simp only [List.mem_cons, List.not_mem_nil, or_false] at hi
  rcases hi with rfl | rfl | rfl <;> exact ⟨_, rfl, fun _ => rfl⟩

/-- Example: a connection that expects two modules. -/
def exConn : Conn := ⟨false, [⟨0, [⟨0, 1, [⟨1, 2⟩]⟩, ⟨1, 0x32, [⟨1, 0x132⟩, ⟨2, 0x133⟩]⟩]⟩]⟩

theorem C89_example : NoDuplicates exConn.exp ∧
    ((expIdent 1 (some exConn) (.slot 0 1)) ⟨List.replicate 60 0, 60, 0⟩).map (fun w => w.buf.take w.pos) =
      some (encBlock 0x0012 1 (encApis [(0, [(1, 0x32, [(1, 0x132), (2, 0x133)])])])) := by
  refine ⟨?_, by decide +kernel⟩
  unfold NoDuplicates
  decide +kernel

/-! ## I&M0 filter data -/

/-- C90: the I&M0 filter data names the first submodule of the DAP, in the list of submodules with I&M data and as
the device.
Missing: nothing else is ever listed (`C90_only_dap`); without that submodule there are two blocks without contents. -/
theorem C90_filter_partial (nA nS nB : Nat) (os : List TOp) (ar : Option Conn) (a s ss : Nat) :
    (∀ m i info, (view (tables nA nS nB os)).mods 0 0 = some m → (view (tables nA nS nB os)).subs 0 0 1 = some (i, info) →
      Answers (tables nA nS nB os) ar a s ss 0xF840
        (encBlock 0x0030 0 (encApis [(0, [(0, m, [(1, i)])])]) ++ encBlock 0x0032 0 (encApis [(0, [(0, m, [(1, i)])])]))) ∧
    ((view (tables nA nS nB os)).subs 0 0 1 = none →
      Answers (tables nA nS nB os) ar a s ss 0xF840 (encBlock 0x0030 0 [] ++ encBlock 0x0032 0 [])) := by
  generalize tables nA nS nB os = d
  constructor
  · intro m i info h1 h2
    refine ⟨_, rfl, ?_⟩
    have : Emits (putDevData d none (.subslot 0 0 1)) (encApis [(0, [(0, m, [(1, i)])])]) := by
      simp only [view, getSub, getSlot] at h1 h2
      cases hx : getApi d 0 with
      | none => rw [hx] at h1; cases h1
      | some x =>
        rw [hx, Option.bind_some] at h1 h2
        cases hy : findSlot x 0 with
        | none => rw [hy] at h1; cases h1
        | some y =>
          rw [hy] at h1 h2
          rw [Option.bind_some] at h2
          cases hz : findSub y 1 with
          | none => rw [hz] at h2; cases h2
          | some z =>
            rw [hz] at h2
            have e1 := Option.some.inj h1
            have e2 := (Prod.mk.inj (Option.some.inj h2)).1
            have : putDevData d none (.subslot 0 0 1) = (n16 1 ;; putApiData x (some y) (some z) none) := by
              simp only [putDevData, hx, hy, hz]
            rw [this]
            have := emits_one hx (some y) (some z)
            simp only [slotT, subT, e1, e2, (findSlot_num hy).1, findSub_num hz] at this
            exact this
    exact Emits.seq (emits_fixed this) (emits_fixed this)
  · intro h
    refine ⟨_, rfl, ?_⟩
    have : putDevData d none (.subslot 0 0 1) = skip := real_sub_none (by simp [Present, h])
    unfold imFilter
    rw [this]
    exact Emits.seq (emits_fixed emits_skip) (emits_fixed emits_skip)

/-- C90: the record does not depend on anything but the first submodule of the DAP: no other submodule is ever
listed, although I&M data can be read from every submodule. -/
theorem C90_only_dap (d d' : Dev) (h : getApi d 0 = none ∧ getApi d' 0 = none ∨
      ∃ x x' y y', getApi d 0 = some x ∧ getApi d' 0 = some x' ∧ findSlot x 0 = some y ∧ findSlot x' 0 = some y' ∧
        y.ident = y'.ident ∧ ((findSub y 1).map Sub.ident = (findSub y' 1).map Sub.ident)) (w : Wr) :
    imFilter d w = imFilter d' w := by
  have : putDevData d none (.subslot 0 0 1) = putDevData d' none (.subslot 0 0 1) := by
    rcases h with ⟨h1, h2⟩ | ⟨x, x', y, y', h1, h2, h3, h4, h5, h6⟩
    · simp only [putDevData, h1, h2]
    · simp only [putDevData, h1, h2, h3, h4]
      cases hz : findSub y 1 with
      | none =>
        rw [hz] at h6
        cases hz' : findSub y' 1 with
        | none => rfl
        | some z => rw [hz'] at h6; cases h6
      | some z =>
        rw [hz] at h6
        cases hz' : findSub y' 1 with
        | none => rw [hz'] at h6; cases h6
        | some z' =>
          rw [hz'] at h6
          have h6 := Option.some.inj h6
          simp only [putApiData, putSlotData, putSubData, (getApi_id h1).1, (getApi_id h2).1, (findSlot_num h3).1,
            (findSlot_num h4).1, findSub_num hz, findSub_num hz', h5, h6]
  unfold imFilter
  rw [this]

end Verif.Ident
