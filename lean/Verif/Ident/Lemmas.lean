import Verif.Ident.Spec
import Verif.DiagRead.Props

/-! Lemmas for the identification records. -/
set_option linter.unusedSimpArgs false
set_option linter.unusedVariables false

namespace Verif.Ident
open Verif.Device hiding St view step exec listing Inv Op init
open Verif.Wire hiding ExpApi ExpMod ExpSub
open Verif.DiagRead hiding readIndex Scope Answers

/-! ## Writers -/

/-- Something is put, something else follows, then the first part is overwritten. -/
theorem emits_patch {head body back : W} {hs hs' bs : List Byte} (hh : Emits head hs) (hb : Emits body bs)
    (hk : Emits back hs') (hl : hs'.length = hs.length) {out : W}
    (ho : ∀ w : Wr, out w = (head w).bind fun w1 => (body w1).bind fun w2 =>
      (back { w2 with pos := w.pos }).map fun w3 => { w3 with pos := w2.pos })
    (hover : ∀ w w' : Wr, w.cap ≤ w.buf.length → back w = some w' →
      ∀ i, w.pos + hs'.length ≤ i → w'.buf[i]? = w.buf[i]?) :
    Emits out (hs' ++ bs) := by
  intro w h1 h2 h3
  obtain ⟨w1, e1, c1, l1, m1, n1, s1, r1⟩ := hh w h1 h2 h3
  obtain ⟨w2, e2, c2, l2, m2, n2, s2, r2⟩ := hb w1 (by omega) (by omega) (by omega)
  obtain ⟨w3, e3, c3, l3, m3, n3, s3, r3⟩ := hk { w2 with pos := w.pos } (by simp; omega) (by simp; omega) (by simp; omega)
  simp only at c3 l3 m3 n3 s3 r3
  rw [ho, e1, Option.bind_some, e2, Option.bind_some, e3]
  refine ⟨{ w3 with pos := w2.pos }, rfl, by simp; omega, by simp; omega, by simp; omega, by simp; omega, ?_, ?_⟩
  · intro i hi
    show w3.buf[i]? = _
    rw [s3 i (by omega), s2 i (by omega), s1 i hi]
  · intro hr
    rw [List.length_append] at hr
    obtain ⟨a1, a2⟩ := r1 (by omega)
    obtain ⟨b1, b2⟩ := r2 (by omega)
    obtain ⟨k1, k2⟩ := r3 (by omega)
    refine ⟨by simp; omega, ?_⟩
    intro i hi
    rw [List.length_append] at hi
    show w3.buf[w.pos + i]? = _
    by_cases c : i < hs'.length
    · rw [List.getElem?_append_left c, k2 i c]
    · rw [List.getElem?_append_right (by omega), ← b2 (i - hs'.length) (by omega),
        hover _ _ (by simp; omega) e3 _ (by simp; omega)]
      simp only
      congr 1
      omega

theorem n16_over (n : Nat) (w w' : Wr) (h : w.cap ≤ w.buf.length) (e : n16 n w = some w') (i : Nat)
    (hi : w.pos + 2 ≤ i) : w'.buf[i]? = w.buf[i]? := by
  by_cases c : w.pos + 2 ≤ w.cap
  · obtain ⟨b, hb, he⟩ := writes_putU16 true (BitVec.ofNat 16 n) w h (by rw [enc16_length]; omega)
    unfold n16 at e
    rw [e] at he
    cases Option.some.inj he
    show b[i]? = _
    rw [writeAt_get hb, if_neg (by rw [enc16_length]; omega)]
  · obtain ⟨w2, e2, _, _, _, _, s⟩ := wsafe_putU16 true (BitVec.ofNat 16 n) w h
    unfold n16 at e
    rw [e] at e2
    cases Option.some.inj e2
    exact s i (by omega)

theorem emits_counted {α : Type} (f : α → W) (g : α → List Byte) (l : List α) (h : ∀ a ∈ l, Emits (f a) (g a)) :
    Emits (counted (l.map f)) (enc16 true (BitVec.ofNat 16 l.length) ++ l.flatMap g) := by
  have hb : Emits (each id (l.map f)) (l.flatMap g) := by
    have h2 : ∀ l : List α, each id (l.map f) = each f l := by
      intro l
      induction l with
      | nil => rfl
      | cons a l ih => simp only [List.map_cons, each, ih, id]
    rw [h2]
    exact emits_each l h
  refine emits_patch (emits_n16 0) hb (emits_n16 l.length) (by simp [enc16_length]) ?_ ?_
  · intro w
    simp [counted]
  · intro w w' h e i hi
    rw [enc16_length] at hi
    exact n16_over _ _ _ h e i hi

theorem emits_header (t : U16) (vh vl : Byte) : Emits (putBlockHeader true t 0 vh vl)
    (encBlockHeader true ⟨t, 2, vh, vl⟩ ++ []) := by
  rw [List.append_nil]
  exact emits_of (writes_putBlockHeader true t 0 vh vl) (wsafe_putBlockHeader true t 0 vh vl)

/-- A block that is never given up. -/
theorem emits_fixed {t : U16} {vl : Byte} {body : W} {bs : List Byte} (hb : Emits body bs) :
    Emits (block t 1 vl body) (encBlock t vl bs) := by
  have lh : ∀ h, (encBlockHeader true h).length = 6 := by
    intro h; simp [encBlockHeader, enc16_length]
  intro w h1 h2 h3
  obtain ⟨w1, e1, c1, l1, m1, n1, s1, r1⟩ := emits_header t 1 vl w h1 h2 h3
  obtain ⟨w2, e2, c2, l2, m2, n2, s2, r2⟩ := hb w1 (by omega) (by omega) (by omega)
  obtain ⟨w3, e3, c3, l3, m3, n3, s3⟩ := wsafe_putU16 true
    (BitVec.ofNat 16 w2.pos - BitVec.ofNat 16 (w.pos + 4)) { w2 with pos := w.pos + 2 } (by simp; omega)
  unfold block
  rw [e1, Option.bind_some, e2, Option.bind_some, e3]
  simp only at c3 l3 m3 n3 s3
  refine ⟨{ w3 with pos := w2.pos }, rfl, by simp; omega, by simp; omega, by simp; omega, by simp; omega, ?_, ?_⟩
  · intro i hi
    show w3.buf[i]? = _
    rw [s3 i (by omega), s2 i (by omega), s1 i hi]
  · intro hr
    unfold encBlock at hr ⊢
    rw [List.length_append, lh] at hr
    obtain ⟨a1, a2⟩ := r1 (by rw [List.append_nil, lh]; omega)
    rw [List.append_nil] at a1 a2
    rw [lh] at a1
    obtain ⟨b1, b2⟩ := r2 (by omega)
    refine ⟨by simp [lh]; omega, ?_⟩
    have hv : (BitVec.ofNat 16 w2.pos - BitVec.ofNat 16 (w.pos + 4) : U16) = BitVec.ofNat 16 (bs.length + 2) := by
      apply BitVec.eq_of_toNat_eq
      simp [BitVec.toNat_sub]
      omega
    rw [hv] at e3
    obtain ⟨b, hb3, he3⟩ := writes_putU16 true (BitVec.ofNat 16 (bs.length + 2))
      { w2 with pos := w.pos + 2 } (by simp; omega) (by rw [enc16_length]; simp; omega)
    rw [e3] at he3
    have he3 := Option.some.inj he3
    subst he3
    intro i hi
    rw [List.length_append, lh] at hi
    show b[w.pos + i]? = _
    rw [writeAt_get hb3]
    simp only [enc16_length]
    by_cases d1 : w.pos + 2 ≤ w.pos + i ∧ w.pos + i < w.pos + 2 + 2
    · rw [if_pos d1]
      have : i = 2 ∨ i = 3 := by omega
      rcases this with rfl | rfl <;> simp [encBlockHeader, enc16]
    · rw [if_neg d1]
      by_cases d2 : i < 6
      · rw [s2 _ (by omega), a2 i (by rw [lh]; omega)]
        have : i = 0 ∨ i = 1 ∨ i = 4 ∨ i = 5 := by omega
        rcases this with rfl | rfl | rfl | rfl <;> simp [encBlockHeader, enc16]
      · rw [List.getElem?_append_right (by rw [lh]; omega), lh, ← b2 _ (by omega)]
        congr 1
        omega

/-! ## Contents of the tables -/

def subT (z : Sub) : Nat × Nat := (z.number, z.ident)

def allSubs (y : Slot) : List (Nat × Nat) := (y.subs.filter Sub.inUse).map subT

def expSubs (y : Slot) (m : ExpMod) : List (Nat × Nat) :=
  m.subs.filterMap (fun e => (findSub y e.number).map subT)

def slotT (y : Slot) (B : List (Nat × Nat)) : Nat × Nat × List (Nat × Nat) := (y.number, y.ident, B)

def allSlots (x : Api) : List (Nat × Nat × List (Nat × Nat)) :=
  (x.slots.filter Slot.inUse).map (fun y => slotT y (allSubs y))

def expSlots (x : Api) (e : ExpApi) : List (Nat × Nat × List (Nat × Nat)) :=
  e.mods.filterMap (fun m => (findSlot x m.slot).map (fun y => slotT y (expSubs y m)))

def expApis (d : Dev) (e : List ExpApi) : Tree :=
  e.filterMap (fun ea => (getApi d ea.api).map (fun x => (x.id, expSlots x ea)))

theorem emits_sub (z : Sub) : Emits (putSubData z)
    (enc16 true (BitVec.ofNat 16 (subT z).1) ++ enc32 true (BitVec.ofNat 32 (subT z).2)) :=
  Emits.seq (emits_n16 _) (emits_n32 _)

theorem emits_slot (y : Slot) (z : Option Sub) (m : Option ExpMod) :
    Emits (putSlotData y z m)
      (enc16 true (BitVec.ofNat 16 y.number) ++ enc32 true (BitVec.ofNat 32 y.ident) ++
        encSubs (match m with
          | some m => expSubs y m
          | none => match z with
            | some z => [subT z]
            | none => allSubs y)) := by
  unfold putSlotData
  refine Emits.seq (Emits.seq (emits_n16 _) (emits_n32 _)) ?_
  cases m with
  | some m =>
    dsimp only
    have := emits_counted putSubData _ (m.subs.filterMap (fun e => findSub y e.number)) (fun z _ => emits_sub z)
    have e1 : (m.subs.filterMap (fun e => findSub y e.number)).map putSubData =
        m.subs.filterMap (fun e => (findSub y e.number).map putSubData) := by rw [List.map_filterMap]
    have e2 : expSubs y m = (m.subs.filterMap (fun e => findSub y e.number)).map subT := by
      unfold expSubs; rw [List.map_filterMap]
    rw [← e1, e2]
    unfold encSubs
    rw [List.length_map, List.flatMap_map]
    exact this
  | none =>
    cases z with
    | some z =>
      dsimp only
      have := Emits.seq (emits_n16 1) (emits_sub z)
      unfold encSubs
      simpa using this
    | none =>
      dsimp only
      have := emits_counted putSubData _ (y.subs.filter Sub.inUse) (fun z _ => emits_sub z)
      unfold encSubs allSubs
      rw [List.length_map, List.flatMap_map]
      exact this

theorem emits_api (x : Api) (y : Option Slot) (z : Option Sub) (e : Option ExpApi) :
    Emits (putApiData x y z e) (enc32 true (BitVec.ofNat 32 x.id) ++
      encSlots (match e with
        | some e => expSlots x e
        | none => match y with
          | some y => [slotT y (match z with | some z => [subT z] | none => allSubs y)]
          | none => allSlots x)) := by
  unfold putApiData
  refine Emits.seq (emits_n32 _) ?_
  cases e with
  | some e =>
    dsimp only
    have := emits_counted (fun p : Slot × ExpMod => putSlotData p.1 none (some p.2)) _
      (e.mods.filterMap (fun m => (findSlot x m.slot).map (fun y => (y, m)))) (fun p _ => emits_slot p.1 none (some p.2))
    have e1 : (e.mods.filterMap (fun m => (findSlot x m.slot).map (fun y => (y, m)))).map
        (fun p : Slot × ExpMod => putSlotData p.1 none (some p.2)) =
        e.mods.filterMap (fun m => (findSlot x m.slot).map (fun y => putSlotData y none (some m))) := by
      rw [List.map_filterMap]
      simp only [Option.map_map, Function.comp_def]
    have e2 : expSlots x e = (e.mods.filterMap (fun m => (findSlot x m.slot).map (fun y => (y, m)))).map
        (fun p : Slot × ExpMod => slotT p.1 (expSubs p.1 p.2)) := by
      unfold expSlots
      rw [List.map_filterMap]
      simp only [Option.map_map, Function.comp_def]
    rw [← e1, e2]
    unfold encSlots
    rw [List.length_map, List.flatMap_map]
    exact this
  | none =>
    cases y with
    | some y =>
      dsimp only
      have := Emits.seq (emits_n16 1) (emits_slot y z none)
      unfold encSlots
      simp only [List.length_singleton, List.flatMap_cons, List.flatMap_nil, List.append_nil, slotT]
      exact this
    | none =>
      dsimp only
      have := emits_counted (fun y => putSlotData y none none) _ (x.slots.filter Slot.inUse)
        (fun y _ => emits_slot y none none)
      unfold encSlots allSlots
      rw [List.length_map, List.flatMap_map]
      exact this

/-! ## What the contents are -/

/-- Contents of a table with unique keys. -/
theorem table_spec {α γ : Type} (u : α → Bool) (k : α → Nat) (g : α → γ) (l : List α) (hd : (keysOf u k l).Nodup) :
    (((l.filter u).map (fun x => (k x, g x))).map (·.1)).Nodup ∧
    ∀ n v, (n, v) ∈ (l.filter u).map (fun x => (k x, g x)) ↔
      ∃ x, l.find? (fun a => u a && k a == n) = some x ∧ g x = v := by
  constructor
  · rw [List.map_map]
    exact hd
  · intro n v
    constructor
    · intro h
      obtain ⟨x, hx, he⟩ := List.mem_map.1 h
      obtain ⟨h1, h2⟩ := List.mem_filter.1 hx
      cases he
      exact ⟨x, find_uniq u k l x hd h1 h2, rfl⟩
    · rintro ⟨x, hx, rfl⟩
      have h1 := List.mem_of_find?_eq_some hx
      have h2 := List.find?_some hx
      simp only [Bool.and_eq_true, beq_iff_eq] at h2
      exact List.mem_map.2 ⟨x, List.mem_filter.2 ⟨h1, h2.1⟩, by rw [h2.2]⟩

/-- Contents of a table found through a list of expected keys. -/
theorem expected_spec {α β γ : Type} (kb : β → Nat) (ka : α → Nat) (find : Nat → Option α) (g : β → α → γ) (l : List β)
    (hd : (l.map kb).Nodup) (hk : ∀ n a, find n = some a → ka a = n) :
    ((l.filterMap (fun b => (find (kb b)).map (fun a => (ka a, g b a)))).map (·.1)).Nodup ∧
    ∀ n v, (n, v) ∈ l.filterMap (fun b => (find (kb b)).map (fun a => (ka a, g b a))) ↔
      ∃ b ∈ l, kb b = n ∧ ∃ a, find n = some a ∧ g b a = v := by
  have hm : ∀ (l : List β) n v, (n, v) ∈ l.filterMap (fun b => (find (kb b)).map (fun a => (ka a, g b a))) ↔
      ∃ b ∈ l, kb b = n ∧ ∃ a, find n = some a ∧ g b a = v := by
    intro l n v
    rw [List.mem_filterMap]
    constructor
    · rintro ⟨b, hb, h⟩
      cases hf : find (kb b) with
      | none => rw [hf] at h; cases h
      | some a =>
        rw [hf] at h
        cases Option.some.inj h
        have := hk _ _ hf
        exact ⟨b, hb, this.symm, a, by rw [this]; exact hf, rfl⟩
    · rintro ⟨b, hb, rfl, a, ha, rfl⟩
      exact ⟨b, hb, by rw [ha, ← hk _ _ ha]; rfl⟩
  refine ⟨?_, hm l⟩
  clear hm
  induction l with
  | nil => simp
  | cons b l ih =>
    rw [List.map_cons, List.nodup_cons] at hd
    have ih := ih hd.2
    cases hf : find (kb b) with
    | none =>
      rw [List.filterMap_cons_none (by rw [hf]; rfl)]
      exact ih
    | some a =>
      rw [List.filterMap_cons_some (b := (ka a, g b a)) (by rw [hf]; rfl), List.map_cons, List.nodup_cons]
      refine ⟨?_, ih⟩
      intro h
      obtain ⟨⟨n, v⟩, hp, he⟩ := List.mem_map.1 h
      rw [List.mem_filterMap] at hp
      obtain ⟨b', hb', h'⟩ := hp
      cases hf' : find (kb b') with
      | none => rw [hf'] at h'; cases h'
      | some a' =>
        rw [hf'] at h'
        cases Option.some.inj h'
        dsimp only at he
        rw [hk _ _ hf, hk _ _ hf'] at he
        exact hd.1 (List.mem_map.2 ⟨b', hb', he⟩)

theorem findSub_num {y : Slot} {n : Nat} {z : Sub} (h : findSub y n = some z) : z.number = n := by
  have hi := List.find?_some h
  simp only [isSub, Bool.and_eq_true, beq_iff_eq] at hi
  exact hi.2

end Verif.Ident
