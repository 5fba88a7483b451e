import Verif.Device.Lemmas
import Mathlib.Tactic.Push

/-!
Plug and pull behave like a map of slots (C20).
-/
set_option linter.unusedSimpArgs false
set_option linter.unusedVariables false

namespace Verif.Device

/-! ## Specification

What can be observed of the tables, without the tables: which APIs are known, which module and
submodule is plugged where. -/

structure View where
  /-- The API is known. -/
  known : Nat → Bool
  /-- Identity of the module in a slot. -/
  mods : Nat → Nat → Option Nat
  /-- Identity and sizes of the submodule in a subslot. -/
  subs : Nat → Nat → Nat → Option (Nat × Info)
  /-- The submodule in the subslot belongs to a connection. -/
  owned : Nat → Nat → Nat → Bool

def upd2 (m : Nat → Nat → Option Nat) (a s : Nat) (v : Option Nat) : Nat → Nat → Option Nat :=
  fun a' s' => if a' = a ∧ s' = s then v else m a' s'

def upd3 {β : Type} (m : Nat → Nat → Nat → β) (a s ss : Nat) (v : β) : Nat → Nat → Nat → β :=
  fun a' s' ss' => if a' = a ∧ s' = s ∧ ss' = ss then v else m a' s' ss'

/-- `n` different slots of the API are occupied. -/
def FullApi (n : Nat) (v : View) (a : Nat) : Prop :=
  ∃ L : List Nat, L.Nodup ∧ L.length = n ∧ ∀ s ∈ L, v.mods a s ≠ none

/-- `n` different subslots of the slot are occupied. -/
def FullSlot (n : Nat) (v : View) (a s : Nat) : Prop :=
  ∃ L : List Nat, L.Nodup ∧ L.length = n ∧ ∀ ss ∈ L, v.subs a s ss ≠ none

/-- There is or can be a module in the slot. -/
def CanModule (nS : Nat) (v : View) (a s : Nat) : Prop :=
  v.known a = true ∧ (v.mods a s ≠ none ∨ ¬ FullApi nS v a)

/-- The submodule can be plugged. -/
def CanSub (nS nB : Nat) (v : View) (a s ss : Nat) : Prop :=
  CanModule nS v a s ∧ v.subs a s ss = none ∧ ¬ FullSlot nB v a s

/-- What each call may do: `v` before, `r` the result (`true`: success), `v'` after. -/
def SpecStep (nA nS nB : Nat) (v : View) (o : TOp) (r : Bool) (v' : View) : Prop :=
  match o with
  | .plugModule a s i =>
    v'.known = v.known ∧ v'.subs = v.subs ∧ v'.owned = v.owned ∧
    (r = true ↔ v.known a = true ∧
      (v.mods a s = some i ∨ (v.mods a s = none ∧ ¬ FullApi nS v a))) ∧
    (r = true → v'.mods = upd2 v.mods a s (some i)) ∧
    (r = false → v'.mods = v.mods)
  | .plugSub a s ss m i info who al =>
    v'.known = v.known ∧
    (CanModule nS v a s → v'.mods = upd2 v.mods a s (some ((v.mods a s).getD m))) ∧
    (¬ CanModule nS v a s → v'.mods = v.mods) ∧
    (CanSub nS nB v a s ss → v'.subs = upd3 v.subs a s ss (some (i, info)) ∧
      v'.owned = upd3 v.owned a s ss who.isSome) ∧
    (¬ CanSub nS nB v a s ss → v'.subs = v.subs ∧ v'.owned = v.owned) ∧
    (r = true ↔ (∃ info', v.subs a s ss = some (i, info')) ∨
      (CanSub nS nB v a s ss ∧ (who = none ∨ al = true)))
  | .pullSub a s ss al =>
    v'.known = v.known ∧ v'.mods = v.mods ∧
    v'.subs = upd3 v.subs a s ss none ∧ v'.owned = upd3 v.owned a s ss false ∧
    (r = true ↔ v.subs a s ss ≠ none ∧ v.owned a s ss = true ∧ al = true)
  | .pullModule a s al =>
    v'.known = v.known ∧
    (r = true ↔ v.mods a s ≠ none ∧
      ∀ ss, v.subs a s ss ≠ none → v.owned a s ss = true ∧ al ss = true) ∧
    (∀ a' s', ¬ (a' = a ∧ s' = s) → v'.mods a' s' = v.mods a' s' ∧
      v'.subs a' s' = v.subs a' s' ∧ v'.owned a' s' = v.owned a' s') ∧
    (r = true → v'.mods a s = none ∧ ∀ ss, v'.subs a s ss = none) ∧
    (r = false → v'.mods a s = v.mods a s ∧
      ∀ ss, v'.subs a s ss = v.subs a s ss ∨ v'.subs a s ss = none)
  | .newApi a =>
    v'.mods = v.mods ∧ v'.subs = v.subs ∧ v'.owned = v.owned ∧
    (r = true ↔ v.known a = false ∧
      ¬ ∃ L : List Nat, L.Nodup ∧ L.length = nA ∧ ∀ b ∈ L, v.known b = true) ∧
    (∀ b, v'.known b = (v.known b || (r && b == a)))
  | .claim _ _ _ _ | .own _ => v'.known = v.known ∧ v'.mods = v.mods ∧ v'.subs = v.subs

/-- The observable part of the model's tables. -/
def view (d : Dev) : View where
  known a := (getApi d a).isSome
  mods a s := (getSlot d a s).map Slot.ident
  subs a s ss := (getSub d a s ss).map (fun z => (z.ident, z.info))
  owned a s ss := (getSub d a s ss).any (fun z => z.owner.isSome)

/-! ## Look-ups after changes -/

theorem getSub_of_getSlot {d d' : Dev} {a s : Nat} (h : getSlot d' a s = getSlot d a s) (ss : Nat) :
    getSub d' a s ss = getSub d a s ss := by
  unfold getSub; rw [h]

theorem getSub_updSlot (d : Dev) (a s : Nat) (f : Slot → Slot)
    (hf : ∀ x, (f x).inUse = x.inUse ∧ (f x).number = x.number) (a' s' ss' : Nat) :
    getSub (updSlot d a s f) a' s' ss' =
      if a' = a ∧ s' = s then (getSlot d a s).bind (fun y => findSub (f y) ss')
      else getSub d a' s' ss' := by
  unfold getSub
  rw [getSlot_updSlot d a s f hf]
  split
  · cases getSlot d a s <;> rfl
  · rfl

theorem isSub_ne {ss ss' : Nat} (h : ss' ≠ ss) (z : Sub) (hz : isSub ss z = true) :
    isSub ss' z = false := by
  simp only [isSub, Bool.and_eq_true, beq_iff_eq, Bool.and_eq_false_iff, beq_eq_false_iff_ne] at *
  exact Or.inr (by rw [hz.2]; exact fun h' => h h'.symm)

theorem isSlot_ne {s s' : Nat} (h : s' ≠ s) (z : Slot) (hz : isSlot s z = true) :
    isSlot s' z = false := by
  simp only [isSlot, Bool.and_eq_true, beq_iff_eq, Bool.and_eq_false_iff, beq_eq_false_iff_ne] at *
  exact Or.inr (by rw [hz.2]; exact fun h' => h h'.symm)

/-- Taking a submodule out of use. -/
theorem findSub_drop {nB : Nat} {y : Slot} (h : SlotOk nB y) (ss ss' : Nat) :
    findSub { y with subs := modFirst (isSub ss) (fun z => { z with inUse := false }) y.subs } ss' =
      if ss' = ss then none else findSub y ss' := by
  unfold findSub
  by_cases hs : ss' = ss
  · subst hs
    rw [if_pos rfl]
    exact find_modFirst_gone Sub.inUse Sub.number _ y.subs ss' (fun _ => rfl) h.subKeys
  · rw [if_neg hs]
    exact find_modFirst_other _ _ _ _ (fun z _ hz => ⟨isSub_ne hs z hz, rfl⟩)

theorem getSub_pull {nA nS nB : Nat} {d : Dev} (h : Inv nA nS nB d) (a s ss : Nat) (al : Bool)
    (a' s' ss' : Nat) :
    getSub (pullSub d a s ss al).1 a' s' ss' =
      if a' = a ∧ s' = s ∧ ss' = ss then none else getSub d a' s' ss' := by
  unfold pullSub
  cases hg : getSub d a s ss with
  | none =>
    simp only
    split
    · rename_i hc; rw [hc.1, hc.2.1, hc.2.2, hg]
    · rfl
  | some z =>
    simp only
    unfold updSub
    rw [getSub_updSlot (hf := ?hf)]
    case hf => intro x; exact ⟨rfl, rfl⟩
    by_cases hc : a' = a ∧ s' = s
    · rw [if_pos hc, hc.1, hc.2]
      cases hy : getSlot d a s with
      | none => simp [getSub, hy] at hg
      | some y =>
        simp only [Option.bind_some, true_and]
        rw [findSub_drop (h.getSlot hy).1]
        simp only [getSub, hy, Option.bind_some]
    · rw [if_neg hc, if_neg (fun hh => hc ⟨hh.1, hh.2.1⟩)]

theorem getSlot_pull (d : Dev) (a s ss : Nat) (al : Bool) (a' s' : Nat) :
    (getSlot (pullSub d a s ss al).1 a' s').map Slot.ident = (getSlot d a' s').map Slot.ident := by
  unfold pullSub
  cases hg : getSub d a s ss with
  | none => rfl
  | some z =>
    simp only
    unfold updSub
    rw [getSlot_updSlot (hf := ?hf)]
    case hf => intro x; exact ⟨rfl, rfl⟩
    split
    · rename_i hc
      rw [hc.1, hc.2]
      cases getSlot d a s <;> rfl
    · rfl

theorem known_pull (d : Dev) (a s ss : Nat) (al : Bool) (b : Nat) :
    (getApi (pullSub d a s ss al).1 b).isSome = (getApi d b).isSome := by
  unfold pullSub
  cases hg : getSub d a s ss with
  | none => rfl
  | some z => exact getApi_updSlot _ _ _ _ _

/-! ### New slots -/

theorem getSlot_newSlot {d : Dev} {a s ident : Nat} {x : Api} (hg : getApi d a = some x)
    (hs : findSlot x s = none) (hfree : (x.slots.find? (fun y => !y.inUse)).isSome) (a' s' : Nat) :
    (a' = a ∧ s' = s → ∃ n, getSlot (newSlot d a s ident).1 a' s' =
      some ⟨true, s, ident, List.replicate n Sub.zero⟩) ∧
    (¬ (a' = a ∧ s' = s) → getSlot (newSlot d a s ident).1 a' s' = getSlot d a' s') := by
  cases hf : x.slots.find? (fun y => !y.inUse) with
  | none => simp [hf] at hfree
  | some y =>
    unfold newSlot
    simp only [hg, hs, hf]
    constructor
    · rintro ⟨rfl, rfl⟩
      unfold getSlot
      rw [getApi_updApi (hf := ?hf), if_pos rfl, hg]
      case hf => intro x; exact ⟨rfl, rfl⟩
      simp only [Option.map_some, Option.bind_some]
      unfold findSlot
      rw [find_modFirst_new _ _ _ _ y hs hf (by simp [isSlot])]
      exact ⟨y.subs.length, rfl⟩
    · intro hc
      by_cases ha : a' = a
      · subst ha
        have hs' : s' ≠ s := fun h => hc ⟨rfl, h⟩
        unfold getSlot
        rw [getApi_updApi (hf := ?hf), if_pos rfl, hg]
        case hf => intro x; exact ⟨rfl, rfl⟩
        simp only [Option.map_some, Option.bind_some]
        unfold findSlot
        refine find_modFirst_other _ _ _ _ (fun z _ hz => ⟨?_, ?_⟩)
        · simp only [Bool.not_eq_true', isSlot] at *; simp [hz]
        · simp only [isSlot, Bool.true_and, beq_eq_false_iff_ne]
          exact fun h => hs' h.symm
      · apply getSlot_updApi_other _ _ _ _ _ _ ha
        intro x; exact ⟨rfl, rfl⟩

theorem newSlot_ok {d : Dev} {a s ident : Nat} {x : Api} (hg : getApi d a = some x)
    (hs : findSlot x s = none) :
    (newSlot d a s ident).2 = (x.slots.find? (fun y => !y.inUse)).isSome := by
  unfold newSlot
  simp only [hg, hs]
  cases x.slots.find? (fun y => !y.inUse) <;> rfl

theorem newSlot_fail {d : Dev} {a s ident : Nat} (h : (newSlot d a s ident).2 = false) :
    (newSlot d a s ident).1 = d := by
  unfold newSlot at *
  cases hg : getApi d a with
  | none => rfl
  | some x =>
    simp only [hg] at h ⊢
    cases hs : findSlot x s with
    | some y => rfl
    | none =>
      simp only [hs] at h ⊢
      cases hf : x.slots.find? (fun y => !y.inUse) with
      | none => rfl
      | some y => simp [hf] at h

theorem known_newSlot (d : Dev) (a s ident b : Nat) :
    (getApi (newSlot d a s ident).1 b).isSome = (getApi d b).isSome := by
  unfold newSlot
  cases hg : getApi d a with
  | none => rfl
  | some x =>
    simp only
    cases hs : findSlot x s with
    | some y => rfl
    | none =>
      simp only
      cases hf : x.slots.find? (fun y => !y.inUse) with
      | none => rfl
      | some y =>
        simp only
        rw [getApi_updApi (hf := ?hf)]
        case hf => intro x; exact ⟨rfl, rfl⟩
        split
        · rename_i h; subst h; simp
        · rfl

theorem findSub_fresh (n s ident ss : Nat) :
    findSub ⟨true, s, ident, List.replicate n Sub.zero⟩ ss = none := by
  unfold findSub
  rw [List.find?_eq_none]
  intro z hz
  obtain ⟨_, rfl⟩ := List.mem_replicate.1 hz
  simp [isSub, Sub.zero]

/-- The tables are full exactly if so many slots are occupied. -/
theorem fullApi_iff {nA nS nB : Nat} {d : Dev} (h : Inv nA nS nB d) {a : Nat} {x : Api}
    (hg : getApi d a = some x) :
    FullApi nS (view d) a ↔ x.slots.find? (fun y => !y.inUse) = none := by
  have hx := (h.getApi hg).1
  rw [full_iff Slot.inUse Slot.number x.slots hx.slotKeys, hx.slots]
  unfold FullApi
  have : ∀ s, (view d).mods a s ≠ none ↔ s ∈ keysOf Slot.inUse Slot.number x.slots := by
    intro s
    rw [mem_keysOf]
    simp only [view, getSlot, hg, Option.bind_some, findSlot]
    unfold isSlot
    cases x.slots.find? (fun x => x.inUse && x.number == s) <;> simp
  simp only [this]

theorem fullSlot_iff {nA nS nB : Nat} {d : Dev} (h : Inv nA nS nB d) {a s : Nat} {y : Slot}
    (hg : getSlot d a s = some y) :
    FullSlot nB (view d) a s ↔ y.subs.find? (fun z => !z.inUse) = none := by
  have hy := (h.getSlot hg).1
  rw [full_iff Sub.inUse Sub.number y.subs hy.subKeys, hy.subs]
  unfold FullSlot
  have : ∀ ss, (view d).subs a s ss ≠ none ↔ ss ∈ keysOf Sub.inUse Sub.number y.subs := by
    intro ss
    rw [mem_keysOf]
    simp only [view, getSub, hg, Option.bind_some, findSub]
    unfold isSub
    cases y.subs.find? (fun x => x.inUse && x.number == ss) <;> simp
  simp only [this]

theorem isSome_iff_not {α : Type} (o : Option α) (P : Prop) (h : P ↔ o = none) :
    o.isSome = true ↔ ¬ P := by
  rw [h]; cases o <;> simp

theorem getSub_newSlot (d : Dev) (a s ident a' s' ss' : Nat) :
    getSub (newSlot d a s ident).1 a' s' ss' = getSub d a' s' ss' := by
  cases hr : (newSlot d a s ident).2 with
  | false => rw [newSlot_fail hr]
  | true =>
    cases hg : getApi d a with
    | none => simp [newSlot, hg] at hr
    | some x =>
      cases hs : findSlot x s with
      | some y => simp [newSlot, hg, hs] at hr
      | none =>
        rw [newSlot_ok hg hs] at hr
        have := getSlot_newSlot (ident := ident) hg hs hr a' s'
        by_cases hc : a' = a ∧ s' = s
        · obtain ⟨n, hn⟩ := this.1 hc
          unfold getSub
          rw [hn]
          obtain ⟨rfl, rfl⟩ := hc
          simp only [Option.bind_some, findSub_fresh, getSlot, hg, hs, Option.bind_none]
        · exact getSub_of_getSlot (this.2 hc) ss'

/-! ## Each call -/

/-- Effect of `pf_cmdev_new_slot` on what is observed. -/
theorem view_newSlot {nA nS nB : Nat} {d : Dev} (h : Inv nA nS nB d) {a s ident : Nat} {x : Api}
    (hg : getApi d a = some x) (hs : findSlot x s = none) :
    ((newSlot d a s ident).2 = true ↔ ¬ FullApi nS (view d) a) ∧
    ((newSlot d a s ident).2 = true → (view (newSlot d a s ident).1).mods =
      upd2 (view d).mods a s (some ident)) ∧
    (view (newSlot d a s ident).1).known = (view d).known ∧
    (view (newSlot d a s ident).1).subs = (view d).subs ∧
    (view (newSlot d a s ident).1).owned = (view d).owned := by
  have hok := newSlot_ok (ident := ident) hg hs
  have hkn : (view (newSlot d a s ident).1).known = (view d).known := by
    funext b; exact known_newSlot d a s ident b
  refine ⟨?_, ?_, hkn, ?_⟩
  · rw [hok]
    exact isSome_iff_not _ _ (fullApi_iff h hg)
  · intro hr
    rw [hok] at hr
    funext a' s'
    have := getSlot_newSlot (ident := ident) hg hs hr a' s'
    simp only [view, upd2]
    by_cases hc : a' = a ∧ s' = s
    · obtain ⟨n, hn⟩ := this.1 hc
      rw [if_pos hc, hn]; rfl
    · rw [if_neg hc, this.2 hc]
  · cases hr : (newSlot d a s ident).2 with
    | false => rw [newSlot_fail hr]; exact ⟨rfl, rfl⟩
    | true =>
      constructor
      · funext a' s' ss'; simp only [view, getSub_newSlot]
      · funext a' s' ss'; simp only [view, getSub_newSlot]

theorem spec_plugModule {nA nS nB : Nat} {d : Dev} (h : Inv nA nS nB d) (a s i : Nat) :
    SpecStep nA nS nB (view d) (.plugModule a s i) (plugModule d a s i).2
      (view (plugModule d a s i).1) := by
  unfold plugModule SpecStep
  cases hg : getApi d a with
  | none => simp [view, hg]
  | some x =>
    simp only
    cases hs : findSlot x s with
    | some y =>
      have hm : (view d).mods a s = some y.ident := by simp [view, getSlot, hg, hs]
      have hk : (view d).known a = true := by simp [view, hg]
      simp only [hm, hk, Option.some.injEq, beq_iff_eq, reduceCtorEq, false_and, or_false, true_and]
      refine ⟨?_, ?_⟩
      · intro hi
        funext a' s'
        simp only [upd2]
        split
        · rename_i hc; rw [hc.1, hc.2, hm, hi]
        · rfl
      · intro _; trivial
    | none =>
      have hm : (view d).mods a s = none := by simp [view, getSlot, hg, hs]
      have hk : (view d).known a = true := by simp [view, hg]
      obtain ⟨h1, h2, h3, h4, h5⟩ := view_newSlot (ident := i) h hg hs
      simp only [hm, hk, reduceCtorEq, false_or, true_and]
      exact ⟨h3, h4, h5, h1, h2, fun hr => by rw [newSlot_fail hr]⟩

theorem spec_pullSub {nA nS nB : Nat} {d : Dev} (h : Inv nA nS nB d) (a s ss : Nat) (al : Bool) :
    SpecStep nA nS nB (view d) (.pullSub a s ss al) (pullSub d a s ss al).2
      (view (pullSub d a s ss al).1) := by
  unfold SpecStep
  refine ⟨?_, ?_, ?_, ?_, ?_⟩
  · funext b; exact known_pull d a s ss al b
  · funext a' s'; exact getSlot_pull d a s ss al a' s'
  · funext a' s' ss'
    simp only [view, getSub_pull h, upd3]
    split <;> rfl
  · funext a' s' ss'
    simp only [view, getSub_pull h, upd3]
    split <;> rfl
  · unfold pullSub
    cases hg : getSub d a s ss with
    | none => simp [view, hg]
    | some z => simp [view, hg]

theorem getSub_updNew (d : Dev) (a s ss i : Nat) (info : Info) (who : Option Nat) (y : Slot) (z : Sub)
    (hg : getSlot d a s = some y) (hs : findSub y ss = none)
    (hf : y.subs.find? (fun z => !z.inUse) = some z) (a' s' ss' : Nat) :
    getSub (updSlot d a s (fun x => (⟨x.inUse, x.number, x.ident,
        modFirst (fun y => !y.inUse) (fun _ => (⟨true, ss, i, who, info, false⟩ : Sub)) x.subs⟩ : Slot)))
      a' s' ss' = if a' = a ∧ s' = s ∧ ss' = ss then
        some ⟨true, ss, i, who, info, false⟩ else getSub d a' s' ss' := by
  rw [getSub_updSlot (hf := ?hf)]
  case hf => intro x; exact ⟨rfl, rfl⟩
  by_cases hc : a' = a ∧ s' = s
  · rw [if_pos hc, hg, hc.1, hc.2]
    simp only [Option.bind_some, true_and]
    unfold findSub
    by_cases he : ss' = ss
    · subst he
      rw [if_pos rfl]
      exact find_modFirst_new _ _ _ _ z hs hf (by simp [isSub])
    · rw [if_neg he]
      simp only [getSub, hg, Option.bind_some]
      unfold findSub
      refine find_modFirst_other _ _ _ _ (fun w _ hw => ⟨?_, ?_⟩)
      · simp only [Bool.not_eq_true', isSub] at *; simp [hw]
      · simp only [isSub, Bool.true_and, beq_eq_false_iff_ne]
        exact fun hh => he hh.symm
  · rw [if_neg hc, if_neg (fun hh => hc ⟨hh.1, hh.2.1⟩)]

/-- Effect of `pf_cmdev_new_subslot`. -/
theorem newSub_cases {nA nS nB : Nat} {d : Dev} (h : Inv nA nS nB d) (a s ss i : Nat) (info : Info)
    (who : Option Nat) :
    ((newSub d a s ss i info who).2 = true ↔
      (view d).mods a s ≠ none ∧ (view d).subs a s ss = none ∧ ¬ FullSlot nB (view d) a s) ∧
    (view (newSub d a s ss i info who).1).known = (view d).known ∧
    (view (newSub d a s ss i info who).1).mods = (view d).mods ∧
    ((newSub d a s ss i info who).2 = true →
      (view (newSub d a s ss i info who).1).subs = upd3 (view d).subs a s ss (some (i, info)) ∧
      (view (newSub d a s ss i info who).1).owned = upd3 (view d).owned a s ss who.isSome) ∧
    ((newSub d a s ss i info who).2 = false → (newSub d a s ss i info who).1 = d) := by
  unfold newSub
  cases hg : getSlot d a s with
  | none => simp [view, hg]
  | some y =>
    have hm : (view d).mods a s = some y.ident := by simp [view, hg]
    simp only
    cases hs : findSub y ss with
    | some z =>
      have : (view d).subs a s ss = some (z.ident, z.info) := by simp [view, getSub, hg, hs]
      simp [this]
    | none =>
      have hsub : (view d).subs a s ss = none := by simp [view, getSub, hg, hs]
      simp only
      cases hf : y.subs.find? (fun z => !z.inUse) with
      | none =>
        have := (fullSlot_iff h hg).2 hf
        simp [this]
      | some z =>
        have hnf : ¬ FullSlot nB (view d) a s := by rw [fullSlot_iff h hg, hf]; simp
        have key := getSub_updNew d a s ss i info who y z hg hs hf
        simp only [hm, hsub, hnf, true_and, not_false_eq_true, and_self, ne_eq, reduceCtorEq,
          forall_const, false_implies, and_true, true_iff]
        refine ⟨?_, ?_, ?_, ?_⟩
        · funext b; exact getApi_updSlot _ _ _ _ _
        · funext a' s'
          simp only [view]
          rw [getSlot_updSlot (hf := ?hf)]
          case hf => intro x; exact ⟨rfl, rfl⟩
          split
          · rename_i hc; rw [hc.1, hc.2, hg]; rfl
          · rfl
        · funext a' s' ss'
          simp only [view, key, upd3]
          split <;> rfl
        · funext a' s' ss'
          simp only [view, key, upd3]
          split <;> rfl

theorem sub_imp_mod {d : Dev} {a s ss : Nat} (h : (view d).mods a s = none) :
    (view d).subs a s ss = none := by
  simp only [view, Option.map_eq_none_iff] at *
  simp [getSub, h]

theorem mod_imp_known {d : Dev} {a s : Nat} (h : (view d).mods a s ≠ none) :
    (view d).known a = true := by
  simp only [view, getSlot] at *
  cases hg : getApi d a with
  | none => simp [hg] at h
  | some x => rfl

theorem upd2_self (m : Nat → Nat → Option Nat) (a s v : Nat) (h : m a s = some v) :
    upd2 m a s (some v) = m := by
  funext a' s'
  unfold upd2
  split
  · rename_i hc; rw [hc.1, hc.2, h]
  · rfl

theorem fullSlot_congr {n : Nat} {v v' : View} {a s : Nat} (h : v'.subs = v.subs) :
    FullSlot n v' a s ↔ FullSlot n v a s := by unfold FullSlot; rw [h]

theorem spec_plugSub {nA nS nB : Nat} {d : Dev} (h : Inv nA nS nB d) (a s ss m i : Nat) (info : Info)
    (who : Option Nat) (al : Bool) :
    SpecStep nA nS nB (view d) (.plugSub a s ss m i info who al)
      (plugSub d a s ss m i info false who al).2 (view (plugSub d a s ss m i info false who al).1) := by
  -- facts about the first part
  have hprep : ∃ d1 b, plugPrepare d a s ss m i false al = (d1, b) ∧ Inv nA nS nB d1 ∧
      (view d1).known = (view d).known ∧ (view d1).subs = (view d).subs ∧
      (view d1).owned = (view d).owned ∧
      (CanModule nS (view d) a s → (view d1).mods =
        upd2 (view d).mods a s (some (((view d).mods a s).getD m))) ∧
      (¬ CanModule nS (view d) a s → (view d1).mods = (view d).mods ∧ (view d1).mods a s = none) ∧
      (b = true ↔ ∃ info', (view d).subs a s ss = some (i, info')) := by
    refine ⟨(plugPrepare d a s ss m i false al).1, (plugPrepare d a s ss m i false al).2, rfl,
      inv_plugPrepare h a s ss m i false al, ?_⟩
    unfold plugPrepare
    cases hg : getApi d a with
    | none =>
      have hk : (view d).known a = false := by simp [view, hg]
      have hm : (view d).mods a s = none := by simp [view, getSlot, hg]
      simp only [sub_imp_mod hm, CanModule, hk, Bool.false_eq_true, false_and, false_implies,
        not_false_eq_true, true_implies, hm, and_self, true_and, reduceCtorEq, exists_false]
    | some x =>
      have hk : (view d).known a = true := by simp [view, hg]
      simp only
      cases hs : findSlot x s with
      | none =>
        have hm : (view d).mods a s = none := by simp [view, getSlot, hg, hs]
        obtain ⟨h1, h2, h3, h4, h5⟩ := view_newSlot (ident := m) h hg hs
        have hpm : plugModule d a s m = newSlot d a s m := by
          unfold plugModule; simp only [hg, hs]
        simp only [hpm, CanModule, hk, hm, sub_imp_mod hm, ne_eq, not_true_eq_false, false_or,
          true_and, Option.getD_none, Bool.false_eq_true, reduceCtorEq, exists_false, and_true]
        refine ⟨h3, h4, h5, fun hc => h2 (h1.2 hc), fun hc => ?_⟩
        have : (newSlot d a s m).2 = false := by
          cases hb : (newSlot d a s m).2
          · rfl
          · exact absurd (h1.1 hb) hc
        rw [newSlot_fail this]
        exact ⟨rfl, hm⟩
      | some y =>
        have hm : (view d).mods a s = some y.ident := by simp [view, getSlot, hg, hs]
        have hcm : CanModule nS (view d) a s := ⟨hk, Or.inl (by rw [hm]; simp)⟩
        simp only
        cases hz : findSub y ss with
        | none =>
          have : (view d).subs a s ss = none := by simp [view, getSub, getSlot, hg, hs, hz]
          simp only [this, hcm, not_true_eq_false, false_implies, true_implies, true_and, hm,
            Option.getD_some, Bool.false_eq_true, reduceCtorEq, exists_false, and_true]
          exact (upd2_self _ _ _ _ hm).symm
        | some z =>
          have : (view d).subs a s ss = some (z.ident, z.info) := by
            simp [view, getSub, getSlot, hg, hs, hz]
          simp only [this, hcm, not_true_eq_false, false_implies, true_implies, true_and, hm,
            Option.getD_some, Bool.false_eq_true, if_false, beq_iff_eq, Option.some.injEq,
            Prod.mk.injEq, exists_and_left, exists_eq', and_true]
          exact (upd2_self _ _ _ _ hm).symm
  obtain ⟨d1, b, hp, hi, hk, hs, ho, hm1, hm2, hb⟩ := hprep
  unfold SpecStep plugSub
  simp only [hp]
  cases b with
  | true =>
    have hpres : ∃ info', (view d).subs a s ss = some (i, info') := hb.1 rfl
    obtain ⟨info', hpr⟩ := hpres
    have hnc : ¬ CanSub nS nB (view d) a s ss := by
      rintro ⟨_, h2, _⟩; rw [hpr] at h2; simp at h2
    simp only [if_true]
    refine ⟨hk, hm1, fun hc => (hm2 hc).1, fun hc => absurd hc hnc, fun _ => ⟨hs, ho⟩, ?_⟩
    exact ⟨fun _ => Or.inl ⟨info', hpr⟩, fun _ => trivial⟩
  | false =>
    have hnp : ¬ ∃ info', (view d).subs a s ss = some (i, info') := fun hh => by
      have := hb.2 hh; simp at this
    simp only [Bool.false_eq_true, if_false]
    obtain ⟨n1, n2, n3, n4, n5⟩ := newSub_cases hi a s ss i info who
    have hcan : (newSub d1 a s ss i info who).2 = true ↔ CanSub nS nB (view d) a s ss := by
      rw [n1, hs, fullSlot_congr hs]
      unfold CanSub
      constructor
      · rintro ⟨q1, q2, q3⟩
        refine ⟨?_, q2, q3⟩
        by_contra hc
        exact q1 (hm2 hc).2
      · rintro ⟨q1, q2, q3⟩
        refine ⟨?_, q2, q3⟩
        rw [hm1 q1]
        simp [upd2]
    refine ⟨by rw [n2, hk], fun hc => by rw [n3, hm1 hc], fun hc => by rw [n3, (hm2 hc).1], ?_, ?_, ?_⟩
    · intro hc
      obtain ⟨q1, q2⟩ := n4 (hcan.2 hc)
      rw [q1, q2, hs, ho]
      exact ⟨rfl, rfl⟩
    · intro hc
      have : (newSub d1 a s ss i info who).2 = false := by
        cases hb' : (newSub d1 a s ss i info who).2
        · rfl
        · exact absurd (hcan.1 hb') hc
      rw [n5 this]
      exact ⟨hs, ho⟩
    · rw [Bool.and_eq_true, hcan]
      simp only [hnp, false_or, Bool.or_eq_true, Option.isNone_iff_eq_none]

/-! ### Pulling a module -/

theorem getElem_modFirst {α : Type} (p : α → Bool) (f : α → α) (l : List α) (j : Nat) (b : α)
    (h : (modFirst p f l)[j]? = some b) :
    l[j]? = some b ∨ ∃ a, l[j]? = some a ∧ b = f a := by
  induction l generalizing j with
  | nil => simp [modFirst] at h
  | cons a l ih =>
    cases hp : p a with
    | true =>
      simp only [modFirst, hp, if_true] at h
      cases j with
      | zero =>
        simp only [List.getElem?_cons_zero, Option.some.injEq] at h
        right; exact ⟨a, by simp, h.symm⟩
      | succ j => left; simpa using h
    | false =>
      simp only [modFirst, hp, Bool.false_eq_true, if_false] at h
      cases j with
      | zero => left; simpa using h
      | succ j =>
        simp only [List.getElem?_cons_succ] at h ⊢
        exact ih j h

/-- Facts about the loop of `pf_cmdev_pull_module`, for the remaining table entries. -/
theorem pullLoop_spec {nA nS nB : Nat} (a s : Nat) (al : Nat → Bool) (k : Nat) :
    ∀ (i : Nat) (d : Dev) (x : Slot), Inv nA nS nB d → getSlot d a s = some x →
      x.subs.length = i + k → (∀ j < i, ∀ z, x.subs[j]? = some z → z.inUse = false) →
      ∃ x', getSlot (pullLoop a s al (List.range' i k) d).1 a s = some x' ∧
        x'.ident = x.ident ∧ Inv nA nS nB (pullLoop a s al (List.range' i k) d).1 ∧
        (∀ b, (getApi (pullLoop a s al (List.range' i k) d).1 b).isSome = (getApi d b).isSome) ∧
        (∀ a' s', ¬ (a' = a ∧ s' = s) →
          getSlot (pullLoop a s al (List.range' i k) d).1 a' s' = getSlot d a' s') ∧
        ((pullLoop a s al (List.range' i k) d).2 = true ↔
          ∀ ss z, findSub x ss = some z → z.owner.isSome = true ∧ al ss = true) ∧
        ((pullLoop a s al (List.range' i k) d).2 = true → ∀ ss, findSub x' ss = none) ∧
        (∀ ss, findSub x' ss = findSub x ss ∨ findSub x' ss = none) := by
  induction k with
  | zero =>
    intro i d x hinv hx hlen hdone
    have hnone : ∀ ss, findSub x ss = none := by
      intro ss
      unfold findSub
      rw [List.find?_eq_none]
      intro z hz
      obtain ⟨j, hj, hjz⟩ := List.getElem_of_mem hz
      have := hdone j (by omega) z (by rw [← hjz]; exact List.getElem?_eq_getElem hj)
      simp [isSub, this]
    refine ⟨x, ?_, rfl, ?_⟩
    · simpa [pullLoop] using hx
    · simp only [List.range'_zero, pullLoop, true_iff]
      refine ⟨hinv, by simp, by simp, ?_, fun _ => hnone, by simp⟩
      intro ss z hz
      rw [hnone ss] at hz
      simp at hz
  | succ k ih =>
    intro i d x hinv hx hlen hdone
    have hi : i < x.subs.length := by omega
    rw [List.range'_succ]
    unfold pullLoop
    simp only [hx, List.getElem?_eq_getElem hi]
    cases hu : x.subs[i].inUse with
    | false =>
      simp only [Bool.false_eq_true, if_false]
      refine ih (i + 1) d x hinv hx (by omega) ?_
      intro j hj z hz
      rcases Nat.lt_succ_iff_lt_or_eq.1 hj with hj' | rfl
      · exact hdone j hj' z hz
      · rw [List.getElem?_eq_getElem hi] at hz
        cases hz
        exact hu
    | true =>
      simp only [if_true]
      -- the submodule that is pulled
      have hfound : ∃ z0, findSub x x.subs[i].number = some z0 := by
        have hmem : x.subs[i].number ∈ keysOf Sub.inUse Sub.number x.subs :=
          List.mem_map.2 ⟨x.subs[i], List.mem_filter.2 ⟨List.getElem_mem hi, hu⟩, rfl⟩
        rw [mem_keysOf] at hmem
        exact hmem
      obtain ⟨z0, hz0⟩ := hfound
      have hsub : getSub d a s x.subs[i].number = some z0 := by simp [getSub, hx, hz0]
      generalize hn : x.subs[i].number = n at *
      have hxok := (hinv.getSlot hx).1
      have hpull : pullSub d a s n (al n) =
          (updSub d a s n (fun y => { y with inUse := false }), z0.owner.isSome && al n) := by
        unfold pullSub; simp only [hsub]
      have hinv1 := inv_pullSub hinv a s n (al n)
      rw [hpull] at hinv1
      have hslot : ∀ a' s', getSlot (updSub d a s n (fun y => { y with inUse := false })) a' s' =
          if a' = a ∧ s' = s then some (⟨x.inUse, x.number, x.ident,
            modFirst (isSub n) (fun y => { y with inUse := false }) x.subs⟩ : Slot)
          else getSlot d a' s' := by
        intro a' s'
        unfold updSub
        rw [getSlot_updSlot (hf := ?hf)]
        case hf => intro x; exact ⟨rfl, rfl⟩
        split
        · rw [hx]; rfl
        · rfl
      have hkn : ∀ b, (getApi (updSub d a s n (fun y => { y with inUse := false })) b).isSome =
          (getApi d b).isSome := fun b => by unfold updSub; exact getApi_updSlot _ _ _ _ _
      have hfind : ∀ ss', findSub (⟨x.inUse, x.number, x.ident,
            modFirst (isSub n) (fun y => { y with inUse := false }) x.subs⟩ : Slot) ss' =
          if ss' = n then none else findSub x ss' := fun ss' => findSub_drop hxok n ss'
      rw [hpull]
      generalize hx1 : (⟨x.inUse, x.number, x.ident,
            modFirst (isSub n) (fun y => { y with inUse := false }) x.subs⟩ : Slot) = x1 at *
      have hx1id : x1.ident = x.ident := by rw [← hx1]
      have hx1sub : x1.subs = modFirst (isSub n) (fun y => { y with inUse := false }) x.subs := by
        rw [← hx1]
      generalize hd1 : updSub d a s n (fun y => { y with inUse := false }) = d1 at *
      have hx1' : getSlot d1 a s = some x1 := by rw [hslot, if_pos ⟨rfl, rfl⟩]
      cases hb : (z0.owner.isSome && al n) with
      | false =>
        refine ⟨x1, hx1', hx1id, hinv1, hkn, ?_, ?_, ?_, ?_⟩
        · intro a' s' hc; simp only; rw [hslot, if_neg hc]
        · simp only [Bool.false_eq_true, false_iff]
          intro hall
          have := hall n z0 hz0
          simp only [Bool.and_eq_false_iff] at hb
          rcases hb with hb | hb <;> simp [hb] at this
        · simp
        · intro ss
          rw [hfind]
          split
          · right; rfl
          · left; rfl
      | true =>
        simp only
        have hlen1 : x1.subs.length = i + 1 + k := by rw [hx1sub, modFirst_length]; omega
        have hdone1 : ∀ j < i + 1, ∀ z, x1.subs[j]? = some z → z.inUse = false := by
          intro j hj z hz
          rw [hx1sub] at hz
          rcases getElem_modFirst _ _ _ _ _ hz with h1 | ⟨w, hw, rfl⟩
          · rcases Nat.lt_succ_iff_lt_or_eq.1 hj with hj' | rfl
            · exact hdone j hj' z h1
            · rw [List.getElem?_eq_getElem hi] at h1
              cases h1
              exfalso
              have hmem : x.subs[j] ∈ x1.subs := by
                rw [hx1sub]; exact List.mem_of_getElem? hz
              have := hfind n
              rw [if_pos rfl] at this
              unfold findSub at this
              rw [List.find?_eq_none] at this
              exact this _ hmem (by simp [isSub, hu, hn])
          · rfl
        obtain ⟨x', q1, q2, q3, q4, q5, q6, q7, q8⟩ := ih (i + 1) d1 x1 hinv1 hx1' hlen1 hdone1
        refine ⟨x', q1, by rw [q2, hx1id], q3, fun b => by rw [q4, hkn], ?_, ?_, q7, ?_⟩
        · intro a' s' hc
          rw [q5 a' s' hc, hslot, if_neg hc]
        · rw [q6]
          constructor
          · intro hall ss z hz
            by_cases hss : ss = n
            · subst hss
              rw [hz0] at hz
              cases hz
              simpa using hb
            · exact hall ss z (by rw [hfind, if_neg hss]; exact hz)
          · intro hall ss z hz
            rw [hfind] at hz
            split at hz
            · simp at hz
            · exact hall ss z hz
        · intro ss
          rcases q8 ss with h1 | h1
          · rw [h1, hfind]
            split
            · right; rfl
            · left; rfl
          · right; exact h1

theorem getSlot_drop {nA nS nB : Nat} {d : Dev} (h : Inv nA nS nB d) (a s a' s' : Nat) :
    getSlot (updSlot d a s (fun x => { x with inUse := false })) a' s' =
      if a' = a ∧ s' = s then none else getSlot d a' s' := by
  unfold updSlot
  by_cases ha : a' = a
  · subst ha
    unfold getSlot
    rw [getApi_updApi (hf := ?hf), if_pos rfl]
    case hf => intro x; exact ⟨rfl, rfl⟩
    cases hg : getApi d a' with
    | none => simp
    | some x =>
      simp only [Option.map_some, Option.bind_some, true_and]
      unfold findSlot
      by_cases hs : s' = s
      · subst hs
        rw [if_pos rfl]
        exact find_modFirst_gone Slot.inUse Slot.number _ x.slots s' (fun _ => rfl)
          (h.getApi hg).1.slotKeys
      · rw [if_neg hs]
        exact find_modFirst_other _ _ _ _ (fun z _ hz => ⟨isSlot_ne hs z hz, rfl⟩)
  · rw [if_neg (fun h => ha h.1)]
    apply getSlot_updApi_other _ _ _ _ _ _ ha
    intro x; exact ⟨rfl, rfl⟩

theorem spec_pullModule {nA nS nB : Nat} {d : Dev} (h : Inv nA nS nB d) (a s : Nat)
    (al : Nat → Bool) :
    SpecStep nA nS nB (view d) (.pullModule a s al) (pullModule d a s al).2
      (view (pullModule d a s al).1) := by
  unfold pullModule SpecStep
  cases hg : getSlot d a s with
  | none =>
    have hm : (view d).mods a s = none := by simp [view, hg]
    simp [hm]
  | some x =>
    have hm : (view d).mods a s = some x.ident := by simp [view, hg]
    simp only
    obtain ⟨x', q1, q2, q3, q4, q5, q6, q7, q8⟩ :=
      pullLoop_spec a s al x.subs.length 0 d x h hg (by omega) (by omega)
    rw [← List.range_eq_range'] at *
    have hcond : (∀ ss z, findSub x ss = some z → z.owner.isSome = true ∧ al ss = true) ↔
        ∀ ss, (view d).subs a s ss ≠ none → (view d).owned a s ss = true ∧ al ss = true := by
      constructor
      · intro hh ss hne
        simp only [view, getSub, hg, Option.bind_some] at hne ⊢
        cases hf : findSub x ss with
        | none => simp [hf] at hne
        | some z => simpa [hf] using hh ss z hf
      · intro hh ss z hz
        have := hh ss (by simp [view, getSub, hg, hz])
        simpa [view, getSub, hg, hz] using this
    cases hp : pullLoop a s al (List.range x.subs.length) d with
    | mk d1 b =>
      rw [hp] at q1 q3 q4 q5 q6 q7
      simp only at q1 q3 q4 q5 q6 q7
      cases b with
      | true =>
        simp only
        have hgs : ∀ a' s', getSlot (updSlot d1 a s (fun x => { x with inUse := false })) a' s' =
            if a' = a ∧ s' = s then none else getSlot d a' s' := by
          intro a' s'
          rw [getSlot_drop q3]
          split
          · rfl
          · rename_i hc; exact q5 a' s' hc
        refine ⟨?_, ?_, ?_, ?_, ?_⟩
        · funext b
          simp only [view]
          rw [getApi_updSlot, q4]
        · rw [← hcond]
          simp only [hm, ne_eq, reduceCtorEq, not_false_eq_true, true_and, true_iff]
          exact q6.1 rfl
        · intro a' s' hc
          refine ⟨?_, ?_, ?_⟩
          · simp only [view, hgs, if_neg hc]
          · funext ss; simp only [view, getSub, hgs, if_neg hc]
          · funext ss; simp only [view, getSub, hgs, if_neg hc]
        · intro _
          refine ⟨by simp [view, hgs], fun ss => by simp [view, getSub, hgs]⟩
        · intro hh; simp at hh
      | false =>
        simp only
        refine ⟨?_, ?_, ?_, ?_, ?_⟩
        · funext b; exact q4 b
        · rw [← hcond, ← q6]
          simp
        · intro a' s' hc
          refine ⟨?_, ?_, ?_⟩
          · simp only [view, q5 a' s' hc]
          · funext ss; simp only [view, getSub, q5 a' s' hc]
          · funext ss; simp only [view, getSub, q5 a' s' hc]
        · intro hh; simp at hh
        · intro _
          refine ⟨by simp only [view, q1, hg, Option.map_some, q2], fun ss => ?_⟩
          simp only [view, getSub, q1, hg, Option.bind_some]
          rcases q8 ss with h1 | h1
          · left; rw [h1]
          · right; rw [h1]; rfl

/-! ### API creation and ownership -/

theorem getApi_newApi (d : Dev) (a b : Nat) :
    ((newApi d a).2 = true → (b ≠ a → getApi (newApi d a).1 b = getApi d b) ∧
      (∀ s, getSlot (newApi d a).1 a s = none) ∧ (getApi (newApi d a).1 a).isSome = true) ∧
    ((newApi d a).2 = false → (newApi d a).1 = d) := by
  unfold newApi
  cases hg : getApi d a with
  | some x => simp
  | none =>
    simp only
    cases hf : d.find? (fun x => !x.inUse) with
    | none => simp
    | some x =>
      simp only [true_implies, Bool.true_eq_false, false_implies, and_true]
      have hnew := find_modFirst_new (fun x => !x.inUse) (isApi a) (fun x : Api =>
        ({ inUse := true, id := a, slots := x.slots.map (fun y => Slot.zero y.subs.length) } : Api)) d x
        hg hf (by simp [isApi])
      refine ⟨?_, ?_, ?_⟩
      · intro hb
        unfold getApi
        refine find_modFirst_other _ _ _ _ (fun z _ hz => ⟨?_, ?_⟩)
        · simp only [Bool.not_eq_true', isApi] at *; simp [hz]
        · simp only [isApi, Bool.true_and, beq_eq_false_iff_ne]
          exact fun hh => hb hh.symm
      · intro s
        unfold getSlot getApi
        rw [hnew]
        simp only [Option.bind_some, findSlot]
        rw [List.find?_eq_none]
        intro y hy
        obtain ⟨w, _, rfl⟩ := List.mem_map.1 hy
        simp [isSlot, Slot.zero]
      · unfold getApi; rw [hnew]; rfl

theorem getSlot_newApi (d : Dev) (a a' s' : Nat) : getSlot (newApi d a).1 a' s' = getSlot d a' s' := by
  cases hr : (newApi d a).2 with
  | false => rw [(getApi_newApi d a a).2 hr]
  | true =>
    by_cases hc : a' = a
    · subst hc
      rw [((getApi_newApi d a' a').1 hr).2.1]
      cases hg : getApi d a' with
      | none => simp [getSlot, hg]
      | some x => simp [newApi, hg] at hr
    · unfold getSlot
      rw [((getApi_newApi d a a').1 hr).1 hc]

theorem spec_newApi {nA nS nB : Nat} {d : Dev} (h : Inv nA nS nB d) (a : Nat) :
    SpecStep nA nS nB (view d) (.newApi a) (newApi d a).2 (view (newApi d a).1) := by
  have hok : (newApi d a).2 = true ↔ (view d).known a = false ∧
      ¬ ∃ L : List Nat, L.Nodup ∧ L.length = nA ∧ ∀ b ∈ L, (view d).known b = true := by
    have hfull : (∃ L : List Nat, L.Nodup ∧ L.length = nA ∧ ∀ b ∈ L, (view d).known b = true) ↔
        d.find? (fun x => !x.inUse) = none := by
      rw [full_iff Api.inUse Api.id d h.apiKeys, h.len]
      have : ∀ b, (view d).known b = true ↔ b ∈ keysOf Api.inUse Api.id d := by
        intro b
        rw [mem_keysOf]
        simp only [view, getApi]
        unfold isApi
        rw [Option.isSome_iff_exists]
      simp only [this]
    rw [hfull]
    unfold newApi
    cases hg : getApi d a with
    | some x => simp [view, hg]
    | none =>
      simp only
      cases hf : d.find? (fun x => !x.inUse) with
      | none => simp
      | some x => simp [view, hg]
  unfold SpecStep
  cases hr : (newApi d a).2 with
  | false =>
    rw [(getApi_newApi d a a).2 hr]
    refine ⟨rfl, rfl, rfl, by rw [← hok, hr], fun b => by simp⟩
  | true =>
    have hka : (view d).known a = false := (hok.1 hr).1
    have hold : ∀ s, getSlot d a s = none := by
      intro s
      simp only [view] at hka
      cases hg : getApi d a with
      | none => simp [getSlot, hg]
      | some x => simp [hg] at hka
    have hs : ∀ a' s', getSlot (newApi d a).1 a' s' = getSlot d a' s' := by
      intro a' s'
      by_cases hc : a' = a
      · subst hc
        rw [((getApi_newApi d a' a').1 hr).2.1, hold]
      · unfold getSlot
        rw [((getApi_newApi d a a').1 hr).1 hc]
    refine ⟨?_, ?_, ?_, by rw [← hok, hr], ?_⟩
    · funext a' s'; simp only [view, hs]
    · funext a' s' ss; simp only [view, getSub, hs]
    · funext a' s' ss; simp only [view, getSub, hs]
    · intro b
      by_cases hc : b = a
      · subst hc
        simp only [view, ((getApi_newApi d b b).1 hr).2.2]
        simp
      · simp only [view, ((getApi_newApi d a b).1 hr).1 hc]
        have : (b == a) = false := by simpa using hc
        simp [this]

theorem find_map_same {α : Type} (p : α → Bool) (f : α → α) (hf : ∀ a, p (f a) = p a) (l : List α) :
    (l.map f).find? p = (l.find? p).map f := by
  induction l with
  | nil => rfl
  | cons a l ih =>
    simp only [List.map_cons, List.find?_cons, hf]
    cases p a
    · exact ih
    · rfl

theorem getSlot_setOwners (f : Nat → Nat → Nat → Sub → Option Nat) (d : Dev) (a s : Nat) :
    getSlot (setOwners f d) a s = (getSlot d a s).map (fun y =>
      { y with subs := y.subs.map (fun z => { z with owner := f a y.number z.number z }) }) := by
  unfold getSlot getApi setOwners
  rw [find_map_same (hf := ?hf)]
  case hf => intro x; rfl
  cases hg : d.find? (isApi a) with
  | none => rfl
  | some x =>
    have hx := List.find?_some hg
    simp only [isApi, Bool.and_eq_true, beq_iff_eq] at hx
    simp only [Option.map_some, Option.bind_some, findSlot]
    rw [find_map_same (hf := ?hf), hx.2]
    case hf => intro x; rfl

theorem getSub_setOwners (f : Nat → Nat → Nat → Sub → Option Nat) (d : Dev) (a s ss : Nat) :
    getSub (setOwners f d) a s ss = (getSub d a s ss).map (fun z => { z with owner := f a s ss z }) := by
  unfold getSub
  rw [getSlot_setOwners]
  cases hg : getSlot d a s with
  | none => rfl
  | some y =>
    have hy : y.number = s := by
      unfold getSlot at hg
      cases hx : getApi d a with
      | none => simp [hx] at hg
      | some x =>
        rw [hx] at hg
        have := List.find?_some hg
        simp only [isSlot, Bool.and_eq_true, beq_iff_eq] at this
        exact this.2
    simp only [Option.map_some, Option.bind_some, findSub]
    rw [find_map_same (hf := ?hf), hy]
    case hf => intro x; rfl
    cases hz : y.subs.find? (isSub ss) with
    | none => rfl
    | some z =>
      have := List.find?_some hz
      simp only [isSub, Bool.and_eq_true, beq_iff_eq] at this
      simp only [Option.map_some, this.2]

theorem getSub_claim (d : Dev) (a s ss i a' s' ss' : Nat) :
    getSub (claim d a s ss i) a' s' ss' = (getSub d a' s' ss').map (fun z =>
      if a' = a ∧ s' = s ∧ ss' = ss ∧ z.owner = none then { z with owner := some i } else z) := by
  unfold claim updSub
  rw [getSub_updSlot (hf := ?hf)]
  case hf => intro x; exact ⟨rfl, rfl⟩
  by_cases hc : a' = a ∧ s' = s
  · obtain ⟨rfl, rfl⟩ := hc
    rw [if_pos ⟨rfl, rfl⟩]
    unfold getSub
    cases hy : getSlot d a' s' with
    | none => rfl
    | some y =>
      simp only [Option.bind_some, true_and]
      unfold findSub
      by_cases hs : ss' = ss
      · subst hs
        rw [find_modFirst_same]
        · cases y.subs.find? (isSub ss') with
          | none => rfl
          | some z => simp only [Option.map_some, true_and, Option.isNone_iff_eq_none]
        · intro z _ hz
          by_cases ho : z.owner.isNone = true
          · rw [if_pos ho]; exact hz
          · rw [if_neg ho]; exact hz
      · rw [find_modFirst_other]
        · cases y.subs.find? (isSub ss') with
          | none => rfl
          | some z => simp only [Option.map_some, hs, false_and, if_false]
        · intro z _ hz
          have := isSub_ne hs z hz
          refine ⟨this, ?_⟩
          by_cases ho : z.owner.isNone = true
          · rw [if_pos ho]; exact this
          · rw [if_neg ho]; exact this
  · rw [if_neg hc]
    cases getSub d a' s' ss' with
    | none => rfl
    | some z =>
      simp only [Option.map_some]
      rw [if_neg (fun h => hc ⟨h.1, h.2.1⟩)]

theorem spec_claim {nA nS nB : Nat} (d : Dev) (a s ss i : Nat) :
    SpecStep nA nS nB (view d) (.claim a s ss i) true (view (claim d a s ss i)) := by
  unfold SpecStep
  refine ⟨?_, ?_, ?_⟩
  · funext b; exact getApi_updSlot _ _ _ _ _
  · funext a' s'
    simp only [view, claim, updSub]
    rw [getSlot_updSlot (hf := ?hf)]
    case hf => intro x; exact ⟨rfl, rfl⟩
    split
    · rename_i hc; rw [hc.1, hc.2]; cases getSlot d a s <;> rfl
    · rfl
  · funext a' s' ss'
    simp only [view, getSub_claim]
    cases getSub d a' s' ss' with
    | none => rfl
    | some z => simp only [Option.map_some]; split <;> rfl

theorem spec_own {nA nS nB : Nat} (d : Dev) (f : Nat → Nat → Nat → Sub → Option Nat) :
    SpecStep nA nS nB (view d) (.own f) true (view (setOwners f d)) := by
  unfold SpecStep
  refine ⟨?_, ?_, ?_⟩
  · funext a
    simp only [view, getApi, setOwners]
    rw [find_map_same (hf := ?hf)]
    case hf => intro x; rfl
    simp
  · funext a s
    simp only [view, getSlot_setOwners]
    cases getSlot d a s <;> rfl
  · funext a s ss
    simp only [view, getSub_setOwners]
    cases getSub d a s ss <;> rfl

/-! ## Properties -/

/-- **C20 (partial)**.  After any history of calls, with tables of any size, the next call changes
the set of plugged modules and submodules exactly as specified by `SpecStep`, and initially nothing
is plugged.  Partial because the result code of a call does not always tell whether the call had an
effect: see `C20_failed_calls_have_effect`.  -/
theorem C20_map_of_slots_partial (nA nS nB : Nat) (os : List TOp) (o : TOp) :
    (∀ a s ss, (view (dev0 nA nS nB)).mods a s = none ∧ (view (dev0 nA nS nB)).subs a s ss = none) ∧
    SpecStep nA nS nB (view (texec (dev0 nA nS nB) os)) o
      (tstep (texec (dev0 nA nS nB) os) o).2 (view (tstep (texec (dev0 nA nS nB) os) o).1) := by
  constructor
  · intro a s ss
    have hz : ∀ a s, getSlot (List.replicate nA (Api.zero nS nB)) a s = none := by
      intro a s
      unfold getSlot getApi
      have : (List.replicate nA (Api.zero nS nB)).find? (isApi a) = none := by
        rw [List.find?_eq_none]
        intro x hx
        obtain ⟨_, rfl⟩ := List.mem_replicate.1 hx
        simp [isApi, Api.zero]
      rw [this]; rfl
    have h0 : (view (dev0 nA nS nB)).mods a s = none := by
      have := (spec_newApi (inv_zero nA nS nB) 0).1
      unfold dev0
      rw [this]
      simp [view, hz]
    exact ⟨h0, sub_imp_mod h0⟩
  · have h := inv_texec os (inv_dev0 nA nS nB)
    generalize texec (dev0 nA nS nB) os = d at h
    cases o with
    | plugModule a s i => exact spec_plugModule h a s i
    | plugSub a s ss m i info who al => exact spec_plugSub h a s ss m i info who al
    | pullSub a s ss al => exact spec_pullSub h a s ss al
    | pullModule a s al => exact spec_pullModule h a s al
    | newApi a => exact spec_newApi h a
    | claim a s ss i => exact spec_claim d a s ss i
    | own f => exact spec_own d f

/-- All plugged submodules of the tables, as (API, slot, subslot). -/
def listing (d : Dev) : List (Nat × Nat × Nat) :=
  (d.filter Api.inUse).flatMap (fun x => (x.slots.filter Slot.inUse).flatMap (fun y =>
    (y.subs.filter Sub.inUse).map (fun z => (x.id, y.number, z.number))))

theorem nodup_flatMap_key {α β : Type} (k : α → Nat) (g : α → List β) (kb : β → Nat) (l : List α)
    (hk : (l.map k).Nodup) (hg : ∀ a ∈ l, (g a).Nodup) (hb : ∀ a ∈ l, ∀ b ∈ g a, kb b = k a) :
    (l.flatMap g).Nodup := by
  induction l with
  | nil => simp
  | cons a l ih =>
    simp only [List.map_cons, List.nodup_cons] at hk
    rw [List.flatMap_cons, List.nodup_append]
    refine ⟨hg a (by simp), ih hk.2 (fun b hb' => hg b (by simp [hb']))
      (fun b hb' => hb b (by simp [hb'])), ?_⟩
    intro x hx y hy hxy
    subst hxy
    obtain ⟨c, hc, hcx⟩ := List.mem_flatMap.1 hy
    have h1 := hb a (by simp) x hx
    have h2 := hb c (by simp [hc]) x hcx
    exact hk.1 (List.mem_map.2 ⟨c, hc, by omega⟩)

/-- **C20, uniqueness**.  After any history no subslot is listed twice, and the listing is exactly
what is observed to be plugged. -/
theorem C20_no_duplicates (nA nS nB : Nat) (os : List TOp) :
    (listing (texec (dev0 nA nS nB) os)).Nodup ∧
    ∀ a s ss, (a, s, ss) ∈ listing (texec (dev0 nA nS nB) os) ↔
      (view (texec (dev0 nA nS nB) os)).subs a s ss ≠ none := by
  have h := inv_texec os (inv_dev0 nA nS nB)
  generalize texec (dev0 nA nS nB) os = d at h
  constructor
  · unfold listing
    refine nodup_flatMap_key Api.id _ (fun t => t.1) _ h.apiKeys ?_ ?_
    · intro x hx
      have hx' := h.api (List.mem_of_mem_filter hx)
      refine nodup_flatMap_key Slot.number _ (fun t => t.2.1) _ hx'.slotKeys ?_ ?_
      · intro y hy
        have hy' := hx'.slot (List.mem_of_mem_filter hy)
        have := hy'.subKeys
        unfold keysOf at this
        have h2 : ((y.subs.filter Sub.inUse).map Sub.number).map
            (fun n => (x.id, y.number, n)) = (y.subs.filter Sub.inUse).map
              (fun z => (x.id, y.number, z.number)) := by rw [List.map_map]; rfl
        rw [← h2]
        exact this.map (fun _ _ hh => by simpa using hh)
      · intro y _ b hb
        obtain ⟨z, _, rfl⟩ := List.mem_map.1 hb
        rfl
    · intro x _ b hb
      obtain ⟨y, _, hb⟩ := List.mem_flatMap.1 hb
      obtain ⟨z, _, rfl⟩ := List.mem_map.1 hb
      rfl
  · intro a s ss
    -- membership in a table of in-use entries with unique keys is finding it
    have uniq : ∀ {α : Type} (u : α → Bool) (k : α → Nat) (l : List α) (e : α),
        (keysOf u k l).Nodup → e ∈ l → u e = true →
        l.find? (fun a => u a && k a == k e) = some e := by
      intro α u k l e hd he hu
      induction l with
      | nil => simp at he
      | cons b l ih =>
        unfold keysOf at hd ih
        rcases List.mem_cons.1 he with rfl | he'
        · simp [hu]
        · cases hub : u b with
          | false =>
            simp only [List.find?_cons, hub, Bool.false_and]
            exact ih (by simpa [List.filter_cons, hub] using hd) he'
          | true =>
            simp only [List.filter_cons, hub, if_true, List.map_cons, List.nodup_cons] at hd
            have hne : k b ≠ k e := fun hh => hd.1 (List.mem_map.2 ⟨e,
              List.mem_filter.2 ⟨he', hu⟩, hh.symm⟩)
            have : (k b == k e) = false := by simpa using hne
            simp only [List.find?_cons, hub, this, Bool.true_and]
            exact ih hd.2 he'
    constructor
    · intro hm
      unfold listing at hm
      obtain ⟨x, hx, hm⟩ := List.mem_flatMap.1 hm
      obtain ⟨y, hy, hm⟩ := List.mem_flatMap.1 hm
      obtain ⟨z, hz, hm⟩ := List.mem_map.1 hm
      simp only [Prod.mk.injEq] at hm
      obtain ⟨rfl, rfl, rfl⟩ := hm
      obtain ⟨hx1, hx2⟩ := List.mem_filter.1 hx
      obtain ⟨hy1, hy2⟩ := List.mem_filter.1 hy
      obtain ⟨hz1, hz2⟩ := List.mem_filter.1 hz
      have e1 : getApi d x.id = some x := uniq Api.inUse Api.id d x h.apiKeys hx1 hx2
      have e2 : findSlot x y.number = some y :=
        uniq Slot.inUse Slot.number x.slots y (h.api hx1).slotKeys hy1 hy2
      have e3 : findSub y z.number = some z :=
        uniq Sub.inUse Sub.number y.subs z ((h.api hx1).slot hy1).subKeys hz1 hz2
      simp [view, getSub, getSlot, e1, e2, e3]
    · intro hne
      simp only [view] at hne
      cases hz : getSub d a s ss with
      | none => simp [hz] at hne
      | some z =>
        unfold getSub getSlot at hz
        cases hx : getApi d a with
        | none => simp [hx] at hz
        | some x =>
          simp only [hx, Option.bind_some] at hz
          cases hy : findSlot x s with
          | none => simp [hy] at hz
          | some y =>
            simp only [hy, Option.bind_some] at hz
            have x1 := List.mem_of_find?_eq_some hx
            have x2 := List.find?_some hx
            have y1 := List.mem_of_find?_eq_some hy
            have y2 := List.find?_some hy
            have z1 := List.mem_of_find?_eq_some hz
            have z2 := List.find?_some hz
            simp only [isApi, isSlot, isSub, Bool.and_eq_true, beq_iff_eq] at x2 y2 z2
            unfold listing
            refine List.mem_flatMap.2 ⟨x, List.mem_filter.2 ⟨x1, x2.1⟩,
              List.mem_flatMap.2 ⟨y, List.mem_filter.2 ⟨y1, y2.1⟩,
              List.mem_map.2 ⟨z, List.mem_filter.2 ⟨z1, z2.1⟩, ?_⟩⟩⟩
            rw [x2.2, y2.2, z2.2]

/-- A history used below: one submodule plugged, not part of any connection. -/
def sampleHistory : List TOp := [.plugSub 0 1 1 0x10 0x20 ⟨1, 4, 0⟩ none true]

/-- **C20, what is false**.  Pulling a submodule that belongs to no connection reports failure
although it is pulled (and `pnet_pull_module` then reports failure and leaves the module plugged
with its first submodule removed); a plug whose alarm cannot be sent reports failure although the
submodule is plugged. -/
theorem C20_failed_calls_have_effect :
    (let d := texec (dev0 1 2 2) sampleHistory
     let r := tstep d (.pullSub 0 1 1 true)
     r.2 = false ∧ (view d).subs 0 1 1 = some (0x20, ⟨1, 4, 0⟩) ∧ (view r.1).subs 0 1 1 = none) ∧
    (let d := texec (dev0 1 2 2) sampleHistory
     let r := tstep d (.pullModule 0 1 (fun _ => true))
     r.2 = false ∧ (view r.1).mods 0 1 = some 0x10 ∧ (view r.1).subs 0 1 1 = none) ∧
    (let d := dev0 1 2 2
     let r := tstep d (.plugSub 0 1 1 0x10 0x20 ⟨1, 4, 0⟩ (some 0) false)
     r.2 = false ∧ (view r.1).subs 0 1 1 = some (0x20, ⟨1, 4, 0⟩)) := by
  decide +kernel

/-- A history with accepted and refused calls: the second plug has another identity, the third goes
to a full slot, the module is pulled after its submodules were owned. -/
theorem C20_example :
    let os : List TOp := [.plugModule 0 1 0x10, .plugSub 0 1 1 0x10 0x20 ⟨1, 4, 0⟩ (some 0) true]
    let d := texec (dev0 1 1 1) os
    (view d).subs 0 1 1 = some (0x20, ⟨1, 4, 0⟩) ∧
    (tstep d (.plugSub 0 1 1 0x10 0x21 ⟨1, 4, 0⟩ none true)).2 = false ∧
    (tstep d (.plugSub 0 1 2 0x10 0x20 ⟨1, 4, 0⟩ none true)).2 = false ∧
    (tstep d (.plugModule 0 2 0x10)).2 = false ∧
    (tstep d (.pullModule 0 1 (fun _ => true))).2 = true := by
  decide +kernel

end Verif.Device
