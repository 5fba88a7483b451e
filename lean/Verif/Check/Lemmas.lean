import Verif.Connect.Props
import Verif.Layout.Props
import Verif.Check.Spec
/-! Lemmas about the checks of a connect request. -/
set_option linter.unusedSimpArgs false
set_option linter.unusedVariables false
namespace Verif.Check
open Verif.Connect (Err ArBlock IocrBlock AlarmBlock arFields alarmFields classOf FrameIdOk RatioOk holdMicros)
open Verif.Layout (FrameDesc ApiEntry DataDescr IoData IocrType SubType)

/-- `e` names a condition of the list that does not hold. -/
def Names (l : Conds) (e : Err) : Prop := ∃ p, (e, p) ∈ l ∧ ¬ p

/-- `r` is no error and all conditions hold, or an error that names a condition that does not hold. -/
def Judges (l : Conds) : Option Err → Prop
  | none => ∀ f ∈ l, f.2
  | some e => Names l e

theorem Names.mono {l l' : Conds} {e} (h : Names l e) (hs : ∀ f ∈ l, f ∈ l') : Names l' e := by
  obtain ⟨p, h1, h2⟩ := h
  exact ⟨p, hs _ h1, h2⟩

theorem Judges.nil : Judges [] none := fun _ h => by simp at h

theorem Judges.seq {l1 l2 : Conds} {r1 r2} (h1 : Judges l1 r1) (h2 : r1 = none → Judges l2 r2) :
    Judges (l1 ++ l2) (match (generalizing := false) r1 with | some e => some e | none => r2) := by
  cases r1 with
  | some e => exact Names.mono h1 (fun f hf => List.mem_append_left _ hf)
  | none =>
    have h2 := h2 rfl
    cases r2 with
    | some e => exact Names.mono h2 (fun f hf => List.mem_append_right _ hf)
    | none =>
      intro f hf
      rcases List.mem_append.1 hf with h | h
      · exact h1 f h
      · exact h2 f h

theorem Judges.cons {l : Conds} {bad p : Prop} [Decidable bad] {e r} (hp : bad ↔ ¬ p) (h : ¬ bad → Judges l r) :
    Judges ((e, p) :: l) (if bad then some e else r) := by
  by_cases hb : bad
  · rw [if_pos hb]
    exact ⟨p, by simp, hp.1 hb⟩
  · rw [if_neg hb]
    have := h hb
    cases r with
    | some e' => exact Names.mono this (fun f hf => List.mem_cons_of_mem _ hf)
    | none =>
      intro f hf
      rcases List.mem_cons.1 hf with rfl | hf
      · by_contra hc; exact hb (hp.2 hc)
      · exact this f hf

/-- A loop that keeps or replaces the error. -/
theorem Judges.foldl {α} {F : α → Conds} {g : Option Err → α → Option Err}
    (h1 : ∀ x, Judges (F x) (g none x)) (h2 : ∀ e x, g (some e) x = some e ∨ ∃ e', g (some e) x = some e' ∧ Names (F x) e') :
    ∀ (l : List α) (l0 : Conds) (r : Option Err), Judges l0 r → Judges (l0 ++ l.flatMap F) (l.foldl g r) := by
  intro l
  induction l with
  | nil => intro l0 r h; simpa using h
  | cons x l ih =>
    intro l0 r h
    rw [List.foldl_cons, List.flatMap_cons, ← List.append_assoc]
    refine ih _ _ ?_
    cases r with
    | none => simpa using Judges.seq (r1 := none) h (fun _ => h1 x) 
    | some e =>
      rcases h2 e x with he | ⟨e', he, hn⟩
      · rw [he]; exact Names.mono h (fun f hf => List.mem_append_left _ hf)
      · rw [he]; exact Names.mono hn (fun f hf => List.mem_append_right _ hf)

/-! ## Expected submodules -/

theorem used_iff (rq : Request) (api slot ss : Nat) : used rq.crs api slot ss = true ↔ Used rq api slot ss := by
  unfold used Used
  simp only [List.any_eq_true, Bool.and_eq_true, Bool.or_eq_true, beq_iff_eq]
  constructor
  · rintro ⟨c, hc, a, ha, h1, h⟩
    refine ⟨c, hc, a, ha, h1, ?_⟩
    rcases h with ⟨f, hf, h2, h3⟩ | ⟨f, hf, h2, h3⟩
    · exact ⟨f, .inl hf, h2, h3⟩
    · exact ⟨f, .inr hf, h2, h3⟩
  · rintro ⟨c, hc, a, ha, h1, f, hf, h2, h3⟩
    refine ⟨c, hc, a, ha, h1, ?_⟩
    rcases hf with hf | hf
    · exact .inl ⟨f, hf, h2, h3⟩
    · exact .inr ⟨f, hf, h2, h3⟩

theorem descsFit_iff (s : Layout.ExpSub) : descsFit s = true ↔ DescsFit s := by
  unfold descsFit DescsFit
  rcases s with ⟨n, t, a, b, c, l⟩
  cases t <;> rcases l with _ | ⟨d, _ | ⟨d', _ | ⟨d'', l⟩⟩⟩ <;> simp <;> omega

/-- The conditions on one data descriptor. -/
def descFields (s : Layout.ExpSub) (d : DataDescr) : Conds :=
  [ (⟨3, 13⟩, d.dir = 1 ∧ s.type ≠ .output ∨ d.dir = 2 ∧ (s.type = .output ∨ s.type = .io)),
    (⟨3, 14⟩, d.dataLen ≤ 1439 ∧ (s.type = .noIo → d.dataLen = 0)),
    (⟨3, 15⟩, d.iopsLen = 1),
    (⟨3, 16⟩, d.iocsLen = 1) ]

theorem descCheck_judges (s : Layout.ExpSub) (d : DataDescr) : Judges (descFields s d) (descCheck s d) := by
  unfold descCheck descFields
  by_cases h1 : d.dir ≠ 1 ∧ d.dir ≠ 2
  · rw [if_pos h1]; exact ⟨_, List.mem_cons_self, by omega⟩
  rw [if_neg h1]
  by_cases h2 : d.dir = 1 ∧ s.type = .output
  · rw [if_pos h2]
    refine ⟨_, List.mem_cons_self, ?_⟩
    rintro (⟨_, h⟩ | ⟨h, _⟩)
    · exact h h2.2
    · omega
  rw [if_neg h2]
  refine Judges.cons ?_ fun _ => ?_
  · constructor
    · rintro ⟨a, b, c⟩ (⟨h, _⟩ | ⟨_, h | h⟩)
      · omega
      · exact b h
      · exact c h
    · intro h
      have : d.dir = 2 := by
        by_contra hc
        have : d.dir = 1 := by omega
        exact h (.inl ⟨this, fun h' => h2 ⟨this, h'⟩⟩)
      exact ⟨this, fun h' => h (.inr ⟨this, .inl h'⟩), fun h' => h (.inr ⟨this, .inr h'⟩)⟩
  refine Judges.cons ?_ fun _ => ?_
  · by_cases ht : s.type = .noIo <;> simp [ht] <;> omega
  refine Judges.cons Iff.rfl fun _ => Judges.cons Iff.rfl fun _ => Judges.nil

theorem descLoop_judges (s : Layout.ExpSub) : Judges
    [ (⟨3, 13⟩, ∀ d ∈ s.descs, d.dir = 1 ∧ s.type ≠ .output ∨ d.dir = 2 ∧ (s.type = .output ∨ s.type = .io)),
      (⟨3, 14⟩, ∀ d ∈ s.descs, d.dataLen ≤ 1439 ∧ (s.type = .noIo → d.dataLen = 0)),
      (⟨3, 15⟩, ∀ d ∈ s.descs, d.iopsLen = 1),
      (⟨3, 16⟩, ∀ d ∈ s.descs, d.iocsLen = 1) ] (s.descs.foldl (descLoop s) none) := by
  have key := Judges.foldl (F := descFields s) (g := descLoop s)
    (fun d => by
      unfold descLoop
      rw [Option.or_none]
      exact descCheck_judges s d)
    (fun e d => by
      have := descCheck_judges s d
      unfold descLoop
      cases h : descCheck s d with
      | none => exact .inl rfl
      | some e' => rw [h] at this; exact .inr ⟨e', rfl, this⟩) s.descs [] none Judges.nil
  generalize s.descs.foldl (descLoop s) none = r at key ⊢
  rw [List.nil_append] at key
  cases r with
  | none =>
    have k : ∀ d ∈ s.descs, ∀ f ∈ descFields s d, f.2 := fun d hd f hf => key f (List.mem_flatMap.2 ⟨d, hd, hf⟩)
    have k1 := fun d hd => k d hd _ (List.mem_of_getElem? (i := 0) rfl)
    have k2 := fun d hd => k d hd _ (List.mem_of_getElem? (i := 1) rfl)
    have k3 := fun d hd => k d hd _ (List.mem_of_getElem? (i := 2) rfl)
    have k4 := fun d hd => k d hd _ (List.mem_of_getElem? (i := 3) rfl)
    intro f hf
    simp only [List.mem_cons, List.not_mem_nil, or_false] at hf
    rcases hf with rfl | rfl | rfl | rfl
    · exact k1
    · exact k2
    · exact k3
    · exact k4
  | some e =>
    obtain ⟨p, hp, hn⟩ := key
    obtain ⟨d, hd, hp⟩ := List.mem_flatMap.1 hp
    simp only [descFields, List.mem_cons, List.not_mem_nil, or_false, Prod.mk.injEq] at hp
    rcases hp with ⟨rfl, rfl⟩ | ⟨rfl, rfl⟩ | ⟨rfl, rfl⟩ | ⟨rfl, rfl⟩
    · exact ⟨_, List.mem_of_getElem? (i := 0) rfl, fun h => hn (h d hd)⟩
    · exact ⟨_, List.mem_of_getElem? (i := 1) rfl, fun h => hn (h d hd)⟩
    · exact ⟨_, List.mem_of_getElem? (i := 2) rfl, fun h => hn (h d hd)⟩
    · exact ⟨_, List.mem_of_getElem? (i := 3) rfl, fun h => hn (h d hd)⟩

theorem any_iff {α} (l : List α) (g : α → Nat) (n : Nat) :
    (l.any fun x => g x == n) = true ↔ ¬ ∀ x ∈ l, g x ≠ n := by
  simp only [List.any_eq_true, beq_iff_eq]
  constructor
  · rintro ⟨x, h1, h2⟩ h; exact h x h1 h2
  · intro h; by_contra hc; exact h fun x hx he => hc ⟨x, hx, he⟩

theorem subCheck_judges (rq : Request) (api slot : Nat) (there : Bool) (done : List Sub) (s : Sub) :
    Judges (subFields rq api slot (there = true) done s) (subCheck rq.crs api slot there done s) := by
  unfold subCheck subFields
  refine Judges.cons (any_iff done (fun x => x.lay.subslot) _) fun _ => ?_
  refine Judges.cons (by rw [← used_iff]; simp) fun _ => ?_
  refine Judges.cons (by omega) fun _ => ?_
  refine Judges.cons (by simp) fun _ => ?_
  refine Judges.cons (by omega) fun _ => ?_
  refine Judges.cons (by rw [← descsFit_iff]; simp) fun _ => ?_
  refine Judges.cons ?_ fun _ => ?_
  · cases s.lay.type <;> cases s.shared <;> simp
  refine Judges.cons ?_ fun _ => ?_
  · cases s.lay.type <;> cases s.lay.reduceIn <;> simp
  refine Judges.cons ?_ fun _ => ?_
  · cases s.lay.type <;> cases s.lay.reduceOut <;> simp
  refine Judges.cons ?_ fun _ => ?_
  · cases s.lay.type <;> cases s.lay.discard <;> simp
  exact descLoop_judges s.lay

theorem subLoop_judges (rq : Request) (api slot : Nat) (there : Nat → Bool) : ∀ (todo done : List Sub),
    Judges ((todo.zipIdx done.length).flatMap fun (s, k) =>
        subFields rq api slot (there k = true) ((done ++ todo).take k) s)
      (subLoop rq.crs api slot there done todo) := by
  intro todo
  induction todo with
  | nil => intro done; exact Judges.nil
  | cons s todo ih =>
    intro done
    unfold subLoop
    rw [List.zipIdx_cons, List.flatMap_cons]
    refine Judges.seq ?_ fun _ => ?_
    · simp only [List.take_left]
      exact subCheck_judges ..
    · have := ih (done ++ [s])
      simpa using this

theorem modCheck_judges (rq : Request) (api : Nat) (there : Bool) (subs : Nat → Bool) (done : List Mod) (m : Mod) :
    Judges (modFields (there = true) done m ++ m.subs.zipIdx.flatMap fun (s, k) =>
        subFields rq api m.slot (subs k = true) (m.subs.take k) s)
      (modCheck rq.crs api there subs done m) := by
  unfold modCheck modFields
  simp only [List.cons_append, List.nil_append]
  refine Judges.cons (any_iff done (fun x => x.slot) _) fun _ => ?_
  refine Judges.cons (by omega) fun _ => ?_
  refine Judges.cons (by simp) fun _ => ?_
  refine Judges.cons (by simp) fun _ => ?_
  refine Judges.cons (by simp) fun _ => ?_
  simpa using subLoop_judges rq api m.slot subs m.subs []

theorem modLoop_judges (rq : Request) (api : Nat) (there : Nat → Bool) (subs : Nat → Nat → Bool) : ∀ (todo done : List Mod),
    Judges ((todo.zipIdx done.length).flatMap fun (m, j) =>
        modFields (there j = true) ((done ++ todo).take j) m ++ m.subs.zipIdx.flatMap fun (s, k) =>
          subFields rq api m.slot (subs j k = true) (m.subs.take k) s)
      (modLoop rq.crs api there subs done todo) := by
  intro todo
  induction todo with
  | nil => intro done; exact Judges.nil
  | cons m todo ih =>
    intro done
    unfold modLoop
    rw [List.zipIdx_cons, List.flatMap_cons]
    refine Judges.seq ?_ fun _ => ?_
    · simp only [List.take_left]
      exact modCheck_judges ..
    · have := ih (done ++ [m])
      simpa using this

theorem apiLoop_judges (env : Env) (rq : Request) : ∀ (todo : List Api) (i : Nat),
    Judges ((todo.zipIdx i).flatMap fun (a, i) =>
        if env.apiThere a.api then
          a.mods.zipIdx.flatMap fun (m, j) =>
            modFields (env.modThere i j = true) (a.mods.take j) m ++
            m.subs.zipIdx.flatMap fun (s, k) =>
              subFields rq a.api m.slot (env.subThere i j k = true) (m.subs.take k) s
        else [])
      (apiLoop env rq.crs i todo) := by
  intro todo
  induction todo with
  | nil => intro i; exact Judges.nil
  | cons a todo ih =>
    intro i
    unfold apiLoop
    rw [List.zipIdx_cons, List.flatMap_cons]
    refine Judges.seq ?_ fun _ => ih (i + 1)
    dsimp only
    by_cases h : env.apiThere a.api = true
    · rw [if_pos h, if_pos h]
      simpa using modLoop_judges rq a.api (env.modThere i) (env.subThere i) a.mods []
    · rw [if_neg h, if_neg h]
      exact Judges.nil

theorem configure_judges (env : Env) (rq : Request) : Judges (expConds env rq) (configure env false rq) := by
  unfold configure expConds
  exact Judges.cons (by simp) fun _ => apiLoop_judges env rq rq.exp 0

end Verif.Check
