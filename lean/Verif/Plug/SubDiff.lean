import Verif.Device.Diff
/-!
The report about one submodule after it was released (C74).
Source: src/device/pf_cmdev.c.
-/
set_option linter.unusedVariables false
set_option linter.unusedSimpArgs false

namespace Verif.Plug
open Verif.Device

/-! ## Model -/

/-- The branch for a module of the wrong identity (src/device/pf_cmdev.c:4487-4509): the loop looks at entry `mi` (the index of the
*module*) of the array of submodules, which has `maxSubs` entries, and marks a submodule of a module that is not put
in the report.  `none`: outside the array. -/
def wrongModule (maxSubs mi : Nat) (m : ExpMod) : Option (Option ModDiff) :=
  if m.subs.length > 0 ∧ mi ≥ maxSubs then none else some none

/-- The loop over modules of pf_cmdev_generate_submodule_diff (src/device/pf_cmdev.c:4414-4587) for one module. -/
def modDiff1 (maxSubs i slot subslot : Nat) (x : Api) (mi : Nat) (m : ExpMod) : Option (Option ModDiff) :=
  if m.slot ≠ slot then some none
  else
    match findSlot x m.slot with
    | none => some (some ⟨m.slot, m.ident, .none, []⟩)
    | some y =>
      if m.ident ≠ y.ident then wrongModule maxSubs mi m
      else
        match (m.subs.filter (·.number == subslot)).filterMap (subDiff i y) with
        | [] => some none
        | l => some (some ⟨m.slot, m.ident, .proper, l⟩)

/-- All modules, with their indexes. -/
def modsDiff1 (maxSubs i slot subslot : Nat) (x : Api) : Nat → List ExpMod → Option (List ModDiff)
  | _, [] => some []
  | mi, m :: l => (modDiff1 maxSubs i slot subslot x mi m).bind fun r =>
      (modsDiff1 maxSubs i slot subslot x (mi + 1) l).map fun t => r.toList ++ t

/-- The loop over APIs of pf_cmdev_generate_submodule_diff (src/device/pf_cmdev.c:4414-4587) for one API. -/
def apiDiff1 (maxSubs : Nat) (d : Dev) (i api slot subslot : Nat) (e : ExpApi) : Option (Option ApiDiff) :=
  if e.api ≠ api then some none
  else
    match getApi d e.api with
    | none => some none
    | some x => (modsDiff1 maxSubs i slot subslot x 0 e.mods).map fun l =>
        match l with
        | [] => none
        | l => some ⟨e.api, l⟩

/-- pf_cmdev_generate_submodule_diff (src/device/pf_cmdev.c:4414-4587). -/
def submoduleDiff (maxSubs : Nat) (d : Dev) (i api slot subslot : Nat) : List ExpApi → Option (List ApiDiff)
  | [] => some []
  | e :: l => (apiDiff1 maxSubs d i api slot subslot e).bind fun r =>
      (submoduleDiff maxSubs d i api slot subslot l).map fun t => r.toList ++ t

/-! ## Reduction to the report at connect -/

/-- What the controller expects, as far as it concerns one submodule. -/
def restrict (api slot subslot : Nat) (exp : List ExpApi) : List ExpApi :=
  (exp.filter (·.api == api)).map fun e =>
    ⟨e.api, (e.mods.filter (·.slot == slot)).map fun m => ⟨m.slot, m.ident, m.subs.filter (·.number == subslot)⟩⟩

theorem modDiff_restrict (i subslot : Nat) (x : Api) (m : ExpMod) :
    modDiff i x ⟨m.slot, m.ident, m.subs.filter (·.number == subslot)⟩ =
      match findSlot x m.slot with
      | none => some ⟨m.slot, m.ident, .none, []⟩
      | some y =>
        if m.ident ≠ y.ident then none
        else
          match (m.subs.filter (·.number == subslot)).filterMap (subDiff i y) with
          | [] => none
          | l => some ⟨m.slot, m.ident, .proper, l⟩ := rfl

theorem modDiff1_eq {maxSubs i slot subslot : Nat} {x : Api} {mi : Nat} {m : ExpMod} {r : Option ModDiff}
    (h : modDiff1 maxSubs i slot subslot x mi m = some r) :
    r = if m.slot = slot then modDiff i x ⟨m.slot, m.ident, m.subs.filter (·.number == subslot)⟩ else none := by
  unfold modDiff1 at h
  by_cases c : m.slot = slot
  · rw [if_neg (by simpa using c)] at h
    rw [if_pos c, modDiff_restrict]
    cases hs : findSlot x m.slot with
    | none => rw [hs] at h; exact (Option.some.inj h).symm
    | some y =>
      rw [hs] at h
      dsimp only at h ⊢
      by_cases hid : m.ident ≠ y.ident
      · rw [if_pos hid] at h ⊢
        unfold wrongModule at h
        split at h
        · cases h
        · exact (Option.some.inj h).symm
      · rw [if_neg hid] at h ⊢
        cases hf : (m.subs.filter (·.number == subslot)).filterMap (subDiff i y) with
        | nil => rw [hf] at h; exact (Option.some.inj h).symm
        | cons a l => rw [hf] at h; exact (Option.some.inj h).symm
  · rw [if_pos c] at h
    rw [if_neg c]
    exact (Option.some.inj h).symm

theorem modsDiff1_eq {maxSubs i slot subslot : Nat} {x : Api} {l : List ExpMod} {mi : Nat} {r : List ModDiff}
    (h : modsDiff1 maxSubs i slot subslot x mi l = some r) :
    r = ((l.filter (·.slot == slot)).map fun m =>
      (⟨m.slot, m.ident, m.subs.filter (·.number == subslot)⟩ : ExpMod)).filterMap (modDiff i x) := by
  induction l generalizing mi r with
  | nil => exact (Option.some.inj h).symm
  | cons m l ih =>
    unfold modsDiff1 at h
    cases h1 : modDiff1 maxSubs i slot subslot x mi m with
    | none => rw [h1] at h; cases h
    | some a =>
      rw [h1] at h
      simp only [Option.bind_some] at h
      cases h2 : modsDiff1 maxSubs i slot subslot x (mi + 1) l with
      | none => rw [h2] at h; cases h
      | some t =>
        rw [h2] at h
        have h := Option.some.inj h
        subst h
        rw [modDiff1_eq h1, ih h2]
        by_cases c : m.slot = slot
        · rw [if_pos c, List.filter_cons_of_pos (by simpa using c), List.map_cons, List.filterMap_cons]
          cases modDiff i x ⟨m.slot, m.ident, m.subs.filter (·.number == subslot)⟩ <;> rfl
        · rw [if_neg c, List.filter_cons_of_neg (by simpa using c)]
          rfl

/-- If no access is outside an array, the report is the report at connect for what is expected about the submodule. -/
theorem submoduleDiff_eq {maxSubs : Nat} {d : Dev} {i api slot subslot : Nat} {exp : List ExpApi} {r : List ApiDiff}
    (h : submoduleDiff maxSubs d i api slot subslot exp = some r) :
    r = moduleDiff d i (restrict api slot subslot exp) := by
  induction exp generalizing r with
  | nil => exact (Option.some.inj h).symm
  | cons e l ih =>
    unfold submoduleDiff at h
    cases h1 : apiDiff1 maxSubs d i api slot subslot e with
    | none => rw [h1] at h; cases h
    | some a =>
      rw [h1] at h
      simp only [Option.bind_some] at h
      cases h2 : submoduleDiff maxSubs d i api slot subslot l with
      | none => rw [h2] at h; cases h
      | some t =>
        rw [h2] at h
        have h := Option.some.inj h
        subst h
        rw [ih h2]
        unfold moduleDiff restrict
        unfold apiDiff1 at h1
        by_cases c : e.api = api
        · rw [if_neg (by simpa using c)] at h1
          rw [List.filter_cons_of_pos (by simpa using c), List.map_cons, List.filterMap_cons]
          unfold apiDiff
          dsimp only
          cases hx : getApi d e.api with
          | none => rw [hx] at h1; cases h1; rfl
          | some x =>
            rw [hx] at h1
            dsimp only at h1 ⊢
            cases hm : modsDiff1 maxSubs i slot subslot x 0 e.mods with
            | none => rw [hm] at h1; cases h1
            | some ml =>
              rw [hm] at h1
              rw [← modsDiff1_eq hm]
              have h1 := Option.some.inj h1
              subst h1
              cases ml <;> rfl
        · rw [if_pos c] at h1
          rw [List.filter_cons_of_neg (by simpa using c)]
          cases h1
          rfl

theorem mem_restrict {api slot subslot : Nat} {exp : List ExpApi} {e : ExpApi} (h : e ∈ restrict api slot subslot exp) :
    ∃ e0 ∈ exp, e0.api = api ∧ e.api = api ∧ ∀ m ∈ e.mods, ∃ m0 ∈ e0.mods, m0.slot = slot ∧ m.slot = slot ∧
      m.ident = m0.ident ∧ ∀ z, z ∈ m.subs ↔ z ∈ m0.subs ∧ z.number = subslot := by
  unfold restrict at h
  obtain ⟨e0, h0, rfl⟩ := List.mem_map.1 h
  obtain ⟨h1, h2⟩ := List.mem_filter.1 h0
  have h2 : e0.api = api := by simpa using h2
  refine ⟨e0, h1, h2, h2, ?_⟩
  intro m hm
  obtain ⟨m0, hm0, rfl⟩ := List.mem_map.1 hm
  obtain ⟨h3, h4⟩ := List.mem_filter.1 hm0
  have h4 : m0.slot = slot := by simpa using h4
  refine ⟨m0, h3, h4, h4, rfl, ?_⟩
  intro z
  simp [List.mem_filter]

theorem unambiguous_restrict {api slot subslot : Nat} {exp : List ExpApi} (h : Unambiguous exp) :
    Unambiguous (restrict api slot subslot exp) := by
  intro e he e' he' ha m hm m' hm' hs
  obtain ⟨e0, h1, h2, h3, h4⟩ := mem_restrict he
  obtain ⟨e0', h1', h2', h3', h4'⟩ := mem_restrict he'
  obtain ⟨m0, k1, k2, k3, k4, k5⟩ := h4 m hm
  obtain ⟨m0', k1', k2', k3', k4', k5'⟩ := h4' m' hm'
  obtain ⟨g1, g2⟩ := h e0 h1 e0' h1' (by rw [h2, h2']) m0 k1 m0' k1' (by rw [k2, k2'])
  refine ⟨by rw [k4, k4', g1], ?_⟩
  intro z hz z' hz' hn
  exact g2 z ((k5 z).1 hz).1 z' ((k5' z').1 hz').1 hn

theorem expected_restrict {exp : List ExpApi} {p : Place} (h : Expected exp p) :
    Expected (restrict p.api p.slot p.subslot exp) p := by
  obtain ⟨e, he, m, hm, z, hz, rfl⟩ := h
  refine ⟨⟨e.api, (e.mods.filter (·.slot == m.slot)).map fun m' =>
      ⟨m'.slot, m'.ident, m'.subs.filter (·.number == z.number)⟩⟩, ?_,
    ⟨m.slot, m.ident, m.subs.filter (·.number == z.number)⟩, ?_, z, ?_, rfl⟩
  · exact List.mem_map.2 ⟨e, List.mem_filter.2 ⟨he, by simp⟩, rfl⟩
  · exact List.mem_map.2 ⟨m, List.mem_filter.2 ⟨hm, by simp⟩, rfl⟩
  · exact List.mem_filter.2 ⟨hz, by simp⟩

/-! ## C74 -/

/-- Nothing outside the arrays is looked at if there are no more expected modules in any API than places for
submodules. -/
theorem C74_inside_partial (maxSubs : Nat) (d : Dev) (i api slot subslot : Nat) (exp : List ExpApi)
    (h : ∀ e ∈ exp, e.mods.length ≤ maxSubs) : (submoduleDiff maxSubs d i api slot subslot exp).isSome := by
  have hmods : ∀ (x : Api) (l : List ExpMod) (mi : Nat), mi + l.length ≤ maxSubs →
      (modsDiff1 maxSubs i slot subslot x mi l).isSome := by
    intro x l
    induction l with
    | nil => intro _ _; rfl
    | cons m l ih =>
      intro mi hl
      simp at hl
      have h1 : ∃ r, modDiff1 maxSubs i slot subslot x mi m = some r := by
        unfold modDiff1
        split
        · exact ⟨_, rfl⟩
        · split
          · exact ⟨_, rfl⟩
          · split
            · unfold wrongModule
              rw [if_neg (by omega)]
              exact ⟨_, rfl⟩
            · split <;> exact ⟨_, rfl⟩
      obtain ⟨r, h1⟩ := h1
      obtain ⟨t, h2⟩ := Option.isSome_iff_exists.1 (ih (mi + 1) (by omega))
      unfold modsDiff1
      rw [h1, h2]
      rfl
  induction exp with
  | nil => rfl
  | cons e l ih =>
    have h1 : ∃ r, apiDiff1 maxSubs d i api slot subslot e = some r := by
      unfold apiDiff1
      split
      · exact ⟨_, rfl⟩
      · split
        · exact ⟨_, rfl⟩
        · rename_i x _
          obtain ⟨t, ht⟩ := Option.isSome_iff_exists.1 (hmods x e.mods 0 (by simpa using h e (by simp)))
          rw [ht]
          exact ⟨_, rfl⟩
    obtain ⟨r, h1⟩ := h1
    obtain ⟨t, h2⟩ := Option.isSome_iff_exists.1 (ih (fun e he => h e (List.mem_cons_of_mem _ he)))
    unfold submoduleDiff
    rw [h1, h2]
    rfl

/-- The report mentions the released submodule exactly if there is something to tell about it: the hardware differs from
the expectation, another connection owns it, or a diagnosis is present.  As with C48, slots with a module of the wrong
identity are not covered. -/
theorem C74_complete_partial (maxSubs : Nat) (d : Dev) (i : Nat) (exp : List ExpApi) (hu : Unambiguous exp)
    (p : Place) (hp : Expected exp p) (hw : NoWrongModule d p) (r : List ApiDiff)
    (h : submoduleDiff maxSubs d i p.api p.slot p.subslot exp = some r) :
    Mentions r p ↔ HardwareDiffers d p ∨ OtherOwner d i p ∨ HasDiag d p := by
  rw [submoduleDiff_eq h]
  exact C48_report_complete_partial d i _ (unambiguous_restrict hu) p (expected_restrict hp) hw

/-- The report mentions nothing but this submodule, or its whole module. -/
theorem C74_only (maxSubs : Nat) (d : Dev) (i api slot subslot : Nat) (exp : List ExpApi) (r : List ApiDiff)
    (h : submoduleDiff maxSubs d i api slot subslot exp = some r) :
    ∀ x ∈ r, x.api = api ∧ ∀ m ∈ x.mods, m.slot = slot ∧ ∀ z ∈ m.subs, z.number = subslot := by
  rw [submoduleDiff_eq h]
  intro x hx
  unfold moduleDiff at hx
  obtain ⟨e, he, hr⟩ := List.mem_filterMap.1 hx
  obtain ⟨e0, h1, h2, h3, h4⟩ := mem_restrict he
  unfold apiDiff at hr
  cases ha : getApi d e.api with
  | none => rw [ha] at hr; cases hr
  | some y =>
    rw [ha] at hr
    dsimp only at hr
    have hxe : x = ⟨e.api, e.mods.filterMap (modDiff i y)⟩ := by
      generalize e.mods.filterMap (modDiff i y) = l at hr
      cases l with
      | nil => cases hr
      | cons a l => exact (Option.some.inj hr).symm
    subst hxe
    refine ⟨h3, ?_⟩
    intro m hm
    obtain ⟨m0, hm0, hmd⟩ := List.mem_filterMap.1 hm
    obtain ⟨m1, k1, k2, k3, k4, k5⟩ := h4 m0 hm0
    unfold modDiff at hmd
    cases hs : findSlot y m0.slot with
    | none => rw [hs] at hmd; cases hmd; exact ⟨k3, by simp⟩
    | some w =>
      rw [hs] at hmd
      dsimp only at hmd
      split at hmd
      · cases hmd
      · have hme : m = ⟨m0.slot, m0.ident, .proper, m0.subs.filterMap (subDiff i w)⟩ := by
          generalize m0.subs.filterMap (subDiff i w) = l at hmd
          cases l with
          | nil => cases hmd
          | cons a l => exact (Option.some.inj hmd).symm
        subst hme
        refine ⟨k3, ?_⟩
        intro z hz
        obtain ⟨z0, hz0, hzd⟩ := List.mem_filterMap.1 hz
        rw [subDiff_number hzd]
        exact ((k5 z0).1 hz0).2

/-- A device with `maxSubs` subslots per slot: `maxSubs` expected modules that do not matter, then one whose slot holds
another module.  The array of submodules is read behind its end. -/
theorem C74_fails_index (maxSubs : Nat) (d : Dev) (i api slot subslot ident : Nat) (x : Api) (y : Slot) (z : ExpSub)
    (mods : List ExpMod) (rest : List ExpApi) (ha : getApi d api = some x) (hs : findSlot x slot = some y)
    (hi : ident ≠ y.ident) (hl : mods.length = maxSubs) (hm : ∀ m ∈ mods, m.slot ≠ slot) :
    submoduleDiff maxSubs d i api slot subslot (⟨api, mods ++ [⟨slot, ident, [z]⟩]⟩ :: rest) = none := by
  have key : ∀ (mods : List ExpMod) (mi : Nat), mi + mods.length = maxSubs → (∀ m ∈ mods, m.slot ≠ slot) →
      modsDiff1 maxSubs i slot subslot x mi (mods ++ [⟨slot, ident, [z]⟩]) = none := by
    intro mods
    induction mods with
    | nil =>
      intro mi hl _
      show ((modDiff1 maxSubs i slot subslot x mi ⟨slot, ident, [z]⟩).bind _) = none
      have e : modDiff1 maxSubs i slot subslot x mi ⟨slot, ident, [z]⟩ = none := by
        unfold modDiff1
        rw [if_neg (by simp)]
        dsimp only
        rw [hs]
        dsimp only
        rw [if_pos hi]
        unfold wrongModule
        rw [if_pos ⟨by simp, by simp at hl; omega⟩]
      rw [e]
      rfl
    | cons m l ih =>
      intro mi hl hm
      simp at hl
      rw [List.cons_append]
      unfold modsDiff1
      have e : modDiff1 maxSubs i slot subslot x mi m = some none := by
        unfold modDiff1
        rw [if_pos (hm m (by simp))]
      rw [e]
      simp only [Option.bind_some]
      rw [ih (mi + 1) (by omega) (fun m h => hm m (List.mem_cons_of_mem _ h))]
      rfl
  unfold submoduleDiff
  have e : apiDiff1 maxSubs d i api slot subslot ⟨api, mods ++ [⟨slot, ident, [z]⟩]⟩ = none := by
    unfold apiDiff1
    rw [if_neg (by simp)]
    dsimp only
    rw [ha]
    dsimp only
    rw [key mods 0 (by simpa using hl) hm]
    rfl
  rw [e]
  rfl

/-! ## Cases -/

/-- One submodule is as expected, one is missing, and for the one in a slot with another module an array is read behind
its end. -/
theorem C74_example :
    submoduleDiff 2 diffDev 4 0 1 1 diffExp = some [] ∧
    submoduleDiff 2 diffDev 4 0 1 2 diffExp = some [⟨0, [⟨1, 0x10, .proper, [⟨2, 0x21, .missing⟩]⟩]⟩] ∧
    submoduleDiff 2 diffDev 4 0 3 1 diffExp = none := by decide +kernel

example : Unambiguous diffExp := C48_example_unambiguous

end Verif.Plug
