import Verif.Snmp.Spec
/-! C121, C122: the name, the contact and the location that SNMP shows. -/
set_option linter.unusedVariables false
set_option linter.unusedSimpArgs false

namespace Verif.Snmp
open Verif.Wire

/-! ## Texts -/

theorem str_length (n : Nat) (a : List Byte) : (str n a).length ≤ n := by
  unfold str
  have := (List.takeWhile_sublist (l := a.take n) (fun x : Byte => decide (x ≠ 0))).length_le
  have h2 : (a.take n).length ≤ n := by simp; omega
  exact Nat.le_trans this h2

theorem str_ne {n : Nat} {a : List Byte} {x : Byte} (h : x ∈ str n a) : x ≠ 0 := Im.ne_of_mem_takeWhile h

theorem text_zero (t b : List Byte) (h : ∀ x ∈ t, x ≠ 0) : text (t ++ [0] ++ b) = t := by
  induction t with
  | nil => rfl
  | cons x t ih =>
    have hx : x ≠ 0 := h x (by simp)
    show (x :: (t ++ [0] ++ b)).takeWhile _ = _
    rw [List.takeWhile_cons, if_pos (by simpa using hx)]
    congr 1
    exact ih fun y hy => h y (by simp [hy])

/-- A terminated array holds its text. -/
theorem text_str {n : Nat} {a : List Byte} (h : Im.Text n a) : text a = str n a := by
  rw [h.split]
  unfold text str
  have : a.take n ++ [0] = a.take n ++ [0] ++ [] := by simp
  generalize ht : a.take n = t
  have hl : t.length = n := by rw [← ht, List.length_take, h.1]; omega
  rw [List.take_left' hl]
  clear this ht hl
  induction t with
  | nil => rfl
  | cons x t ih =>
    show (x :: (t ++ [0])).takeWhile _ = _
    rw [List.takeWhile_cons, List.takeWhile_cons]
    split
    · rw [ih]
    · rfl

theorem text_set {n : Nat} {a : List Byte} (h : a.length = n + 1) : Im.Text n (a.set n 0) ∧ text (a.set n 0) = str n a := by
  have ht : Im.Text n (a.set n 0) := ⟨by simp [h], by rw [List.getElem?_set_self (by omega)]⟩
  refine ⟨ht, ?_⟩
  rw [text_str ht]
  unfold str
  rw [List.take_set_of_le (Nat.le_refl _)]

theorem sprint_text {n : Nat} {dst t : List Byte} (hd : dst.length = n + 1) (ht : ∀ x ∈ t, x ≠ 0) (hl : t.length ≤ n) :
    (sprint (n + 1) dst t).length = n + 1 ∧ text (sprint (n + 1) dst t) = t := by
  unfold sprint
  have e : t.take (n + 1 - 1) = t := List.take_of_length_le (by omega)
  rw [e]
  refine ⟨by simp; omega, text_zero t _ ht⟩

theorem getElem_drop_last {n : Nat} {dst t : List Byte} (hd : Im.Text n dst) (hl : t.length ≤ n) :
    (t ++ [0] ++ dst.drop (t.length + 1))[n]? = some 0 := by
  by_cases c : t.length = n
  · subst c
    rw [List.append_assoc, List.getElem?_append_right (Nat.le_refl _)]
    simp
  · rw [List.getElem?_append_right (by simp; omega), List.getElem?_drop]
    have : t.length + 1 + (n - (t ++ [(0 : Byte)]).length) = n := by simp; omega
    rw [this]
    exact hd.2

theorem sprint_ok {n : Nat} {dst t : List Byte} (hd : Im.Text n dst) (ht : ∀ x ∈ t, x ≠ 0) (hl : t.length ≤ n) :
    Im.Text n (sprint (n + 1) dst t) := by
  refine ⟨(sprint_text hd.1 ht hl).1, ?_⟩
  unfold sprint
  have e : t.take (n + 1 - 1) = t := List.take_of_length_le (by omega)
  rw [e]
  exact getElem_drop_last hd hl

theorem left22_eq {im : Im.Im} (h : Im.Wf im) : left22 (text im.loc) = Im.shown im.loc := by
  unfold left22 Im.shown text
  rw [h.loc.1]

theorem shown_ne {a : List Byte} {x : Byte} (h : x ∈ Im.shown a) : x ≠ 0 := by
  unfold Im.shown at h
  rcases List.mem_append.mp h with h | h
  · exact Im.ne_of_mem_takeWhile h
  · rw [(List.mem_replicate.mp h).2]; decide

theorem imLocation_ok {dst : List Byte} (hd : dst.length = 256) {im : Im.Im} (h : Im.Wf im) :
    (imLocation dst im).length = 256 ∧ text (imLocation dst im) = Im.shown im.loc := by
  have hs := Im.shown_length h.loc
  unfold imLocation
  rw [left22_eq h]
  unfold sprint
  have e : (Im.shown im.loc).take (23 - 1) = Im.shown im.loc := List.take_of_length_le (by omega)
  rw [e]
  exact ⟨by simp; omega, text_zero _ _ fun x hx => shown_ne hx⟩

theorem str_of_text {n : Nat} {a : List Byte} (h : (text a).length ≤ n) : str n a = text a := by
  unfold str
  unfold text at h ⊢
  induction a generalizing n with
  | nil => simp
  | cons x a ih =>
    rw [List.takeWhile_cons] at h ⊢
    by_cases c : decide (x ≠ 0) = true
    · rw [if_pos c] at h ⊢
      cases n with
      | zero => simp at h
      | succ n =>
        rw [List.take_succ_cons, List.takeWhile_cons, if_pos c, ih (by simpa using h)]
    · rw [if_neg c]
      cases n with
      | zero => simp
      | succ n => rw [List.take_succ_cons, List.takeWhile_cons, if_neg c]

theorem setLocation_shown (t : List Byte) (im : Im.Im) (h : ∀ x ∈ t, x ≠ 0) :
    Im.shown (Im.setLocation t im).loc = field22 t := by
  have hz : ∀ x ∈ field22 t, x ≠ 0 := by
    intro x hx
    have := List.mem_of_mem_take hx
    rcases List.mem_append.mp this with h1 | h1
    · exact h x h1
    · rw [(List.mem_replicate.mp h1).2]; decide
  have hl : (field22 t).length = 22 := by unfold field22; simp
  have ht : Im.Text 22 (field22 t ++ [0]) := Im.text_append hl
  show Im.shown (field22 t ++ [0]) = _
  rw [Im.shown_eq ht ?_]
  · rw [List.take_left' hl]
  · rw [List.take_left' hl]
    intro h0
    exact hz 0 h0 rfl

/-! ## Refinement -/

structure Sim (s : St) (t : Told) : Prop where
  wf : Wf s
  im : s.im = t.im
  contact : text s.mem.contact = t.contact
  name : text s.mem.name = t.name
  location : text s.mem.location = t.location
  contactKept : (t.contactSet = false ∧ s.nvm.contact = none) ∨
    (t.contactSet = true ∧ ∃ a, s.nvm.contact = some a ∧ str 255 a = t.contact)
  nameKept : (t.nameSet = false ∧ s.nvm.name = none) ∨
    (t.nameSet = true ∧ ∃ a, s.nvm.name = some a ∧ str 63 a = t.name)
  locationKept : (t.locationSet = false ∧ s.nvm.location = none) ∨
    (t.locationSet = true ∧ ∃ a, s.nvm.location = some a ∧ str 255 a = t.location)

theorem str_ne_all (n : Nat) (a : List Byte) : ∀ x ∈ str n a, x ≠ 0 := fun x h => str_ne h

theorem wf_clear {s : St} (h : Im.WfSt s.im) : Wf (clear s) where
  im := h
  contact := by unfold clear Im.Text; exact ⟨List.length_replicate, by rw [List.getElem?_replicate]; rfl⟩
  name := by unfold clear Im.Text; exact ⟨List.length_replicate, by rw [List.getElem?_replicate]; rfl⟩
  location := by unfold clear Im.Text; exact ⟨List.length_replicate, by rw [List.getElem?_replicate]; rfl⟩
  fcontact := by intro a e; cases e
  fname := by intro a e; cases e
  flocation := by intro a e; cases e

theorem text_replicate (n : Nat) : text (List.replicate n 0) = [] := by
  cases n with
  | zero => rfl
  | succ n => rfl

theorem cmWrite_wf {sup : Im.Supp} {i : U16} {n : Nat} {mem : List Byte} {im im' : Im.Im} {b : Bool} (hw : Im.Wf im)
    (hm : n ≤ mem.length) (h : Im.cmWrite sup i n mem im = some (b, im')) : Im.Wf im' := (Im.wf_refused hw hm h).1

theorem load_true (f : Option (List Byte)) : load true f = f := rfl

theorem wf_step {sup : Im.Supp} {cfg : Im.Im} (hcfg : Im.Wf cfg) {s : St} (h : Wf s) (o : Op) (ho : OpOk o) :
    ∃ s', step sup cfg s o = some s' ∧ Wf s' := by
  have hsave : ∀ (f : Option (List Byte)) (a : List Byte) (d : Disk) (n : Nat), a.length = n →
      (∀ a, f = some a → a.length = n) → (∀ l x, d = .fails l → l = some x → x.length = n) →
      ∀ b, (saveIfModified f a d).1 = some b → b.length = n := by
    intro f a d n ha hf hd b hb
    cases d with
    | works => unfold saveIfModified at hb; simp only [Option.some.injEq] at hb; rw [← hb]; exact ha
    | fails l =>
      unfold saveIfModified at hb
      simp only at hb
      split at hb
      · exact hf b hb
      · exact hd l b rfl hb
  cases o with
  | setName a d =>
    have ht := text_str ho.1
    refine ⟨_, rfl, h.im, h.contact, ?_, h.location, h.fcontact, ?_, h.flocation⟩
    · show Im.Text 63 (sprint (63 + 1) _ (text a))
      rw [ht]
      exact sprint_ok h.name (str_ne_all _ _) (str_length _ _)
    · exact hsave _ a d 64 ho.1.1 h.fname ho.2
  | setContact a d =>
    have ht := text_str ho.1
    refine ⟨_, rfl, h.im, ?_, h.name, h.location, ?_, h.fname, h.flocation⟩
    · show Im.Text 255 (sprint (255 + 1) _ (text a))
      rw [ht]
      exact sprint_ok h.contact (str_ne_all _ _) (str_length _ _)
    · exact hsave _ a d 256 ho.1.1 h.fcontact ho.2
  | setLocation a d =>
    have ht := text_str ho.1
    refine ⟨_, rfl, ⟨Im.wf_location h.im.1 _, h.im.2⟩, h.contact, h.name, ?_, h.fcontact, h.fname, ?_⟩
    · show Im.Text 255 (sprint (255 + 1) _ (text a))
      rw [ht]
      exact sprint_ok h.location (str_ne_all _ _) (str_length _ _)
    · exact hsave _ a d 256 ho.1.1 h.flocation ho.2
  | imWrite i n mem fs =>
    obtain ⟨im', e⟩ := Im.C45_decides sup i n mem s.im.im ho
    have hw := cmWrite_wf h.im.1 ho e
    show ∃ s', imWrite sup i n mem fs s = some s' ∧ Wf s'
    unfold imWrite
    rw [e]
    simp only [Option.map_some]
    have h1 : Im.WfSt ⟨im', s.im.nvm⟩ := ⟨hw, h.im.2⟩
    split
    · split
      · refine ⟨_, rfl, Im.wf_save h1 fs, h.contact, h.name, ?_, h.fcontact, h.fname, fun a e => by cases e⟩
        exact (text_set (imLocation_ok h.location.1 hw).1).1
      · exact ⟨_, rfl, Im.wf_save h1 fs, h.contact, h.name, h.location, h.fcontact, h.fname, h.flocation⟩
    · exact ⟨_, rfl, h1, h.contact, h.name, h.location, h.fcontact, h.fname, h.flocation⟩
  | reset m =>
    refine ⟨_, rfl, ?_⟩
    unfold reset
    have h1 : Wf (if m = 1 ∨ m ≥ 3 then clear { s with im := { s.im with im := Im.cleared } } else s) := by
      split
      · exact wf_clear (s := { s with im := { s.im with im := Im.cleared } }) ⟨Im.wf_cleared, h.im.2⟩
      · exact h
    dsimp only
    split
    · exact wf_clear h1.im
    · exact h1
  | job fs => exact ⟨_, rfl, Im.wf_save h.im fs, h.contact, h.name, h.location, h.fcontact, h.fname, h.flocation⟩
  | restart b =>
    obtain ⟨j1, j2, j3, j4⟩ := ho
    have hl : Im.Wf (Im.loaded b.imRead cfg s.im.nvm) := by
      unfold Im.loaded
      cases b.imRead
      · exact hcfg
      · cases e : s.im.nvm with
        | none => exact hcfg
        | some n => exact h.im.2 n e
    have h1 : Im.WfSt (Im.save b.imSave { s.im with im := Im.loaded b.imRead cfg s.im.nvm }) :=
      Im.wf_save (s := ⟨Im.loaded b.imRead cfg s.im.nvm, s.im.nvm⟩) ⟨hl, h.im.2⟩ _
    have hload : ∀ (rd : Bool) (f : Option (List Byte)) (d : List Byte) (n : Nat), (∀ a, f = some a → a.length = n) →
        d.length = n → ((load rd f).getD d).length = n := by
      intro rd f d n hf hd
      unfold load
      cases rd
      · exact hd
      · cases f with
        | none => exact hd
        | some a => exact hf a rfl
    refine ⟨_, rfl, h1, ?_, ?_, ?_, h.fcontact, h.fname, h.flocation⟩
    · exact (text_set (hload _ _ _ 256 h.fcontact (by rw [List.length_set]; exact j1))).1
    · refine (text_set (hload _ _ _ 64 h.fname ?_)).1
      cases e : b.host with
      | none => show (b.junk.name.set 0 0).length = 64; rw [List.length_set]; exact j2
      | some x => exact j4 x e
    · exact (text_set (hload _ _ _ 256 h.flocation (imLocation_ok j3 h1.1).1)).1

theorem str_zero {n : Nat} {a : List Byte} : str n (a.set 0 0) = [] := by
  unfold str
  cases a with
  | nil => simp
  | cons x a =>
    cases n with
    | zero => simp
    | succ n => simp [List.takeWhile_cons]

theorem sim_step {sup : Im.Supp} {cfg : Im.Im} (hcfg : Im.Wf cfg) {s : St} {t : Told} (h : Sim s t) (o : Op) (ho : OpOk o)
    (hk : Works o) : ∃ s' t', step sup cfg s o = some s' ∧ t.step sup cfg o = some t' ∧ Sim s' t' := by
  obtain ⟨s', e, hw⟩ := wf_step (sup := sup) hcfg h.wf o ho
  refine ⟨s', ?_⟩
  cases o with
  | setName a d =>
    have hk : d = .works := hk
    subst hk
    have ht := text_str ho.1
    refine ⟨_, e, rfl, hw, ?_, ?_, ?_, ?_, ?_, ?_, ?_⟩
    all_goals cases e
    · exact h.im
    · exact h.contact
    · show text (sprint (63 + 1) _ (text a)) = str 63 a
      rw [ht]
      exact (sprint_text h.wf.name.1 (str_ne_all _ _) (str_length _ _)).2
    · exact h.location
    · exact h.contactKept
    · exact .inr ⟨rfl, a, rfl, rfl⟩
    · exact h.locationKept
  | setContact a d =>
    have hk : d = .works := hk
    subst hk
    have ht := text_str ho.1
    refine ⟨_, e, rfl, hw, ?_, ?_, ?_, ?_, ?_, ?_, ?_⟩
    all_goals cases e
    · exact h.im
    · show text (sprint (255 + 1) _ (text a)) = str 255 a
      rw [ht]
      exact (sprint_text h.wf.contact.1 (str_ne_all _ _) (str_length _ _)).2
    · exact h.name
    · exact h.location
    · exact .inr ⟨rfl, a, rfl, rfl⟩
    · exact h.nameKept
    · exact h.locationKept
  | setLocation a d =>
    have hk : d = .works := hk
    subst hk
    have ht := text_str ho.1
    refine ⟨_, e, rfl, hw, ?_, ?_, ?_, ?_, ?_, ?_, ?_⟩
    all_goals cases e
    · show (⟨Im.setLocation (text a) s.im.im, s.im.nvm⟩ : Im.St) = ⟨Im.setLocation (str 255 a) t.im.im, t.im.nvm⟩
      rw [ht, h.im]
    · exact h.contact
    · exact h.name
    · show text (sprint (255 + 1) _ (text a)) = str 255 a
      rw [ht]
      exact (sprint_text h.wf.location.1 (str_ne_all _ _) (str_length _ _)).2
    · exact h.contactKept
    · exact h.nameKept
    · exact .inr ⟨rfl, a, rfl, rfl⟩
  | imWrite i n mem fs =>
    obtain ⟨im', e'⟩ := Im.C45_decides sup i n mem s.im.im ho
    have hwi := cmWrite_wf h.wf.im.1 ho e'
    have e2 : imWrite sup i n mem fs s = some s' := e
    unfold imWrite at e2
    rw [e'] at e2
    have eT : Im.run sup cfg t.im [.write i n mem fs] =
        some (if decide (Im.RecordLen sup i n) then Im.save fs ⟨im', s.im.nvm⟩ else ⟨im', s.im.nvm⟩) := by
      rw [← h.im]
      unfold Im.run Im.run Im.step
      dsimp only
      rw [e']
      rfl
    unfold Told.step
    rw [show imOps (.imWrite i n mem fs) = [.write i n mem fs] from rfl, eT]
    refine ⟨_, e, rfl, ?_⟩
    simp only [Option.map_some, Option.some.injEq] at e2
    by_cases c1 : i = 0xaff1
    · by_cases c2 : sup.im1 = true ∧ n = 54
      · have hr : Im.RecordLen sup i n := .inl ⟨c1, c2.1, c2.2⟩
        rw [decide_eq_true hr] at e2 ⊢
        rw [if_pos rfl, if_pos c1] at e2
        simp only [if_true] at e2 ⊢
        have l1 := imLocation_ok h.wf.location.1 hwi
        refine ⟨hw, ?_, ?_, ?_, ?_, ?_, ?_, ?_⟩
        all_goals
          unfold Told.next
          dsimp only
          rw [if_pos ⟨c1, c2⟩]
          cases e2
        · rfl
        · exact h.contact
        · exact h.name
        · show text ((imLocation s.mem.location im').set 255 0) = Im.shown (Im.save fs ⟨im', s.im.nvm⟩).im.loc
          rw [(text_set l1.1).2, Im.save_im]
          rw [str_of_text]
          · exact l1.2
          · rw [l1.2, Im.shown_length hwi.loc]; omega
        · exact h.contactKept
        · exact h.nameKept
        · exact .inl ⟨rfl, rfl⟩
      · have hr : ¬ Im.RecordLen sup i n := by
          subst c1
          unfold Im.RecordLen
          rintro (⟨-, a, b⟩ | ⟨a, -⟩ | ⟨a, -⟩ | ⟨a, -⟩)
          · exact c2 ⟨a, b⟩
          · exact absurd a (by decide)
          · exact absurd a (by decide)
          · exact absurd a (by decide)
        rw [decide_eq_false hr] at e2 ⊢
        simp only [Bool.false_eq_true, if_false] at e2 ⊢
        refine ⟨hw, ?_, ?_, ?_, ?_, ?_, ?_, ?_⟩
        all_goals
          unfold Told.next
          dsimp only
          rw [if_neg fun hc => c2 hc.2]
          cases e2
        · rfl
        · exact h.contact
        · exact h.name
        · exact h.location
        · exact h.contactKept
        · exact h.nameKept
        · exact h.locationKept
    · have e3 : s' = { s with im := if decide (Im.RecordLen sup i n) then Im.save fs ⟨im', s.im.nvm⟩ else ⟨im', s.im.nvm⟩ } := by
        rw [← e2, if_neg c1]
        split
        · rfl
        · rfl
      refine ⟨hw, ?_, ?_, ?_, ?_, ?_, ?_, ?_⟩
      all_goals
        unfold Told.next
        dsimp only
        rw [if_neg fun hc => c1 hc.1]
        rw [e3]
      · exact h.contact
      · exact h.name
      · exact h.location
      · exact h.contactKept
      · exact h.nameKept
      · exact h.locationKept
  | reset m =>
    have e2 : reset m s = s' := by cases e; rfl
    unfold Told.step
    by_cases c0 : m = 0
    · subst c0
      refine ⟨_, e, rfl, ?_⟩
      rw [← e2]
      exact h
    by_cases c2 : m = 2
    · subst c2
      refine ⟨_, e, rfl, hw, ?_, ?_, ?_, ?_, ?_, ?_, ?_⟩
      all_goals rw [← e2]
      · exact h.im
      · exact text_replicate _
      · exact text_replicate _
      · exact text_replicate _
      · exact .inl ⟨rfl, rfl⟩
      · exact .inl ⟨rfl, rfl⟩
      · exact .inl ⟨rfl, rfl⟩
    · have e4 : imOps (.reset m) = [.clear] := by
        show (if m = 0 ∨ m = 2 then [] else [Im.Op.clear]) = _
        rw [if_neg (by omega)]
      have e5 : s' = clear { s with im := { s.im with im := Im.cleared } } := by
        rw [← e2]
        unfold reset
        rw [if_pos (by omega : m = 1 ∨ m ≥ 3)]
        dsimp only
        split <;> rfl
      rw [e4]
      refine ⟨_, e, rfl, hw, ?_, ?_, ?_, ?_, ?_, ?_, ?_⟩
      all_goals
        rw [e5]
        unfold Told.next
        dsimp only
        rw [if_neg c0]
      · show (⟨Im.cleared, s.im.nvm⟩ : Im.St) = ⟨Im.cleared, t.im.nvm⟩
        rw [h.im]
      · exact text_replicate _
      · exact text_replicate _
      · exact text_replicate _
      · exact .inl ⟨rfl, rfl⟩
      · exact .inl ⟨rfl, rfl⟩
      · exact .inl ⟨rfl, rfl⟩
  | job fs =>
    refine ⟨_, e, rfl, hw, ?_, ?_, ?_, ?_, ?_, ?_, ?_⟩
    all_goals cases e
    · show Im.save fs s.im = Im.save fs t.im
      rw [h.im]
    · exact h.contact
    · exact h.name
    · exact h.location
    · exact h.contactKept
    · exact h.nameKept
    · exact h.locationKept
  | restart b =>
    obtain ⟨j1, j2, j3, j4⟩ := ho
    obtain ⟨k1, k2, k3⟩ := hk
    have hwi := hw.im.1
    refine ⟨_, e, rfl, hw, ?_, ?_, ?_, ?_, ?_, ?_, ?_⟩
    all_goals cases e
    · show Im.save b.imSave { s.im with im := Im.loaded b.imRead cfg s.im.nvm } = Im.save b.imSave { t.im with im := Im.loaded b.imRead cfg t.im.nvm }
      rw [h.im]
    · show text (((load b.contact s.nvm.contact).getD (b.junk.contact.set 0 0)).set 255 0) = if t.contactSet then t.contact else []
      rw [k1, load_true]
      rcases h.contactKept with ⟨g1, g2⟩ | ⟨g1, a, g2, g3⟩
      · rw [g2, g1, (text_set (by simpa using j1)).2]
        exact str_zero
      · rw [g2, g1, Option.getD_some, (text_set (h.wf.fcontact a g2)).2]
        exact g3
    · show text (((load b.name s.nvm.name).getD (b.host.getD (b.junk.name.set 0 0))).set 63 0) =
        if t.nameSet then t.name else ((b.host.map (str 63)).getD [])
      rw [k2, load_true]
      rcases h.nameKept with ⟨g1, g2⟩ | ⟨g1, a, g2, g3⟩
      · rw [g2, g1]
        cases eh : b.host with
        | none => 
          show text ((b.junk.name.set 0 0).set 63 0) = []
          rw [(text_set (by simpa using j2)).2]
          exact str_zero
        | some x =>
          show text (x.set 63 0) = str 63 x
          rw [(text_set (j4 x eh)).2]
      · rw [g2, g1, Option.getD_some, (text_set (h.wf.fname a g2)).2]
        exact g3
    · show text (((load b.location s.nvm.location).getD (imLocation b.junk.location
          (Im.save b.imSave { s.im with im := Im.loaded b.imRead cfg s.im.nvm }).im)).set 255 0) =
        if t.locationSet then t.location else Im.shown (Im.save b.imSave { t.im with im := Im.loaded b.imRead cfg t.im.nvm }).im.loc
      rw [k3, load_true]
      have l1 := imLocation_ok j3 hwi
      rcases h.locationKept with ⟨g1, g2⟩ | ⟨g1, a, g2, g3⟩
      · rw [g2, g1]
        show text ((imLocation b.junk.location (Im.save b.imSave { s.im with im := Im.loaded b.imRead cfg s.im.nvm }).im).set 255 0) =
          Im.shown (Im.save b.imSave { t.im with im := Im.loaded b.imRead cfg t.im.nvm }).im.loc
        rw [← h.im]
        have hx := (text_set l1.1).2
        refine hx.trans ?_
        rw [str_of_text]
        · exact l1.2
        · have := l1.2
          exact this ▸ (by rw [Im.shown_length hwi.loc]; omega)
      · rw [g2, g1, Option.getD_some, (text_set (h.wf.flocation a g2)).2]
        exact g3
    · rcases h.contactKept with ⟨g1, g2⟩ | ⟨g1, a, g2, g3⟩
      · exact .inl ⟨g1, g2⟩
      · refine .inr ⟨g1, a, g2, ?_⟩
        rw [g3]
        show t.contact = if t.contactSet then t.contact else []
        rw [g1]
        rfl
    · rcases h.nameKept with ⟨g1, g2⟩ | ⟨g1, a, g2, g3⟩
      · exact .inl ⟨g1, g2⟩
      · refine .inr ⟨g1, a, g2, ?_⟩
        rw [g3]
        show t.name = if t.nameSet then t.name else _
        rw [g1]
        rfl
    · rcases h.locationKept with ⟨g1, g2⟩ | ⟨g1, a, g2, g3⟩
      · exact .inl ⟨g1, g2⟩
      · refine .inr ⟨g1, a, g2, ?_⟩
        rw [g3]
        show t.location = if t.locationSet then t.location else _
        rw [g1]
        rfl

end Verif.Snmp
