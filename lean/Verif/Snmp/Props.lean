import Verif.Snmp.Vars
/-! C121, C122: the name, the contact and the location that SNMP shows. -/
set_option linter.unusedVariables false
set_option linter.unusedSimpArgs false

namespace Verif.Snmp
open Verif.Wire

theorem sim_run {sup : Im.Supp} {cfg : Im.Im} (hcfg : Im.Wf cfg) : ∀ (ops : List Op) {s : St} {t : Told}, Sim s t →
    (∀ o ∈ ops, OpOk o ∧ Works o) →
    ∃ s' t', run sup cfg s ops = some s' ∧ t.run sup cfg ops = some t' ∧ Sim s' t' := by
  intro ops
  induction ops with
  | nil => intro s t h _; exact ⟨s, t, rfl, rfl, h⟩
  | cons o l ih =>
    intro s t h ho
    obtain ⟨s1, t1, e1, e2, h1⟩ := sim_step (sup := sup) hcfg h o (ho o (by simp)).1 (ho o (by simp)).2
    obtain ⟨s2, t2, e3, e4, h2⟩ := ih h1 fun o h => ho o (List.mem_cons_of_mem _ h)
    exact ⟨s2, t2, by unfold run; rw [e1]; exact e3, by unfold Told.run; rw [e2]; exact e4, h2⟩

theorem get_name {s : St} (h : Wf s) {out : List Byte} (ho : out.length = 64) : text (getName out s) = text s.mem.name := by
  rw [text_str h.name]
  unfold getName
  rw [text_str h.name]
  exact (sprint_text ho (str_ne_all _ _) (str_length _ _)).2

theorem get_contact {s : St} (h : Wf s) {out : List Byte} (ho : out.length = 256) :
    text (getContact out s) = text s.mem.contact := by
  rw [text_str h.contact]
  unfold getContact
  rw [text_str h.contact]
  exact (sprint_text ho (str_ne_all _ _) (str_length _ _)).2

theorem get_location {s : St} (h : Wf s) {out : List Byte} (ho : out.length = 256) :
    text (getLocation out s) = text s.mem.location := by
  rw [text_str h.location]
  unfold getLocation
  rw [text_str h.location]
  exact (sprint_text ho (str_ne_all _ _) (str_length _ _)).2

/-! ## C121 -/

/-- Nothing is told and nothing is set. -/
def Told.start (im : Im.St) : Told := ⟨[], [], [], false, false, false, im⟩

/-- C121: from the first start of a device on, over every history of values set through SNMP, I&M records written, resets,
background jobs and further starts, with files that work, SNMP reads the name, the contact and the location that are
expected (`Told.next`). -/
theorem C121_history {sup : Im.Supp} {cfg : Im.Im} (hcfg : Im.Wf cfg) {s : St} (hw : Wf s) (hf : Fresh s) (b : Boot)
    (ops : List Op) (ho : ∀ o ∈ Op.restart b :: ops, OpOk o ∧ Works o) {o1 o2 o3 : List Byte} (h1 : o1.length = 64)
    (h2 : o2.length = 256) (h3 : o3.length = 256) :
    ∃ s' t, run sup cfg s (.restart b :: ops) = some s' ∧
      (Told.start s.im).run sup cfg (.restart b :: ops) = some t ∧
      text (getName o1 s') = t.name ∧ text (getContact o2 s') = t.contact ∧ text (getLocation o3 s') = t.location ∧
      s'.im = t.im := by
  have hs : Sim s ⟨text s.mem.contact, text s.mem.name, text s.mem.location, false, false, false, s.im⟩ :=
    ⟨hw, rfl, rfl, rfl, rfl, .inl ⟨rfl, by rw [hf]⟩, .inl ⟨rfl, by rw [hf]⟩, .inl ⟨rfl, by rw [hf]⟩⟩
  obtain ⟨s', t, e1, e2, h⟩ := sim_run (sup := sup) hcfg (.restart b :: ops) hs ho
  refine ⟨s', t, e1, ?_, ?_, ?_, ?_, h.im⟩
  · exact e2
  · rw [get_name h.wf h1, h.name]
  · rw [get_contact h.wf h2, h.contact]
  · rw [get_location h.wf h3, h.location]

/-- C121 (the answer): the value is there at once, whatever happens to the file; with the answer 0 it is in the file; the
answer is 0 if the file can be written. -/
theorem C121_answer {s : St} (hw : Wf s) {a : List Byte} {d : Disk} {out : List Byte} :
    (OpOk (.setName a d) → out.length = 64 → text (getName out (setName a d s).2) = str 63 a ∧
      ((setName a d s).1 = true → (setName a d s).2.nvm.name = some a) ∧ (d = .works → (setName a d s).1 = true)) ∧
    (OpOk (.setContact a d) → out.length = 256 → text (getContact out (setContact a d s).2) = str 255 a ∧
      ((setContact a d s).1 = true → (setContact a d s).2.nvm.contact = some a) ∧
      (d = .works → (setContact a d s).1 = true)) ∧
    (OpOk (.setLocation a d) → out.length = 256 → text (getLocation out (setLocation a d s).2) = str 255 a ∧
      ((setLocation a d s).1 = true → (setLocation a d s).2.nvm.location = some a) ∧
      (d = .works → (setLocation a d s).1 = true)) := by
  have hsave : ∀ f : Option (List Byte), ((saveIfModified f a d).2 = true → (saveIfModified f a d).1 = some a) ∧
      (d = .works → (saveIfModified f a d).2 = true) := by
    intro f
    cases d with
    | works => exact ⟨fun _ => rfl, fun _ => rfl⟩
    | fails l =>
      unfold saveIfModified
      dsimp only
      split
      · rename_i c; exact ⟨fun _ => c, fun _ => rfl⟩
      · exact ⟨(nomatch ·), (nomatch ·)⟩
  have hcfg : Im.Wf Im.cleared := Im.wf_cleared
  refine ⟨fun ho h1 => ⟨?_, hsave _⟩, fun ho h1 => ⟨?_, hsave _⟩, fun ho h1 => ⟨?_, hsave _⟩⟩
  · obtain ⟨s', e, h⟩ := wf_step (sup := ⟨false, false, false, false⟩) hcfg hw (.setName a d) ho
    cases e
    rw [get_name h h1]
    show text (sprint (63 + 1) _ (text a)) = str 63 a
    rw [text_str ho.1]
    exact (sprint_text hw.name.1 (str_ne_all _ _) (str_length _ _)).2
  · obtain ⟨s', e, h⟩ := wf_step (sup := ⟨false, false, false, false⟩) hcfg hw (.setContact a d) ho
    cases e
    rw [get_contact h h1]
    show text (sprint (255 + 1) _ (text a)) = str 255 a
    rw [text_str ho.1]
    exact (sprint_text hw.contact.1 (str_ne_all _ _) (str_length _ _)).2
  · obtain ⟨s', e, h⟩ := wf_step (sup := ⟨false, false, false, false⟩) hcfg hw (.setLocation a d) ho
    cases e
    rw [get_location h h1]
    show text (sprint (255 + 1) _ (text a)) = str 255 a
    rw [text_str ho.1]
    exact (sprint_text hw.location.1 (str_ne_all _ _) (str_length _ _)).2

/-- Operations that are not meant to change the name: all but setting it and a reset.  The file can be read at a start. -/
def LeavesName : Op → Prop
  | .setName _ _ => False
  | .reset m => m = 0
  | .restart b => b.name = true
  | _ => True

def LeavesContact : Op → Prop
  | .setContact _ _ => False
  | .reset m => m = 0
  | .restart b => b.contact = true
  | _ => True

/-- The same for the location, which a write of I&M record 1 changes as well. -/
def LeavesLocation : Op → Prop
  | .setLocation _ _ => False
  | .imWrite i _ _ _ => i ≠ 0xaff1
  | .reset m => m = 0
  | .restart b => b.location = true
  | _ => True

theorem imWrite_keeps {sup : Im.Supp} {i : U16} {n : Nat} {mem : List Byte} {fs : Bool} {s s' : St}
    (h : imWrite sup i n mem fs s = some s') :
    s'.mem.name = s.mem.name ∧ s'.nvm.name = s.nvm.name ∧ s'.mem.contact = s.mem.contact ∧
      s'.nvm.contact = s.nvm.contact ∧
      (i ≠ 0xaff1 → s'.mem.location = s.mem.location ∧ s'.nvm.location = s.nvm.location) := by
  unfold imWrite at h
  cases e : Im.cmWrite sup i n mem s.im.im with
  | none => rw [e] at h; cases h
  | some x =>
    rw [e] at h
    simp only [Option.map_some, Option.some.injEq] at h
    rw [← h]
    split
    · split
      · rename_i c; exact ⟨rfl, rfl, rfl, rfl, fun hn => absurd c hn⟩
      · exact ⟨rfl, rfl, rfl, rfl, fun _ => ⟨rfl, rfl⟩⟩
    · exact ⟨rfl, rfl, rfl, rfl, fun _ => ⟨rfl, rfl⟩⟩

/-- What holds of a value that is in memory and in the file, and stays so over a step, holds after all steps. -/
theorem keep_run {sup : Im.Supp} {cfg : Im.Im} (hcfg : Im.Wf cfg) (P : St → Prop) (L : Op → Prop)
    (hs : ∀ s o s', Wf s → OpOk o → L o → P s → step sup cfg s o = some s' → P s') :
    ∀ (ops : List Op) {s : St}, Wf s → P s → (∀ o ∈ ops, OpOk o ∧ L o) →
      ∃ s', run sup cfg s ops = some s' ∧ Wf s' ∧ P s' := by
  intro ops
  induction ops with
  | nil => intro s h hp _; exact ⟨s, rfl, h, hp⟩
  | cons o l ih =>
    intro s h hp ho
    obtain ⟨s1, e1, h1⟩ := wf_step (sup := sup) hcfg h o (ho o (by simp)).1
    obtain ⟨s2, e2, h2⟩ := ih h1 (hs s o s1 h (ho o (by simp)).1 (ho o (by simp)).2 hp e1)
      fun o h => ho o (List.mem_cons_of_mem _ h)
    exact ⟨s2, by unfold run; rw [e1]; exact e2, h2⟩

/-- C121 (a name stays): a name that was set with the answer 0 is read until it is set again or the device is reset,
through any other operations, whether these can save anything or not, and through any number of starts. -/
theorem C121_name_stays {sup : Im.Supp} {cfg : Im.Im} (hcfg : Im.Wf cfg) {s : St} (hw : Wf s) {a : List Byte} {d : Disk}
    (hd : OpOk (.setName a d)) (ha : (setName a d s).1 = true) (ops : List Op) (ho : ∀ o ∈ ops, OpOk o ∧ LeavesName o)
    {out : List Byte} (h1 : out.length = 64) :
    ∃ s', run sup cfg (setName a d s).2 ops = some s' ∧ text (getName out s') = str 63 a := by
  obtain ⟨s0, e0, w0⟩ := wf_step (sup := sup) hcfg hw (.setName a d) hd
  cases e0
  have a1 := ((C121_answer hw (d := d) (a := a) (out := out)).1 hd h1)
  have hp : text (setName a d s).2.mem.name = str 63 a ∧ (setName a d s).2.nvm.name = some a :=
    ⟨by rw [← get_name w0 h1]; exact a1.1, a1.2.1 ha⟩
  obtain ⟨s', e, w, h⟩ := keep_run (sup := sup) hcfg (fun s => text s.mem.name = str 63 a ∧ s.nvm.name = some a) LeavesName
    (by
      intro s o s' hw ho hl hp e
      cases o with
      | setName _ _ => exact absurd hl id
      | setContact _ _ => cases e; exact hp
      | setLocation _ _ => cases e; exact hp
      | imWrite i n mem fs => 
        have := imWrite_keeps e
        rw [this.1, this.2.1]
        exact hp
      | reset m => cases hl; cases e; exact hp
      | job fs => cases e; exact hp
      | restart b =>
        have hl : b.name = true := hl
        cases e
        refine ⟨?_, hp.2⟩
        show text (((load b.name s.nvm.name).getD _).set 63 0) = _
        rw [hl, load_true, hp.2, Option.getD_some]
        exact (text_set hd.1.1).2) ops w0 hp ho
  exact ⟨s', e, by rw [get_name w h1]; exact h.1⟩

/-- C121 (a contact stays). -/
theorem C121_contact_stays {sup : Im.Supp} {cfg : Im.Im} (hcfg : Im.Wf cfg) {s : St} (hw : Wf s) {a : List Byte} {d : Disk}
    (hd : OpOk (.setContact a d)) (ha : (setContact a d s).1 = true) (ops : List Op)
    (ho : ∀ o ∈ ops, OpOk o ∧ LeavesContact o) {out : List Byte} (h1 : out.length = 256) :
    ∃ s', run sup cfg (setContact a d s).2 ops = some s' ∧ text (getContact out s') = str 255 a := by
  obtain ⟨s0, e0, w0⟩ := wf_step (sup := sup) hcfg hw (.setContact a d) hd
  cases e0
  have a1 := ((C121_answer hw (d := d) (a := a) (out := out)).2.1 hd h1)
  have hp : text (setContact a d s).2.mem.contact = str 255 a ∧ (setContact a d s).2.nvm.contact = some a :=
    ⟨by rw [← get_contact w0 h1]; exact a1.1, a1.2.1 ha⟩
  obtain ⟨s', e, w, h⟩ := keep_run (sup := sup) hcfg (fun s => text s.mem.contact = str 255 a ∧ s.nvm.contact = some a)
    LeavesContact
    (by
      intro s o s' hw ho hl hp e
      cases o with
      | setName _ _ => cases e; exact hp
      | setContact _ _ => exact absurd hl id
      | setLocation _ _ => cases e; exact hp
      | imWrite i n mem fs => 
        have := imWrite_keeps e
        rw [this.2.2.1, this.2.2.2.1]
        exact hp
      | reset m => cases hl; cases e; exact hp
      | job fs => cases e; exact hp
      | restart b =>
        have hl : b.contact = true := hl
        cases e
        refine ⟨?_, hp.2⟩
        show text (((load b.contact s.nvm.contact).getD _).set 255 0) = _
        rw [hl, load_true, hp.2, Option.getD_some]
        exact (text_set hd.1.1).2) ops w0 hp ho
  exact ⟨s', e, by rw [get_contact w h1]; exact h.1⟩

/-- C121 (a location stays, in full length). -/
theorem C121_location_stays {sup : Im.Supp} {cfg : Im.Im} (hcfg : Im.Wf cfg) {s : St} (hw : Wf s) {a : List Byte} {d : Disk}
    (hd : OpOk (.setLocation a d)) (ha : (setLocation a d s).1 = true) (ops : List Op)
    (ho : ∀ o ∈ ops, OpOk o ∧ LeavesLocation o) {out : List Byte} (h1 : out.length = 256) :
    ∃ s', run sup cfg (setLocation a d s).2 ops = some s' ∧ text (getLocation out s') = str 255 a := by
  obtain ⟨s0, e0, w0⟩ := wf_step (sup := sup) hcfg hw (.setLocation a d) hd
  cases e0
  have a1 := ((C121_answer hw (d := d) (a := a) (out := out)).2.2 hd h1)
  have hp : text (setLocation a d s).2.mem.location = str 255 a ∧ (setLocation a d s).2.nvm.location = some a :=
    ⟨by rw [← get_location w0 h1]; exact a1.1, a1.2.1 ha⟩
  obtain ⟨s', e, w, h⟩ := keep_run (sup := sup) hcfg (fun s => text s.mem.location = str 255 a ∧ s.nvm.location = some a)
    LeavesLocation
    (by
      intro s o s' hw ho hl hp e
      cases o with
      | setName _ _ => cases e; exact hp
      | setContact _ _ => cases e; exact hp
      | setLocation _ _ => exact absurd hl id
      | imWrite i n mem fs =>
        have := (imWrite_keeps e).2.2.2.2 hl
        rw [this.1, this.2]
        exact hp
      | reset m => cases hl; cases e; exact hp
      | job fs => cases e; exact hp
      | restart b =>
        have hl : b.location = true := hl
        cases e
        refine ⟨?_, hp.2⟩
        show text (((load b.location s.nvm.location).getD _).set 255 0) = _
        rw [hl, load_true, hp.2, Option.getD_some]
        exact (text_set hd.1.1).2) ops w0 hp ho
  exact ⟨s', e, by rw [get_location w h1]; exact h.1⟩

/-- C121 (a reset): after a reset in any mode all three read as empty and no file is left. -/
theorem C121_reset {s : St} (hw : Wf s) {m : Nat} (hm : m ≠ 0) {o1 o2 o3 : List Byte} (h1 : o1.length = 64)
    (h2 : o2.length = 256) (h3 : o3.length = 256) :
    text (getName o1 (reset m s)) = [] ∧ text (getContact o2 (reset m s)) = [] ∧ text (getLocation o3 (reset m s)) = [] ∧
      Fresh (reset m s) := by
  obtain ⟨s', e, w⟩ := wf_step (sup := ⟨false, false, false, false⟩) Im.wf_cleared hw (.reset m) trivial
  cases e
  have e5 : ∃ x, reset m s = clear x := by
    unfold reset
    by_cases c : m = 1 ∨ m ≥ 3
    · rw [if_pos c]
      dsimp only
      split
      · exact ⟨_, rfl⟩
      · exact ⟨_, rfl⟩
    · rw [if_neg c]
      dsimp only
      rw [if_pos (by omega)]
      exact ⟨_, rfl⟩
  obtain ⟨x, ex⟩ := e5
  rw [get_name w h1, get_contact w h2, get_location w h3, ex]
  exact ⟨text_replicate _, text_replicate _, text_replicate _, rfl⟩

/-! ## C122 -/

/-- SNMP and I&M record 1 show the same location, as far as there is room. -/
def Agree (s : St) : Prop := Im.shown s.im.im.loc = field22 (text s.mem.location)

/-- Histories in which the background job runs after a location was set through SNMP and before the next start
(`waiting`: it has not run yet); without reset in mode 2; without a write of I&M record 1 that has the wrong length. -/
def Calm (sup : Im.Supp) (waiting : Bool) : List Op → Prop
  | [] => True
  | .setLocation _ _ :: l => Calm sup true l
  | .imWrite i n _ _ :: l => (i = 0xaff1 → sup.im1 = true → n = 54) ∧ Calm sup waiting l
  | .reset m :: l => m ≠ 2 ∧ Calm sup waiting l
  | .job fs :: l => Calm sup (waiting && !fs) l
  | .restart b :: l => (waiting = false ∧ b.imRead = true) ∧ Calm sup waiting l
  | _ :: l => Calm sup waiting l

structure Joined (s : St) (waiting : Bool) : Prop where
  agree : Agree s
  file : ∀ a, s.nvm.location = some a → str 255 a = text s.mem.location ∧
    (waiting = false → ∃ n, s.im.nvm = some n ∧ n.loc = s.im.im.loc)

theorem field22_shown {im : Im.Im} (h : Im.Wf im) : field22 (Im.shown im.loc) = Im.shown im.loc := by
  unfold field22
  exact List.take_left' (Im.shown_length h.loc)

theorem cmWrite_loc {sup : Im.Supp} {i : U16} {n : Nat} {mem : List Byte} {im : Im.Im} {x : Bool × Im.Im} (hi : i ≠ 0xaff1)
    (h : Im.cmWrite sup i n mem im = some x) : x.2.loc = im.loc := by
  unfold Im.cmWrite at h
  rw [if_neg hi] at h
  have key : ∀ (o : Option (List Byte)) (f : List Byte → Bool × Im.Im), (∀ d, (f d).2.loc = im.loc) → o.map f = some x →
      x.2.loc = im.loc := by
    intro o f hf e
    cases o with
    | none => cases e
    | some d => cases e; exact hf d
  split at h
  · split at h
    · exact key _ _ (fun _ => rfl) h
    · cases h; rfl
  split at h
  · split at h
    · exact key _ _ (fun _ => rfl) h
    · cases h; rfl
  split at h
  · split at h
    · exact key _ _ (fun _ => rfl) h
    · cases h; rfl
  · cases h; rfl

theorem joined_run {sup : Im.Supp} {cfg : Im.Im} (hcfg : Im.Wf cfg) : ∀ (ops : List Op) {s : St} {p : Bool}, Wf s →
    Joined s p → (∀ o ∈ ops, OpOk o ∧ Works o) → Calm sup p ops →
    ∃ s', run sup cfg s ops = some s' ∧ Wf s' ∧ Agree s' := by
  intro ops
  induction ops with
  | nil => intro s p h hj _ _; exact ⟨s, rfl, h, hj.agree⟩
  | cons o l ih =>
    intro s p h hj ho hc
    obtain ⟨s1, e1, h1⟩ := wf_step (sup := sup) hcfg h o (ho o (by simp)).1
    have ho1 := (ho o (by simp)).1
    have hk1 := (ho o (by simp)).2
    have go : ∀ q, Joined s1 q → Calm sup q l → ∃ s', run sup cfg s (o :: l) = some s' ∧ Wf s' ∧ Agree s' := by
      intro q hj hc
      obtain ⟨s2, e2, h2⟩ := ih h1 hj (fun o h => ho o (List.mem_cons_of_mem _ h)) hc
      exact ⟨s2, by unfold run; rw [e1]; exact e2, h2⟩
    cases o with
    | setName a d => cases e1; exact go p ⟨hj.agree, hj.file⟩ hc
    | setContact a d => cases e1; exact go p ⟨hj.agree, hj.file⟩ hc
    | setLocation a d =>
      have hk1 : d = .works := hk1
      subst hk1
      cases e1
      have et : text (setLocation a .works s).2.mem.location = str 255 a := by
        show text (sprint (255 + 1) _ (text a)) = str 255 a
        rw [text_str ho1.1]
        exact (sprint_text h.location.1 (str_ne_all _ _) (str_length _ _)).2
      refine go true ⟨?_, ?_⟩ hc
      · unfold Agree
        rw [et]
        show Im.shown (Im.setLocation (text a) s.im.im).loc = _
        rw [text_str ho1.1]
        exact setLocation_shown _ _ (str_ne_all _ _)
      · intro b hb
        cases hb
        exact ⟨et.symm, fun hf => by cases hf⟩
    | imWrite i n mem fs =>
      obtain ⟨im', e'⟩ := Im.C45_decides sup i n mem s.im.im ho1
      have hwi := cmWrite_wf h.im.1 ho1 e'
      have e2 : imWrite sup i n mem fs s = some s1 := e1
      unfold imWrite at e2
      rw [e'] at e2
      simp only [Option.map_some, Option.some.injEq] at e2
      refine go p ?_ hc.2
      by_cases c1 : i = 0xaff1
      · cases hs : sup.im1
        · have hr : ¬ Im.RecordLen sup i n := by
            subst c1
            unfold Im.RecordLen
            rintro (⟨-, a, b⟩ | ⟨a, -⟩ | ⟨a, -⟩ | ⟨a, -⟩)
            · rw [hs] at a; cases a
            · exact absurd a (by decide)
            · exact absurd a (by decide)
            · exact absurd a (by decide)
          rw [decide_eq_false hr] at e2
          simp only [Bool.false_eq_true, if_false] at e2
          have : im' = s.im.im := by
            subst c1
            unfold Im.cmWrite at e'
            rw [if_pos rfl, hs] at e'
            simp only [Bool.false_eq_true, if_false, Option.some.injEq, Prod.mk.injEq] at e'
            exact e'.2.symm
          rw [← e2, this]
          exact ⟨hj.agree, hj.file⟩
        · have hr : Im.RecordLen sup i n := .inl ⟨c1, hs, hc.1 c1 hs⟩
          rw [decide_eq_true hr] at e2
          rw [if_pos rfl, if_pos c1] at e2
          have l1 := imLocation_ok h.location.1 hwi
          rw [← e2]
          refine ⟨?_, fun a ha => by cases ha⟩
          show Im.shown (Im.save fs ⟨im', s.im.nvm⟩).im.loc = field22 (text ((imLocation s.mem.location im').set 255 0))
          rw [(text_set l1.1).2, Im.save_im, str_of_text]
          · rw [l1.2]
            exact (field22_shown hwi).symm
          · rw [l1.2, Im.shown_length hwi.loc]; omega
      · have hl := cmWrite_loc c1 e'
        have hl : im'.loc = s.im.im.loc := hl
        rw [← e2]
        simp only [if_neg c1]
        split
        · refine ⟨?_, fun a ha => ⟨(hj.file a ha).1, fun hp => ?_⟩⟩
          · show Im.shown (Im.save fs ⟨im', s.im.nvm⟩).im.loc = _
            rw [Im.save_im]
            show Im.shown im'.loc = _
            rw [hl]
            exact hj.agree
          · obtain ⟨n, g1, g2⟩ := (hj.file a ha).2 hp
            show ∃ n, (Im.save fs ⟨im', s.im.nvm⟩).nvm = some n ∧ n.loc = (Im.save fs ⟨im', s.im.nvm⟩).im.loc
            rw [Im.save_im]
            unfold Im.save
            cases fs
            · exact ⟨n, g1, g2.trans hl.symm⟩
            · exact ⟨im', rfl, rfl⟩
        · refine ⟨?_, fun a ha => ⟨(hj.file a ha).1, fun hp => ?_⟩⟩
          · show Im.shown im'.loc = _
            rw [hl]
            exact hj.agree
          · obtain ⟨n, g1, g2⟩ := (hj.file a ha).2 hp
            exact ⟨n, g1, g2.trans hl.symm⟩
    | reset m =>
      cases e1
      refine go p ?_ hc.2
      have c2 : m ≠ 2 := hc.1
      by_cases c0 : m = 0
      · subst c0
        exact ⟨hj.agree, hj.file⟩
      · have e5 : reset m s = clear { s with im := { s.im with im := Im.cleared } } := by
          unfold reset
          rw [if_pos (by omega : m = 1 ∨ m ≥ 3)]
          dsimp only
          split <;> rfl
        rw [e5]
        refine ⟨?_, fun a ha => by cases ha⟩
        show Im.shown Im.cleared.loc = field22 (text (List.replicate 256 0))
        decide +kernel
    | job fs =>
      cases e1
      refine go (p && !fs) ⟨?_, fun a ha => ⟨(hj.file a ha).1, fun hp => ?_⟩⟩ hc
      · show Im.shown (Im.save fs s.im).im.loc = _
        rw [Im.save_im]
        exact hj.agree
      · show ∃ n, (Im.save fs s.im).nvm = some n ∧ n.loc = (Im.save fs s.im).im.loc
        rw [Im.save_im]
        cases fs
        · exact (hj.file a ha).2 (by simpa using hp)
        · exact ⟨s.im.im, rfl, rfl⟩
    | restart b =>
      obtain ⟨⟨hp, hr⟩, hc⟩ := hc
      obtain ⟨j1, j2, j3, j4⟩ := ho1
      obtain ⟨k1, k2, k3⟩ := hk1
      have hwi := h1.im.1
      cases e1
      refine go p ?_ hc
      have l1 := imLocation_ok j3 hwi
      have ei : (restart cfg b s).im.im = Im.loaded b.imRead cfg s.im.nvm := Im.save_im _ _
      cases ef : s.nvm.location with
      | none =>
        refine ⟨?_, fun a ha => ?_⟩
        · unfold Agree
          have et : text (restart cfg b s).mem.location = Im.shown (restart cfg b s).im.im.loc := by
            show text (((load b.location s.nvm.location).getD (imLocation b.junk.location (restart cfg b s).im.im)).set 255 0) = _
            rw [ef]
            have : load b.location (none : Option (List Byte)) = none := by unfold load; split <;> rfl
            rw [this, Option.getD_none, (text_set l1.1).2, str_of_text]
            · exact l1.2
            · rw [l1.2, Im.shown_length hwi.loc]; omega
          rw [et]
          exact (field22_shown hwi).symm
        · have ha : s.nvm.location = some a := ha
          rw [ef] at ha
          cases ha
      | some a =>
        obtain ⟨g1, g2⟩ := hj.file a ef
        obtain ⟨n, g3, g4⟩ := g2 hp
        have et : text (restart cfg b s).mem.location = str 255 a := by
          show text (((load b.location s.nvm.location).getD _).set 255 0) = _
          rw [ef, k3, load_true, Option.getD_some]
          exact (text_set (h.flocation a ef)).2
        have en : (restart cfg b s).im.im = n := by
          rw [ei, hr, g3]
          rfl
        refine ⟨?_, fun a' ha => ?_⟩
        · unfold Agree
          rw [et, en, g4, g1]
          exact hj.agree
        · have ha : s.nvm.location = some a' := ha
          rw [ef] at ha
          cases ha
          refine ⟨et.symm, fun _ => ⟨n, ?_, by rw [en]⟩⟩
          show (Im.save b.imSave { s.im with im := Im.loaded b.imRead cfg s.im.nvm }).nvm = some n
          unfold Im.save
          cases b.imSave
          · exact g3
          · show some (Im.loaded b.imRead cfg s.im.nvm) = some n
            rw [hr, g3]
            rfl

/-- C122, with what is missing: from the first start on, the location that SNMP reads and the one in I&M record 1 agree,
over every history with files that work.  Missing: the cases of `Calm`, in which they do not agree (C122_fails_reset,
C122_fails_refused, C122_fails_restart). -/
theorem C122_agree_partial {sup : Im.Supp} {cfg : Im.Im} (hcfg : Im.Wf cfg) {s : St} (hw : Wf s) (hf : Fresh s) (b : Boot)
    (ops : List Op) (ho : ∀ o ∈ Op.restart b :: ops, OpOk o ∧ Works o) (hc : Calm sup false ops) {out : List Byte}
    (hout : out.length = 256) :
    ∃ s', run sup cfg s (.restart b :: ops) = some s' ∧
      Im.shown s'.im.im.loc = field22 (text (getLocation out s')) := by
  obtain ⟨s1, e1, h1⟩ := wf_step (sup := sup) hcfg hw (.restart b) (ho _ (by simp)).1
  have ho1 := (ho (.restart b) (by simp)).1
  obtain ⟨j1, j2, j3, j4⟩ := ho1
  cases e1
  have hwi := h1.im.1
  have l1 := imLocation_ok j3 hwi
  have et : text (restart cfg b s).mem.location = Im.shown (restart cfg b s).im.im.loc := by
    show text (((load b.location s.nvm.location).getD (imLocation b.junk.location (restart cfg b s).im.im)).set 255 0) = _
    rw [hf]
    have : load b.location (none : Option (List Byte)) = none := by unfold load; split <;> rfl
    rw [this, Option.getD_none, (text_set l1.1).2, str_of_text]
    · exact l1.2
    · rw [l1.2, Im.shown_length hwi.loc]; omega
  have hj : Joined (restart cfg b s) false := by
    refine ⟨?_, fun a ha => ?_⟩
    · unfold Agree
      rw [et]
      exact (field22_shown hwi).symm
    · have ha : s.nvm.location = some a := ha
      rw [hf] at ha
      cases ha
  obtain ⟨s2, e2, h2, h3⟩ := joined_run (sup := sup) hcfg ops h1 hj (fun o h => ho o (List.mem_cons_of_mem _ h)) hc
  exact ⟨s2, e2, by rw [get_location h2 hout]; exact h3⟩

/-- C122 fails: a reset of the communication parameters only (mode 2) empties the location of SNMP and leaves the one of
I&M record 1. -/
theorem C122_fails_reset {s : St} (hb : Im.shown s.im.im.loc ≠ List.replicate 22 0x20) : ¬ Agree (reset 2 s) := by
  intro h
  apply hb
  have h : Im.shown s.im.im.loc = field22 (text (List.replicate 256 0)) := h
  rw [h, text_replicate]
  decide

/-- C122 fails: a write of I&M record 1 that is too long is refused but replaces the location of I&M, not that of SNMP. -/
theorem C122_fails_refused {sup : Im.Supp} (hs : sup.im1 = true) {s : St} {n : Nat} {mem : List Byte} (hm : n ≤ mem.length)
    (hn : 54 < n) (hz : (0 : Byte) ∉ (mem.drop 32).take 22) (fs : Bool)
    (hd : (mem.drop 32).take 22 ≠ field22 (text s.mem.location)) :
    ∃ s', imWrite sup 0xaff1 n mem fs s = some s' ∧ (∃ im', Im.cmWrite sup 0xaff1 n mem s.im.im = some (false, im')) ∧
      ¬ Agree s' := by
  have e : Im.cmWrite sup 0xaff1 n mem s.im.im =
      some (false, { s.im.im with fn := mem.take 32 ++ [0], loc := (mem.drop 32).take 22 ++ [0] }) := by
    unfold Im.cmWrite
    rw [if_pos rfl, if_pos hs, Im.getIm1_cases _ _ hm, if_neg (by omega), if_neg (by omega)]
    simp only [Option.map_some, Option.some.injEq, Prod.mk.injEq]
    refine ⟨?_, rfl⟩
    simp
    omega
  refine ⟨_, by unfold imWrite; rw [e]; rfl, ⟨_, e⟩, ?_⟩
  intro h
  apply hd
  have hl : ((mem.drop 32).take 22).length = 22 := by simp; omega
  have h : Im.shown ((mem.drop 32).take 22 ++ [0]) = field22 (text s.mem.location) := h
  rw [← h, Im.shown_eq (Im.text_append hl) (by rw [List.take_left' hl]; exact hz), List.take_left' hl]

/-- C122 fails: if the device starts again before the background job has saved the I&M data, SNMP still has the new
location and I&M record 1 the old one. -/
theorem C122_fails_restart {cfg : Im.Im} {s : St} (hw : Wf s) {a : List Byte} (ha : Im.Text 255 a) {n : Im.Im}
    (hn : s.im.nvm = some n) (hd : Im.shown n.loc ≠ field22 (str 255 a)) {b : Boot} (hb : b.location = true ∧ b.imRead = true) :
    ¬ Agree (restart cfg b (setLocation a .works s).2) := by
  intro h
  apply hd
  unfold Agree at h
  have ei : (restart cfg b (setLocation a .works s).2).im.im = n := by
    have : (restart cfg b (setLocation a .works s).2).im.im = Im.loaded b.imRead cfg s.im.nvm := Im.save_im _ _
    rw [this, hb.2, hn]
    rfl
  have et : text (restart cfg b (setLocation a .works s).2).mem.location = str 255 a := by
    show text (((load b.location (some a)).getD _).set 255 0) = _
    rw [hb.1, load_true, Option.getD_some]
    exact (text_set ha.1).2
  rw [ei, et] at h
  exact h

/-! ## Cases that meet the hypotheses -/

/-- An array of `n` characters with a text. -/
def arr (n : Nat) (t : List Byte) : List Byte := t ++ List.replicate (n - t.length) 0

def exStart : St :=
  ⟨⟨Im.cleared, none⟩, ⟨arr 256 [], arr 64 [], arr 256 []⟩, ⟨none, none, none⟩⟩

theorem exStart_wf : Wf exStart where
  im := ⟨Im.wf_cleared, fun n e => by cases e⟩
  contact := by unfold Im.Text; decide +kernel
  name := by unfold Im.Text; decide +kernel
  location := by unfold Im.Text; decide +kernel
  fcontact := fun a e => by cases e
  fname := fun a e => by cases e
  flocation := fun a e => by cases e

def exBoot : Boot := ⟨true, true, true, ⟨arr 256 [1], arr 64 [2], arr 256 [3]⟩, some (arr 64 [0x68, 0x6f]), true, true⟩

/-- The history: start, a name, a location of 30 characters, the job, start. -/
def exOps : List Op :=
  [.restart exBoot, .setName (arr 64 [0x41]) .works, .setLocation (arr 256 (List.replicate 30 0x42)) .works, .job true,
    .restart exBoot]

example : ∀ o ∈ exOps, OpOk o ∧ Works o := by
  intro o ho
  simp only [exOps, List.mem_cons, List.not_mem_nil, or_false] at ho
  rcases ho with rfl | rfl | rfl | rfl | rfl
  · exact ⟨⟨by decide +kernel, by decide +kernel, by decide +kernel, by intro h e; cases e; decide +kernel⟩, rfl, rfl, rfl⟩
  · exact ⟨⟨by unfold Im.Text; decide +kernel, fun l x e => by cases e⟩, rfl⟩
  · exact ⟨⟨by unfold Im.Text; decide +kernel, fun l x e => by cases e⟩, rfl⟩
  · exact ⟨trivial, trivial⟩
  · exact ⟨⟨by decide +kernel, by decide +kernel, by decide +kernel, by intro h e; cases e; decide +kernel⟩, rfl, rfl, rfl⟩

example : Calm ⟨true, true, true, true⟩ false exOps.tail := by
  simp [exOps, Calm, exBoot]

/-- What the history leads to. -/
example : (run ⟨true, true, true, true⟩ Im.cleared exStart exOps).map (fun s => (text s.mem.name, (text s.mem.location).length,
    text s.mem.contact, Im.shown s.im.im.loc)) = some ([0x41], 30, [], List.replicate 22 0x42) := by decide +kernel

/-- The host name is read when there is no other. -/
example : (run ⟨true, true, true, true⟩ Im.cleared exStart [.restart exBoot]).map (fun s => (text s.mem.name, text s.mem.location)) =
    some ([0x68, 0x6f], List.replicate 22 0x20) := by decide +kernel

end Verif.Snmp
