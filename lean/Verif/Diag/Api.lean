import Verif.Diag.Final

/-!
The diagnosis calls of the application in standard and in manufacturer format.
Source: src/device/pf_diag.c, src/device/pnet_api.c (the functions pnet_diag_… call those of the same name).
-/
set_option linter.unusedVariables false
set_option linter.unusedSimpArgs false

namespace Verif.Diag

/-! ## Model -/

/-- pf_diag_get_preferred_usi (src/device/pf_diag.c:945-954) -/
def preferredUsi (qualified : Bool) : Nat := if qualified then usiQualified else 0x8002

/-- `diag_source` of the three functions in manufacturer format: PNET_CHANNEL_WHOLE_SUBMODULE,
PNET_DIAG_CH_INDIVIDUAL_CHANNEL, PNET_DIAG_CH_PROP_DIR_MANUF_SPEC; no error types. -/
def wholeChan : Chan := ⟨0x8000, false, 0, 0, 0⟩

/-- pf_diag_std_add (src/device/pf_diag.c:956-978), pnet_diag_std_add (src/device/pnet_api.c:684-703) -/
def stdAdd (qualified : Bool) (maxData : Nat) (st : St) (p : Place) (c : Chan) (typ maint addValue qualifier : Nat) (alarm : Bool) :
    Option (St × Bool) :=
  add maxData st ⟨p, c, typ, maint, addValue, qualifier, preferredUsi qualified, 0, none⟩ alarm

/-- pf_diag_std_update (src/device/pf_diag.c:980-996), pnet_diag_std_update (src/device/pnet_api.c:705-718) -/
def stdUpdate (qualified : Bool) (maxData : Nat) (st : St) (p : Place) (c : Chan) (addValue : Nat) (alarm : Bool) : Option (St × Bool) :=
  update maxData st ⟨p, c, 0, 0, addValue, 0, preferredUsi qualified, 0, none⟩ alarm

/-- pf_diag_std_remove (src/device/pf_diag.c:998-1010), pnet_diag_std_remove (src/device/pnet_api.c:720-731) -/
def stdRemove (qualified : Bool) (st : St) (p : Place) (c : Chan) (alarm : Bool) : Option (St × Bool) :=
  remove st ⟨p, c, 0, 0, 0, 0, preferredUsi qualified, 0, none⟩ alarm

/-- pf_diag_usi_add (src/device/pf_diag.c:1014-1056), pnet_diag_usi_add (src/device/pnet_api.c:735-752) -/
def usiAdd (maxData : Nat) (st : St) (p : Place) (usi len : Nat) (data : Option (List Nat)) (alarm : Bool) : Option (St × Bool) :=
  if usi ≥ usiChannel then some (st, false)
  else add maxData st ⟨p, wholeChan, 0, maintFault, 0, 0, usi, len, data⟩ alarm

/-- pf_diag_usi_update (src/device/pf_diag.c:1058-1097), pnet_diag_usi_update (src/device/pnet_api.c:754-771) -/
def usiUpdate (maxData : Nat) (st : St) (p : Place) (usi len : Nat) (data : Option (List Nat)) (alarm : Bool) : Option (St × Bool) :=
  if usi ≥ usiChannel then some (st, false)
  else update maxData st ⟨p, wholeChan, 0, 0, 0, 0, usi, len, data⟩ alarm

/-- pf_diag_usi_remove (src/device/pf_diag.c:1099-1128), pnet_diag_usi_remove (src/device/pnet_api.c:773-781) -/
def usiRemove (st : St) (p : Place) (usi : Nat) (alarm : Bool) : Option (St × Bool) :=
  if usi ≥ usiChannel then some (st, false)
  else remove st ⟨p, wholeChan, 0, 0, 0, 0, usi, 0, none⟩ alarm

/-- Calls of the application (with the result of the alarm), and what happens to submodules. -/
inductive Call where
  | stdAdd (p : Place) (c : Chan) (typ maint addValue qualifier : Nat) (alarm : Bool)
  | stdUpdate (p : Place) (c : Chan) (addValue : Nat) (alarm : Bool)
  | stdRemove (p : Place) (c : Chan) (alarm : Bool)
  | usiAdd (p : Place) (usi len : Nat) (data : Option (List Nat)) (alarm : Bool)
  | usiUpdate (p : Place) (usi len : Nat) (data : Option (List Nat)) (alarm : Bool)
  | usiRemove (p : Place) (usi : Nat) (alarm : Bool)
  | plug (p : Place) (owner : Option Nat)
  | pull (p : Place)
  | own (p : Place) (owner : Option Nat)

def callStep (qualified : Bool) (maxData : Nat) (st : St) : Call → Option (St × Bool)
  | .stdAdd p c t m a q al => stdAdd qualified maxData st p c t m a q al
  | .stdUpdate p c a al => stdUpdate qualified maxData st p c a al
  | .stdRemove p c al => stdRemove qualified st p c al
  | .usiAdd p u n d al => usiAdd maxData st p u n d al
  | .usiUpdate p u n d al => usiUpdate maxData st p u n d al
  | .usiRemove p u al => usiRemove st p u al
  | .plug p o => step maxData st (.plug p o)
  | .pull p => step maxData st (.pull p)
  | .own p o => step maxData st (.own p o)

def callExec (qualified : Bool) (maxData : Nat) : St → List Call → Option St
  | st, [] => some st
  | st, c :: cs => (callStep qualified maxData st c).bind fun r => callExec qualified maxData r.1 cs

/-! ## Specification -/

/-- What the application tells about a diagnosis in standard format. -/
structure Told where
  typ : Nat
  severity : Nat
  addValue : Nat
  qualifier : Nat
deriving DecidableEq

/-- Two tables per submodule. -/
structure Tables where
  plugged : Place → Bool
  std : Place → Chan → Option Told
  usi : Place → Nat → Option (List Nat)
  room : Nat

def Tables.init (n : Nat) : Tables := ⟨fun _ => false, fun _ _ => none, fun _ _ => none, n⟩

def Tables.setStd (t : Tables) (p : Place) (c : Chan) (v : Option Told) : Tables :=
  { t with std := fun q d => if q = p ∧ d = c then v else t.std q d }

def Tables.setUsi (t : Tables) (p : Place) (u : Nat) (v : Option (List Nat)) : Tables :=
  { t with usi := fun q x => if q = p ∧ x = u then v else t.usi q x }

/-- Severity "qualified" (3) goes with the qualified format, and only then there is a qualifier (but for its three lowest bits). -/
def SeverityOk (qualified : Bool) (severity qualifier : Nat) : Prop :=
  (severity = 3 → qualified = true) ∧ (severity ≠ 3 → qualifier / 8 = 0)

/-- Manufacturer data of the given length is there and not too long; the identifier is one of the manufacturer. -/
def DataOk (maxData usi len : Nat) (data : Option (List Nat)) : Prop :=
  usi < 0x8000 ∧ len ≤ maxData ∧ (data = none → len = 0)

open Classical in
/-- What each call does. -/
noncomputable def Tables.step (qualified : Bool) (maxData : Nat) (t : Tables) : Call → Tables
  | .stdAdd p c typ sev a q _ =>
    if t.plugged p = true ∧ c.ch ≤ 0x8000 ∧ SeverityOk qualified sev q then
      if (t.std p c).isSome then t.setStd p c (some ⟨typ, sev, a, q / 8 * 8⟩)
      else if t.room = 0 then t
      else { t.setStd p c (some ⟨typ, sev, a, q / 8 * 8⟩) with room := t.room - 1 }
    else t
  | .stdUpdate p c a _ =>
    if t.plugged p = true ∧ c.ch ≤ 0x8000 then t.setStd p c ((t.std p c).map fun x => { x with addValue := a }) else t
  | .stdRemove p c _ =>
    if t.plugged p = true ∧ c.ch ≤ 0x8000 ∧ (t.std p c).isSome then { t.setStd p c none with room := t.room + 1 } else t
  | .usiAdd p u n d _ =>
    if t.plugged p = true ∧ DataOk maxData u n d then
      if (t.usi p u).isSome then t.setUsi p u (some ((d.getD []).take n))
      else if t.room = 0 then t
      else { t.setUsi p u (some ((d.getD []).take n)) with room := t.room - 1 }
    else t
  | .usiUpdate p u n d _ =>
    if t.plugged p = true ∧ DataOk maxData u n d then t.setUsi p u ((t.usi p u).map fun _ => (d.getD []).take n) else t
  | .usiRemove p u _ =>
    if t.plugged p = true ∧ u < 0x8000 ∧ (t.usi p u).isSome then { t.setUsi p u none with room := t.room + 1 } else t
  | .plug p _ => { t with plugged := fun q => if q = p then true else t.plugged q }
  | .pull p =>
    { t with plugged := fun q => if q = p then false else t.plugged q
             std := fun q c => if q = p then none else t.std q c
             usi := fun q u => if q = p then none else t.usi q u }
  | .own _ _ => t

noncomputable def Tables.exec (qualified : Bool) (maxData : Nat) : Tables → List Call → Tables
  | t, [] => t
  | t, c :: cs => Tables.exec qualified maxData (t.step qualified maxData c) cs

/-- Error type 0 is reserved (see C21). -/
def Call.TypeGiven : Call → Prop
  | .stdAdd _ c _ _ _ _ _ => c.err ≠ 0
  | _ => True

/-- How the application's view shows in the store of area Diag. -/
def Shows (qualified : Bool) (sp : Spec) (t : Tables) : Prop :=
  sp.plugged = t.plugged ∧ sp.room = t.room ∧
  (∀ p c, sp.ent p (.std c) = (t.std p c).map fun x => .std (if qualified then 0x8003 else 0x8002) x.typ x.severity x.addValue x.qualifier) ∧
  (∀ p u, sp.ent p (.manuf u) = (t.usi p u).map .manuf)

/-! ## Proofs -/

/-- The call as a step of the store; `none`: refused. -/
def Call.op (qualified : Bool) : Call → Option Op
  | .stdAdd p c t m a q al => some (.add ⟨p, c, t, m, a, q, preferredUsi qualified, 0, none⟩ al)
  | .stdUpdate p c a al => some (.update ⟨p, c, 0, 0, a, 0, preferredUsi qualified, 0, none⟩ al)
  | .stdRemove p c al => some (.remove ⟨p, c, 0, 0, 0, 0, preferredUsi qualified, 0, none⟩ al)
  | .usiAdd p u n d al => if u ≥ usiChannel then none else some (.add ⟨p, wholeChan, 0, maintFault, 0, 0, u, n, d⟩ al)
  | .usiUpdate p u n d al => if u ≥ usiChannel then none else some (.update ⟨p, wholeChan, 0, 0, 0, 0, u, n, d⟩ al)
  | .usiRemove p u al => if u ≥ usiChannel then none else some (.remove ⟨p, wholeChan, 0, 0, 0, 0, u, 0, none⟩ al)
  | .plug p o => some (.plug p o)
  | .pull p => some (.pull p)
  | .own p o => some (.own p o)

theorem callStep_op (qualified : Bool) (maxData : Nat) (st : St) (c : Call) :
    callStep qualified maxData st c = match c.op qualified with | some o => step maxData st o | none => some (st, false) := by
  cases c <;> simp only [callStep, Call.op, stdAdd, stdUpdate, stdRemove, usiAdd, usiUpdate, usiRemove, step] <;> (try split <;> rfl)

theorem callExec_op (qualified : Bool) (maxData : Nat) (cs : List Call) :
    ∀ st, callExec qualified maxData st cs = exec maxData st (cs.filterMap (Call.op qualified)) := by
  induction cs with
  | nil => intro st; rfl
  | cons c cs ih =>
    intro st
    rw [callExec, callStep_op]
    cases h : c.op qualified with
    | none => rw [List.filterMap_cons_none h]; exact ih st
    | some o =>
      rw [List.filterMap_cons_some h, exec]
      simp only
      exact congrArg _ (funext fun r => ih r.1)

theorem typeGiven_op {qualified : Bool} {c : Call} (h : c.TypeGiven) {o : Op} (ho : c.op qualified = some o) : o.TypeGiven := by
  cases c <;> simp only [Call.op] at ho <;> (try (split at ho <;> cases ho)) <;> (try cases ho) <;>
    (simp_all [Op.TypeGiven, Call.TypeGiven, usiChannel]; try omega)

theorem preferred_cases (q : Bool) : preferredUsi q = if q then 0x8003 else 0x8002 := by cases q <;> rfl

theorem preferred_ge (q : Bool) : ¬ preferredUsi q < 0x8000 := by cases q <;> decide

theorem put_std {qualified : Bool} {sp : Spec} {t : Tables} (h : Shows qualified sp t) (p : Place) (c : Chan) (v : Option Told) :
    Shows qualified (sp.put p (.std c) (v.map fun x => .std (if qualified then 0x8003 else 0x8002) x.typ x.severity x.addValue x.qualifier))
      (t.setStd p c v) := by
  obtain ⟨h1, h2, h3, h4⟩ := h
  refine ⟨h1, h2, fun q d => ?_, fun q u => ?_⟩
  · simp only [Spec.put, Tables.setStd, Key.std.injEq]
    split
    · rfl
    · exact h3 q d
  · simp only [Spec.put, Tables.setStd, reduceCtorEq, and_false, if_false]
    exact h4 q u

theorem put_usi {qualified : Bool} {sp : Spec} {t : Tables} (h : Shows qualified sp t) (p : Place) (u : Nat) (v : Option (List Nat)) :
    Shows qualified (sp.put p (.manuf u) (v.map .manuf)) (t.setUsi p u v) := by
  obtain ⟨h1, h2, h3, h4⟩ := h
  refine ⟨h1, h2, fun q d => ?_, fun q x => ?_⟩
  · simp only [Spec.put, Tables.setUsi, reduceCtorEq, and_false, if_false]
    exact h3 q d
  · simp only [Spec.put, Tables.setUsi, Key.manuf.injEq]
    split
    · rfl
    · exact h4 q x

theorem with_room {qualified : Bool} {sp : Spec} {t : Tables} (h : Shows qualified sp t) (n : Nat) :
    Shows qualified { sp with room := n } { t with room := n } := ⟨h.1, rfl, h.2.2.1, h.2.2.2⟩

theorem ite_shows {qualified : Bool} {P Q : Prop} {_ : Decidable P} {_ : Decidable Q} {x x' : Spec} {y y' : Tables} (h : P ↔ Q)
    (h1 : Shows qualified x y) (h2 : Shows qualified x' y') : Shows qualified (if P then x else x') (if Q then y else y') := by
  by_cases c : P
  · rw [if_pos c, if_pos (h.mp c)]; exact h1
  · rw [if_neg c, if_neg (fun q => c (h.mpr q))]; exact h2

theorem step_shows {qualified : Bool} {maxData : Nat} {sp : Spec} {t : Tables} (h : Shows qualified sp t) (c : Call) :
    Shows qualified (match c.op qualified with | some o => sp.step maxData o | none => sp) (t.step qualified maxData c) := by
  have h1 : ∀ p, sp.plugged p = t.plugged p := fun p => congrFun h.1 p
  have h2 := h.2.1
  have h3 := h.2.2.1
  have h4 := h.2.2.2
  have hp := preferred_cases qualified
  have hg := preferred_ge qualified
  have hs3 : ∀ p c, (sp.ent p (.std c)).isSome = true ↔ (t.std p c).isSome = true := fun p c => by rw [h3, Option.isSome_map]
  have hs4 : ∀ p u, (sp.ent p (.manuf u)).isSome = true ↔ (t.usi p u).isSome = true := fun p u => by rw [h4, Option.isSome_map]
  have hr : sp.room = 0 ↔ t.room = 0 := by rw [h2]
  cases c with
  | stdAdd p c typ sev a q al =>
    have hput := put_std h p c (some ⟨typ, sev, a, q / 8 * 8⟩)
    rw [Option.map_some, ← hp] at hput
    simp only [Call.op, Spec.step, Tables.step, Args.key, Args.val, if_neg hg]
    refine ite_shows ?_ (ite_shows (hs3 p c) hput (ite_shows hr h ?_)) h
    · rw [h1]
      cases qualified <;> simp [Args.Valid, Args.ValidData, Args.ValidSeverity, SeverityOk, preferredUsi, usiQualified]
    · rw [h2]; exact with_room hput _
  | stdUpdate p c a al =>
    have hput := put_std h p c ((t.std p c).map fun x => { x with addValue := a })
    simp only [Call.op, Spec.step, Tables.step, Args.key, if_neg hg]
    refine ite_shows ?_ ?_ h
    · rw [h1]
      cases qualified <;> simp [Args.Valid, Args.ValidData, preferredUsi, usiQualified]
    · have e : ∀ x : Args, x.addValue = a → ((sp.ent p (.std c)).map x.change) =
          ((t.std p c).map fun x => { x with addValue := a }).map
            (fun x => Val.std (if qualified then 0x8003 else 0x8002) x.typ x.severity x.addValue x.qualifier) := by
        intro x hx
        rw [h3]
        cases t.std p c with
        | none => rfl
        | some y => simp [Args.change, hx]
      rw [e _ rfl]
      exact hput
  | stdRemove p c al =>
    have hput := put_std h p c none
    simp only [Call.op, Spec.step, Tables.step, Args.key, if_neg hg]
    refine ite_shows ?_ ?_ h
    · rw [h1, if_neg hg, hs3]
      cases qualified <;> simp [Args.Valid, preferredUsi, usiQualified]
    · rw [h2]; exact with_room hput _
  | usiAdd p u n d al =>
    simp only [Call.op]
    by_cases hu : u ≥ usiChannel
    · rw [if_pos hu]
      have hn : ¬ DataOk maxData u n d := fun g => by have := g.1; simp only [usiChannel] at hu; omega
      simp only [Tables.step]
      rw [if_neg (fun g => hn g.2)]
      exact h
    · rw [if_neg hu]
      have hlt : u < 0x8000 := by simp only [usiChannel] at hu; omega
      have hput := put_usi h p u (some ((d.getD []).take n))
      rw [Option.map_some] at hput
      simp only [Spec.step, Tables.step, Args.key, Args.val, if_pos hlt]
      refine ite_shows ?_ (ite_shows (hs4 p u) hput (ite_shows hr h ?_)) h
      · rw [h1]
        unfold Args.Valid Args.ValidData Args.ValidSeverity DataOk
        constructor
        · rintro ⟨a1, -, ⟨a2, a3, -⟩, -⟩; exact ⟨a1, hlt, a2, a3⟩
        · rintro ⟨a1, -, a2, a3⟩
          exact ⟨a1, ⟨Nat.le_refl _, Or.inl ⟨hlt, rfl, rfl⟩⟩, ⟨a2, a3, fun (g : 0x8000 ≤ u) => by omega, fun _ => rfl⟩, fun _ => (by decide : (0 : Nat) ≠ 3), fun _ => Nat.zero_div 8⟩
      · rw [h2]; exact with_room hput _
  | usiUpdate p u n d al =>
    simp only [Call.op]
    by_cases hu : u ≥ usiChannel
    · rw [if_pos hu]
      have hn : ¬ DataOk maxData u n d := fun g => by have := g.1; simp only [usiChannel] at hu; omega
      simp only [Tables.step]
      rw [if_neg (fun g => hn g.2)]
      exact h
    · rw [if_neg hu]
      have hlt : u < 0x8000 := by simp only [usiChannel] at hu; omega
      have hput := put_usi h p u ((t.usi p u).map fun _ => (d.getD []).take n)
      simp only [Spec.step, Tables.step, Args.key, if_pos hlt]
      refine ite_shows ?_ ?_ h
      · rw [h1]
        unfold Args.Valid Args.ValidData DataOk
        constructor
        · rintro ⟨a1, -, a2, a3, -⟩; exact ⟨a1, hlt, a2, a3⟩
        · rintro ⟨a1, -, a2, a3⟩
          exact ⟨a1, ⟨Nat.le_refl _, Or.inl ⟨hlt, rfl, rfl⟩⟩, a2, a3, fun (g : 0x8000 ≤ u) => by omega, fun _ => rfl⟩
      · have e : ∀ x : Args, x.data = d → x.dataLen = n → ((sp.ent p (.manuf u)).map x.change) =
            ((t.usi p u).map fun _ => (d.getD []).take n).map .manuf := by
          intro x hx hy
          rw [h4]
          cases t.usi p u with
          | none => rfl
          | some y => simp [Args.change, hx, hy]
        rw [e _ rfl rfl]
        exact hput
  | usiRemove p u al =>
    simp only [Call.op]
    by_cases hu : u ≥ usiChannel
    · rw [if_pos hu]
      have hn : ¬ u < 0x8000 := by simp only [usiChannel] at hu; omega
      simp only [Tables.step]
      rw [if_neg (fun g => hn g.2.1)]
      exact h
    · rw [if_neg hu]
      have hlt : u < 0x8000 := by simp only [usiChannel] at hu; omega
      have hput := put_usi h p u none
      simp only [Spec.step, Tables.step, Args.key, if_pos hlt]
      refine ite_shows ?_ ?_ h
      · rw [h1, if_pos hlt, hs4]
        unfold Args.Valid
        constructor
        · rintro ⟨a1, -, a2⟩; exact ⟨a1, hlt, a2⟩
        · rintro ⟨a1, -, a2⟩; exact ⟨a1, ⟨Nat.le_refl _, Or.inl ⟨hlt, rfl, rfl⟩⟩, a2⟩
      · rw [h2]; exact with_room hput _
  | plug p o => exact ⟨by simp only [Call.op, Spec.step, Tables.step, h.1], h2, h3, h4⟩
  | pull p =>
    refine ⟨by simp only [Call.op, Spec.step, Tables.step, h.1], h2, fun q d => ?_, fun q d => ?_⟩
    · simp only [Call.op, Spec.step, Tables.step]
      split
      · rfl
      · exact h3 q d
    · simp only [Call.op, Spec.step, Tables.step]
      split
      · rfl
      · exact h4 q d
  | own p o => exact h

theorem exec_shows {qualified : Bool} {maxData : Nat} (cs : List Call) : ∀ {sp : Spec} {t : Tables}, Shows qualified sp t →
    Shows qualified (Spec.exec maxData sp (cs.filterMap (Call.op qualified))) (Tables.exec qualified maxData t cs) := by
  induction cs with
  | nil => intro sp t h; exact h
  | cons c cs ih =>
    intro sp t h
    have hs := step_shows (maxData := maxData) h c
    rw [Tables.exec]
    cases ho : c.op qualified with
    | none =>
      rw [ho] at hs
      rw [List.filterMap_cons_none ho]
      exact ih hs
    | some o =>
      rw [ho] at hs
      rw [List.filterMap_cons_some ho, Spec.exec]
      exact ih hs

/-- The calls in standard and in manufacturer format work on two independent tables of each submodule, and do what the application asks for:
after any history of calls, plugs and pulls, the store has exactly the diagnoses of the tables, the standard ones in the configured format. -/
theorem C120_two_tables_partial (qualified : Bool) (maxData n : Nat) (hn : n ≤ 65535) (cs : List Call) (ht : ∀ c ∈ cs, c.TypeGiven) :
    ∃ st, callExec qualified maxData (init n) cs = some st ∧
      Shows qualified (view st) (Tables.exec qualified maxData (Tables.init n) cs) := by
  obtain ⟨st, h1, h2, _⟩ := C21_diagnosis_store_partial maxData n hn (cs.filterMap (Call.op qualified)) (by
    intro o ho
    obtain ⟨c, hc, e⟩ := List.mem_filterMap.mp ho
    exact typeGiven_op (ht c hc) e)
  refine ⟨st, by rw [callExec_op, h1], ?_⟩
  rw [h2]
  exact exec_shows cs ⟨rfl, rfl, fun _ _ => rfl, fun _ _ => rfl⟩

/-- A standard diagnosis stays as it was told until it is changed or removed itself or its submodule is pulled: no call about another
diagnosis touches it. -/
theorem C120_told_stays (qualified : Bool) (maxData : Nat) (t : Tables) (p : Place) (c : Chan) (x : Told) (h : t.std p c = some x) (cs : List Call)
    (hcs : ∀ k ∈ cs, (∀ typ sev a q al, k ≠ .stdAdd p c typ sev a q al) ∧ (∀ a al, k ≠ .stdUpdate p c a al) ∧
      (∀ al, k ≠ .stdRemove p c al) ∧ k ≠ .pull p) :
    (Tables.exec qualified maxData t cs).std p c = some x := by
  induction cs generalizing t with
  | nil => exact h
  | cons k cs ih =>
    rw [Tables.exec]
    refine ih _ ?_ fun k' hk' => hcs k' (List.mem_cons_of_mem _ hk')
    obtain ⟨g1, g2, g3, g4⟩ := hcs k List.mem_cons_self
    cases k with
    | stdAdd p' c' typ sev a q al =>
      have hne : ¬(p = p' ∧ c = c') := fun e => g1 typ sev a q al (by rw [e.1, e.2])
      simp only [Tables.step]
      split
      · split
        · simp only [Tables.setStd, if_neg hne]; exact h
        · split
          · exact h
          · simp only [Tables.setStd, if_neg hne]; exact h
      · exact h
    | stdUpdate p' c' a al =>
      have hne : ¬(p = p' ∧ c = c') := fun e => g2 a al (by rw [e.1, e.2])
      simp only [Tables.step]
      split
      · simp only [Tables.setStd, if_neg hne]; exact h
      · exact h
    | stdRemove p' c' al =>
      have hne : ¬(p = p' ∧ c = c') := fun e => g3 al (by rw [e.1, e.2])
      simp only [Tables.step]
      split
      · simp only [Tables.setStd, if_neg hne]; exact h
      · exact h
    | usiAdd p' u n d al =>
      simp only [Tables.step]
      split
      · split
        · exact h
        · split <;> exact h
      · exact h
    | usiUpdate p' u n d al => simp only [Tables.step]; split <;> exact h
    | usiRemove p' u al => simp only [Tables.step]; split <;> exact h
    | plug p' o => exact h
    | pull p' =>
      have hne : ¬ p = p' := fun e => g4 (by rw [e])
      simp only [Tables.step, if_neg hne]
      exact h
    | own p' o => exact h

/-- VIOLATION with the reserved error type 0: a standard diagnosis with error type 0 for the whole submodule is found by the calls in
manufacturer format: adding manufacturer diagnosis 5 replaces it. -/
theorem C120_error_type_zero_mixes (qualified : Bool) : ∃ st, callExec qualified 16 (init 4)
      [.plug (0, 1, 1) none, .stdAdd (0, 1, 1) wholeChan 0 0 0 0 true, .usiAdd (0, 1, 1) 5 1 (some [7]) true] = some st ∧
    listing st (0, 1, 1) = [(5, .manuf [7])] := by
  cases qualified <;> exact ⟨(callExec _ 16 (init 4) _).get (by rfl), (Option.some_get _).symm, by decide +kernel⟩

/-- The hypotheses are met by a history with all kinds of calls, which leaves one diagnosis of each format. -/
theorem demo_calls : ∃ cs : List Call, (∀ c ∈ cs, c.TypeGiven) ∧ ∃ st, callExec true 16 (init 3) cs = some st ∧
    listing st (0, 1, 1) = [(5, .manuf [7, 8]), (0x8003, .std ⟨⟨1, false, 1, 3, 2⟩, 0, 3, 1, 9, 2 ^ 31⟩)] := by
  refine ⟨[.plug (0, 1, 1) none, .stdAdd (0, 1, 1) ⟨1, false, 1, 3, 2⟩ 0 3 4 (2 ^ 31) true, .usiAdd (0, 1, 1) 5 1 (some [1]) true,
    .stdUpdate (0, 1, 1) ⟨1, false, 1, 3, 2⟩ 9 true, .usiUpdate (0, 1, 1) 5 2 (some [7, 8]) true, .usiAdd (0, 1, 1) 6 0 none true,
    .usiRemove (0, 1, 1) 6 true, .stdRemove (0, 1, 1) ⟨2, false, 1, 3, 2⟩ true, .usiAdd (0, 1, 1) 0x8000 0 none true], ?_,
    (callExec true 16 (init 3) _).get (by rfl), (Option.some_get _).symm, by decide +kernel⟩
  simp [Call.TypeGiven]

end Verif.Diag
