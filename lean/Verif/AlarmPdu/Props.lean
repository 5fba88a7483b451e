import Verif.AlarmPdu.Lemmas

/-! Contents and lengths of alarms that are sent (C105, C107). -/
set_option linter.unusedVariables false
set_option linter.unusedSimpArgs false

namespace Verif.AlarmPdu
open Verif.Diag hiding St
open Verif.Device hiding St
open Verif.Wire hiding ExpApi ExpMod ExpSub encBlock encBlock_length
open Verif.Records
open Verif.DiagRead (n16 n32 skip putItem headOf Plugged encEntry)

theorem sendAlarm_some {l : Lim} {c : Conn} {type : Nat} {high : Bool} {api slot subslot m s usi len : Nat} {pay : Option Pay}
    {p : Posted} (h : sendAlarm l c type high api slot subslot m s usi len pay = some p) :
    c.enabled = true ∧ len ≤ l.maxPayload ∧ len ≤ c.maxData ∧
      p = ⟨high, type, api, slot, subslot, m, s % 65536, usi, payload len pay⟩ := by
  unfold sendAlarm at h
  split at h
  · cases h
  split at h
  · cases h
  split at h
  · cases h
  split at h
  · cases h
  rename_i h1 h2 h3 h4
  exact ⟨by simpa using h1, by omega, by omega, (Option.some.inj h).symm⟩

theorem sendAlarm_eq {l : Lim} {c : Conn} {type : Nat} {high : Bool} {api slot subslot m s usi len : Nat} {pay : Option Pay}
    (h1 : c.enabled = true) (h2 : len ≤ l.maxPayload) (h3 : len ≤ c.maxData) (h4 : len = 0 ∨ pay ≠ none) :
    sendAlarm l c type high api slot subslot m s usi len pay =
      some ⟨high, type, api, slot, subslot, m, s % 65536, usi, payload len pay⟩ := by
  unfold sendAlarm
  rw [if_neg (by simp [h1]), if_neg (by omega), if_neg (by omega), if_neg (by
    rintro ⟨a, b⟩
    rcases h4 with h | h
    · omega
    · exact h b)]

theorem sendAlarm_ne {l : Lim} {c : Conn} {type : Nat} {high : Bool} {api slot subslot m s usi len : Nat} {pay : Option Pay}
    (h1 : c.enabled = true) (h2 : len ≤ l.maxPayload) (h3 : len ≤ c.maxData) (h4 : len = 0 ∨ pay ≠ none) :
    sendAlarm l c type high api slot subslot m s usi len pay ≠ none := by
  rw [sendAlarm_eq h1 h2 h3 h4]
  simp

theorem idents {d : Dev} {a s ss : Nat} {α : Type} {f : Nat → Nat → Option α} {x : α}
    (h : (match moduleIdent d a s with
      | none => none
      | some m =>
        match submoduleIdent d a s ss with
        | none => none
        | some sm => f m sm) = some x) : ∃ m sm, Plugged d (a, s, ss) m sm ∧ f m sm = some x := by
  unfold moduleIdent submoduleIdent at h
  cases h1 : getSlot d a s with
  | none => simp [h1] at h
  | some y =>
    cases h2 : getSub d a s ss with
    | none => simp [h1, h2] at h
    | some z =>
      simp only [h1, h2, Option.map_some] at h
      exact ⟨_, _, ⟨y, z, h1, h2, rfl, rfl⟩, h⟩

theorem idents_eq {d : Dev} {a s ss m sm : Nat} (h : Plugged d (a, s, ss) m sm) :
    moduleIdent d a s = some m ∧ submoduleIdent d a s ss = some sm := by
  obtain ⟨y, z, h1, h2, h3, h4⟩ := h
  simp only at h1 h2
  exact ⟨by simp [moduleIdent, h1, h3], by simp [submoduleIdent, h2, h4]⟩

theorem plugged_unique {d : Dev} {p : Diag.Place} {m sm m' sm' : Nat} (h : Plugged d p m sm) (h' : Plugged d p m' sm') :
    m = m' ∧ sm = sm' := by
  obtain ⟨y, z, h1, h2, rfl, rfl⟩ := h
  obtain ⟨y', z', h1', h2', rfl, rfl⟩ := h'
  rw [h1] at h1'
  rw [h2] at h2'
  cases h1'
  cases h2'
  exact ⟨rfl, rfl⟩

/-- There is at most one thing a call can mean. -/
theorem means_unique {d : Dev} {pm : Bool} {call : Call} {y z : Says} (h : Means d pm call y) (h' : Means d pm call z) : y = z := by
  cases h <;> cases h' <;> first
    | rfl
    | (rename_i h1 _ _ h2
       obtain ⟨rfl, rfl⟩ := plugged_unique h1 h2
       rfl)
    | (rename_i h1 _ _ _ h2 _
       obtain ⟨rfl, rfl⟩ := plugged_unique h1 h2
       rfl)
    | simp_all

theorem puts_none {m : U32} {a : Alarm} (h : a.usi = 0) : Puts (putPayload m a) [] := by
  unfold putPayload
  rw [if_pos h]
  exact puts_skip

theorem puts_bytes {m : U32} {a : Alarm} {b : List Byte} (h0 : 0 < a.usi) (h : a.usi < 0x8000) (hb : a.pay = .bytes b) :
    Puts (putPayload m a) (num16 a.usi ++ b) := by
  unfold putPayload
  rw [if_neg (by omega), if_neg (by omega), if_neg (by omega), hb]
  simp only
  refine Puts.seq (puts_n16 _) ?_
  cases b with
  | nil => exact puts_skip
  | cons x l => rw [if_pos (by simp)]; exact puts_mem _

theorem puts_diag {m : U32} {a : Alarm} {it : Item} {x : Std} (h : it.usi = 0x8000 ∨ it.usi = 0x8002 ∨ it.usi = 0x8003) (ha : a.usi = it.usi)
    (hx : it.fmt = .std x) (hp : a.pay = .item it) : Puts (putPayload m a) (encDiagnosis m (it.usi, .std x)) := by
  unfold putPayload encDiagnosis
  rw [if_neg (by omega), if_neg (by omega), if_pos (by omega), hp]
  simp only
  refine Puts.seq (Puts.seq ?_ (puts_n16 _)) (puts_item h hx)
  by_cases hm : m = 0
  · rw [if_neg (by simp [hm]), if_pos hm]; exact puts_skip
  · rw [if_pos hm, if_neg hm]; exact puts_maint m

theorem encDiagnosis_length {m : U32} {u : Nat} {x : Std} : (encDiagnosis m (u, .std x)).length ≤ 32 := by
  unfold encDiagnosis
  simp only [encEntry, List.length_append, num16_length, enc16_length]
  split <;> split <;> split <;> simp [Records.encBlock_length, enc16_length, enc32_length, num16_length]

/-- What is put in the queue says what was asked for. -/
theorem ask_means {l : Lim} {c : Conn} {d : Dev} {call : Call} {p : Posted} (hc : call.Ok) (h : ask l c d call = some p) :
    c.enabled = true ∧ call.checked l ≤ l.maxPayload ∧ call.checked l ≤ c.maxData ∧ ∃ y, Means d c.pullModule call y ∧ p.high = y.high ∧
      p.alarm.type = y.type ∧ p.alarm.api = y.api ∧
      p.alarm.slot = y.slot ∧ p.alarm.subslot = y.subslot ∧ p.alarm.modIdent = y.modIdent ∧ p.alarm.subIdent = y.subIdent % 65536 ∧
      ∀ m, Puts (putPayload m p.alarm) (y.user m) ∧ (y.user m).length ≤ 34 + l.maxPayload := by
  have e16 : ∀ n, (num16 n).length = 2 := num16_length
  cases call with
  | process a s ss u b =>
    simp only [ask, sendProcess] at h
    split at h
    · cases h
    rename_i hu
    obtain ⟨m, sm, hpl, h⟩ := idents h
    obtain ⟨h1, h2, h3, rfl⟩ := sendAlarm_some h
    refine ⟨h1, h2, h3, _, .process hpl, rfl, rfl, rfl, rfl, rfl, rfl, rfl, fun m => ⟨?_, ?_⟩⟩
    · by_cases h0 : u = 0
      · simp only [h0, if_true]
        exact puts_none rfl
      · simp only [h0, if_false]
        exact puts_bytes (a := ⟨2, a, s, ss, _, _, u, _⟩) (by simp only; omega) (by simp only; omega) (by simp [payload])
    · simp only
      split
      · simp
      · rw [List.length_append, e16]; omega
  | diagnosis a s ss it =>
    simp only [ask, sendDiagnosis] at h
    obtain ⟨m, sm, hpl, h⟩ := idents h
    obtain ⟨i, u, fmt, n⟩ := it
    rcases hc with ⟨g0, g1, b, g2⟩ | ⟨g1, x, g2⟩
    · simp only at g0 g1 g2
      subst g2
      simp only [diagType] at h
      obtain ⟨h1, h2, h3, rfl⟩ := sendAlarm_some h
      refine ⟨h1, h2, h3, _, .manufacturer hpl g1, rfl, rfl, rfl, rfl, rfl, rfl, rfl, fun m => ⟨?_, ?_⟩⟩
      · exact puts_bytes (a := ⟨1, a, s, ss, _, _, u, _⟩) (b := b.map (BitVec.ofNat 8)) g0 g1 (by simp [payload])
      · simp only [encEntry, List.length_append, e16, List.length_map]; omega
    · simp only at g1 g2
      subst g2
      simp only [diagType] at h
      obtain ⟨h1, h2, h3, rfl⟩ := sendAlarm_some h
      refine ⟨h1, h2, h3, _, .standard hpl g1, rfl, ?_, rfl, rfl, rfl, rfl, rfl, fun m => ⟨?_, ?_⟩⟩
      · simp only
        have : 0x8000 ≤ u := by omega
        simp [this]
      · exact puts_diag (it := ⟨i, u, .std x, n⟩) g1 rfl rfl rfl
      · have := encDiagnosis_length (m := m) (u := u) (x := x)
        simp only; omega
  | disappears a s ss u =>
    simp only [ask, sendDisappears] at h
    obtain ⟨m, sm, hpl, h⟩ := idents h
    obtain ⟨h1, h2, h3, rfl⟩ := sendAlarm_some h
    refine ⟨h1, h2, h3, _, .disappears hpl, rfl, rfl, rfl, rfl, rfl, rfl, rfl, fun m => ⟨?_, ?_⟩⟩
    · have := puts_bytes (m := m) (a := ⟨12, a, s, ss, 0, 0, u, .bytes []⟩) (b := []) hc.1 hc.2 rfl
      rw [List.append_nil] at this
      exact this
    · simp only [e16]; omega
  | pull a s ss =>
    simp only [ask, sendPull] at h
    obtain ⟨h1, h2, h3, rfl⟩ := sendAlarm_some h
    by_cases hm : ss = 0 ∧ c.pullModule = true
    · obtain ⟨rfl, hm⟩ := hm
      exact ⟨h1, h2, h3, _, .pullModule hm, rfl, by simp [hm], rfl, rfl, rfl, rfl, rfl, fun m => ⟨puts_none rfl, by simp⟩⟩
    · refine ⟨h1, h2, h3, _, .pull (by
        by_cases e : ss = 0
        · left; simpa [e] using hm
        · right; exact e), rfl, by simp only; rw [if_neg hm], rfl, rfl, rfl, rfl, rfl, fun m => ⟨puts_none rfl, by simp⟩⟩
  | plug a s ss m sm =>
    obtain ⟨h1, h2, h3, rfl⟩ := sendAlarm_some h
    exact ⟨h1, h2, h3, _, .plug, rfl, rfl, rfl, rfl, rfl, rfl, rfl, fun m => ⟨puts_none rfl, by simp⟩⟩
  | plugWrong a s ss m sm =>
    obtain ⟨h1, h2, h3, rfl⟩ := sendAlarm_some h
    exact ⟨h1, h2, h3, _, .plugWrong, rfl, rfl, rfl, rfl, rfl, rfl, rfl, fun m => ⟨puts_none rfl, by simp⟩⟩
  | released a s ss m sm =>
    obtain ⟨h1, h2, h3, rfl⟩ := sendAlarm_some h
    exact ⟨h1, h2, h3, _, .released, rfl, rfl, rfl, rfl, rfl, rfl, rfl, fun m => ⟨puts_none rfl, by simp⟩⟩

/-! ## C105 -/

/--
**C105** (partial).  For every configuration, connection, device and every way an alarm comes about: if the alarm is put in
the queue of outgoing alarms, it is the queue of the right priority, and whenever it is sent, on whatever alarm
connection with this priority, with whatever counters and diagnoses, the frame is complete and says exactly what was asked for:
addresses, VLAN priority, frame ID, references, alarm type, place, identification of module and submodule, sequence
number and specifier, and the data.

Missing: only the lower 16 bits of the identification of the submodule are sent
(`C105_submodule_ident_wrong`), and manufacturer diagnoses with identifier 0 (`Call.Ok`, `C105_identifier_zero_lost`).
-/
theorem C105_alarm_says_what_was_asked_partial {l : Lim} {c : Conn} {d : Dev} {call : Call} {p : Posted} (hl : l.maxPayload ≤ 1408)
    (hc : call.Ok) (h : ask l c d call = some p) :
    ∃ y, Means d c.pullModule call y ∧ p.high = y.high ∧
      ∀ (x : Apmx) (st : Diag.St) (ar seq : Nat) (s : ASpec) (m : U32), x.Wf → x.high = p.high →
        summary st ar (y.api, y.slot, y.subslot) = some (s, m) →
        notificationFrame x st ar seq p.alarm =
          some (encFrame x (encNotification { y with subIdent := y.subIdent % 65536 } seq s m)) := by
  obtain ⟨_, _, _, y, hy, h0, h1, h2, h3, h4, h5, h6, hu⟩ := ask_means hc h
  refine ⟨y, hy, h0, ?_⟩
  intro x st ar seq s m hx hxh hs
  unfold notificationFrame
  rw [h2, h3, h4, hs]
  simp only [Option.bind_some]
  have hn : x.notify = if y.high then 1 else 2 := by unfold Apmx.notify; rw [hxh, h0]
  rw [hn]
  refine bytesOf_puts (puts_frame (puts_notification (y := { y with subIdent := y.subIdent % 65536 }) rfl h1 h2 h3 h4 h5 h6 (hu m).1)) ?_
  have := (hu m).2
  rw [encFrame_length hx, encNotification_length]
  simp only
  omega

/-- **C105**: identifications below 65536 are sent as they are. -/
theorem C105_small_identifications {l : Lim} {c : Conn} {d : Dev} {call : Call} {p : Posted} (hl : l.maxPayload ≤ 1408)
    (hc : call.Ok) (h : ask l c d call = some p) {y : Says} (hy : Means d c.pullModule call y) (hs : y.subIdent < 65536) :
    p.high = y.high ∧
      ∀ (x : Apmx) (st : Diag.St) (ar seq : Nat) (s : ASpec) (m : U32), x.Wf → x.high = p.high →
        summary st ar (y.api, y.slot, y.subslot) = some (s, m) →
        notificationFrame x st ar seq p.alarm = some (encFrame x (encNotification y seq s m)) := by
  obtain ⟨z, hz, h0, h1⟩ := C105_alarm_says_what_was_asked_partial hl hc h
  cases means_unique hy hz
  refine ⟨h0, fun x st ar seq s m hx hxh hm => ?_⟩
  rw [h1 x st ar seq s m hx hxh hm, Nat.mod_eq_of_lt hs]

/-- **C105** (acceptance).  An alarm is put in the queue exactly if alarms are enabled, the place is plugged (process and
diagnosis alarms), the identifier of a process alarm is one of the manufacturer, and the length checks are passed. -/
theorem C105_accepted_iff {l : Lim} {c : Conn} {d : Dev} {call : Call} (hc : call.Ok) :
    ask l c d call ≠ none ↔ c.enabled = true ∧ (∃ y, Means d c.pullModule call y) ∧
      (∀ a s ss u b, call = .process a s ss u b → u < 0x8000) ∧ call.checked l ≤ l.maxPayload ∧ call.checked l ≤ c.maxData := by
  constructor
  · intro h
    obtain ⟨p, hp⟩ := Option.ne_none_iff_exists'.1 h
    obtain ⟨h1, h2, h3, y, hy, _⟩ := ask_means hc hp
    refine ⟨h1, ⟨y, hy⟩, ?_, h2, h3⟩
    rintro a s ss u b rfl
    simp only [ask, sendProcess] at hp
    split at hp
    · cases hp
    · omega
  · rintro ⟨h1, ⟨y, hy⟩, hu, h2, h3⟩
    cases hy with
    | process hpl =>
      obtain ⟨e1, e2⟩ := idents_eq hpl
      have := hu _ _ _ _ _ rfl
      simp only [ask, sendProcess, e1, e2]
      rw [if_neg (by omega)]
      exact sendAlarm_ne h1 h2 h3 (Or.inr (by simp))
    | manufacturer hpl =>
      obtain ⟨e1, e2⟩ := idents_eq hpl
      simp only [ask, sendDiagnosis, e1, e2]
      exact sendAlarm_ne h1 h2 h3 (Or.inr (by simp))
    | standard hpl =>
      obtain ⟨e1, e2⟩ := idents_eq hpl
      simp only [ask, sendDiagnosis, e1, e2]
      exact sendAlarm_ne h1 h2 h3 (Or.inr (by simp))
    | disappears hpl =>
      obtain ⟨e1, e2⟩ := idents_eq hpl
      simp only [ask, sendDisappears, e1, e2]
      exact sendAlarm_ne h1 h2 h3 (Or.inl rfl)
    | pullModule | pull =>
      simp only [ask, sendPull]
      exact sendAlarm_ne h1 h2 h3 (Or.inl rfl)
    | plug | plugWrong | released =>
      simp only [ask, sendPlug, sendPlugWrong, sendReleased]
      exact sendAlarm_ne h1 h2 h3 (Or.inl rfl)

theorem app_inj {a b c d : List Byte} (h : a ++ b = c ++ d) (hl : a.length = c.length) : a = c ∧ b = d := List.append_inj h hl

/-- Two notifications with the same bytes have the same identification of the submodule. -/
theorem encNotification_inj {y z : Says} {seq seq' : Nat} {s s' : ASpec} {m m' : U32} (hy : y.subIdent < 2 ^ 32)
    (hz : z.subIdent < 2 ^ 32) (h : encNotification y seq s m = encNotification z seq' s' m') : y.subIdent = z.subIdent := by
  unfold encNotification at h
  rw [encBlock_eq, encBlock_eq] at h
  have h := (app_inj h (by rw [lh, lh])).2
  simp only [List.append_assoc] at h
  have h := (app_inj h (by rw [num16_length, num16_length])).2
  have h := (app_inj h (by rw [num32_length, num32_length])).2
  have h := (app_inj h (by rw [num16_length, num16_length])).2
  have h := (app_inj h (by rw [num16_length, num16_length])).2
  have h := (app_inj h (by rw [num32_length, num32_length])).2
  have h := (app_inj h (by rw [num32_length, num32_length])).1
  have := congrArg BitVec.toNat (ConnRsp.enc32_inj h)
  simp only [BitVec.toNat_ofNat] at this
  rwa [Nat.mod_eq_of_lt hy, Nat.mod_eq_of_lt hz] at this

/-- The contents of a frame can be told from the frame. -/
theorem encFrame_inj {x : Apmx} {v w : List Byte} (h : encFrame x v = encFrame x w) : v = w := by
  unfold encFrame encRta at h
  simp only [List.append_assoc] at h
  have h := List.append_cancel_left (List.append_cancel_left h)
  have h := List.append_cancel_left (List.append_cancel_left h)
  have h := List.append_cancel_left (List.append_cancel_left h)
  have h := List.append_cancel_left (List.append_cancel_left h)
  have h := List.append_cancel_left (List.append_cancel_left h)
  have h := List.append_cancel_left h
  exact (app_inj h (by rw [num16_length, num16_length])).2

/--
**C105** is false for submodules whose identification does not fit in 16 bits: whatever alarm is sent for one, the frame is not
the one that says what was asked for, whatever sequence number, specifier and status one would expect.
-/
theorem C105_submodule_ident_wrong {l : Lim} {c : Conn} {d : Dev} {call : Call} {p : Posted} (hl : l.maxPayload ≤ 1408)
    (hc : call.Ok) (h : ask l c d call = some p) {y : Says} (hy : Means d c.pullModule call y) (hs : 65536 ≤ y.subIdent)
    (hs2 : y.subIdent < 2 ^ 32) (x : Apmx) (st : Diag.St) (ar seq : Nat) (hx : x.Wf) (hxh : x.high = p.high) (s : ASpec) (m : U32)
    (hm : summary st ar (y.api, y.slot, y.subslot) = some (s, m)) :
    ∀ seq' s' m', notificationFrame x st ar seq p.alarm ≠ some (encFrame x (encNotification y seq' s' m')) := by
  intro seq' s' m' he
  obtain ⟨z, hz, h0, h1⟩ := C105_alarm_says_what_was_asked_partial hl hc h
  cases means_unique hy hz
  rw [h1 x st ar seq s m hx hxh hm] at he
  have := encNotification_inj (by simp only; omega) hs2 (encFrame_inj (Option.some.inj he))
  simp only at this
  omega

/--
**C105** is false for manufacturer diagnoses with identifier 0, which `pnet_diag_usi_add` accepts: the alarm is accepted, and
neither identifier nor data are in the frame.
-/
theorem C105_identifier_zero_lost {l : Lim} {c : Conn} {d : Dev} (a s ss m sm : Nat) (i : Bool) (n : Nat) (b : List Nat)
    (hp : Plugged d (a, s, ss) m sm) (he : c.enabled = true) (h1 : b.length ≤ l.maxPayload) (h2 : b.length ≤ c.maxData) :
    ∃ p, ask l c d (.diagnosis a s ss ⟨i, 0, .manuf b, n⟩) = some p ∧
      ∀ (x : Apmx) (st : Diag.St) (ar seq : Nat) (sp : ASpec) (ms : U32), x.Wf → x.high = false →
        summary st ar (a, s, ss) = some (sp, ms) →
        notificationFrame x st ar seq p.alarm =
          some (encFrame x (encNotification ⟨false, 1, a, s, ss, m, sm % 65536, fun _ => []⟩ seq sp ms)) := by
  obtain ⟨e1, e2⟩ := idents_eq hp
  refine ⟨_, by simp only [ask, sendDiagnosis, e1, e2, diagType]; exact sendAlarm_eq he h1 h2 (Or.inr (by simp)), ?_⟩
  intro x st ar seq sp ms hx hxh hs
  unfold notificationFrame
  simp only
  rw [hs]
  simp only [Option.bind_some]
  have hn : x.notify = if false = true then 1 else 2 := by unfold Apmx.notify; rw [hxh]
  rw [hn]
  refine bytesOf_puts (puts_frame (puts_notification (y := ⟨false, 1, a, s, ss, m, sm % 65536, fun _ => []⟩) rfl rfl rfl rfl rfl rfl rfl
    (puts_none rfl))) ?_
  rw [encFrame_length hx, encNotification_length]
  simp

/-! ## C107 -/

/--
**C107** (partial).  Every alarm frame fits the frame buffer and a tagged Ethernet frame of 1518 bytes, and its length field
tells the length of the contents.

Missing: the limit the controller has set for the contents of an alarm is not kept (`C107_controller_limit_exceeded`).
-/
theorem C107_alarm_frames_fit_partial {l : Lim} {c : Conn} {d : Dev} {call : Call} {p : Posted} (hl : l.maxPayload ≤ 1408)
    (hc : call.Ok) (h : ask l c d call = some p) (x : Apmx) (st : Diag.St) (ar seq : Nat) (hx : x.Wf) (hxh : x.high = p.high)
    (s : ASpec) (m : U32) (hm : summary st ar (p.alarm.api, p.alarm.slot, p.alarm.subslot) = some (s, m)) :
    ∃ f, notificationFrame x st ar seq p.alarm = some f ∧ f.length ≤ 1500 ∧
      slice f 30 2 = some (num16 (f.length - 32)) := by
  obtain ⟨_, _, _, y, hy, h0, h1, h2, h3, h4, h5, h6, hu⟩ := ask_means hc h
  obtain ⟨z, hz, _, hf⟩ := C105_alarm_says_what_was_asked_partial hl hc h
  cases means_unique hy hz
  rw [h2, h3, h4] at hm
  have := (hu m).2
  refine ⟨_, hf x st ar seq s m hx hxh hm, ?_, ?_⟩
  · rw [encFrame_length hx, encNotification_length]
    simp only
    omega
  · generalize encNotification { y with subIdent := y.subIdent % 65536 } seq s m = v
    rw [encFrame_length hx, Nat.add_sub_cancel]
    have e : encFrame x v = (x.da ++ x.mac ++ [0x81, 0x00] ++ (if x.high then [0xC0, 0x00] else [0xA0, 0x00]) ++ [0x88, 0x92] ++
        (if x.high then [0xFC, 0x01] else [0xFE, 0x01]) ++ enc16 true x.dstRef ++ enc16 true x.srcRef ++ [0x11, 0x11] ++
        enc16 true x.sendSeq ++ enc16 true x.ackSeq) ++ (num16 v.length ++ v) := by
      unfold encFrame encRta
      simp only [List.append_assoc]
    have hlen : (x.da ++ x.mac ++ [0x81, 0x00] ++ (if x.high then [0xC0, 0x00] else [0xA0, 0x00]) ++ [0x88, 0x92] ++
        (if x.high then [0xFC, 0x01] else [0xFE, 0x01]) ++ enc16 true x.dstRef ++ enc16 true x.srcRef ++ [0x11, 0x11] ++
        enc16 true x.sendSeq ++ enc16 true x.ackSeq : List Byte).length = 30 := by
      cases x.high <;> simp [hx.1, hx.2, enc16_length]
    rw [e]
    generalize (x.da ++ x.mac ++ [0x81, 0x00] ++ (if x.high then [0xC0, 0x00] else [0xA0, 0x00]) ++ [0x88, 0x92] ++
        (if x.high then [0xFC, 0x01] else [0xFE, 0x01]) ++ enc16 true x.dstRef ++ enc16 true x.srcRef ++ [0x11, 0x11] ++
        enc16 true x.sendSeq ++ enc16 true x.ackSeq : List Byte) = pre at hlen
    rw [slice_eq_some (by simp only [List.length_append, hlen, num16_length]; omega)]
    congr 1
    rw [← hlen, List.drop_left, List.take_left' (num16_length _)]

/--
**C107** is false for the limit of the controller: for every limit and every plugged submodule, process alarms with data of
up to this length are accepted, and the contents of the frame are 28 bytes longer than the data.
-/
theorem C107_controller_limit_exceeded {l : Lim} {c : Conn} {d : Dev} (a s ss m sm u : Nat) (b : List Byte) (hl : l.maxPayload ≤ 1408)
    (hp : Plugged d (a, s, ss) m sm) (he : c.enabled = true) (hu : 0 < u ∧ u < 0x8000) (h1 : b.length ≤ l.maxPayload)
    (h2 : b.length ≤ c.maxData) (h3 : c.maxData < b.length + 28) :
    ∃ p, ask l c d (.process a s ss u b) = some p ∧
      ∀ (x : Apmx) (st : Diag.St) (ar seq : Nat) (sp : ASpec) (ms : U32), x.Wf → x.high = true →
        summary st ar (a, s, ss) = some (sp, ms) →
        ∃ v, notificationFrame x st ar seq p.alarm = some (encFrame x v) ∧ c.maxData < v.length := by
  have hne := (C105_accepted_iff (l := l) (c := c) (d := d) (call := .process a s ss u b) trivial).2
    ⟨he, ⟨_, .process hp⟩, by rintro _ _ _ _ _ ⟨⟩; exact hu.2, h1, h2⟩
  obtain ⟨p, hq⟩ := Option.ne_none_iff_exists'.1 hne
  refine ⟨p, hq, ?_⟩
  intro x st ar seq sp ms hx hxh hs
  obtain ⟨y, hy, h0, hf⟩ := C105_alarm_says_what_was_asked_partial (call := .process a s ss u b) hl trivial hq
  cases means_unique (.process hp) hy
  refine ⟨_, hf x st ar seq sp ms hx (by rw [hxh, h0]) hs, ?_⟩
  rw [encNotification_length]
  simp only
  rw [if_neg (by omega), List.length_append, num16_length]
  omega

/--
**C107**, the other way round: if the structure for diagnoses (whose size depends on the configured size of manufacturer
data) is larger than the limit of the controller, every alarm for a diagnosis in standard format is refused, although its
contents would be at most 58 bytes and controllers always allow 200.
-/
theorem C107_short_alarms_refused {l : Lim} {c : Conn} {d : Dev} (a s ss u n : Nat) (i : Bool) (z : Std) (h : c.maxData < l.itemSize) :
    ask l c d (.diagnosis a s ss ⟨i, u, .std z, n⟩) = none ∧
      ∀ y seq sp ms, Means d c.pullModule (.diagnosis a s ss ⟨i, u, .std z, n⟩) y → (encNotification y seq sp ms).length ≤ 58 := by
  constructor
  · simp only [ask, sendDiagnosis]
    split
    · rfl
    split
    · rfl
    · cases hr : sendAlarm l c (diagType ⟨i, u, .std z, n⟩) false a s ss _ _ u l.itemSize (some (.item ⟨i, u, .std z, n⟩)) with
      | none => rfl
      | some p =>
        obtain ⟨_, _, h3, _⟩ := sendAlarm_some hr
        omega
  · intro y seq sp ms hy
    cases hy with
    | standard h1 h2 =>
      rw [encNotification_length]
      have := encDiagnosis_length (m := ms) (u := u) (x := z)
      simp only
      omega

end Verif.AlarmPdu
