import Verif.Pdport.Ports
/-! What happens to one port of the device. -/
set_option linter.unusedSimpArgs false
set_option linter.unusedVariables false

namespace Verif.Pdport

open Verif.Wire

/-- One port of the device: the port, its file, whether the files are to be saved. -/
structure One where
  port : Port
  file : Option Saved
  saving : Bool

def Dev.one (d : Dev) (i : Nat) : Option One := (d.ports[i]?).map fun p => ⟨p, d.files.getD i none, d.saving⟩

/-- A written record changes the port. -/
def Port.written (e : Env) (k : Index) (data : List Byte) (p : Port) : Option (Option Port) :=
  match k with
  | .check => (parseCheck data).bind fun c =>
      match c with
      | some c => (runCheck e { p with check := some c }).map some
      | none => some none
  | .adjust => (parseAdjust data).map fun b => b.map fun b => sendAs e b { p with adjust := some b }
  | _ => some none

/-- One step for one of `n` ports, `i` counted from 0. -/
inductive One.Step (z : Nat) (e : Env) (n i : Nat) (o : One) : Ev → One → Prop where
  | frame {data net} : Lldp.recv z e.lldp o.port.net data = some net →
      Step z e n i o (.frame (i + 1) data) { o with port := { o.port with net := net } }
  | frameOther {port data} : port ≠ i + 1 → Step z e n i o (.frame port data) o
  | link {up} : Step z e n i o (.link (i + 1) up) { o with port := { o.port with net := Lldp.monitorLink up o.port.net } }
  | linkOther {port up} : port ≠ i + 1 → Step z e n i o (.link port up) o
  | periodic {p} : periodic e (tickTx e { o.port with net := Lldp.tickRx e.now o.port.net }) = some p →
      Step z e n i o .periodic { o with port := p }
  | write {slot subslot k data p} : subslotPort n subslot = i + 1 → o.port.written e k data = some (some p) →
      Step z e n i o (.write slot subslot k data) { o with port := p, saving := true }
  | writeRefused {slot subslot k data} : subslotPort n subslot = i + 1 → o.port.written e k data = some none →
      Step z e n i o (.write slot subslot k data) o
  | writeIntf {slot subslot data} : subslotPort n subslot = 0 →
      Step z e n i o (.write slot subslot .intf data) { o with port := restartTx e o.port }
  | writeOther {slot subslot k data s} : subslotPort n subslot ≠ i + 1 → (subslotPort n subslot = 0 → k ≠ .intf) →
      (o.saving = true → s = true) →
      Step z e n i o (.write slot subslot k data) { o with saving := s }
  | connect : Step z e n i o .connect { o with port := connectInd e (reset o.port), saving := true }
  | connected : Step z e n i o .connected { o with port := restartTx e o.port }
  | dcp : Step z e n i o .dcp { o with port := restartTx e o.port }
  | factoryReset : Step z e n i o .factoryReset { o with port := reset o.port, saving := true }
  | saveOff : o.saving = false → Step z e n i o .save o
  | save : o.saving = true → Step z e n i o .save { o with file := some (o.port.check, o.port.adjust), saving := false }
  | restart : Step z e n i o .restart ⟨load e z o.file, some (o.file.getD (none, none)), false⟩

theorem mapAll_get {f : Port → Option Port} : ∀ {l l' : List Port}, mapAll f l = some l' →
    l'.length = l.length ∧ ∀ (i : Nat) (p : Port), l[i]? = some p → ∃ p', f p = some p' ∧ l'[i]? = some p' := by
  intro l
  induction l with
  | nil => intro l' h; cases h; exact ⟨rfl, fun i p h => nomatch h⟩
  | cons q l ih =>
    intro l' h
    unfold mapAll at h
    cases hq : f q with
    | none => rw [hq] at h; cases h
    | some q' =>
      rw [hq, Option.bind_some] at h
      cases hl : mapAll f l with
      | none => rw [hl] at h; cases h
      | some r =>
        rw [hl, Option.map_some] at h
        cases h
        obtain ⟨h1, h2⟩ := ih hl
        refine ⟨by simp [h1], fun i p hi => ?_⟩
        cases i with
        | zero => cases hi; exact ⟨q', hq, rfl⟩
        | succ i => exact h2 i p hi

theorem forAll_get {d d' : Dev} {f : Port → Option Port} (h : d.forAll f = some d') :
    d'.ports.length = d.ports.length ∧ d'.files = d.files ∧ d'.saving = d.saving ∧
    ∀ (i : Nat) (p : Port), d.ports[i]? = some p → ∃ p', f p = some p' ∧ d'.ports[i]? = some p' := by
  rw [forAll_eq] at h
  cases hm : mapAll f d.ports with
  | none => rw [hm] at h; cases h
  | some l =>
    rw [hm, Option.map_some] at h
    cases h
    obtain ⟨h1, h2⟩ := mapAll_get hm
    exact ⟨h1, rfl, rfl, h2⟩

theorem onPort_get {d d' : Dev} {port : Nat} {f : Port → Option Port} (h : d.onPort port f = some d') :
    d'.ports.length = d.ports.length ∧ d'.files = d.files ∧ d'.saving = d.saving ∧
    ∀ (i : Nat) (p : Port), d.ports[i]? = some p → if port = i + 1 then ∃ p', f p = some p' ∧ d'.ports[i]? = some p' else d'.ports[i]? = some p := by
  unfold Dev.onPort at h
  split at h
  · rename_i hv
    have hv : 0 < port := by simp [isValid] at hv; omega
    cases hp : d.ports[port - 1]? with
    | none => rw [hp] at h; cases h
    | some q =>
      rw [hp, Option.bind_some] at h
      cases hf : f q with
      | none => rw [hf] at h; cases h
      | some q' =>
        rw [hf, Option.map_some] at h
        cases h
        refine ⟨by simp, rfl, rfl, fun i p hi => ?_⟩
        have hlt : i < d.ports.length := (List.getElem?_eq_some_iff.1 hi).1
        split
        · rename_i hip
          subst hip
          simp only [Nat.add_sub_cancel] at hp ⊢
          rw [hp] at hi; cases hi
          exact ⟨q', hf, by rw [List.getElem?_set_self hlt]⟩
        · rw [List.getElem?_set_ne (by omega)]
          exact hi
  · cases h

theorem getD_of {α} {l : List α} {a b : α} {i : Nat} (h : l[i]? = some a) : l.getD i b = a := by simp [List.getD, h]

theorem set_get {d : Dev} {port : Nat} {q : Port} (hq : d.ports[port - 1]? = some q) (h0 : 0 < port) (p' : Port) {i : Nat} {p : Port}
    (hi : d.ports[i]? = some p) :
    (port = i + 1 → p = q ∧ (d.ports.set (port - 1) p')[i]? = some p') ∧
    (port ≠ i + 1 → (d.ports.set (port - 1) p')[i]? = some p) := by
  have hlt : i < d.ports.length := (List.getElem?_eq_some_iff.1 hi).1
  constructor
  · intro h
    subst h
    simp only [Nat.add_sub_cancel] at hq ⊢
    rw [hq] at hi
    cases hi
    exact ⟨rfl, by rw [List.getElem?_set_self hlt]⟩
  · intro h
    rw [List.getElem?_set_ne (by omega)]
    exact hi

theorem write_get {e : Env} {slot subslot : U16} {k : Index} {data : List Byte} {d d' : Dev} {r : Bool}
    (h : write e slot subslot k data d = some (r, d')) :
    d'.ports.length = d.ports.length ∧ d'.files = d.files ∧
    ∀ (i : Nat) (p : Port), d.ports[i]? = some p →
      (subslotPort d.ports.length subslot = i + 1 →
        (∃ p', p.written e k data = some (some p') ∧ d'.ports[i]? = some p' ∧ d'.saving = true ∧ r = true) ∨
        (p.written e k data = some none ∧ d' = d ∧ r = false)) ∧
      (subslotPort d.ports.length subslot = 0 → k = .intf → d'.ports[i]? = some (restartTx e p) ∧ d'.saving = d.saving) ∧
      (subslotPort d.ports.length subslot ≠ i + 1 → (subslotPort d.ports.length subslot = 0 → k ≠ .intf) →
        d'.ports[i]? = some p ∧ (d.saving = true → d'.saving = true)) := by
  unfold write at h
  simp only at h
  obtain ⟨n, hn⟩ : ∃ n, n = subslotPort d.ports.length subslot := ⟨_, rfl⟩
  rw [← hn] at h ⊢
  split at h
  · rename_i hpos
    cases k with
    | check =>
      simp only at h
      cases hc : parseCheck data with
      | none => rw [hc] at h; cases h
      | some c =>
        rw [hc, Option.bind_some] at h
        cases c with
        | none =>
          cases h
          exact ⟨rfl, rfl, fun i p hi => ⟨fun _ => .inr ⟨by simp [Port.written, hc], rfl, rfl⟩, fun a => by omega,
            fun _ _ => ⟨hi, id⟩⟩⟩
        | some c =>
          simp only at h
          cases hq : d.ports[n - 1]? with
          | none => rw [hq] at h; cases h
          | some q =>
            rw [hq, Option.bind_some] at h
            cases hr : runCheck e { q with check := some c } with
            | none => rw [hr] at h; cases h
            | some q' =>
              rw [hr, Option.map_some] at h
              cases h
              refine ⟨by simp, rfl, fun i p hi => ?_⟩
              obtain ⟨s1, s2⟩ := set_get hq hpos q' hi
              refine ⟨fun a => .inl ?_, fun a => by omega, fun a _ => ⟨s2 a, fun _ => rfl⟩⟩
              obtain ⟨s3, s4⟩ := s1 a
              subst s3
              exact ⟨q', by simp [Port.written, hc, hr], s4, rfl, rfl⟩
    | adjust =>
      simp only at h
      cases hc : parseAdjust data with
      | none => rw [hc] at h; cases h
      | some c =>
        rw [hc, Option.bind_some] at h
        cases c with
        | none =>
          cases h
          exact ⟨rfl, rfl, fun i p hi => ⟨fun _ => .inr ⟨by simp [Port.written, hc], rfl, rfl⟩, fun a => by omega,
            fun _ _ => ⟨hi, id⟩⟩⟩
        | some c =>
          simp only at h
          cases hq : d.ports[n - 1]? with
          | none => rw [hq] at h; cases h
          | some q =>
            rw [hq, Option.map_some] at h
            cases h
            refine ⟨by simp, rfl, fun i p hi => ?_⟩
            obtain ⟨s1, s2⟩ := set_get hq hpos (sendAs e c { q with adjust := some c }) hi
            refine ⟨fun a => .inl ?_, fun a => by omega, fun a _ => ⟨s2 a, fun _ => rfl⟩⟩
            obtain ⟨s3, s4⟩ := s1 a
            subst s3
            exact ⟨_, by simp [Port.written, hc], s4, rfl, rfl⟩
    | intf =>
      cases h
      exact ⟨rfl, rfl, fun i p hi => ⟨fun _ => .inr ⟨rfl, rfl, rfl⟩, fun a => by omega, fun _ _ => ⟨hi, id⟩⟩⟩
    | other =>
      cases h
      exact ⟨rfl, rfl, fun i p hi => ⟨fun _ => .inr ⟨rfl, rfl, rfl⟩, fun a => by omega, fun _ _ => ⟨hi, id⟩⟩⟩
  · rename_i hpos
    have h0 : n = 0 := by omega
    have other : ∀ {k : Index}, k ≠ .intf → some (false, d) = some (r, d') →
        d'.ports.length = d.ports.length ∧ d'.files = d.files ∧ ∀ (i : Nat) (p : Port), d.ports[i]? = some p →
          (n = i + 1 → (∃ p', p.written e k data = some (some p') ∧ d'.ports[i]? = some p' ∧ d'.saving = true ∧ r = true) ∨
            (p.written e k data = some none ∧ d' = d ∧ r = false)) ∧
          (n = 0 → k = .intf → d'.ports[i]? = some (restartTx e p) ∧ d'.saving = d.saving) ∧
          (n ≠ i + 1 → (n = 0 → k ≠ .intf) → d'.ports[i]? = some p ∧ (d.saving = true → d'.saving = true)) := by
      intro k hk h
      cases h
      exact ⟨rfl, rfl, fun i p hi => ⟨fun a => by omega, fun _ a => absurd a hk, fun _ _ => ⟨hi, id⟩⟩⟩
    cases k with
    | intf =>
      simp only at h
      cases hg : getIntfAdjust (atData data) with
      | none => rw [hg] at h; cases h
      | some m =>
        rw [hg, Option.bind_some] at h
        cases hf : ({ d with standard := m.1, modeActive := true } : Dev).forAll (fun p => some (restartTx e p)) with
        | none => rw [hf] at h; cases h
        | some d1 =>
          rw [hf, Option.map_some] at h
          cases h
          obtain ⟨a1, a2, a3, a4⟩ := forAll_get hf
          refine ⟨a1, a2, fun i p hi => ⟨fun a => by omega, fun _ _ => ?_, fun _ a => absurd rfl (a h0)⟩⟩
          obtain ⟨p', b1, b2⟩ := a4 i p hi
          cases b1
          exact ⟨b2, a3⟩
    | check => exact other (by decide) h
    | adjust => exact other (by decide) h
    | other => exact other (by decide) h

/-- A step of the device is a step of each port. -/
theorem step_one {z : Nat} {e : Env} {d d' : Dev} {ev : Ev} (h : step z e d ev = some d') :
    d'.ports.length = d.ports.length ∧
    ∀ i o, d.one i = some o → ∃ o', d'.one i = some o' ∧ One.Step z e d.ports.length i o ev o' := by
  have get : ∀ {i o}, d.one i = some o → d.ports[i]? = some o.port ∧ o.file = d.files.getD i none ∧ o.saving = d.saving := by
    intro i o ho
    unfold Dev.one at ho
    cases hp : d.ports[i]? with
    | none => rw [hp] at ho; cases ho
    | some p => rw [hp, Option.map_some] at ho; cases ho; exact ⟨rfl, rfl, rfl⟩
  have put : ∀ {i : Nat} {o : One}, d'.ports[i]? = some o.port → o.file = d'.files.getD i none → o.saving = d'.saving →
      d'.one i = some o := by
    intro i o h1 h2 h3
    unfold Dev.one
    rw [h1, Option.map_some, ← h2, ← h3]
  cases ev with
  | frame port data =>
    obtain ⟨h1, h2, h3, h4⟩ := onPort_get h
    refine ⟨h1, fun i o ho => ?_⟩
    obtain ⟨g1, g2, g3⟩ := get ho
    have h5 := h4 i _ g1
    by_cases hp : port = i + 1
    · subst hp
      rw [if_pos rfl] at h5
      obtain ⟨p', k1, k2⟩ := h5
      cases hr : Lldp.recv z e.lldp o.port.net data with
      | none => rw [hr] at k1; cases k1
      | some net =>
        rw [hr, Option.map_some] at k1
        cases k1
        exact ⟨_, put k2 (by rw [h2]; exact g2) (by rw [h3]; exact g3), .frame hr⟩
    · rw [if_neg hp] at h5
      exact ⟨o, put h5 (by rw [h2]; exact g2) (by rw [h3]; exact g3), .frameOther hp⟩
  | link port up =>
    obtain ⟨h1, h2, h3, h4⟩ := onPort_get h
    refine ⟨h1, fun i o ho => ?_⟩
    obtain ⟨g1, g2, g3⟩ := get ho
    have h5 := h4 i _ g1
    by_cases hp : port = i + 1
    · subst hp
      rw [if_pos rfl] at h5
      obtain ⟨p', k1, k2⟩ := h5
      cases k1
      exact ⟨_, put k2 (by rw [h2]; exact g2) (by rw [h3]; exact g3), .link⟩
    · rw [if_neg hp] at h5
      exact ⟨o, put h5 (by rw [h2]; exact g2) (by rw [h3]; exact g3), .linkOther hp⟩
  | periodic =>
    unfold step at h
    cases hd : d.forAll (fun p => some (tickTx e { p with net := Lldp.tickRx e.now p.net })) with
    | none => rw [hd] at h; cases h
    | some d1 =>
      rw [hd, Option.bind_some] at h
      obtain ⟨a1, a2, a3, a4⟩ := forAll_get hd
      obtain ⟨h1, h2, h3, h4⟩ := forAll_get h
      refine ⟨h1.trans a1, fun i o ho => ?_⟩
      obtain ⟨g1, g2, g3⟩ := get ho
      obtain ⟨p1, k1, k2⟩ := a4 i _ g1
      cases k1
      obtain ⟨p2, k3, k4⟩ := h4 i _ k2
      exact ⟨{ o with port := p2 }, put k4 (by rw [h2, a2]; exact g2) (by rw [h3, a3]; exact g3), .periodic k3⟩
  | write slot subslot k data =>
    simp only [step] at h
    cases hw : write e slot subslot k data d with
    | none => rw [hw] at h; cases h
    | some x =>
      obtain ⟨r, d1⟩ := x
      rw [hw, Option.map_some] at h
      cases h
      obtain ⟨h1, h2, h3⟩ := write_get hw
      refine ⟨h1, fun i o ho => ?_⟩
      obtain ⟨g1, g2, g3⟩ := get ho
      obtain ⟨k1, k2, k3⟩ := h3 i _ g1
      by_cases hi : subslotPort d.ports.length subslot = i + 1
      · rcases k1 hi with ⟨p', m1, m2, m3, _⟩ | ⟨m1, m2, _⟩
        · exact ⟨_, put (o := { o with port := p', saving := true }) m2 (by rw [h2]; exact g2) m3.symm, .write hi m1⟩
        · exact ⟨o, by rw [m2]; exact ho, .writeRefused hi m1⟩
      · by_cases h0 : subslotPort d.ports.length subslot = 0 ∧ k = .intf
        · obtain ⟨h0, rfl⟩ := h0
          obtain ⟨m1, m2⟩ := k2 h0 rfl
          exact ⟨_, put (o := { o with port := restartTx e o.port }) m1 (by rw [h2]; exact g2) (by rw [m2]; exact g3), .writeIntf h0⟩
        · obtain ⟨m1, m2⟩ := k3 hi fun a b => h0 ⟨a, b⟩
          exact ⟨_, put (o := { o with saving := d1.saving }) m1 (by rw [h2]; exact g2) rfl,
            .writeOther hi (fun a b => h0 ⟨a, b⟩) (by rw [g3]; exact m2)⟩
  | connect =>
    unfold step at h
    cases hd : d.forAll (fun p => some (reset p)) with
    | none => rw [hd] at h; cases h
    | some d1 =>
      rw [hd, Option.bind_some] at h
      obtain ⟨a1, a2, a3, a4⟩ := forAll_get hd
      obtain ⟨h1, h2, h3, h4⟩ := forAll_get h
      refine ⟨h1.trans a1, fun i o ho => ?_⟩
      obtain ⟨g1, g2, g3⟩ := get ho
      obtain ⟨p1, k1, k2⟩ := a4 i _ g1
      cases k1
      obtain ⟨p2, k3, k4⟩ := h4 i _ k2
      cases k3
      exact ⟨_, put k4 (by rw [h2]; show _ = d1.files.getD i none; rw [a2]; exact g2) (by rw [h3]), .connect⟩
  | connected =>
    obtain ⟨h1, h2, h3, h4⟩ := forAll_get h
    refine ⟨h1, fun i o ho => ?_⟩
    obtain ⟨g1, g2, g3⟩ := get ho
    obtain ⟨p1, k1, k2⟩ := h4 i _ g1
    cases k1
    exact ⟨_, put k2 (by rw [h2]; exact g2) (by rw [h3]; exact g3), .connected⟩
  | dcp =>
    obtain ⟨h1, h2, h3, h4⟩ := forAll_get h
    refine ⟨h1, fun i o ho => ?_⟩
    obtain ⟨g1, g2, g3⟩ := get ho
    obtain ⟨p1, k1, k2⟩ := h4 i _ g1
    cases k1
    exact ⟨_, put k2 (by rw [h2]; exact g2) (by rw [h3]; exact g3), .dcp⟩
  | factoryReset =>
    unfold step at h
    cases hd : d.forAll (fun p => some (reset p)) with
    | none => rw [hd] at h; cases h
    | some d1 =>
      rw [hd, Option.map_some] at h
      cases h
      obtain ⟨a1, a2, a3, a4⟩ := forAll_get hd
      refine ⟨a1, fun i o ho => ?_⟩
      obtain ⟨g1, g2, g3⟩ := get ho
      obtain ⟨p1, k1, k2⟩ := a4 i _ g1
      cases k1
      exact ⟨_, put k2 (by show _ = d1.files.getD i none; rw [a2]; exact g2) rfl, .factoryReset⟩
  | save =>
    simp only [step] at h
    split at h
    · rename_i hs
      split at h
      · cases h
        refine ⟨rfl, fun i o ho => ?_⟩
        obtain ⟨g1, g2, g3⟩ := get ho
        exact ⟨_, put (o := { o with file := some (o.port.check, o.port.adjust), saving := false }) g1
          (by symm; apply getD_of; rw [List.getElem?_map, g1]; rfl) rfl, .save (by rw [g3]; exact hs)⟩
      · cases h
    · rename_i hs
      cases h
      refine ⟨rfl, fun i o ho => ?_⟩
      obtain ⟨g1, g2, g3⟩ := get ho
      exact ⟨o, ho, .saveOff (by rw [g3]; simpa using hs)⟩
  | restart =>
    simp only [step] at h
    split at h
    · cases h
      refine ⟨by simp, fun i o ho => ?_⟩
      obtain ⟨g1, g2, g3⟩ := get ho
      have hlt : i < d.ports.length := (List.getElem?_eq_some_iff.1 g1).1
      exact ⟨_, put (o := ⟨load e z o.file, some (o.file.getD (none, none)), false⟩)
        (by simp [hlt, g2]) (by symm; apply getD_of; simp [hlt, g2]) rfl, .restart⟩
    · cases h

/-- The history of one port. -/
inductive One.Run (z n i : Nat) : One → List (Env × Ev) → One → Prop where
  | nil {o} : Run z n i o [] o
  | cons {o o1 o2 x l} : One.Step z x.1 n i o x.2 o1 → Run z n i o1 l o2 → Run z n i o (x :: l) o2

theorem run_one {z : Nat} : ∀ {es : List (Env × Ev)} {d d' : Dev}, run z d es = some d' →
    d'.ports.length = d.ports.length ∧
    ∀ i o, d.one i = some o → ∃ o', d'.one i = some o' ∧ One.Run z d.ports.length i o es o' := by
  intro es
  induction es with
  | nil => intro d d' h; cases h; exact ⟨rfl, fun i o ho => ⟨o, ho, .nil⟩⟩
  | cons x es ih =>
    intro d d' h
    unfold run at h
    cases hs : step z x.1 d x.2 with
    | none => rw [hs] at h; cases h
    | some d1 =>
      rw [hs, Option.bind_some] at h
      obtain ⟨a1, a2⟩ := step_one hs
      obtain ⟨b1, b2⟩ := ih h
      refine ⟨b1.trans a1, fun i o ho => ?_⟩
      obtain ⟨o1, c1, c2⟩ := a2 i o ho
      obtain ⟨o2, c3, c4⟩ := b2 i o1 c1
      rw [a1] at c4
      exact ⟨o2, c3, .cons c2 c4⟩

/-- An invariant of one port. -/
theorem One.Run.induct {z n i : Nat} {P : One → Prop} {ok : Env × Ev → Prop}
    (hs : ∀ x o o', ok x → P o → One.Step z x.1 n i o x.2 o' → P o') :
    ∀ {es : List (Env × Ev)} {o o' : One}, One.Run z n i o es o' → (∀ x ∈ es, ok x) → P o → P o' := by
  intro es o o' h
  induction h with
  | nil => intro _ h; exact h
  | cons h1 h2 ih =>
    intro hok hp
    exact ih (fun x hx => hok x (by simp [hx])) (hs _ _ _ (hok _ (by simp)) hp h1)

theorem One.Run.split {z n i : Nat} {es fs : List (Env × Ev)} {o o' : One} (h : One.Run z n i o (es ++ fs) o') :
    ∃ o1, One.Run z n i o es o1 ∧ One.Run z n i o1 fs o' := by
  induction es generalizing o with
  | nil => exact ⟨o, .nil, h⟩
  | cons x es ih =>
    cases h with
    | cons h1 h2 =>
      obtain ⟨o1, k1, k2⟩ := ih h2
      exact ⟨o1, .cons h1 k1, k2⟩

theorem one_of_port {d : Dev} {i : Nat} {p : Port} (h : d.ports[i]? = some p) : d.one i = some ⟨p, d.files.getD i none, d.saving⟩ := by
  unfold Dev.one; rw [h]; rfl

theorem port_of_one {d : Dev} {i : Nat} {o : One} (h : d.one i = some o) : d.ports[i]? = some o.port ∧ o.file = d.files.getD i none ∧
    o.saving = d.saving := by
  unfold Dev.one at h
  cases hp : d.ports[i]? with
  | none => rw [hp] at h; cases h
  | some p => rw [hp, Option.map_some] at h; cases h; exact ⟨rfl, rfl, rfl⟩

end Verif.Pdport
