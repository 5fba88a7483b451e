import Verif.Control.Lemmas

/-! Properties of release, DControl and CControl messages. -/
set_option linter.unusedVariables false
set_option linter.unusedSimpArgs false

namespace Verif.Control
open Verif.Wire
open Verif.DiagRead (skip emits_skip)
open Verif.Read (Result setError putNdr Fit Appends Within noResult)

variable {A : Type}

/-! ## C113: release -/

/-- The message asks to release the connection `a`. -/
def Releases (e : Env A) (r : Rd) (c : Control) (a : A) : Prop :=
  Message r 0x0114 c ∧ c.command = 4 ∧ e.find c.uuid = some a

theorem release_command : release.command = 4 := by decide
theorem dcontrol_command : dcontrol.command = 1 := by decide
theorem ccontrol_command : ccontrol.command = 8 := by decide

/-- A release request is carried out exactly if it is one complete release block with the command "release" for an existing
connection.  Then this connection is released, and no other.  The answer repeats the request, with the command "done", and the status is
that of the release.  All other requests change nothing and are answered with an error. -/
theorem C113_release (e : Env A) (ndr : Ndr) {r : Rd} (hr : Fit r) {w : Wr} (hw : Read.Ready w) (room : w.pos + 52 ≤ w.cap) :
    ∃ w' acts s, releaseInd e ndr noResult r w = some (w', acts, s) ∧
      ((∃ c a, Releases e r c a ∧ acts = [.release a] ∧ s = (e.released a noResult).status ∧
          Appends w w' (encAnswer ndr s (encDone 0x8114 c))) ∨
        ((¬∃ c a, Releases e r c a) ∧ acts = [] ∧ s.code ≠ 0 ∧
          ((∃ c, Message r 0x0114 c ∧ c.command = 4) → s = ⟨0xDC, 0x81, 0x40, 5⟩) ∧
          Appends w w' (encAnswer ndr s (encDone 0x8114 nilControl)))) := by
  have hnil : nilControl.uuid.d4.length = 8 := rfl
  obtain ⟨w1, n1, e1, h1, m1, o1, k1⟩ := answer_at ndr noResult.status (emits_control 0x8114 hnil) hw
  have hz : noResult.status.code = 0 := rfl
  rw [if_pos hz] at k1
  rw [encDone_length _ hnil] at k1
  obtain ⟨hlen, a1⟩ := k1 (by omega)
  obtain ⟨x, ex, hok, hbad⟩ := interpret_spec release n1.argsLen (c := done nilControl) (by decide) noResult hr
  unfold releaseInd
  rw [e1, Option.bind_some]
  simp only
  rw [if_neg (by simp [hz]), ex, Option.bind_some]
  by_cases c1 : x.ok = true
  · rw [if_pos c1]
    obtain ⟨f1, f2, f3, f4, f5⟩ := hok c1
    have hm := message_of_contains (by omega) f5
    have ht : x.type = 0x0114 := by simpa [release] using f4
    rw [ht] at hm
    have hu := wf_of_contains f5
    cases hf : e.find x.ctl.uuid with
    | some a =>
      simp only
      obtain ⟨w2, n2, e2, h2, m2, o2, k2⟩ := answer_at n1 x.res.status (emits_control 0x8114 hu)
        (w := { w1 with pos := w.pos }) ⟨by have := hw.1; have := h1.1; have := h1.2.1; simp only; omega, by have := hw.2.1; have := h1.1; simp only; omega,
          by have := hw.2.2; have := h1.1; simp only; omega⟩
      rw [e2, Option.bind_some]
      simp only
      rw [if_pos (by rw [f1]; exact hz), encDone_length _ hu] at k2
      obtain ⟨_, a2⟩ := k2 (by have := h1.1; simp only; omega)
      have hpos : w2.pos = w1.pos := by
        have g1 := a1.2.2.1
        have g2 := a2.2.2.1
        rw [encAnswer_length, encDone_length _ hnil] at g1
        rw [encAnswer_length, encDone_length _ hu] at g2
        simp only at g2
        omega
      have h12 : Within w w2 := by
        obtain ⟨p1, p2, p3, p4, p5⟩ := h1
        obtain ⟨q1, q2, q3, q4, q5⟩ := h2
        simp only at q1 q2 q3 q4 q5
        exact ⟨by omega, by omega, by omega, by omega, fun i hi => by rw [q5 i (by omega), p5 i hi]⟩
      have a12 : Appends w w2 (encAnswer ndr x.res.status (encDone 0x8114 x.ctl)) := by
        obtain ⟨q1, q2, q3, q4, q5⟩ := a2
        obtain ⟨p1, p2, p3, p4, p5⟩ := h1
        have henc : encAnswer n1 x.res.status (encDone 0x8114 x.ctl) = encAnswer ndr x.res.status (encDone 0x8114 x.ctl) := by
          unfold encAnswer; rw [m1, o1]
        rw [henc] at q3 q4
        simp only at q1 q2 q3 q4 q5
        exact ⟨by omega, by omega, q3, q4, fun i hi => by rw [q5 i (by omega), p5 i hi]⟩
      obtain ⟨w3, e3, h3, k3⟩ := restatus ndr x.res.status (e.released a x.res).status (encDone 0x8114 x.ctl) hw h12
      rw [e3]
      refine ⟨_, _, _, rfl, Or.inl ⟨x.ctl, a, ⟨hm, f2.trans release_command, hf⟩, rfl, by rw [f1], ?_⟩⟩
      have := k3 a12
      rw [hpos] at this
      exact this
    | none =>
      simp only
      obtain ⟨w3, e3, h3, k3⟩ := restatus ndr noResult.status (noAr 0xDC) (encDone 0x8114 nilControl) hw h1
      rw [e3]
      refine ⟨_, _, _, rfl, Or.inr ⟨?_, rfl, by decide, fun _ => rfl, ?_⟩⟩
      · rintro ⟨c, a, hm', hc, hf'⟩
        have := interpret_message release hlen (done nilControl) noResult hr hm' (by decide) (hc.trans release_command.symm)
        rw [ex] at this
        cases this
        rw [hf] at hf'
        cases hf'
      · exact k3 a1
  · rw [if_neg c1]
    have hx : x.ok = false := by simpa using c1
    obtain ⟨w3, e3, h3, k3⟩ := restatus ndr noResult.status x.res.status (encDone 0x8114 nilControl) hw h1
    rw [e3]
    have hno : ¬∃ c, Message r 0x0114 c ∧ c.command = 4 := by
      rintro ⟨c, hm', hc⟩
      have := interpret_message release hlen (done nilControl) noResult hr hm' (by decide) (hc.trans release_command.symm)
      rw [ex] at this
      cases this
      cases hx
    refine ⟨_, _, _, rfl, Or.inr ⟨?_, rfl, ?_, fun h => absurd h hno, ?_⟩⟩
    · rintro ⟨c, a, hm', hc, hf'⟩
      exact hno ⟨c, hm', hc⟩
    · have := hbad hx
      revert this
      generalize x.res.status = s
      simp only [release, List.mem_cons, List.not_mem_nil, or_false]
      rintro (rfl | rfl | rfl | rfl) <;> decide
    · exact k3 a1

/-- Whatever the message and the room for the answer, a release request is answered within the buffer. -/
theorem C113_release_safe (e : Env A) (ndr : Ndr) (res : Result) {r : Rd} (hr : Fit r) {w : Wr} (hw : Read.Ready w) :
    ∃ w' acts s, releaseInd e ndr res r w = some (w', acts, s) ∧ Within w w' := by
  have hnil : nilControl.uuid.d4.length = 8 := rfl
  obtain ⟨w1, n1, e1, h1, m1, o1, k1⟩ := answer_at ndr res.status (emits_control 0x8114 hnil) hw
  have hput : ∀ (s : Status) (x : Wr), Within w x → ∃ y, putStatus true s { x with pos := w.pos } = some y ∧ Within w { y with pos := w1.pos } := by
    intro s x hx
    obtain ⟨y, e2, h2, _⟩ := restatus ndr s s [] hw hx
    obtain ⟨g1, g2, g3, g4, g5⟩ := h2
    exact ⟨y, e2, g1, g2, h1.2.2.1, h1.2.2.2.1, g5⟩
  unfold releaseInd
  rw [e1, Option.bind_some]
  simp only
  by_cases c0 : res.status.code ≠ 0
  · rw [if_pos c0]
    obtain ⟨y, e2, h2⟩ := hput conflict w1 h1
    rw [e2]
    exact ⟨_, _, _, rfl, h2⟩
  · rw [if_neg c0]
    obtain ⟨x, ex, hok, hbad⟩ := interpret_spec release n1.argsLen (c := done nilControl) (by decide) res hr
    rw [ex, Option.bind_some]
    by_cases c1 : x.ok = true
    · rw [if_pos c1]
      obtain ⟨f1, f2, f3, f4, f5⟩ := hok c1
      cases hf : e.find x.ctl.uuid with
      | some a =>
        simp only
        obtain ⟨w2, n2, e2, h2, _⟩ := answer_at n1 x.res.status (emits_control 0x8114 (wf_of_contains f5))
          (w := { w1 with pos := w.pos }) ⟨by have := hw.1; have := h1.1; have := h1.2.1; simp only; omega, by have := hw.2.1; have := h1.1; simp only; omega,
            by have := hw.2.2; have := h1.1; simp only; omega⟩
        rw [e2, Option.bind_some]
        simp only
        obtain ⟨y, e3, h3⟩ := hput (e.released a x.res).status w2 (by
          obtain ⟨p1, p2, p3, p4, p5⟩ := h1
          obtain ⟨q1, q2, q3, q4, q5⟩ := h2
          simp only at q1 q2 q3 q4 q5
          exact ⟨by omega, by omega, by omega, by omega, fun i hi => by rw [q5 i (by omega), p5 i hi]⟩)
        rw [e3]
        exact ⟨_, _, _, rfl, h3⟩
      | none =>
        simp only
        obtain ⟨y, e2, h2⟩ := hput (noAr 0xDC) w1 h1
        rw [e2]
        exact ⟨_, _, _, rfl, h2⟩
    · rw [if_neg c1]
      obtain ⟨y, e2, h2⟩ := hput x.res.status w1 h1
      rw [e2]
      exact ⟨_, _, _, rfl, h2⟩

/-! ## C115: parameter end -/

/-- The message asks for the end of parameterisation: the length is the one announced, and there is a block of one of the three types with the command
"parameter end". -/
def Asks (ndr : Ndr) (r : Rd) (t : U16) (c : Control) : Prop :=
  (t = 0x0110 ∨ t = 0x0111 ∨ t = 0x0118) ∧ c.command = 1 ∧ ndr.argsLen.toNat = r.len - r.pos ∧ Contains r t c

/-- Type of the block in the answer. -/
def rspType (t : U16) : U16 := if t = 0x0111 then 0x8111 else 0x8110

/-- What is called, and its result (`none`: the connection is aborted and the session of the request with it). -/
def call (e : Env A) (t : U16) (c : Control) (a : A) : Act A × Option Result :=
  if t = 0x0111 then (.plugEnd a, some (e.plugEnd a noResult)) else (.prmEnd a c, e.prmEnd a c noResult)

theorem asks_types {t : U16} : t ∈ dcontrol.types ↔ (t = 0x0110 ∨ t = 0x0111 ∨ t = 0x0118) := by
  simp only [dcontrol, List.mem_cons, List.not_mem_nil, or_false]
  constructor
  · rintro (h | h | h)
    · exact Or.inr (Or.inr h)
    · exact Or.inl h
    · exact Or.inr (Or.inl h)
  · rintro (h | h | h)
    · exact Or.inr (Or.inl h)
    · exact Or.inr (Or.inr h)
    · exact Or.inl h

theorem asks_inv {x : Acc} {ndr : Ndr} {r : Rd} {res : Result}
    (h : x.res = res ∧ x.ctl.command = dcontrol.command ∧ ndr.argsLen.toNat = r.len - r.pos ∧ x.type ∈ dcontrol.types ∧ Contains r x.type x.ctl) :
    Asks ndr r x.type x.ctl := ⟨asks_types.mp h.2.2.2.1, h.2.1.trans dcontrol_command, h.2.2.1, h.2.2.2.2⟩

theorem bad_dcontrol {s : Status} (h : s ∈ [dcontrol.unknown, dcontrol.badLen, dcontrol.badCmd, dcontrol.badParse]) : s.code = 0xDD := by
  simp only [dcontrol, List.mem_cons, List.not_mem_nil, or_false] at h
  rcases h with rfl | rfl | rfl | rfl <;> rfl

/-- The answer of a DControl request, whatever its block is. -/
theorem rsp_dcontrol (ndr : Ndr) (s : Status) (t : U16) {c : Control} (h : s.code = 0 → c.uuid.d4.length = 8) {w : Wr} (hw : Read.Ready w)
    (room : w.pos + 52 ≤ w.cap) : ∃ w' n, answer ndr s (putControl true t (done c)) w = some (w', n) ∧
      Appends w w' (encAnswer ndr s (if s.code = 0 then encDone t c else [])) := by
  by_cases c0 : s.code = 0
  · obtain ⟨w', n, e1, h1, _, _, k⟩ := answer_at ndr s (emits_control t (h c0)) hw
    refine ⟨w', n, e1, (k ?_).2⟩
    rw [if_pos c0, encDone_length _ (h c0)]
    omega
  · obtain ⟨w', n, e1, h1, _, _, k⟩ := answer_at (p := skip) ndr s emits_skip hw
    refine ⟨w', n, ?_, ?_⟩
    · unfold answer at e1 ⊢
      rw [if_neg c0] at e1 ⊢
      exact e1
    · have := (k (by rw [if_neg c0]; simp only [List.length_nil]; omega)).2
      rw [if_neg c0] at this ⊢
      exact this

/-- The reply has this status and this block behind the lengths. -/
def Answers (ndr : Ndr) (w : Wr) (rep : Reply) (s : Status) (block : List Byte) : Prop :=
  ∃ w', rep = .sent w' s ∧ Appends w w' (encAnswer ndr s block)

theorem answers_of (ndr : Ndr) {x : Acc} {z : Result} (hu : z.status.code = 0 → x.ctl.uuid.d4.length = 8) {w : Wr} (hw : Read.Ready w)
    (room : w.pos + 52 ≤ w.cap) :
    ∃ w', (answer ndr z.status (dcontrolBlock x) w).map (fun y => y.1) = some w' ∧
      Appends w w' (encAnswer ndr z.status (if z.status.code = 0 then encDone (rspType x.type) x.ctl else [])) := by
  obtain ⟨w', n, e1, h1⟩ := rsp_dcontrol ndr z.status (rspType x.type) hu hw room
  unfold dcontrolBlock
  have : (if x.type = 0x0111 then (0x8111 : U16) else 0x8110) = rspType x.type := rfl
  rw [this, e1]
  exact ⟨w', rfl, h1⟩

/-- The end of a DControl request. -/
theorem dcontrol_end (e : Env A) (ndr : Ndr) (seq : U32) (last : Last) {r : Rd} {x : Acc} (ex : interpret dcontrol ndr.argsLen nilControl noResult r = some x)
    {w : Wr} (hw : Read.Ready w) (room : w.pos + 52 ≤ w.cap) (hu : ∀ z, (carryOut e seq last x).1 = some z → z.status.code = 0 → x.ctl.uuid.d4.length = 8) :
    ∃ rep, dcontrolInd e ndr seq last noResult r w = some (rep, (carryOut e seq last x).2) ∧
      (rep = .lost ↔ (carryOut e seq last x).1 = none) ∧
      ∀ z, (carryOut e seq last x).1 = some z →
        Answers ndr w rep z.status (if z.status.code = 0 then encDone (rspType x.type) x.ctl else []) := by
  unfold dcontrolInd
  rw [ex, Option.bind_some]
  cases hc : (carryOut e seq last x).1 with
  | none =>
    exact ⟨.lost, rfl, by simp, fun z h => (by cases h)⟩
  | some z =>
    obtain ⟨w', e1, h1⟩ := answers_of ndr (hu z hc) hw room
    simp only
    cases ha : answer ndr z.status (dcontrolBlock x) w with
    | none => rw [ha] at e1; cases e1
    | some y =>
      rw [ha] at e1
      cases e1
      refine ⟨.sent y.1 z.status, rfl, by simp, ?_⟩
      intro z' h
      cases h
      exact ⟨y.1, rfl, h1⟩

/-- A DControl request with a new sequence number: if it asks for the end of parameterisation of an existing connection, then exactly one
call is made, for this connection, and the answer has the status of this call, unless the call ends the session.  If there is no error the answer repeats
the block, with the command "done".  Any other request calls nothing and is answered with an error, without a block. -/
theorem C115_dcontrol (e : Env A) (ndr : Ndr) {seq : U32} {last : Last} (hseq : last.seq ≠ seq) {r : Rd} (hr : Fit r) {w : Wr} (hw : Read.Ready w)
    (room : w.pos + 52 ≤ w.cap) :
    ∃ rep acts last', dcontrolInd e ndr seq last noResult r w = some (rep, acts, last') ∧
      ((∃ t c a, Asks ndr r t c ∧ e.find c.uuid = some a ∧ acts = [(call e t c a).1] ∧
          (rep = .lost ↔ (call e t c a).2 = none) ∧
          ∀ z, (call e t c a).2 = some z → last' = ⟨seq, z⟩ ∧
            Answers ndr w rep z.status (if z.status.code = 0 then encDone (rspType t) c else [])) ∨
        ((¬∃ t c a, Asks ndr r t c ∧ Message r t c ∧ e.find c.uuid = some a) ∧ acts = [] ∧
          ∃ s : Status, s.code = 0xDD ∧ ((∃ t c, Asks ndr r t c ∧ Message r t c) → s = ⟨0xDD, 0x81, 0x40, 5⟩) ∧ Answers ndr w rep s [])) := by
  obtain ⟨x, ex, hok, hbad⟩ := interpret_spec dcontrol ndr.argsLen (c := nilControl) (by decide) noResult hr
  have hmsg : ∀ t c, Asks ndr r t c → Message r t c → x = ⟨true, t, c, noResult⟩ := by
    intro t c h1 h2
    have := interpret_message dcontrol (args := ndr.argsLen) (by have := h1.2.2.1; have := h2.1; omega) nilControl noResult hr h2
      (asks_types.mpr h1.1) (h1.2.1.trans dcontrol_command.symm)
    rw [ex] at this
    exact Option.some.inj this
  by_cases c1 : x.ok = true
  · have f := hok c1
    have hu := wf_of_contains f.2.2.2.2
    obtain ⟨rep, e1, h1, h2⟩ := dcontrol_end e ndr seq last ex hw room (fun _ _ _ => hu)
    refine ⟨rep, _, _, e1, ?_⟩
    unfold carryOut at h1 h2 ⊢
    rw [if_pos c1, if_pos hseq] at h1 h2 ⊢
    cases hf : e.find x.ctl.uuid with
    | some a =>
      rw [hf] at h1 h2
      refine Or.inl ⟨x.type, x.ctl, a, asks_inv f, hf, ?_⟩
      unfold call
      by_cases c2 : x.type = 0x0111
      · simp only [if_pos c2] at h1 h2 ⊢
        rw [f.1] at h1 h2 ⊢
        exact ⟨trivial, h1, fun z hz => by cases hz; exact ⟨rfl, h2 _ rfl⟩⟩
      · simp only [if_neg c2] at h1 h2 ⊢
        rw [f.1] at h1 h2 ⊢
        cases hz : e.prmEnd a x.ctl noResult with
        | none =>
          rw [hz] at h1 h2
          exact ⟨rfl, h1, fun z h => (by cases h)⟩
        | some z =>
          rw [hz] at h1 h2
          exact ⟨rfl, h1, fun z' h => (by cases h; exact ⟨rfl, h2 _ rfl⟩)⟩
    | none =>
      rw [hf] at h1 h2
      refine Or.inr ⟨?_, rfl, _, rfl, fun _ => rfl, ?_⟩
      · rintro ⟨t, c, a, h1, h2, h3⟩
        have := hmsg t c h1 h2
        subst this
        rw [hf] at h3
        cases h3
      · have := h2 _ rfl
        rw [if_neg (by simp [setError, noAr])] at this
        exact this
  · have hx : x.ok = false := by simpa using c1
    have hc := bad_dcontrol (hbad hx)
    have hne : ¬x.res.status.code = 0 := by rw [hc]; decide
    have hco : carryOut e seq last x = (some x.res, [], last) := by
      unfold carryOut
      rw [if_neg c1]
    obtain ⟨rep, e1, h1, h2⟩ := dcontrol_end e ndr seq last ex hw room (fun z hz h0 => by
      rw [hco] at hz; cases hz; exact absurd h0 hne)
    refine ⟨rep, _, _, e1, ?_⟩
    rw [hco] at h1 h2 ⊢
    have hno : ¬∃ t c, Asks ndr r t c ∧ Message r t c := by
      rintro ⟨t, c, h1, h2⟩
      have := hmsg t c h1 h2
      subst this
      cases hx
    refine Or.inr ⟨?_, rfl, x.res.status, hc, fun h => absurd h hno, ?_⟩
    · rintro ⟨t, c, a, h1, h2, h3⟩
      exact hno ⟨t, c, h1, h2⟩
    · have := h2 _ rfl
      rw [if_neg hne] at this
      exact this

/-- Whatever the message, its sequence number and the room for the answer, a DControl request is answered within the buffer. -/
theorem C115_dcontrol_safe (e : Env A) (ndr : Ndr) (seq : U32) (last : Last) {r : Rd} (hr : Fit r) {w : Wr} (hw : Read.Ready w) :
    ∃ rep acts last', dcontrolInd e ndr seq last noResult r w = some (rep, acts, last') ∧ ∀ w' s, rep = .sent w' s → Within w w' := by
  obtain ⟨x, ex, hok, hbad⟩ := interpret_spec dcontrol ndr.argsLen (c := nilControl) (by decide) noResult hr
  unfold dcontrolInd
  rw [ex, Option.bind_some]
  cases hc : (carryOut e seq last x).1 with
  | none => exact ⟨.lost, _, _, rfl, fun w' s h => (by cases h)⟩
  | some z =>
    have hy : z.status.code = 0 → x.ok = true := by
      intro h
      by_cases c1 : x.ok = true
      · exact c1
      · unfold carryOut at hc
        rw [if_neg c1] at hc
        cases hc
        have := bad_dcontrol (hbad (by simpa using c1))
        rw [this] at h
        cases h
    simp only
    by_cases c0 : z.status.code = 0
    · obtain ⟨w', n, e1, h1, _⟩ := answer_at ndr z.status (emits_control (if x.type = 0x0111 then 0x8111 else 0x8110)
        (wf_of_contains (hok (hy c0)).2.2.2.2)) hw
      unfold dcontrolBlock
      rw [e1]
      exact ⟨_, _, _, rfl, fun w' s h => (by cases h; exact h1)⟩
    · obtain ⟨w', n, e1, h1, _⟩ := answer_at (p := skip) ndr z.status emits_skip hw
      have e2 : answer ndr z.status (dcontrolBlock x) w = some (w', n) := by
        unfold answer at e1 ⊢
        rw [if_neg c0] at e1 ⊢
        exact e1
      rw [e2]
      exact ⟨_, _, _, rfl, fun w' s h => (by cases h; exact h1)⟩

/-- A request of one block asks for what this block says. -/
theorem C115_one_block {ndr : Ndr} {r : Rd} (h32 : ndr.argsLen.toNat = 32) {t : U16} {c : Control} (hm : Message r t c) (hr : Fit r)
    (ht : t = 0x0110 ∨ t = 0x0111 ∨ t = 0x0118) (hc : c.command = 1) :
    Asks ndr r t c ∧ ∀ t' c', Asks ndr r t' c' → t' = t ∧ c' = c := by
  refine ⟨⟨ht, hc, by have := hm.1; omega, r.pos, Nat.le_refl _, hm.2⟩, ?_⟩
  intro t' c' h
  have hm' := message_of_contains (by have := h.2.2.1; omega) h.2.2.2
  have h1 := loop_message dcontrol nilControl noResult hr hm (asks_types.mpr ht)
  have h2 := loop_message dcontrol nilControl noResult hr hm' (asks_types.mpr h.1)
  rw [h1] at h2
  cases h2
  exact ⟨rfl, rfl⟩

/-! ## C116: repetition -/

/-- A DControl request that is repeated on the same session is not carried out again, and gets the same status and the same answer as
before, whatever happened to the connections in between. -/
theorem C116_repetition_partial (e e' : Env A) (ndr : Ndr) (seq : U32) (last : Last) (r : Rd) (w w1 : Wr) (rep2 : Reply) (acts acts2 : List (Act A)) (s : Status)
    (l1 l2 : Last) (h1 : dcontrolInd e ndr seq last noResult r w = some (.sent w1 s, acts, l1))
    (h2 : dcontrolInd e' ndr seq l1 noResult r w = some (rep2, acts2, l2)) :
    acts2 = [] ∧ rep2 = .sent w1 s ∧ l2 = l1 := by
  unfold dcontrolInd at h1 h2
  cases hx : interpret dcontrol ndr.argsLen nilControl noResult r with
  | none => rw [hx] at h1; cases h1
  | some x =>
    rw [hx, Option.bind_some] at h1 h2
    cases hc : (carryOut e seq last x).1 with
    | none => rw [hc] at h1; cases h1
    | some z =>
      rw [hc] at h1
      simp only at h1
      cases ha : answer ndr z.status (dcontrolBlock x) w with
      | none => rw [ha] at h1; cases h1
      | some y =>
        rw [ha] at h1
        simp only [Option.map_some, Option.some.injEq, Prod.mk.injEq, Reply.sent.injEq] at h1
        obtain ⟨⟨rfl, rfl⟩, h3⟩ := h1
        obtain rfl : (carryOut e seq last x).2.2 = l1 := congrArg Prod.snd h3
        have key : carryOut e' seq (carryOut e seq last x).2.2 x = (some z, [], (carryOut e seq last x).2.2) := by
          by_cases c1 : x.ok = true
          · have hl : (carryOut e seq last x).2.2.seq = seq ∧ (carryOut e seq last x).2.2.res = z := by
              revert hc
              unfold carryOut
              rw [if_pos c1]
              by_cases c2 : last.seq ≠ seq
              · rw [if_pos c2]
                cases e.find x.ctl.uuid with
                | none => intro h; cases h; exact ⟨rfl, rfl⟩
                | some a =>
                  simp only
                  by_cases c3 : x.type = 0x0111
                  · rw [if_pos c3]; intro h; cases h; exact ⟨rfl, rfl⟩
                  · rw [if_neg c3]
                    cases e.prmEnd a x.ctl x.res with
                    | none => intro h; cases h
                    | some z' => intro h; cases h; exact ⟨rfl, rfl⟩
              · rw [if_neg c2]
                intro h
                cases h
                exact ⟨by simpa using c2, rfl⟩
            generalize (carryOut e seq last x).2.2 = l at hl
            unfold carryOut
            rw [if_pos c1, if_neg (by simp [hl.1]), hl.2]
          · have hl : carryOut e seq last x = (some x.res, [], last) := by unfold carryOut; rw [if_neg c1]
            rw [hl] at hc ⊢
            cases hc
            unfold carryOut
            rw [if_neg c1]
        rw [key] at h2
        simp only at h2
        rw [ha] at h2
        cases h2
        exact ⟨rfl, rfl, rfl⟩

/-- VIOLATION: on a new session the first request with sequence number 0xFFFFFFFF is taken for a repetition: it is answered positively although
nothing is called, even if there is no such connection. -/
theorem C116_violation (e : Env A) (ndr : Ndr) (h32 : ndr.argsLen.toNat = 32) {r : Rd} (hr : Fit r) {w : Wr} (hw : Read.Ready w)
    (room : w.pos + 52 ≤ w.cap) {t : U16} {c : Control} (hm : Message r t c) (ht : t = 0x0110 ∨ t = 0x0111 ∨ t = 0x0118) (hc : c.command = 1) :
    ∃ rep, dcontrolInd e ndr 0xFFFFFFFF noLast noResult r w = some (rep, [], noLast) ∧
      Answers ndr w rep ⟨0, 0, 0, 0⟩ (encDone (rspType t) c) := by
  have hx := interpret_message dcontrol h32 nilControl noResult hr hm (asks_types.mpr ht) (hc.trans dcontrol_command.symm)
  have hu : c.uuid.d4.length = 8 := by
    obtain ⟨_, hd, p, _, _, a3, _⟩ := hm
    exact a3
  have hco : carryOut e 0xFFFFFFFF noLast ⟨true, t, c, noResult⟩ = (some noResult, [], noLast) := rfl
  obtain ⟨rep, e1, h1, h2⟩ := dcontrol_end e ndr 0xFFFFFFFF noLast hx hw room (fun _ _ _ => hu)
  rw [hco] at e1 h2
  exact ⟨rep, e1, h2 noResult rfl⟩

/-! ## C119: every request is answered -/

/-- VIOLATION: if the end of parameterisation makes the device abort the connection (for example because the application refuses it, or because
no port is fast enough) and the request came over the session of the connection, then the request is not answered at all. -/
theorem C119_violation (e : Env A) (ndr : Ndr) (h32 : ndr.argsLen.toNat = 32) {seq : U32} {last : Last} (hseq : last.seq ≠ seq) {r : Rd} (hr : Fit r)
    {w : Wr} (hw : Read.Ready w) (room : w.pos + 52 ≤ w.cap) {t : U16} {c : Control} (hm : Message r t c) (ht : t = 0x0110 ∨ t = 0x0118) (hc : c.command = 1)
    {a : A} (hf : e.find c.uuid = some a) (habort : e.prmEnd a c noResult = none) :
    ∃ last', dcontrolInd e ndr seq last noResult r w = some (.lost, [.prmEnd a c], last') := by
  have ht' : t = 0x0110 ∨ t = 0x0111 ∨ t = 0x0118 := by
    rcases ht with h | h
    · exact Or.inl h
    · exact Or.inr (Or.inr h)
  have hne : t ≠ 0x0111 := by rcases ht with rfl | rfl <;> decide
  have hx := interpret_message dcontrol h32 nilControl noResult hr hm (asks_types.mpr ht') (hc.trans dcontrol_command.symm)
  have hco : carryOut e seq last ⟨true, t, c, noResult⟩ = (none, [.prmEnd a c], ⟨seq, noResult⟩) := by
    unfold carryOut
    rw [if_pos rfl, if_pos hseq]
    simp only [hf]
    rw [if_neg hne, habort]
  refine ⟨⟨seq, noResult⟩, ?_⟩
  unfold dcontrolInd
  rw [hx, Option.bind_some, hco]

/-! ## C118: confirmation of application ready -/

/-- The application ready request of the connection is confirmed exactly if the response has a block of one of the two types with the
command "done" and the announced length; one call is made, for the connection of the session. -/
theorem C118_confirmation_partial (o : Cnf) (ndr : Ndr) (a : A) {r : Rd} (hr : Fit r) :
    ∃ acts ok ended, readyCnf o ndr a noResult r = some (acts, ok, ended) ∧
      ((acts = [] ∧ ok = false ∧ ended = false ∧
          ¬∃ t c, Message r t c ∧ (t = 0x8112 ∨ t = 0x8113) ∧ c.command = 8 ∧ ndr.argsLen.toNat = r.len - r.pos) ∨
        ∃ t c, Contains r t c ∧ (t = 0x8112 ∨ t = 0x8113) ∧ c.command = 8 ∧ ndr.argsLen.toNat = r.len - r.pos ∧
          acts = [if t = 0x8113 then .plugReady a else .ready a c] ∧
          (ok = true ↔ (if t = 0x8113 then o.plug = true else o.cmdev = true ∧ o.cmpbe = true)) ∧
          (ended = true ↔ t = 0x8113 ∨ (o.cmdev = true ∧ o.cmpbe = true))) := by
  obtain ⟨x, ex, hok, hbad⟩ := interpret_spec ccontrol ndr.argsLen (c := nilControl) (by decide) noResult hr
  unfold readyCnf
  rw [ex, Option.map_some]
  have hty : ∀ t : U16, t ∈ ccontrol.types ↔ (t = 0x8112 ∨ t = 0x8113) := by simp [ccontrol]
  by_cases c1 : x.ok = true
  · obtain ⟨f1, f2, f3, f4, f5⟩ := hok c1
    rw [if_pos c1, if_pos (show x.ctl.command = 8 from f2.trans ccontrol_command)]
    have ht := (hty _).mp f4
    by_cases c2 : x.type = 0x8113
    · rw [if_pos c2]
      refine ⟨_, _, _, rfl, Or.inr ⟨x.type, x.ctl, f5, ht, f2.trans ccontrol_command, f3, ?_, ?_, ?_⟩⟩
      · rw [if_pos c2]
      · rw [if_pos c2]
      · simp [c2]
    · rw [if_neg c2]
      by_cases c3 : o.cmdev = true
      · rw [if_pos c3]
        refine ⟨_, _, _, rfl, Or.inr ⟨x.type, x.ctl, f5, ht, f2.trans ccontrol_command, f3, ?_, ?_, ?_⟩⟩
        · rw [if_neg c2]
        · rw [if_neg c2]; simp [c3]
        · simp only [c3, true_and, c2, false_or]
      · rw [if_neg c3]
        refine ⟨_, _, _, rfl, Or.inr ⟨x.type, x.ctl, f5, ht, f2.trans ccontrol_command, f3, ?_, ?_, ?_⟩⟩
        · rw [if_neg c2]
        · rw [if_neg c2]; simp [c3]
        · simp only [c2, c3, false_and, or_false, Bool.false_eq_true]
  · rw [if_neg c1]
    refine ⟨_, _, _, rfl, Or.inl ⟨rfl, rfl, rfl, ?_⟩⟩
    rintro ⟨t, c, h1, h2, h3, h4⟩
    have := interpret_message ccontrol (args := ndr.argsLen) (by have := h1.1; omega) nilControl noResult hr h1 ((hty _).mpr h2) (h3.trans ccontrol_command.symm)
    rw [ex] at this
    cases this
    exact c1 rfl

/-! ## Messages -/

/-- A message of one control block. -/
def msg (t : U16) (c : Control) : Rd := ⟨encCtl ⟨t, 28, 1, 0⟩ [0, 0] c, false, 32, true, .ok, 0⟩

theorem msg_ok (t : U16) {c : Control} (h : c.uuid.d4.length = 8) : Fit (msg t c) ∧ Message (msg t c) t c := by
  have hl : (encCtl ⟨t, 28, 1, 0⟩ [0, 0] c).length = 32 := encCtl_length rfl h
  refine ⟨⟨rfl, rfl, rfl, Nat.le_of_eq hl.symm, by simp [msg]⟩, rfl, ⟨t, 28, 1, 0⟩, [0, 0], rfl, rfl, h, by simp [msg], by simp [msg], ?_⟩
  have := Lldp.slice_all (encCtl ⟨t, 28, 1, 0⟩ [0, 0] c)
  rw [hl] at this
  exact this

def demoW : Wr := ⟨List.replicate 60 0, 60, 0⟩

theorem demoW_ok : Read.Ready demoW ∧ demoW.pos + 52 ≤ demoW.cap := ⟨⟨by simp [demoW], by simp [demoW], by simp [demoW]⟩, by simp [demoW]⟩

/-! ## C114: what a release request is checked for -/

/-- VIOLATION: the announced length and the session key are not looked at: a release block for an existing connection is carried out
whatever they are. -/
theorem C114_violation_key_length (e : Env A) (ndr : Ndr) (u : Uuid) (hu : u.d4.length = 8) {a : A} (hf : e.find u = some a) (key seq props : U16)
    {w : Wr} (hw : Read.Ready w) (room : w.pos + 52 ≤ w.cap) :
    ∃ w' s, releaseInd e ndr noResult (msg 0x0114 ⟨u, key, seq, 4, props⟩) w = some (w', [.release a], s) := by
  obtain ⟨h1, h2⟩ := msg_ok 0x0114 (c := ⟨u, key, seq, 4, props⟩) hu
  obtain ⟨w', acts, s, e1, h⟩ := C113_release e ndr h1 hw room
  rcases h with ⟨c, b, ⟨g1, g2, g3⟩, rfl, rfl, _⟩ | ⟨g, _⟩
  · have l1 := loop_message release nilControl noResult h1 h2 (by decide)
    have l2 := loop_message release nilControl noResult h1 g1 (by decide)
    rw [l1] at l2
    cases l2
    rw [hf] at g3
    cases g3
    exact ⟨w', _, e1⟩
  · exact absurd ⟨_, a, h2, rfl, hf⟩ g

/-- VIOLATION: an unknown block is answered with the error code of a connect request. -/
theorem C114_violation_code (e : Env A) (ndr : Ndr) {t : U16} (ht : t ≠ 0x0114) {c : Control} (hc : c.uuid.d4.length = 8) {w : Wr}
    (hw : Read.Ready w) (room : w.pos + 52 ≤ w.cap) :
    ∃ w', releaseInd e ndr noResult (msg t c) w = some (w', [], ⟨0xDB, 0x81, 0x40, 1⟩) := by
  obtain ⟨h1, h2⟩ := msg_ok t hc
  have hnil : nilControl.uuid.d4.length = 8 := rfl
  obtain ⟨w1, n1, e1, i1, m1, o1, k1⟩ := answer_at ndr noResult.status (emits_control 0x8114 hnil) hw
  obtain ⟨x, ex, ok, st⟩ := interpret_unknown release n1.argsLen (done nilControl) noResult h1 h2 (by simp only [release, List.mem_cons, List.not_mem_nil, or_false]; exact ht)
  unfold releaseInd
  rw [e1, Option.bind_some]
  simp only
  rw [if_neg (by simp [noResult]), ex, Option.bind_some, if_neg (by simp [ok])]
  obtain ⟨w3, e3, h3, k3⟩ := restatus ndr noResult.status x.res.status [] hw i1
  rw [e3, st]
  exact ⟨_, rfl⟩

/-- VIOLATION: the connection and the session key in the confirmation are not looked at: a response that names any other connection
confirms the request of this one. -/
theorem C118_violation (o : Cnf) (ndr : Ndr) (h32 : ndr.argsLen.toNat = 32) (a : A) (u : Uuid) (hu : u.d4.length = 8) (key seq props : U16) :
    ∃ ok ended, readyCnf o ndr a noResult (msg 0x8112 ⟨u, key, seq, 8, props⟩) = some ([.ready a ⟨u, key, seq, 8, props⟩], ok, ended) := by
  obtain ⟨h1, h2⟩ := msg_ok 0x8112 (c := ⟨u, key, seq, 8, props⟩) hu
  have := interpret_message ccontrol h32 nilControl noResult h1 h2 (by decide) ccontrol_command.symm
  unfold readyCnf
  rw [this, Option.map_some, if_pos rfl, if_pos rfl, if_neg (by show ¬((0x8112 : U16) = 0x8113); decide)]
  cases o.cmdev
  · exact ⟨_, _, rfl⟩
  · exact ⟨_, _, rfl⟩

end Verif.Control
