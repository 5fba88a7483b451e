import Verif.Write.Lemmas
import Verif.Write.Spec
/-! The loop of a multiple write: calls, end, and what it does with a well-formed request. -/
set_option linter.unusedSimpArgs false
set_option linter.unusedVariables false

namespace Verif.Write
open Verif.Wire Verif.Rpc

/-- A call whose length does not exceed that of the request lies inside the request. -/
def Inside (len : Nat) (c : Call) : Prop := c.len ≤ len → c.pos + c.len ≤ len

theorem turn_cases {len : Nat} {buf : List Byte} (hb : len ≤ buf.length) (hlen : len ≤ 32000) (env : Env)
    (q : WriteReq) {s : S} (h : Rdy len buf s.r) (hp : s.r.pos ≤ len) :
    ∃ ok s', turn env q s = some (ok, s') ∧ Rdy len buf s'.r ∧ s'.stat = noError ∧
      (∃ l, s'.calls = s.calls ++ l ∧ ∀ c ∈ l, Inside len c) ∧
      (s.stat = noError → (∀ k c, len < c.len → ∃ e, env.ans k c = .fail e ∧ e.code ≠ 0) →
        s'.res.status.code ≠ 0 ∨ s.r.pos ≤ s'.r.pos) := by
  obtain ⟨ok, s1, e1, y1, hc⟩ := perform_cases hb hlen env q h hp
  refine ⟨ok, { align s1 with stat := noError }, ?_, ⟨y1.1, y1.2.1, y1.2.2⟩, rfl, ?_, ?_⟩
  · unfold turn; rw [e1]; rfl
  · rcases hc with ⟨c1, _⟩ | ⟨c, c1, c2, c3, _⟩
    · exact ⟨[], by simp [align, c1], by simp⟩
    · refine ⟨[c], by simp [align, c1], ?_⟩
      intro c' hc'
      rw [List.mem_singleton] at hc'
      subst hc'
      exact fun hl => (c3 hl).1
  · intro hs ha
    rcases hc with ⟨c1, _, c2⟩ | ⟨c, c1, c2, c3, c4⟩
    · exact .inl (c2 hs)
    · by_cases hl : c.len ≤ len
      · right
        have := c3 hl
        show s.r.pos ≤ (s1.r.pos + 3) / 4 * 4 % 65536
        omega
      · obtain ⟨e, he, hec⟩ := ha s.calls.length c (by omega)
        rcases c4 with ⟨d, _⟩ | ⟨e', d1, d2, d3, d4⟩
        · rw [he] at d; cases d
        · rw [he] at d1
          cases d1
          left
          show s1.res.status.code ≠ 0
          rw [d4 hec]
          exact hec

/-- All calls of a multiple write lie inside the request, if their length does not exceed it. -/
theorem multi_inside {len : Nat} {buf : List Byte} (hb : len ≤ buf.length) (hlen : len ≤ 32000) (env : Env) :
    ∀ n q0 ret blocks s x, Rdy len buf s.r → (∀ c ∈ s.calls, Inside len c) →
      multi env n q0 ret blocks s = some x → ∀ c ∈ x.2.2.calls, Inside len c := by
  intro n
  induction n with
  | zero => intro q0 ret blocks s x _ _ h; cases h
  | succ n ih =>
    intro q0 ret blocks s x hr hcs h
    unfold multi at h
    by_cases hc : s.r.pos + 58 < s.r.len ∧ s.res.status.code = 0
    · rw [if_pos hc] at h
      obtain ⟨i, r1, e1, y1, m1, o1⟩ := interpret_ready hb q0 hr
      rw [e1] at h
      cases i with
      | ok q =>
        dsimp only at h
        obtain ⟨ok, s', e2, y2, n2, ⟨l, l1, l2⟩, _⟩ := turn_cases hb hlen env q (s := { s with r := r1 }) y1 (o1 q rfl).2
        rw [e2] at h
        dsimp only at h
        refine ih _ _ _ _ _ y2 ?_ h
        rw [l1]
        intro c hm
        rcases List.mem_append.mp hm with hm | hm
        · exact hcs c hm
        · exact l2 c hm
      | unknown => cases h; exact hcs
      | bad => cases h; exact hcs
    · rw [if_neg hc] at h
      cases h
      exact hcs

/-- The loop comes to an end, if records that are longer than the request are refused. -/
theorem multi_ends {len : Nat} {buf : List Byte} (hb : len ≤ buf.length) (hlen : len ≤ 32000) (env : Env)
    (ha : ∀ k c, len < c.len → ∃ e, env.ans k c = .fail e ∧ e.code ≠ 0) :
    ∀ n q0 ret blocks s, Rdy len buf s.r → s.stat = noError → 1 ≤ n → len - s.r.pos < n →
      ∃ x, multi env (n + 1) q0 ret blocks s = some x := by
  intro n
  induction n with
  | zero => intro q0 ret blocks s _ _ h; cases h
  | succ n ih =>
    intro q0 ret blocks s hr hs _ hn
    rw [multi]
    by_cases hc : s.r.pos + 58 < s.r.len ∧ s.res.status.code = 0
    · rw [if_pos hc]
      obtain ⟨i, r1, e1, y1, m1, o1⟩ := interpret_ready hb q0 hr
      rw [e1]
      cases i with
      | ok q =>
        dsimp only
        obtain ⟨ok, s', e2, y2, n2, _, l3⟩ := turn_cases hb hlen env q (s := { s with r := r1 }) y1 (o1 q rfl).2
        rw [e2]
        dsimp only
        have hl := hr.2.1
        rcases l3 hs ha with h | h
        · cases n with
          | zero => omega
          | succ m =>
            rw [multi, if_neg (fun hc => h hc.2)]
            exact ⟨_, rfl⟩
        · have := (o1 q rfl).1
          dsimp only at h
          exact ih _ _ _ _ y2 n2 (by omega) (by omega)
      | unknown => exact ⟨_, rfl⟩
      | bad => exact ⟨_, rfl⟩
    · rw [if_neg hc]
      exact ⟨_, rfl⟩

/-- The result blocks so far stay. -/
theorem multi_blocks (env : Env) : ∀ n q0 ret blocks s x, multi env n q0 ret blocks s = some x →
    ∃ l, x.2.1 = blocks ++ l := by
  intro n
  induction n with
  | zero => intro q0 ret blocks s x h; cases h
  | succ n ih =>
    intro q0 ret blocks s x h
    unfold multi at h
    split at h
    · split at h
      · cases h
      · split at h
        · cases h
        · obtain ⟨l, hl⟩ := ih _ _ _ _ _ h
          exact ⟨[_] ++ l, by rw [hl, List.append_assoc]⟩
      · cases h; exact ⟨[], by simp⟩
    · cases h; exact ⟨[], by simp⟩

/-- A failed write has a status. -/
theorem perform_stat {env : Env} {q : WriteReq} {s s' : S} {ok : Bool} (h : performOne env q s = some (ok, s')) :
    ok = false → s'.stat ≠ noError := by
  have post : ∀ x : Bool × S, (setRes (ifNotSet x)).1 = false → (setRes (ifNotSet x)).2.stat ≠ noError := by
    intro x
    unfold setRes ifNotSet
    cases hx : x.1 with
    | true => simp [hx]
    | false =>
      by_cases h : x.2.stat = noError
      · simp [h]; decide
      · simp [h, hx]
  have h1 : errWritePnio ≠ noError := by decide
  have h2 : errWrite ≠ noError := by decide
  unfold performOne performCore at h
  split at h
  · cases h; intro _; exact h1
  · split at h
    · cases h; intro _; exact h2
    · split at h
      · split at h
        · rw [Option.map_some] at h
          have e := Option.some.inj h
          intro hk
          have := post _ (by rw [e]; exact hk)
          rw [e] at this
          exact this
        · rw [Option.map_map] at h
          obtain ⟨y, _, e⟩ := Option.map_eq_some_iff.mp h
          intro hk
          have e : setRes (ifNotSet _) = (ok, s') := e
          have := post _ (by rw [e]; exact hk)
          rw [e] at this
          exact this
      · cases h; intro _; exact h2

/-! ## Well-formed requests -/

theorem encWriteReq_length {be : Bool} {q : WriteReq} (h : q.uuid.d4.length = 8) : (encWriteReq be q).length = 58 := by
  simp [encWriteReq, encUuid, enc16_length, enc32_length, h]

theorem encHead_length {be : Bool} {q : WriteReq} (h : q.uuid.d4.length = 8) : (encHead be q).length = 64 := by
  rw [encHead, List.length_append, encWriteReq_length h]
  simp [encBlockHeader, enc16_length]

theorem parses_getWriteReq {be : Bool} {q : WriteReq} (h : q.uuid.d4.length = 8) :
    Parses be getWriteReq (encWriteReq be q) q := by
  unfold getWriteReq encWriteReq
  refine ParsesTo.bind (parses_getU16 be _) ?_
  refine ParsesTo.bind (parses_getUuid h) ?_
  refine ParsesTo.bind (parses_getU32 be _) ?_
  refine ParsesTo.bind (parses_getU16 be _) ?_
  refine ParsesTo.bind (parses_getU16 be _) ?_
  refine ParsesTo.bind (x := [0, 0]) (parses_rep (enc := fun b => [b]) [0, 0] (fun b _ => parses_getByte be b)) ?_
  refine ParsesTo.bind (parses_getU16 be _) ?_
  refine ParsesTo.bind (parses_getU32 be _) ?_
  exact ParsesTo.bind_nil (parses_rep (enc := fun b => [b]) (List.replicate 24 0) (fun b _ => parses_getByte be b))
    (ParsesTo.pure be _)

/-- A write request header is understood. -/
theorem interpret_head {be : Bool} {q old : WriteReq} (h : q.uuid.d4.length = 8) {r : Rd} (he : r.err = .ok)
    (hn : r.null = false) (hbe : r.be = be) (hl : r.pos + 64 ≤ r.len)
    (hs : slice r.buf r.pos (encHead be q).length = some (encHead be q)) :
    interpret old r = some (.ok q, { r with pos := r.pos + 64 }) := by
  have hs' := slice_append (by rw [← encHead]; exact hs)
  have l6 : (encBlockHeader be ⟨0x0008, 60, 1, 0⟩).length = 6 := by simp [encBlockHeader, enc16_length]
  rw [l6, encWriteReq_length h] at hs'
  have e1 := parses_getBlockHeader be ⟨0x0008, 60, 1, 0⟩ r he hn hbe (by rw [l6]; omega) (by rw [l6]; exact hs'.1)
  unfold interpret
  rw [if_pos (by omega), e1, Option.bind_some, l6]
  dsimp only
  unfold interpretBlock
  dsimp only
  rw [if_pos ⟨by show r.pos + 6 + 60 + 4 - 6 ≤ r.len; omega, he⟩, if_pos rfl]
  have e2 := parses_getWriteReq (be := be) h { r with pos := r.pos + 6, be := be } he hn rfl
    (by rw [encWriteReq_length h]; show r.pos + 6 + 58 ≤ r.len; omega) (by rw [encWriteReq_length h]; exact hs'.2)
  rw [e2, Option.map_some, encWriteReq_length h]
  subst hbe
  rfl

theorem handled_iff (i : U16) : handled i = true ↔ Writable i := by
  unfold handled Writable
  simp only [Bool.or_eq_true, decide_eq_true_eq, beq_iff_eq]
  constructor
  · rintro ((((h | h) | h) | h) | h)
    · exact .inl (by omega)
    · exact .inr (.inl (by omega))
    · exact .inr (.inr (.inl h))
    · exact .inr (.inr (.inr (.inl h)))
    · exact .inr (.inr (.inr (.inr h)))
  · rintro (h | h | h | h | h)
    · exact .inl (.inl (.inl (.inl (by omega))))
    · exact .inl (.inl (.inl (.inr (by omega))))
    · exact .inl (.inl (.inr h))
    · exact .inl (.inr h)
    · exact .inr h

theorem tail_refused {env : Env} {q : WriteReq} {e : Status} (h : refused env q = some e) (dl : Nat) (s : S)
    (hs : s.stat = noError) {x : Bool × S} (hx : x = setRes (ifNotSet (cmwrrInd env q dl s))) :
    x.1 = false ∧ x.2.calls = s.calls ∧ x.2.res = resOf q e ∧ x.2.kill = s.kill ∧ e.code ≠ 0 ∧
      x.2.r.buf = s.r.buf ∧ x.2.r.len = s.r.len ∧ x.2.r.null = s.r.null := by
  subst hx
  have h1 : errState ≠ noError := by decide
  have h2 : errWrite ≠ noError := by decide
  unfold refused at h
  by_cases ha : env.accepts q.uuid = false
  · rw [if_pos ha] at h
    have h := Option.some.inj h
    subst h
    unfold cmwrrInd
    rw [if_neg (by rw [ha]; decide)]
    unfold ifNotSet setRes
    simp [h1, resOf]
    decide
  · rw [if_neg ha] at h
    have ha' : env.accepts q.uuid = true := by simpa using ha
    by_cases hd : env.denied q = true ∨ ¬ Writable q.index
    · rw [if_pos hd] at h
      have h := Option.some.inj h
      subst h
      unfold cmwrrInd
      rw [if_pos ha']
      unfold cmwrrWrite deliver
      dsimp only
      by_cases hd' : env.denied q = true
      · rw [if_pos hd']
        unfold ifNotSet setRes advance
        simp [h2, resOf]
        decide
      · rw [if_neg hd', if_neg (by rw [handled_iff]; rcases hd with hd | hd <;> simp_all)]
        unfold ifNotSet setRes advance
        simp [h2, resOf, hs]
        decide
    · rw [if_neg hd] at h
      cases h

theorem tail_taken {env : Env} {q : WriteReq} (h : refused env q = none) (dl : Nat) (s : S)
    {x : Bool × S} (hx : x = setRes (ifNotSet (cmwrrInd env q dl s))) :
    x.2.calls = s.calls ++ [⟨q, s.r.pos, dl⟩] ∧ x.2.kill = s.kill ∧
      x.2.r.buf = s.r.buf ∧ x.2.r.len = s.r.len ∧ x.2.r.null = s.r.null ∧
      (env.ans s.calls.length ⟨q, s.r.pos, dl⟩ = .ok → x.1 = true ∧ x.2.stat = s.stat ∧
        x.2.res = resOf q s.res.status ∧ x.2.r = { s.r with pos := (s.r.pos + dl) % 65536 }) ∧
      (∀ e, env.ans s.calls.length ⟨q, s.r.pos, dl⟩ = .fail e → e.code ≠ 0 → x.1 = false ∧
        x.2.res = resOf q e ∧ x.2.stat = e) := by
  subst hx
  unfold refused at h
  by_cases ha : env.accepts q.uuid = false
  · rw [if_pos ha] at h; cases h
  · rw [if_neg ha] at h
    have ha' : env.accepts q.uuid = true := by simpa using ha
    by_cases hd : env.denied q = true ∨ ¬ Writable q.index
    · rw [if_pos hd] at h; cases h
    · have hd1 : ¬ env.denied q = true := fun x => hd (.inl x)
      have hd2 : handled q.index = true := by
        rw [handled_iff]
        exact Decidable.of_not_not fun hh => hd (.inr hh)
      unfold cmwrrInd
      rw [if_pos ha']
      unfold cmwrrWrite deliver
      dsimp only
      rw [if_neg hd1, if_pos hd2]
      cases hans : env.ans s.calls.length ⟨q, s.r.pos, dl⟩ with
      | ok =>
        unfold ifNotSet setRes advance
        simp
      | fail e =>
        unfold ifNotSet setRes advance
        by_cases h0 : e = noError
        · subst h0
          simp
          intro h; exact absurd rfl h
        · simp [h0, resOf]

/-- The byte order stays as it is. -/
def KeepBe {α} (p : P α) : Prop := ∀ r a r', p r = some (a, r') → r'.be = r.be

theorem KeepBe.pure {α} (a : α) : KeepBe (Pure.pure a : P α) := by
  intro r b r' h; cases h; rfl

theorem KeepBe.bind {α β} {p : P α} {f : α → P β} (hp : KeepBe p) (hf : ∀ a, KeepBe (f a)) : KeepBe (p >>= f) := by
  intro r b r' h
  rw [P.bind_def] at h
  obtain ⟨⟨a, r1⟩, h1, h2⟩ := Option.bind_eq_some_iff.mp h
  exact (hf _ _ _ _ h2).trans (hp _ _ _ h1)

theorem KeepBe.ite {α} {c : Prop} [Decidable c] {p q : P α} (hp : KeepBe p) (hq : KeepBe q) :
    KeepBe (if c then p else q) := by split <;> assumption

theorem keepBe_getByte : KeepBe getByte := by
  intro r a r' h
  unfold getByte at h
  split at h
  · cases h; rfl
  · split at h
    · cases h; rfl
    · split at h
      · cases h; rfl
      · obtain ⟨b, hb, e⟩ := Option.map_eq_some_iff.mp h
        cases e; rfl

theorem keepBe_isOk : KeepBe isOk := by intro r a r' h; cases h; rfl
theorem keepBe_isBe : KeepBe isBe := by intro r a r' h; cases h; rfl

theorem keepBe_getU16 : KeepBe getU16 := by
  unfold getU16
  refine KeepBe.bind keepBe_isOk fun _ => KeepBe.ite (KeepBe.bind keepBe_isBe fun _ => KeepBe.ite ?_ ?_) (KeepBe.pure _)
  all_goals exact KeepBe.bind keepBe_getByte fun _ => KeepBe.bind keepBe_getByte fun _ => KeepBe.pure _

theorem be_getBlockHeader {r r' : Rd} {a : BlockHeader} (h : getBlockHeader r = some (a, r')) : r'.be = r.be := by
  have : KeepBe getBlockHeader := by
    unfold getBlockHeader
    exact KeepBe.bind keepBe_getU16 fun _ => KeepBe.bind keepBe_getU16 fun _ => KeepBe.bind keepBe_getByte fun _ =>
      KeepBe.bind keepBe_getByte fun _ => KeepBe.pure _
  exact this _ _ _ h

/-- One write of a well-formed request whose connection and API exist. -/
theorem perform_item {len : Nat} {buf : List Byte} (hb : len ≤ buf.length) (hlen : len ≤ 65000) {env : Env}
    {it : Item} (hw : it.Wf) (hk : env.arKnown it.req.uuid = true)
    (hapi : it.req.api = 0 ∨ env.apiKnown it.req.api = true) {s : S} (h : Rdy len buf s.r)
    (he : s.r.err = .ok) (hp : s.r.pos + it.data.length ≤ len) :
    ∃ ok s', performOne env it.req s = some (ok, s') ∧ Rdy len buf s'.r ∧ s'.kill = s.kill ∧
      (∀ e, refused env it.req = some e → s.stat = noError →
        ok = false ∧ s'.calls = s.calls ∧ s'.res = resOf it.req e ∧ e.code ≠ 0) ∧
      (refused env it.req = none →
        s'.calls = s.calls ++ [⟨it.req, s.r.pos + it.skip, it.data.length - it.skip⟩] ∧
        (env.ans s.calls.length ⟨it.req, s.r.pos + it.skip, it.data.length - it.skip⟩ = .ok →
          ok = true ∧ s'.stat = s.stat ∧ s'.res = resOf it.req s.res.status ∧ s'.r.pos = s.r.pos + it.data.length ∧
            s'.r.err = .ok ∧ s'.r.be = s.r.be) ∧
        (∀ e, env.ans s.calls.length ⟨it.req, s.r.pos + it.skip, it.data.length - it.skip⟩ = .fail e →
          e.code ≠ 0 → ok = false ∧ s'.res = resOf it.req e ∧ s'.stat = e)) := by
  obtain ⟨hn, hl, hB⟩ := h
  unfold performOne performCore
  rw [if_neg (by rw [hk]; decide), if_neg (by
    rintro ⟨h1, h2⟩
    rcases hapi with h3 | h3
    · exact h1 h3
    · rw [h3] at h2; cases h2)]
  have hL := hw.length
  rw [hL]
  rw [if_pos (by rw [Nat.mod_eq_of_lt (by omega), hl]; exact hp)]
  by_cases hi : it.req.index.toNat ≤ 0x7fff
  · have hsk : it.skip = 0 := by unfold Item.skip; exact if_pos hi
    rw [if_pos hi, Option.map_some, Nat.mod_eq_of_lt (show it.data.length < 65536 by omega), hsk]
    obtain ⟨x, hx⟩ : ∃ x, x = setRes (ifNotSet (cmwrrInd env it.req it.data.length s)) := ⟨_, rfl⟩
    rw [← hx]
    cases hr : refused env it.req with
    | some e =>
      obtain ⟨a1, a2, a3, a4, a5⟩ := tail_cases env it.req _ s hx
      refine ⟨x.1, x.2, rfl, ⟨by rw [a3, hn], by rw [a2, hl], by rw [a1, hB]⟩, a4, ?_, fun h => by cases h⟩
      intro e' he' hs
      cases he'
      obtain ⟨b1, b2, b3, b4, b5, _⟩ := tail_refused hr _ s hs hx
      exact ⟨b1, b2, b3, b5⟩
    | none =>
      obtain ⟨b1, b2, b3, b4, b5, b6, b7⟩ := tail_taken hr _ s hx
      refine ⟨x.1, x.2, rfl, ⟨by rw [b5, hn], by rw [b4, hl], by rw [b3, hB]⟩, b2, fun e h => (by cases h), fun _ => ⟨b1, ?_, b7⟩⟩
      intro ha
      obtain ⟨c1, c2, c3, c4⟩ := b6 ha
      refine ⟨c1, c2, c3, ?_, by rw [c4]; exact he, by rw [c4]⟩
      rw [c4]
      show (s.r.pos + it.data.length) % 65536 = _
      omega
  · have hsk : it.skip = 6 := by unfold Item.skip; exact if_neg hi
    have h6 := hw.header (by omega)
    obtain ⟨a, r', e', n', l', b', _, g'⟩ := loc_getBlockHeader s.r [] hn (by rw [hl, hB]; exact hb)
    obtain ⟨g1, g2⟩ := g' he (by omega)
    have hbe : r'.be = s.r.be := be_getBlockHeader e'
    rw [if_neg hi, e', Option.map_some, Option.map_some, hsk,
      show (it.data.length + 65530) % 65536 = it.data.length - 6 by omega]
    obtain ⟨x, hx⟩ : ∃ x, x = setRes (ifNotSet (cmwrrInd env it.req (it.data.length - 6) { s with r := r' })) := ⟨_, rfl⟩
    rw [← hx]
    cases hr : refused env it.req with
    | some e =>
      obtain ⟨a1, a2, a3, a4, a5⟩ := tail_cases env it.req _ _ hx
      refine ⟨x.1, x.2, rfl, ⟨by rw [a3]; exact n', by rw [a2]; exact l'.trans hl, by rw [a1]; exact b'.trans hB⟩, a4, ?_,
        fun h => by cases h⟩
      intro e' he' hs
      cases he'
      obtain ⟨b1, b2, b3, b4, b5, _⟩ := tail_refused hr _ _ (by exact hs) hx
      exact ⟨b1, b2, b3, b5⟩
    | none =>
      obtain ⟨b1, b2, b3, b4, b5, b6, b7⟩ := tail_taken hr _ _ hx
      dsimp only at b1 b2 b3 b4 b5 b6 b7
      rw [g2] at b1 b6 b7
      refine ⟨x.1, x.2, rfl, ⟨by rw [b5]; exact n', by rw [b4]; exact l'.trans hl, by rw [b3]; exact b'.trans hB⟩, b2,
        fun e h => (by cases h), fun _ => ⟨b1, ?_, b7⟩⟩
      intro ha
      obtain ⟨c1, c2, c3, c4⟩ := b6 ha
      refine ⟨c1, c2, c3, ?_, by rw [c4]; exact g1, by rw [c4]; exact hbe⟩
      rw [c4]
      show (s.r.pos + 6 + (it.data.length - 6)) % 65536 = _
      omega

theorem slice_drop {α} {l d : List α} {p n : Nat} (h : slice l p d.length = some d) (hn : n ≤ d.length) :
    slice l (p + n) (d.length - n) = some (d.drop n) := by
  have e : d = d.take n ++ d.drop n := (List.take_append_drop n d).symm
  have h' : slice l p (d.take n ++ d.drop n).length = some (d.take n ++ d.drop n) := by rw [← e]; exact h
  have := (slice_append h').2
  rwa [List.length_take, Nat.min_eq_left hn, List.length_drop] at this

theorem skip_le {it : Item} (hw : it.Wf) : it.skip ≤ it.data.length := by
  unfold Item.skip
  split
  · omega
  · exact hw.header (by omega)

/-- What a call shows to the function that takes the record. -/
def shown (buf : List Byte) (c : Call) : WriteReq × Option (List Byte) := (c.req, slice buf c.pos c.len)

/-- The records that are expected to be offered. -/
def offered (l : List (Item × Status × Bool)) : List (WriteReq × Option (List Byte)) :=
  (l.filter (fun x => x.2.2)).map (fun x => (x.1.req, some x.1.record))

/-- The result blocks that are expected. -/
def reported (l : List (Item × Status × Bool)) : List Res := l.map (fun x => resOf x.1.req x.2.1)

theorem align_pos {p d : Nat} (h : p + 64 + d ≤ 65000) (hp : p % 4 = 0) :
    (p + 64 + d + 3) / 4 * 4 % 65536 = p + 64 + d + (4 - d % 4) % 4 := by omega

theorem align_mod {p d : Nat} (hp : p % 4 = 0) : (p + 64 + d + (4 - d % 4) % 4) % 4 = 0 := by omega

theorem multi_items {len : Nat} {buf : List Byte} (hb : len ≤ buf.length) (hlen : len ≤ 65000) {env : Env}
    {a : Nat → Answer} (ha : ∀ k c, env.ans k c = a k) (hf : ∀ k e, a k = .fail e → e.code ≠ 0) (be padLast : Bool) :
    ∀ items n q0 ret blocks s,
      (∀ it ∈ items, it.Wf ∧ env.arKnown it.req.uuid = true ∧ (it.req.api = 0 ∨ env.apiKnown it.req.api = true)) →
      Rdy len buf s.r → s.r.err = .ok → s.r.be = be → s.r.pos % 4 = 0 → s.stat = noError → s.res.status = noError →
      items.length < n → (items = [] → len ≤ s.r.pos) →
      (items ≠ [] → s.r.pos + (encItems be padLast items).length = len ∧
        slice buf s.r.pos (encItems be padLast items).length = some (encItems be padLast items)) →
      ∃ ret' s' cs, multi env n q0 ret blocks s =
          some (ret', blocks ++ reported (expected env a s.calls.length items), s') ∧
        s'.kill = s.kill ∧ Rdy len buf s'.r ∧ (ret' = true → s'.r.err = .ok) ∧
        s'.calls = s.calls ++ cs ∧ cs.map (shown buf) = offered (expected env a s.calls.length items) := by
  intro items
  induction items with
  | nil =>
    intro n q0 ret blocks s hit hr he hbe hp hs hres hn h0 h1
    cases n with
    | zero => cases hn
    | succ n =>
      have := h0 rfl
      have hl := hr.2.1
      rw [multi, if_neg (by omega)]
      exact ⟨ret, s, [], by simp [expected, reported], rfl, hr, fun _ => he, by simp, by simp [expected, offered]⟩
  | cons it l ih =>
    intro n q0 ret blocks s hit hr he hbe hp hs hres hn h0 h1
    obtain ⟨m1, m2⟩ := h1 (by simp)
    obtain ⟨hw, hk, hapi⟩ := hit it (by simp)
    obtain ⟨hnull, hl, hB⟩ := hr
    -- the first write and what follows it
    obtain ⟨rest, hrest, hnil, hcons⟩ : ∃ rest, encItems be padLast (it :: l) = encHead be it.req ++ (it.data ++ rest) ∧
        (l = [] → rest = [] ∨ rest = padding it.data.length) ∧
        (l ≠ [] → rest = padding it.data.length ++ encItems be padLast l) := by
      cases l with
      | nil =>
        refine ⟨if padLast then padding it.data.length else [], by simp [encItems, encItem], fun _ => ?_, fun h => absurd rfl h⟩
        cases padLast <;> simp
      | cons it' l' =>
        exact ⟨_, by simp [encItems, encItem], fun h => (by cases h), fun _ => rfl⟩
    rw [hrest] at m1 m2
    have hh := encHead_length (be := be) hw.uuid
    obtain ⟨sl1, sl2⟩ := slice_append m2
    obtain ⟨sl3, sl4⟩ := slice_append sl2
    rw [hh] at sl3 sl4
    rw [List.length_append, List.length_append, hh] at m1
    have hpad : (padding it.data.length).length = (4 - it.data.length % 4) % 4 := by simp [padding]
    cases n with
    | zero => cases hn
    | succ n =>
      have hi := interpret_head (be := be) (old := q0) hw.uuid he hnull hbe (by omega) (by rw [hB]; exact sl1)
      rw [multi, if_pos ⟨by omega, by rw [hres]; rfl⟩, hi]
      dsimp only
      obtain ⟨ok, s1, e1, y1, k1, c1, c2⟩ := perform_item hb hlen hw hk hapi
        (s := { s with r := { s.r with pos := s.r.pos + 64 } }) ⟨hnull, hl, hB⟩ he (by show s.r.pos + 64 + it.data.length ≤ len; omega)
      have et : turn env it.req { s with r := { s.r with pos := s.r.pos + 64 } } =
          some (ok, { align s1 with stat := noError }) := by unfold turn; rw [e1]; rfl
      rw [et]
      dsimp only
      -- a failure ends the loop
      have stop : ∀ e, s1.res = resOf it.req e → e.code ≠ 0 → ok = false → ∀ q b,
          multi env n q ok b { align s1 with stat := noError } = some (ok, b, { align s1 with stat := noError }) := by
        intro e h2 h3 h4 q b
        cases n with
        | zero => simp at hn
        | succ n =>
          rw [multi, if_neg (by
            rintro ⟨_, h5⟩
            apply h3
            have : (align s1).res = s1.res := rfl
            rw [← h5]
            show _ = (align s1).res.status.code
            rw [this, h2]; rfl)]
      cases hr : refused env it.req with
      | some e =>
        obtain ⟨d1, d2, d3, d4⟩ := c1 e hr hs
        refine ⟨ok, { align s1 with stat := noError }, [], ?_, k1, y1, ?_, ?_, ?_⟩
        · rw [stop e d3 d4 d1]
          simp [expected, hr, reported, align, d3]
        · intro h; rw [d1] at h; cases h
        · show s1.calls = _
          rw [d2]; simp
        · simp [expected, hr, offered]
      | none =>
        obtain ⟨d1, d2, d3⟩ := c2 hr
        dsimp only at d1 d2 d3
        rw [ha] at d2 d3
        have hrec : shown buf ⟨it.req, s.r.pos + 64 + it.skip, it.data.length - it.skip⟩ = (it.req, some it.record) := by
          unfold shown Item.record
          dsimp only
          rw [slice_drop sl3 (skip_le hw)]
        cases hak : a s.calls.length with
        | fail e =>
          obtain ⟨f1, f2, f3⟩ := d3 e hak (hf _ _ hak)
          refine ⟨ok, { align s1 with stat := noError }, [⟨it.req, s.r.pos + 64 + it.skip, it.data.length - it.skip⟩],
            ?_, k1, y1, ?_, d1, ?_⟩
          · rw [stop e f2 (hf _ _ hak) f1]
            simp [expected, hr, hak, reported, align, f2]
          · intro h; rw [f1] at h; cases h
          · simp [expected, hr, hak, offered, hrec]
        | ok =>
          obtain ⟨f1, f2, f3, f4, f5, f6⟩ := d2 hak
          have hpos : ({ align s1 with stat := noError } : S).r.pos = s.r.pos + 64 + it.data.length + (4 - it.data.length % 4) % 4 := by
            show (s1.r.pos + 3) / 4 * 4 % 65536 = _
            rw [f4]
            have hlt : s.r.pos + 64 + it.data.length ≤ 65000 := by omega
            exact align_pos hlt hp
          have hcl : ({ align s1 with stat := noError } : S).calls = s.calls ++
              [⟨it.req, s.r.pos + 64 + it.skip, it.data.length - it.skip⟩] := d1
          have hlen' : ({ align s1 with stat := noError } : S).calls.length = s.calls.length + 1 := by
            rw [hcl]; simp
          obtain ⟨ret', s', cs, g1, g2, g3, g4, g5, g6⟩ := ih n it.req ok
            (blocks ++ [({ align s1 with stat := noError } : S).res]) { align s1 with stat := noError }
            (fun x hx => hit x (by simp [hx])) y1 f5 (by show s1.r.be = be; rw [f6]; exact hbe)
            (by rw [hpos]; exact align_mod hp) rfl (by show s1.res.status = noError; rw [f3, hres]; rfl)
            (by simpa using hn)
            (by
              intro h
              rw [hpos]
              rcases hnil h with h | h
              · rw [h] at m1; simp at m1; omega
              · rw [h, hpad] at m1; omega)
            (by
              intro h
              have h := hcons h
              rw [hpos]
              rw [h] at sl4 m1
              obtain ⟨sl5, sl6⟩ := slice_append sl4
              rw [hpad] at sl6
              rw [List.length_append, hpad] at m1
              refine ⟨by omega, sl6⟩)
          rw [hlen'] at g1 g6
          refine ⟨ret', s', ⟨it.req, s.r.pos + 64 + it.skip, it.data.length - it.skip⟩ :: cs, ?_, g2.trans k1, g3, g4, ?_, ?_⟩
          · rw [g1]
            have : ({ align s1 with stat := noError } : S).res = resOf it.req noError := by
              show s1.res = _
              rw [f3, hres]
            rw [this]
            simp [expected, hr, hak, reported, noError]
          · rw [g5, hcl]; simp
          · rw [List.map_cons, hrec, g6]
            simp [expected, hr, hak, offered]

end Verif.Write
