import Verif.Write.Multi
/-!
C70: what is handed to the functions that take a record lies inside the request.
C71: a multiple write is carried out in order up to the first failure, each write with its own result.
C72: the status of the response says whether the record was written.
C73: the processing of a write request comes to an end.
-/
set_option linter.unusedSimpArgs false
set_option linter.unusedVariables false

namespace Verif.Write
open Verif.Wire Verif.Rpc

/-! ## C70 -/

/-- C70, for functions that look at no more than the length of the request: every record that is offered, single or
multiple, whatever bytes the request consists of, lies inside the request. -/
theorem C70_inside_partial (env : Env) (fuel : Nat) (args : U32) (st : Status) (r : Rd) (o : Out)
    (hn : r.null = false) (hb : r.len ≤ r.buf.length) (hlen : r.len ≤ 32000)
    (h : writeInd env fuel args st r = some o) :
    ∀ c ∈ o.calls, c.len ≤ r.len → c.pos + c.len ≤ r.len ∧ (slice r.buf c.pos c.len).isSome := by
  have hr : Rdy r.len r.buf r := ⟨hn, rfl, rfl⟩
  suffices hs : ∀ c ∈ o.calls, Inside r.len c from fun c hc hl =>
    ⟨hs c hc hl, slice_isSome.mpr (by have := hs c hc hl; omega)⟩
  unfold writeInd at h
  obtain ⟨i, r1, e1, y1, m1, o1⟩ := interpret_ready hb zeroReq hr
  rw [e1, Option.bind_some] at h
  cases i with
  | unknown => cases h; simp
  | bad => cases h; simp
  | ok q =>
    dsimp only at h
    by_cases he : r1.err = .ok
    · rw [if_neg (by simp [he])] at h
      by_cases hq : q.index = 0xe040
      · rw [if_pos hq] at h
        unfold multiple at h
        obtain ⟨x, hx, e⟩ := Option.map_eq_some_iff.mp h
        subst e
        exact multi_inside hb hlen env _ _ _ _ _ _ (by exact y1) (by simp) hx
      · rw [if_neg hq] at h
        unfold single at h
        obtain ⟨ok, s', e2, _, hc⟩ := perform_cases hb hlen env q (s := ⟨r1, [], resOf q st, st, false⟩) y1 (o1 q rfl).2
        rw [e2, Option.map_some] at h
        cases h
        dsimp only
        rcases hc with ⟨c1, _⟩ | ⟨c, c1, _, c3, _⟩
        · rw [c1]; simp
        · rw [c1]
          intro c' hc'
          simp at hc'
          subst hc'
          exact fun hl => (c3 hl).1
    · rw [if_pos he] at h
      cases h; simp

theorem sent_room {be : Bool} {bs : List Byte} {r : Rd} (h : Sent be bs r) : r.len ≤ r.buf.length := by
  have := slice_isSome.mp (by rw [h.bytes]; rfl : (slice r.buf r.pos bs.length).isSome = true)
  rw [h.len]; exact this

/-- The first block of a request. -/
theorem first_block {be : Bool} {q : WriteReq} (hu : q.uuid.d4.length = 8) {rest : List Byte} {r : Rd}
    (h : Sent be (encHead be q ++ rest) r) :
    interpret zeroReq r = some (.ok q, { r with pos := r.pos + 64 }) ∧
      slice r.buf (r.pos + 64) rest.length = some rest ∧ r.len = r.pos + 64 + rest.length := by
  have hl := h.len
  rw [List.length_append, encHead_length hu] at hl
  obtain ⟨s1, s2⟩ := slice_append h.bytes
  rw [encHead_length hu] at s2
  exact ⟨interpret_head hu h.err h.null h.be (by omega) s1, s2, by omega⟩

theorem single_eq {env : Env} {fuel : Nat} {args : U32} {st : Status} {be : Bool} {q : WriteReq}
    (hu : q.uuid.d4.length = 8) (hi : q.index ≠ 0xe040) {rest : List Byte} {r : Rd}
    (h : Sent be (encHead be q ++ rest) r) :
    writeInd env fuel args st r =
      single env r.pos args q ⟨{ r with pos := r.pos + 64 }, [], resOf q st, st, false⟩ := by
  unfold writeInd
  rw [(first_block hu h).1, Option.bind_some]
  dsimp only
  rw [if_neg (by simp [h.err]), if_neg hi]

/-- C70 is false as it stands: for every request for an application record whose stated length is `2 ^ 32 - k` for a
`k` up to the position behind the header, the application is called with length `65536 - k`, far beyond
the end of the request (which has no data at all). -/
theorem C70_fails_wrap (env : Env) (fuel : Nat) (args : U32) (be : Bool) (q : WriteReq) (k : Nat) (r : Rd)
    (hu : q.uuid.d4.length = 8) (hi : q.index.toNat ≤ 0x7fff) (hL : q.length.toNat = 2 ^ 32 - k) (hk : 1 ≤ k)
    (hkp : k ≤ r.pos + 64) (hp : r.pos < 4000) (hs : Sent be (encHead be q) r)
    (hka : env.arKnown q.uuid = true) (hapi : q.api = 0) (hr : refused env q = none) :
    ∃ o, writeInd env fuel args noError r = some o ∧ o.calls = [⟨q, r.pos + 64, 65536 - k⟩] ∧
      r.len < r.pos + 64 + (65536 - k) := by
  have hs' : Sent be (encHead be q ++ []) r := by rw [List.append_nil]; exact hs
  have hl := (first_block hu hs').2.2
  simp at hl
  rw [single_eq hu (fun h => absurd hi (by rw [h]; decide)) hs']
  unfold single performOne performCore
  rw [if_neg (by rw [hka]; decide), if_neg (by simp [hapi])]
  dsimp only
  rw [hL, if_pos (by omega), if_pos hi, show (2 ^ 32 - k) % 65536 = 65536 - k by omega]
  obtain ⟨x, hx⟩ : ∃ x, x = setRes (ifNotSet (cmwrrInd env q (65536 - k)
    ⟨{ r with pos := r.pos + 64 }, [], resOf q noError, noError, false⟩)) := ⟨_, rfl⟩
  rw [Option.map_some, ← hx]
  obtain ⟨c1, _⟩ := tail_taken hr _ _ hx
  exact ⟨_, rfl, c1, by omega⟩

/-- C70 is false in the same way for a record with a block header whose stated length is shorter than that
header: the length that is passed on is `65530 + L`. -/
theorem C70_fails_short (env : Env) (fuel : Nat) (args : U32) (be : Bool) (q : WriteReq) (rest : List Byte) (r : Rd)
    (hu : q.uuid.d4.length = 8) (hi : 0x7fff < q.index.toNat) (hi' : q.index ≠ 0xe040) (hL : q.length.toNat < 6)
    (hrest : 6 ≤ rest.length) (hp : r.len < 60000) (hs : Sent be (encHead be q ++ rest) r)
    (hka : env.arKnown q.uuid = true) (hapi : q.api = 0) (hr : refused env q = none) :
    ∃ o, writeInd env fuel args noError r = some o ∧ o.calls = [⟨q, r.pos + 70, 65530 + q.length.toNat⟩] ∧
      r.len < r.pos + 70 + (65530 + q.length.toNat) := by
  have hl := (first_block hu hs).2.2
  have hb := sent_room hs
  rw [single_eq hu hi' hs]
  unfold single performOne performCore
  rw [if_neg (by rw [hka]; decide), if_neg (by simp [hapi])]
  dsimp only
  obtain ⟨a, r', e', n', l', b', _, g'⟩ := loc_getBlockHeader { r with pos := r.pos + 64 } [] hs.null hb
  have g2 := (g' hs.err (by show r.pos + 64 + 6 ≤ r.len; omega)).2
  rw [if_pos (by omega), if_neg (by omega), e', Option.map_some, Option.map_some, Option.map_some,
    show (q.length.toNat + 65530) % 65536 = 65530 + q.length.toNat by omega]
  obtain ⟨x, hx⟩ : ∃ x, x = setRes (ifNotSet (cmwrrInd env q (65530 + q.length.toNat)
    ⟨r', [], resOf q noError, noError, false⟩)) := ⟨_, rfl⟩
  rw [← hx]
  obtain ⟨c1, _⟩ := tail_taken hr _ _ hx
  dsimp only at c1
  rw [g2] at c1
  exact ⟨_, rfl, c1, by omega⟩

/-! ## C71 -/

/-- C71, for requests of records whose connection and API exist, and functions that report a failure with an error
code: the records are offered in the order of the request, each with exactly its own bytes, up to the first
failure; there is one result block for each write that was looked at, with its names and its status; the
response as a whole carries the status of the request. -/
theorem C71_in_order_partial (env : Env) (a : Nat → Answer) (ha : ∀ k c, env.ans k c = a k)
    (hf : ∀ k e, a k = .fail e → e.code ≠ 0) (be padLast : Bool) (q : WriteReq) (items : List Item) (fuel : Nat)
    (args : U32) (st : Status) (r : Rd) (hu : q.uuid.d4.length = 8) (hq : q.index = 0xe040)
    (hit : ∀ it ∈ items, it.Wf ∧ env.arKnown it.req.uuid = true ∧
      (it.req.api = 0 ∨ env.apiKnown it.req.api = true))
    (hs : Sent be (encMulti be padLast q items) r) (hp : r.pos % 4 = 0) (hlen : r.len ≤ 65000)
    (hargs : args.toNat = (encMulti be padLast q items).length) (hfuel : items.length < fuel) :
    ∃ o, writeInd env fuel args st r = some o ∧
      o.calls.map (fun c => (c.req, slice r.buf c.pos c.len)) =
        ((expected env a 0 items).filter (fun x => x.2.2)).map (fun x => (x.1.req, some x.1.record)) ∧
      o.blocks = resOf q st :: (expected env a 0 items).map (fun x => resOf x.1.req x.2.1) ∧
      o.status = st ∧ o.kill = false := by
  obtain ⟨f1, f2, f3⟩ := first_block hu hs
  have hb := sent_room hs
  unfold writeInd
  rw [f1, Option.bind_some]
  dsimp only
  rw [if_neg (by simp [hs.err]), if_pos hq]
  unfold multiple
  obtain ⟨ret', s', cs, g1, g2, g3, g4, g5, g6⟩ := multi_items hb hlen ha hf be padLast items fuel zeroReq true
    [resOf q st] ⟨{ r with pos := r.pos + 64 }, [], zeroRes, noError, false⟩ hit ⟨hs.null, rfl, rfl⟩ hs.err hs.be
    (by show (r.pos + 64) % 4 = 0; omega) rfl rfl hfuel
    (by
      intro h
      subst h
      simp [encItems] at f3
      show r.len ≤ r.pos + 64
      omega)
    (fun _ => ⟨f3.symm, f2⟩)
  rw [g1, Option.map_some]
  refine ⟨_, rfl, ?_, rfl, ?_, g2⟩
  · rw [show ∀ (a b c d), (Out.mk a b c d).calls = a from fun _ _ _ _ => rfl]
    dsimp only at g5 ⊢
    rw [g5, List.nil_append]
    exact g6
  · dsimp only
    unfold finalStatus
    by_cases hret : (ret' && decide (s'.r.pos = s'.r.len)) = true
    · rw [hret]
      rw [Bool.and_eq_true, decide_eq_true_iff] at hret
      have hok : argsOk r.pos args s'.r = true := by
        unfold argsOk
        rw [g4 hret.1, hret.2, g3.2.1, hargs]
        have := hs.len
        simp
        omega
      rw [hok]
      rfl
    · rw [if_neg]
      intro h
      rw [Bool.and_eq_true] at h
      exact hret h.1

/-! ## C72 -/

/-- C72, one direction, whatever bytes the request consists of: if the response reports no error and has one result block that is not the one of a
multiple write, then exactly one record was offered, the one named in the result block, and it was accepted. -/
theorem C72_reported_partial (env : Env) (fuel : Nat) (args : U32) (st : Status) (r : Rd) (o : Out) (b : Res)
    (hn : r.null = false) (hb : r.len ≤ r.buf.length) (hlen : r.len ≤ 32000)
    (h : writeInd env fuel args st r = some o) (hst : o.status = noError) (hbl : o.blocks = [b])
    (hm : b.index ≠ 0xe040) :
    ∃ c, o.calls = [c] ∧ env.ans 0 c = .ok ∧ b = resOf c.req st := by
  have hr : Rdy r.len r.buf r := ⟨hn, rfl, rfl⟩
  unfold writeInd at h
  obtain ⟨i, r1, e1, y1, m1, o1⟩ := interpret_ready hb zeroReq hr
  rw [e1, Option.bind_some] at h
  cases i with
  | unknown => cases h; cases hbl
  | bad => cases h; cases hbl
  | ok q =>
    dsimp only at h
    by_cases he : r1.err = .ok
    · rw [if_neg (by simp [he])] at h
      by_cases hq : q.index = 0xe040
      · rw [if_pos hq] at h
        unfold multiple at h
        obtain ⟨x, hx, e⟩ := Option.map_eq_some_iff.mp h
        subst e
        dsimp only at hbl
        obtain ⟨l, hl⟩ := multi_blocks env _ _ _ _ _ _ hx
        rw [hl, List.singleton_append] at hbl
        have := (List.cons.inj hbl).1
        rw [← this] at hm
        exact absurd hq hm
      · rw [if_neg hq] at h
        unfold single at h
        obtain ⟨ok, s', e2, _, hc⟩ := perform_cases hb hlen env q (s := ⟨r1, [], resOf q st, st, false⟩) y1 (o1 q rfl).2
        have hnf : ok = false → s'.stat ≠ noError := perform_stat e2
        rw [e2, Option.map_some] at h
        cases h
        dsimp only at hst hbl ⊢
        have hok : ok = true := by
          cases hk : ok with
          | true => rfl
          | false =>
            subst hk
            exact absurd hst (hnf rfl)
        rcases hc with ⟨c1, c2, _⟩ | ⟨c, c1, c2, c3, c4⟩
        · rw [hok] at c2; cases c2
        · rcases c4 with ⟨d1, d2, d3, d4⟩ | ⟨e, d1, d2, _⟩
          · refine ⟨c, by simpa using c1, d1, ?_⟩
            have := (List.cons.inj hbl).1
            rw [← this, d4, c2]
            rfl
          · rw [hok] at d2; cases d2
    · rw [if_pos he] at h
      cases h; cases hbl

/-- What a single well-formed write that is accepted leads to, exactly. -/
theorem C72_accepted (env : Env) (fuel : Nat) (args : U32) (st : Status) (be : Bool) (it : Item) (r : Rd)
    (hw : it.Wf) (hi : it.req.index ≠ 0xe040) (hs : Sent be (encItem be it) r) (hlen : r.len ≤ 65000)
    (hk : env.arKnown it.req.uuid = true) (hapi : it.req.api = 0 ∨ env.apiKnown it.req.api = true)
    (hr : refused env it.req = none) (ha : ∀ k c, env.ans k c = .ok) :
    ∃ o, writeInd env fuel args st r = some o ∧
      o.calls.map (fun c => (c.req, slice r.buf c.pos c.len)) = [(it.req, some it.record)] ∧
      o.blocks = [resOf it.req st] ∧ o.kill = false ∧
      o.status = if args.toNat = (encItem be it).length then st else ⟨0xDF, 0x81⟩ := by
  have hs' : Sent be (encHead be it.req ++ it.data) r := hs
  obtain ⟨f1, f2, f3⟩ := first_block hw.uuid hs'
  have hb := sent_room hs
  rw [single_eq hw.uuid hi hs']
  unfold single
  obtain ⟨ok, s', e1, y1, k1, _, c2⟩ := perform_item hb hlen hw hk hapi
    (s := ⟨{ r with pos := r.pos + 64 }, [], resOf it.req st, st, false⟩) ⟨hs.null, rfl, rfl⟩ hs.err
    (by show r.pos + 64 + _ ≤ _; omega)
  obtain ⟨d1, d2, _⟩ := c2 hr
  obtain ⟨g1, g2, g3, g4, g5, g6⟩ := d2 (ha _ _)
  rw [e1, Option.map_some]
  refine ⟨_, rfl, ?_, ?_, k1, ?_⟩
  · dsimp only at d1 ⊢
    rw [d1]
    have hrec : slice r.buf (r.pos + 64 + it.skip) (it.data.length - it.skip) = some it.record :=
      slice_drop f2 (skip_le hw)
    simp [hrec]
  · dsimp only
    rw [g3]
    rfl
  · dsimp only
    unfold finalStatus argsOk
    rw [g1, g2, g4, g5]
    have hl : (encItem be it).length = 64 + it.data.length := by
      unfold encItem; rw [List.length_append, encHead_length hw.uuid]
    have hm : (r.pos + 64 + it.data.length + (2 ^ 32 - r.pos)) % 2 ^ 32 = 64 + it.data.length := by omega
    dsimp only
    rw [hl, hm]
    by_cases h : args.toNat = 64 + it.data.length
    · rw [if_pos h, h]; simp
    · rw [if_neg h]
      have : ¬ (64 + it.data.length = args.toNat) := fun e => h e.symm
      simp [this, errWritePnio]

/-- C72 is false in the other direction: every well-formed write that the application accepts is answered with an
error, although it has been carried out, if the length of the arguments given in the request is not
that of the blocks. -/
theorem C72_fails_args (env : Env) (fuel : Nat) (args : U32) (be : Bool) (it : Item) (r : Rd)
    (hw : it.Wf) (hi : it.req.index ≠ 0xe040) (hs : Sent be (encItem be it) r) (hlen : r.len ≤ 65000)
    (hk : env.arKnown it.req.uuid = true) (hapi : it.req.api = 0 ∨ env.apiKnown it.req.api = true)
    (hr : refused env it.req = none) (ha : ∀ k c, env.ans k c = .ok)
    (hargs : args.toNat ≠ (encItem be it).length) :
    ∃ o, writeInd env fuel args noError r = some o ∧
      o.calls.map (fun c => (c.req, slice r.buf c.pos c.len)) = [(it.req, some it.record)] ∧ o.status ≠ noError := by
  obtain ⟨o, h1, h2, _, _, h3⟩ := C72_accepted env fuel args noError be it r hw hi hs hlen hk hapi hr ha
  rw [if_neg hargs] at h3
  exact ⟨o, h1, h2, by rw [h3]; decide⟩

/-- C72 is false for a request that is already marked as faulty, for example because fragments of it are missing: it
is carried out all the same, and answered with the error. -/
theorem C72_fails_marked (env : Env) (fuel : Nat) (args : U32) (st : Status) (be : Bool) (it : Item) (r : Rd)
    (hw : it.Wf) (hi : it.req.index ≠ 0xe040) (hs : Sent be (encItem be it) r) (hlen : r.len ≤ 65000)
    (hk : env.arKnown it.req.uuid = true) (hapi : it.req.api = 0 ∨ env.apiKnown it.req.api = true)
    (hr : refused env it.req = none) (ha : ∀ k c, env.ans k c = .ok) (hst : st ≠ noError) :
    ∃ o, writeInd env fuel args st r = some o ∧
      o.calls.map (fun c => (c.req, slice r.buf c.pos c.len)) = [(it.req, some it.record)] ∧ o.status ≠ noError := by
  obtain ⟨o, h1, h2, _, _, h3⟩ := C72_accepted env fuel args st be it r hw hi hs hlen hk hapi hr ha
  refine ⟨o, h1, h2, ?_⟩
  rw [h3]
  split
  · exact hst
  · decide

/-- C72 is false for a request whose first block says that it is longer than the request: nothing is written, there is
no result block, and the response reports no error. -/
theorem C72_fails_silent (env : Env) (fuel : Nat) (args : U32) (be : Bool) (h : BlockHeader) (rest : List Byte) (r : Rd)
    (hs : Sent be (encBlockHeader be h ++ rest) r) (hl : rest.length + 2 < h.length.toNat) :
    writeInd env fuel args noError r = some ⟨[], [], noError, false⟩ := by
  have l6 : (encBlockHeader be h).length = 6 := by simp [encBlockHeader, enc16_length]
  have hlen := hs.len
  rw [List.length_append, l6] at hlen
  obtain ⟨s1, s2⟩ := slice_append hs.bytes
  rw [l6] at s1 s2
  have e1 := parses_getBlockHeader be h r hs.err hs.null hs.be (by rw [l6]; omega) (by rw [l6]; exact s1)
  unfold writeInd interpret
  rw [if_pos (by omega), e1, Option.bind_some, l6]
  dsimp only
  unfold interpretBlock
  rw [if_neg (by rintro ⟨h1, _⟩; dsimp only at h1; omega), Option.bind_some]

/-! ## C73 -/

/-- C73, if records that are said to be longer than the request are refused with an error code: whatever bytes the
request consists of, its processing ends. -/
theorem C73_ends_partial (env : Env) (args : U32) (st : Status) (r : Rd)
    (hn : r.null = false) (hb : r.len ≤ r.buf.length) (hlen : r.len ≤ 32000)
    (ha : ∀ k c, r.len < c.len → ∃ e, env.ans k c = .fail e ∧ e.code ≠ 0) :
    ∃ fuel o, writeInd env fuel args st r = some o := by
  have hr : Rdy r.len r.buf r := ⟨hn, rfl, rfl⟩
  refine ⟨r.len + 2, ?_⟩
  unfold writeInd
  obtain ⟨i, r1, e1, y1, m1, o1⟩ := interpret_ready hb zeroReq hr
  rw [e1, Option.bind_some]
  cases i with
  | unknown => exact ⟨_, rfl⟩
  | bad => exact ⟨_, rfl⟩
  | ok q =>
    dsimp only
    by_cases he : r1.err = .ok
    · rw [if_neg (by simp [he])]
      by_cases hq : q.index = 0xe040
      · rw [if_pos hq]
        unfold multiple
        obtain ⟨x, hx⟩ := multi_ends hb hlen env ha (r.len + 1) zeroReq true [resOf q st] ⟨r1, [], zeroRes, noError, false⟩
          y1 rfl (by omega) (by omega)
        rw [hx]
        exact ⟨_, rfl⟩
      · rw [if_neg hq]
        unfold single
        obtain ⟨ok, s', e2, _⟩ := perform_cases hb hlen env q (s := ⟨r1, [], resOf q st, st, false⟩) y1 (o1 q rfl).2
        rw [e2]
        exact ⟨_, rfl⟩
    · rw [if_pos he]
      exact ⟨_, rfl⟩

/-- A write whose stated length is `2 ^ 32 - 64`, if it is accepted, leads back to its own header. -/
theorem endless_turn {env : Env} {q : WriteReq} (hi : q.index.toNat ≤ 0x7fff) (hL : q.length.toNat = 2 ^ 32 - 64)
    (hka : env.arKnown q.uuid = true) (hapi : q.api = 0) (hr : refused env q = none) (ha : ∀ k c, env.ans k c = .ok)
    {s : S} {p : Nat} (hp : p % 4 = 0) (hpl : p ≤ s.r.len) (hlt : p < 60000) (hs : s.stat = noError) :
    ∃ calls, turn env q { s with r := { s.r with pos := p + 64 } } =
      some (true, ⟨{ s.r with pos := p }, calls, resOf q s.res.status, noError, s.kill⟩) := by
  unfold turn performOne performCore
  rw [if_neg (by rw [hka]; decide), if_neg (by simp [hapi])]
  dsimp only
  rw [hL, if_pos (by omega), if_pos hi, Option.map_some, Option.map_some]
  obtain ⟨x, hx⟩ : ∃ x, x = setRes (ifNotSet (cmwrrInd env q ((2 ^ 32 - 64) % 65536)
    { s with r := { s.r with pos := p + 64 } })) := ⟨_, rfl⟩
  rw [← hx]
  obtain ⟨c1, c2, c3, c4, c5, c6, _⟩ := tail_taken hr _ _ hx
  obtain ⟨d1, d2, d3, d4⟩ := c6 (ha _ _)
  refine ⟨x.2.calls, ?_⟩
  unfold align
  rw [d1, d3, c2, d4]
  have : ((p + 64 + (2 ^ 32 - 64) % 65536) % 65536 + 3) / 4 * 4 % 65536 = p := by omega
  dsimp only
  rw [this]

/-- C73 is false for an application that accepts what it is offered: a multiple write with a header whose stated
length is `2 ^ 32 - 64` leads back to that header, so that the application is called again and again, without end. -/
theorem C73_fails_endless (env : Env) (be : Bool) (m q : WriteReq) (args : U32) (st : Status) (r : Rd)
    (hm : m.uuid.d4.length = 8) (hmi : m.index = 0xe040)
    (hu : q.uuid.d4.length = 8) (hi : q.index.toNat ≤ 0x7fff) (hL : q.length.toNat = 2 ^ 32 - 64)
    (hs : Sent be (encHead be m ++ encHead be q) r) (hp : r.pos % 4 = 0) (hlen : r.len < 60000)
    (hka : env.arKnown q.uuid = true) (hapi : q.api = 0) (hr : refused env q = none) (ha : ∀ k c, env.ans k c = .ok) :
    ∀ fuel, writeInd env fuel args st r = none := by
  obtain ⟨f1, f2, f3⟩ := first_block hm hs
  rw [encHead_length hu] at f3
  have key : ∀ n q0 ret blocks s, s.r = { r with pos := r.pos + 64 } → s.res.status = noError → s.stat = noError →
      multi env n q0 ret blocks s = none := by
    intro n
    induction n with
    | zero => intros; rfl
    | succ n ih =>
      intro q0 ret blocks s h1 h2 h3
      have hi' := interpret_head (be := be) (old := q0) (r := s.r) hu (by rw [h1]; exact hs.err) (by rw [h1]; exact hs.null)
        (by rw [h1]; exact hs.be) (by rw [h1]; show r.pos + 64 + 64 ≤ r.len; omega) (by rw [h1]; exact f2)
      rw [multi, if_pos ⟨by rw [h1]; show r.pos + 64 + 58 < r.len; omega, by rw [h2]; rfl⟩, hi']
      dsimp only
      obtain ⟨calls, e⟩ := endless_turn hi hL hka hapi hr ha (s := s) (p := s.r.pos) (by rw [h1]; show (r.pos + 64) % 4 = 0; omega)
        (by rw [h1]; show r.pos + 64 ≤ r.len; omega) (by rw [h1]; show r.pos + 64 < _; omega) h3
      rw [e]
      dsimp only
      refine ih _ _ _ _ ?_ ?_ rfl
      · rw [h1]
      · rw [h2]; rfl
  intro fuel
  unfold writeInd
  rw [f1, Option.bind_some]
  dsimp only
  rw [if_neg (by simp [hs.err]), if_pos hmi]
  unfold multiple
  rw [key _ _ _ _ _ rfl rfl rfl]
  rfl

/-! ## Concrete cases -/

def exUuid : Uuid := ⟨1, 2, 3, [4, 5, 6, 7, 8, 9, 10, 11]⟩
def exEnv : Env := ⟨fun u => u == exUuid, fun _ => false, fun _ => true, fun _ => false, fun _ _ => .ok⟩
def exReq (seq : U16) (index : U16) (len : U32) : WriteReq := ⟨seq, exUuid, 0, 1, 1, index, len⟩
def exMulti : WriteReq := exReq 1 0xe040 0

/-- A request at position 4 of a buffer of the given bytes. -/
def exRd (bs : List Byte) : Rd := ⟨List.replicate 4 0 ++ bs, false, 4 + bs.length, true, .ok, 4⟩

theorem exSent (bs : List Byte) : Sent true bs (exRd bs) := by
  refine ⟨rfl, rfl, rfl, rfl, ?_⟩
  show slice (List.replicate 4 0 ++ bs) 4 bs.length = some bs
  rw [slice_eq_some (by simp; omega)]
  simp

/-- The hypotheses of `C70_fails_wrap`, `C70_fails_short` and `C73_fails_endless` can be met. -/
example : ∃ o, writeInd exEnv 1 64 noError (exRd (encHead true (exReq 2 5 0xfffffff0))) = some o ∧
    o.calls = [⟨exReq 2 5 0xfffffff0, 68, 65520⟩] ∧ 68 < 68 + 65520 := by
  have h := C70_fails_wrap exEnv 1 64 true (exReq 2 5 0xfffffff0) 16 (exRd (encHead true (exReq 2 5 0xfffffff0)))
    rfl (by decide) (by decide) (by decide) (by decide) (by decide) (exSent _) rfl rfl rfl
  obtain ⟨o, h1, h2, _⟩ := h
  exact ⟨o, h1, h2, by decide⟩

example : ∃ o, writeInd exEnv 1 70 noError (exRd (encHead true (exReq 2 0xaff1 0) ++ [0, 0, 0, 0, 0, 0])) = some o ∧
    o.calls = [⟨exReq 2 0xaff1 0, 74, 65530⟩] := by
  obtain ⟨o, h1, h2, _⟩ := C70_fails_short exEnv 1 70 true (exReq 2 0xaff1 0) [0, 0, 0, 0, 0, 0]
    (exRd (encHead true (exReq 2 0xaff1 0) ++ [0, 0, 0, 0, 0, 0]))
    rfl (by decide) (by decide) (by decide) (by decide) (by decide +kernel) (exSent _) rfl rfl rfl
  exact ⟨o, h1, h2⟩

example : ∀ fuel, writeInd exEnv fuel 128 noError
    (exRd (encHead true exMulti ++ encHead true (exReq 2 5 0xffffffc0))) = none :=
  C73_fails_endless exEnv true exMulti (exReq 2 5 0xffffffc0) 128 noError _ rfl rfl rfl (by decide) (by decide) (exSent _)
    (by decide) (by decide +kernel) rfl rfl rfl (fun _ _ => rfl)

/-- Two records, the first of the application with three bytes, the second I&M 1 with its block header. -/
def exItems : List Item :=
  [⟨exReq 2 5 3, [1, 2, 3]⟩, ⟨exReq 3 0xaff1 8, [0, 0x21, 0, 4, 1, 0, 9, 8]⟩]

theorem exItems_ok : ∀ it ∈ exItems, it.Wf ∧ exEnv.arKnown it.req.uuid = true ∧
    (it.req.api = 0 ∨ exEnv.apiKnown it.req.api = true) := by
  intro it h
  simp [exItems] at h
  rcases h with rfl | rfl
  · exact ⟨⟨rfl, rfl, fun h => absurd h (by decide)⟩, rfl, .inl rfl⟩
  · exact ⟨⟨rfl, rfl, fun _ => by decide⟩, rfl, .inl rfl⟩

/-- Both are offered, the first with its three bytes, the second without its block header. -/
example : ∃ o, writeInd exEnv 3 204 noError (exRd (encMulti true false exMulti exItems)) = some o ∧
    o.calls.map (fun c => (c.req, slice (exRd (encMulti true false exMulti exItems)).buf c.pos c.len)) =
      [(exReq 2 5 3, some [1, 2, 3]), (exReq 3 0xaff1 8, some [9, 8])] ∧
    o.blocks = [resOf exMulti noError, resOf (exReq 2 5 3) noError, resOf (exReq 3 0xaff1 8) noError] := by
  obtain ⟨o, h1, h2, h3, _⟩ := C71_in_order_partial exEnv (fun _ => .ok) (fun _ _ => rfl) (fun _ _ h => by cases h) true false
    exMulti exItems 3 204 noError _ rfl rfl exItems_ok (exSent _) rfl (by decide +kernel) (by decide +kernel) (by decide)
  exact ⟨o, h1, h2, h3⟩

/-- A record of the application: `C72_accepted` and its consequences apply. -/
example : ∃ o, writeInd exEnv 0 67 noError (exRd (encItem true ⟨exReq 2 5 3, [1, 2, 3]⟩)) = some o ∧
    o.calls.map (fun c => (c.req, slice (exRd (encItem true ⟨exReq 2 5 3, [1, 2, 3]⟩)).buf c.pos c.len)) =
      [(exReq 2 5 3, some [1, 2, 3])] ∧ o.status = noError := by
  obtain ⟨o, h1, h2, _, _, h3⟩ := C72_accepted exEnv 0 67 noError true ⟨exReq 2 5 3, [1, 2, 3]⟩ _
    (exItems_ok _ (by simp [exItems])).1 (by decide) (exSent _) (by decide +kernel) rfl (.inl rfl) rfl (fun _ _ => rfl)
  exact ⟨o, h1, h2, h3⟩

/-- The request of `C72_fails_silent`: a block of 100 bytes is announced, six are there. -/
example : writeInd exEnv 0 6 noError (exRd (encBlockHeader true ⟨8, 100, 1, 0⟩ ++ [])) = some ⟨[], [], noError, false⟩ :=
  C72_fails_silent exEnv 0 6 true ⟨8, 100, 1, 0⟩ [] _ (exSent _) (by decide)

/-- C71 is false for a multiple write with a block of type InterfaceAdjust (which is not a write request): the write before it is
carried out once more, with the bytes that follow this block. -/
def exAdjust : List Byte := encHead true exMulti ++ encItem true ⟨exReq 2 5 4, [1, 2, 3, 4]⟩ ++
  encBlockHeader true ⟨0x0250, 60, 1, 0⟩ ++ List.replicate 58 0xaa

theorem C71_fails_adjust :
    (writeInd exEnv 10 196 noError (exRd exAdjust)).map (fun o => o.calls.map fun c =>
      (c.req, slice (exRd exAdjust).buf c.pos c.len)) =
    some [(exReq 2 5 4, some [1, 2, 3, 4]), (exReq 2 5 4, some [0xaa, 0xaa, 0xaa, 0xaa])] := by
  decide +kernel

/-- C71 is false for a record of an unknown connection: its result block has the names of the write before
it. -/
def exOther : WriteReq := ⟨3, ⟨9, 9, 9, List.replicate 8 9⟩, 0, 7, 7, 6, 4⟩
def exNames : List Byte := encMulti true false exMulti [⟨exReq 2 5 4, [1, 2, 3, 4]⟩, ⟨exOther, [1, 2, 3, 4]⟩]

theorem C71_fails_names :
    (writeInd exEnv 10 200 noError (exRd exNames)).map (fun o => (o.blocks, o.kill)) =
    some ([resOf exMulti noError, resOf (exReq 2 5 4) noError, resOf (exReq 2 5 4) errWritePnio], true) := by
  decide +kernel

end Verif.Write
