import Verif.Write.Model
import Verif.Rpc.Step
/-! Lemmas about write requests: what one block and one write do to the position and to the calls. -/
set_option linter.unusedSimpArgs false
set_option linter.unusedVariables false

namespace Verif.Write
open Verif.Wire Verif.Rpc

/-- The reader is on a request of `len` bytes that are all there. -/
def Rdy (len : Nat) (buf : List Byte) (r : Rd) : Prop :=
  r.null = false ∧ r.len = len ∧ r.buf = buf

theorem loc_getBlockHeader : Loc 6 getBlockHeader := by
  unfold getBlockHeader
  exact Loc.bind loc_getU16 (fun _ => Loc.bind loc_getU16 (fun _ => Loc.bind loc_getByte (fun _ =>
    Loc.bind loc_getByte (fun _ => Loc.pure _) rfl) rfl) rfl) rfl

theorem header_ready {len : Nat} {buf : List Byte} (hb : len ≤ buf.length) {r : Rd} (h : Rdy len buf r) :
    ∃ a r', getBlockHeader r = some (a, r') ∧ Rdy len buf r' ∧ r.pos ≤ r'.pos ∧
      (r'.pos ≤ len ∨ r'.pos = r.pos) ∧ (r.err ≠ .ok → r'.err ≠ .ok ∧ r'.pos = r.pos) ∧
      (r.err = .ok → r.pos + 6 ≤ len → r'.err = .ok ∧ r'.pos = r.pos + 6) := by
  obtain ⟨hn, hl, hB⟩ := h
  obtain ⟨a, r', e, n', l', b', _, g'⟩ := loc_getBlockHeader r [] hn (by rw [hl, hB]; exact hb)
  obtain ⟨a2, r2, e2, b2, n2, l2, m2, x2, s2⟩ := safe_getBlockHeader r (fun _ => by rw [hl, hB]; exact hb)
  rw [e] at e2
  have := (Prod.mk.inj (Option.some.inj e2)).2
  subst this
  exact ⟨a, r', e, ⟨n', by rw [l', hl], by rw [b', hB]⟩, m2, by rw [← hl]; exact x2, s2, by rw [← hl]; exact g'⟩

theorem interpret_ready {len : Nat} {buf : List Byte} (hb : len ≤ buf.length) (old : WriteReq) {r : Rd}
    (h : Rdy len buf r) :
    ∃ i r', interpret old r = some (i, r') ∧ Rdy len buf r' ∧ r.pos ≤ r'.pos ∧
      (∀ q, i = .ok q → r.pos + 6 ≤ r'.pos ∧ r'.pos ≤ len) := by
  unfold interpret
  by_cases hp : r.pos + 6 ≤ r.len
  · rw [if_pos hp]
    obtain ⟨a, r1, e1, y1, m1, x1, s1, g1⟩ := header_ready hb h
    rw [e1, Option.bind_some]
    dsimp only
    unfold interpretBlock
    by_cases he : r.err = .ok
    · have g := g1 he (by rw [← h.2.1]; exact hp)
      by_cases hc : r1.pos + a.length.toNat + 4 - 6 ≤ r1.len ∧ r1.err = .ok
      · rw [if_pos hc]
        by_cases ht : a.type = 0x0008
        · rw [if_pos ht]
          obtain ⟨q, r2, e2, b2, n2, l2, m2, x2, s2⟩ := safe_getWriteReq r1 (fun _ => by
            rw [y1.2.1, y1.2.2]; exact hb)
          rw [e2]
          refine ⟨.ok q, r2, rfl, ⟨by rw [n2, y1.1], by rw [l2, y1.2.1], by rw [b2, y1.2.2]⟩, by omega, ?_⟩
          intro q' _
          have h1 := y1.2.1
          have h2 := h.2.1
          omega
        · rw [if_neg ht]
          by_cases ht2 : a.type = 0x0250
          · rw [if_pos ht2]
            have h2 := h.2.1
            exact ⟨_, r1, rfl, y1, m1, fun q' _ => by omega⟩
          · rw [if_neg ht2]
            exact ⟨_, r1, rfl, y1, m1, fun q' e => by cases e⟩
      · rw [if_neg hc]
        exact ⟨_, r1, rfl, y1, m1, fun q' e => by cases e⟩
    · have g := (s1 he).1
      rw [if_neg (fun hc => g hc.2)]
      exact ⟨_, r1, rfl, y1, m1, fun q' e => by cases e⟩
  · rw [if_neg hp]
    exact ⟨_, r, rfl, h, Nat.le_refl _, fun q' e => by cases e⟩

/-- What the delivery of a record does. -/
theorem deliver_cases (env : Env) (c : Call) (s : S) :
    (deliver env c s).2.r = s.r ∧ (deliver env c s).2.res = s.res ∧ (deliver env c s).2.kill = s.kill ∧
    (((deliver env c s).2.calls = s.calls ∧ (deliver env c s).1 = false ∧
        ((deliver env c s).2.stat = errWrite ∨ (deliver env c s).2.stat = s.stat)) ∨
     ((deliver env c s).2.calls = s.calls ++ [c] ∧
        ((env.ans s.calls.length c = .ok ∧ (deliver env c s).1 = true ∧ (deliver env c s).2.stat = s.stat) ∨
         ∃ e, env.ans s.calls.length c = .fail e ∧ (deliver env c s).1 = false ∧ (deliver env c s).2.stat = e))) := by
  unfold deliver
  by_cases h1 : env.denied c.req = true
  · rw [if_pos h1]
    exact ⟨rfl, rfl, rfl, .inl ⟨rfl, rfl, .inl rfl⟩⟩
  · rw [if_neg h1]
    by_cases h2 : handled c.req.index = true
    · rw [if_pos h2]
      cases h3 : env.ans s.calls.length c with
      | ok => exact ⟨rfl, rfl, rfl, .inr ⟨rfl, .inl ⟨rfl, rfl, rfl⟩⟩⟩
      | fail e => exact ⟨rfl, rfl, rfl, .inr ⟨rfl, .inr ⟨e, rfl, rfl, rfl⟩⟩⟩
    · rw [if_neg h2]
      exact ⟨rfl, rfl, rfl, .inl ⟨rfl, rfl, .inr rfl⟩⟩

/-- The common end of both branches of a write. -/
theorem tail_cases (env : Env) (q : WriteReq) (dl : Nat) (s : S) {x : Bool × S}
    (hx : x = setRes (ifNotSet (cmwrrInd env q dl s))) :
    x.2.r.buf = s.r.buf ∧ x.2.r.len = s.r.len ∧ x.2.r.null = s.r.null ∧ x.2.kill = s.kill ∧
    ((x.2.calls = s.calls ∧ x.1 = false ∧ (s.stat = noError → x.2.res.status.code ≠ 0)) ∨
     (x.2.calls = s.calls ++ [⟨q, s.r.pos, dl⟩] ∧ x.2.r.pos = (s.r.pos + dl) % 65536 ∧
        ((env.ans s.calls.length ⟨q, s.r.pos, dl⟩ = .ok ∧ x.1 = true ∧ x.2.stat = s.stat ∧
            x.2.res = resOf q s.res.status ∧ x.2.r.err = s.r.err ∧ x.2.r.be = s.r.be) ∨
         ∃ e, env.ans s.calls.length ⟨q, s.r.pos, dl⟩ = .fail e ∧ x.1 = false ∧
           (x.2.stat ≠ noError) ∧ (e.code ≠ 0 → x.2.res.status = e ∧ x.2.res = resOf q e)))) := by
  subst hx
  by_cases h1 : env.accepts q.uuid = true
  · have hw : cmwrrInd env q dl s = cmwrrWrite env q dl { s with res := resOf q s.res.status } := by
      unfold cmwrrInd; exact if_pos h1
    rw [hw]
    obtain ⟨dr, dres, dk, dc⟩ := deliver_cases env ⟨q, s.r.pos, dl⟩ { s with res := resOf q s.res.status }
    unfold cmwrrWrite
    dsimp only
    dsimp only at dr dres dk dc
    generalize deliver env ⟨q, s.r.pos, dl⟩ { s with res := resOf q s.res.status } = y at *
    obtain ⟨ok, t⟩ := y
    obtain ⟨tr, tc, tres, tst, tk⟩ := t
    dsimp only at dr dres dk dc
    subst dr dres dk
    rcases dc with ⟨c1, c2, c3⟩ | ⟨c1, c2⟩
    · subst c1 c2
      unfold ifNotSet setRes advance
      dsimp only
      by_cases h2 : tst = noError
      · subst h2
        simp
        exact fun _ => by decide
      · simp [h2]
        intro hs
        rcases c3 with c3 | c3
        · subst c3; decide
        · exact absurd (c3.trans hs) h2
    · subst c1
      rcases c2 with ⟨c2, c3, c4⟩ | ⟨e, c2, c3, c4⟩
      · subst c3 c4
        unfold ifNotSet setRes advance
        simp
        exact c2
      · subst c3 c4
        unfold ifNotSet setRes advance
        dsimp only
        by_cases h2 : tst = noError
        · subst h2
          simp
          exact ⟨noError, c2, by decide, fun h => absurd rfl h⟩
        · simp [h2]
          exact ⟨tst, c2, fun h => ⟨rfl, rfl⟩⟩
  · have hw : cmwrrInd env q dl s = (false, { s with res := resOf q s.res.status, stat := errState }) := by
      unfold cmwrrInd; exact if_neg h1
    rw [hw]
    have h2 : errState ≠ noError := by decide
    unfold ifNotSet setRes
    simp [h2]
    exact fun _ => by decide

/-- One write: nothing, or one call, which lies inside the request if its length does not exceed that of the
request. -/
theorem perform_cases {len : Nat} {buf : List Byte} (hb : len ≤ buf.length) (hlen : len ≤ 32000) (env : Env)
    (q : WriteReq) {s : S} (h : Rdy len buf s.r) (hp : s.r.pos ≤ len) :
    ∃ ok s', performOne env q s = some (ok, s') ∧ Rdy len buf s'.r ∧
      ((s'.calls = s.calls ∧ ok = false ∧ (s.stat = noError → s'.res.status.code ≠ 0)) ∨
       ∃ c, s'.calls = s.calls ++ [c] ∧ c.req = q ∧
         (c.len ≤ len → c.pos + c.len ≤ len ∧ s.r.pos ≤ s'.r.pos ∧ s'.r.pos ≤ len) ∧
         ((env.ans s.calls.length c = .ok ∧ ok = true ∧ s'.stat = s.stat ∧ s'.res = resOf q s.res.status) ∨
          ∃ e, env.ans s.calls.length c = .fail e ∧ ok = false ∧ s'.stat ≠ noError ∧
            (e.code ≠ 0 → s'.res = resOf q e))) := by
  have hL : q.length.toNat < 2 ^ 32 := q.length.isLt
  unfold performOne performCore
  by_cases h1 : env.arKnown q.uuid = false
  · rw [if_pos h1]
    refine ⟨_, _, rfl, h, .inl ⟨rfl, rfl, fun _ => ?_⟩⟩
    show errWritePnio.code ≠ 0
    decide
  · rw [if_neg h1]
    by_cases h2 : q.api ≠ 0 ∧ env.apiKnown q.api = false
    · rw [if_pos h2]
      refine ⟨_, _, rfl, h, .inl ⟨rfl, rfl, fun _ => ?_⟩⟩
      show errWrite.code ≠ 0
      decide
    · rw [if_neg h2]
      by_cases h3 : (s.r.pos + q.length.toNat) % 2 ^ 32 ≤ s.r.len
      · rw [if_pos h3]
        have hl := h.2.1
        by_cases h4 : q.index.toNat ≤ 0x7fff
        · rw [if_pos h4, Option.map_some]
          obtain ⟨x, hx⟩ : ∃ x, x = setRes (ifNotSet (cmwrrInd env q (q.length.toNat % 65536) s)) := ⟨_, rfl⟩
          obtain ⟨t1, t2, t3, t4, t5⟩ := tail_cases env q (q.length.toNat % 65536) s hx
          rw [← hx]
          refine ⟨x.1, x.2, rfl, ⟨by rw [t3]; exact h.1, by rw [t2]; exact hl, by rw [t1]; exact h.2.2⟩, ?_⟩
          rcases t5 with t5 | ⟨u1, u2, u3⟩
          · exact .inl t5
          · refine .inr ⟨_, u1, rfl, ?_, ?_⟩
            · dsimp only
              intro hc
              rw [u2]
              omega
            · rcases u3 with ⟨v1, v2, v3, v4, _⟩ | ⟨e, v1, v2, v3, v4⟩
              · exact .inl ⟨v1, v2, v3, v4⟩
              · exact .inr ⟨e, v1, v2, v3, fun h => (v4 h).2⟩
        · rw [if_neg h4]
          obtain ⟨a, r', e', y', m', x', s', g'⟩ := header_ready hb h
          rw [e', Option.map_some, Option.map_some]
          obtain ⟨x, hx⟩ : ∃ x, x = setRes (ifNotSet (cmwrrInd env q ((q.length.toNat + 65530) % 65536) { s with r := r' })) := ⟨_, rfl⟩
          obtain ⟨t1, t2, t3, t4, t5⟩ := tail_cases env q ((q.length.toNat + 65530) % 65536) { s with r := r' } hx
          rw [← hx]
          dsimp only at t1 t2 t3 t4 t5
          refine ⟨x.1, x.2, rfl, ⟨by rw [t3]; exact y'.1, by rw [t2]; exact y'.2.1, by rw [t1]; exact y'.2.2⟩, ?_⟩
          rcases t5 with t5 | ⟨u1, u2, u3⟩
          · exact .inl t5
          · refine .inr ⟨_, u1, rfl, ?_, ?_⟩
            · dsimp only
              intro hc
              rw [u2]
              have k1 : s.r.pos + q.length.toNat < 2 ^ 32 := by omega
              have k2 : s.r.pos + q.length.toNat ≤ len := by omega
              have k3 : 6 ≤ q.length.toNat := by omega
              have k4 : (q.length.toNat + 65530) % 65536 = q.length.toNat - 6 := by omega
              rw [k4]
              by_cases he : s.r.err = .ok
              · have g := g' he
                omega
              · have g := s' he
                omega
            · rcases u3 with ⟨v1, v2, v3, v4, _⟩ | ⟨e, v1, v2, v3, v4⟩
              · exact .inl ⟨v1, v2, v3, v4⟩
              · exact .inr ⟨e, v1, v2, v3, fun h => (v4 h).2⟩
      · rw [if_neg h3]
        refine ⟨_, _, rfl, h, .inl ⟨rfl, rfl, fun _ => ?_⟩⟩
        show errWrite.code ≠ 0
        decide

end Verif.Write
