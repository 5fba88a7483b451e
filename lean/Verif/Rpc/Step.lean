import Verif.Rpc.Inv
/-! One datagram: its header, its session, and what it leaves of the other sessions. -/
set_option linter.unusedSimpArgs false
set_option linter.unusedVariables false

namespace Verif.Rpc
open Verif.Wire

/-! ## The header of a datagram -/

/-- `p` reads only inside the message, and moves by exactly `n` if there are `n` bytes. -/
def Loc {α} (n : Nat) (p : P α) : Prop :=
  ∀ r x, r.null = false → r.len ≤ r.buf.length → ∃ a r', p r = some (a, r') ∧ r'.null = false ∧ r'.len = r.len ∧
    r'.buf = r.buf ∧ p { r with buf := r.buf ++ x } = some (a, { r' with buf := r.buf ++ x }) ∧
    (r.err = .ok → r.pos + n ≤ r.len → r'.err = .ok ∧ r'.pos = r.pos + n)

theorem Loc.pure {α} (a : α) : Loc 0 (Pure.pure a : P α) := by
  intro r x hn hl
  exact ⟨a, r, rfl, hn, rfl, rfl, rfl, fun h _ => ⟨h, rfl⟩⟩

theorem Loc.bind {α β} {n m k : Nat} {p : P α} {f : α → P β} (hp : Loc n p) (hf : ∀ a, Loc m (f a)) (hk : k = n + m) :
    Loc k (p >>= f) := by
  intro r x hn hl
  obtain ⟨a, r1, e1, n1, l1, b1, f1, g1⟩ := hp r x hn hl
  obtain ⟨b, r2, e2, n2, l2, b2, f2, g2⟩ := hf a r1 x n1 (by rw [b1, l1]; exact hl)
  refine ⟨b, r2, by simp [e1, e2], n2, by rw [l2, l1], by rw [b2, b1], ?_, ?_⟩
  · rw [P.bind_def, f1]
    dsimp only [Option.bind_some]
    rw [b1] at f2
    rw [f2]
  · intro he hpos
    obtain ⟨h1, h2⟩ := g1 he (by omega)
    obtain ⟨h3, h4⟩ := g2 h1 (by omega)
    exact ⟨h3, by omega⟩

theorem Loc.ite {α} {n : Nat} {c : Prop} [Decidable c] {p q : P α} (hp : Loc n p) (hq : Loc n q) :
    Loc n (if c then p else q) := by split <;> assumption

theorem loc_getByte : Loc 1 getByte := by
  intro r x hn hl
  by_cases he : r.err = .ok
  · by_cases hp : r.pos ≥ r.len
    · refine ⟨0, { r with err := .endOfInput }, ?_, hn, rfl, rfl, ?_, ?_⟩
      · unfold getByte; rw [if_neg (by simp [he]), if_pos hp]
      · unfold getByte; rw [if_neg (by simp [he]), if_pos hp]
      · intro _ h; omega
    · have hlt : r.pos < r.buf.length := by omega
      refine ⟨r.buf[r.pos], { r with pos := r.pos + 1 }, ?_, hn, rfl, rfl, ?_, ?_⟩
      · unfold getByte
        rw [if_neg (by simp [he]), if_neg hp, if_neg (by simp [hn]), List.getElem?_eq_getElem hlt]
        rfl
      · unfold getByte
        rw [if_neg (by simp [he]), if_neg hp, if_neg (by simp [hn])]
        dsimp only
        rw [List.getElem?_append_left hlt, List.getElem?_eq_getElem hlt]
        rfl
      · intro _ _; exact ⟨he, rfl⟩
  · refine ⟨0, r, ?_, hn, rfl, rfl, ?_, fun h => absurd h he⟩
    · unfold getByte; rw [if_pos he]
    · unfold getByte; rw [if_pos he]

theorem loc_getMem (n : Nat) : Loc n (getMem n) := by
  intro r x hn hl
  by_cases he : r.err = .ok
  · by_cases hp : r.pos + n > r.len
    · refine ⟨none, { r with err := .endOfInput }, ?_, hn, rfl, rfl, ?_, ?_⟩
      · unfold getMem; rw [if_neg (by simp [he]), if_pos hp]
      · unfold getMem; rw [if_neg (by simp [he]), if_pos hp]
      · intro _ h; omega
    · refine ⟨some ((r.buf.drop r.pos).take n), { r with pos := r.pos + n }, ?_, hn, rfl, rfl, ?_, ?_⟩
      · unfold getMem
        rw [if_neg (by simp [he]), if_neg hp, if_neg (by simp [hn]), slice_eq_some (by omega)]
        rfl
      · unfold getMem
        rw [if_neg (by simp [he]), if_neg hp, if_neg (by simp [hn])]
        dsimp only
        rw [slice_eq_some (by simp; omega), List.drop_append_of_le_length (by omega), List.take_append_of_le_length (by simp; omega)]
        rfl
      · intro _ _; exact ⟨he, rfl⟩
  · refine ⟨none, r, ?_, hn, rfl, rfl, ?_, fun h => absurd h he⟩
    · unfold getMem; rw [if_pos he]
    · unfold getMem; rw [if_pos he]

theorem loc_setBe (b : Bool) : Loc 0 (setBe b) := fun r x hn hl => ⟨(), _, rfl, hn, rfl, rfl, rfl, fun h _ => ⟨h, rfl⟩⟩
theorem loc_isBe : Loc 0 isBe := fun r x hn hl => ⟨_, _, rfl, hn, rfl, rfl, rfl, fun h _ => ⟨h, rfl⟩⟩
theorem loc_getU32 : Loc 4 getU32 := by
  unfold getU32
  refine Loc.bind loc_isBe (fun _ => Loc.ite (n := 4) ?_ ?_) rfl
  all_goals exact Loc.bind loc_getByte (fun _ => Loc.bind loc_getByte (fun _ => Loc.bind loc_getByte (fun _ =>
    Loc.bind loc_getByte (fun _ => Loc.pure _) rfl) rfl) rfl) rfl

theorem loc_getU16 : Loc 2 getU16 := by
  have key : Loc 2 (do
      if ← isBe then
        let a ← getByte
        let b ← getByte
        pure ((a.setWidth 16 <<< 8) + b.setWidth 16)
      else
        let a ← getByte
        let b ← getByte
        pure (a.setWidth 16 + (b.setWidth 16 <<< 8)) : P U16) := by
    refine Loc.bind loc_isBe (fun _ => Loc.ite (n := 2) ?_ ?_) rfl
    all_goals exact Loc.bind loc_getByte (fun _ => Loc.bind loc_getByte (fun _ => Loc.pure _) rfl) rfl
  intro r x hn hl
  by_cases he : r.err = .ok
  · obtain ⟨a, r', e, n1, l1, b1, f1, g1⟩ := key r x hn hl
    refine ⟨a, r', ?_, n1, l1, b1, ?_, g1⟩
    · unfold getU16
      rw [P.bind_def]
      simp only [isOk, he, beq_self_eq_true, Option.bind_some, if_true]
      exact e
    · unfold getU16
      rw [P.bind_def]
      simp only [isOk, he, beq_self_eq_true, Option.bind_some, if_true]
      rw [he] at f1
      exact f1
  · have hb : (r.err == PErr.ok) = false := by simpa using he
    refine ⟨0, r, ?_, hn, rfl, rfl, ?_, fun h => absurd h he⟩
    · unfold getU16
      rw [P.bind_def]
      simp only [isOk, hb, Option.bind_some, Bool.false_eq_true, if_false]
      rfl
    · unfold getU16
      rw [P.bind_def]
      simp only [isOk, hb, Option.bind_some, Bool.false_eq_true, if_false]
      rfl

theorem loc_getUuid : Loc 16 getUuid := by
  unfold getUuid getArr
  refine Loc.bind loc_getU32 (fun _ => Loc.bind loc_getU16 (fun _ => Loc.bind loc_getU16 (fun _ =>
    Loc.bind (n := 8) (m := 0) (Loc.bind (loc_getMem 8) (fun _ => Loc.pure _) rfl) (fun _ => Loc.pure _) rfl) rfl) rfl) rfl

theorem loc_getRpcHeader : Loc 80 getRpcHeader := by
  unfold getRpcHeader
  refine Loc.bind (m := 79) loc_getByte (fun _ => ?_) rfl
  refine Loc.bind (m := 78) loc_getByte (fun _ => ?_) rfl
  refine Loc.bind (m := 77) loc_getByte (fun _ => ?_) rfl
  refine Loc.bind (m := 76) loc_getByte (fun _ => ?_) rfl
  refine Loc.bind (m := 75) loc_getByte (fun _ => ?_) rfl
  refine Loc.bind (m := 75) (loc_setBe _) (fun _ => ?_) rfl
  refine Loc.bind (m := 74) loc_getByte (fun _ => ?_) rfl
  refine Loc.bind (m := 73) loc_getByte (fun _ => ?_) rfl
  refine Loc.bind (m := 72) loc_getByte (fun _ => ?_) rfl
  refine Loc.bind (m := 56) loc_getUuid (fun _ => ?_) rfl
  refine Loc.bind (m := 40) loc_getUuid (fun _ => ?_) rfl
  refine Loc.bind (m := 24) loc_getUuid (fun _ => ?_) rfl
  refine Loc.bind (m := 20) loc_getU32 (fun _ => ?_) rfl
  refine Loc.bind (m := 16) loc_getU32 (fun _ => ?_) rfl
  refine Loc.bind (m := 12) loc_getU32 (fun _ => ?_) rfl
  refine Loc.bind (m := 10) loc_getU16 (fun _ => ?_) rfl
  refine Loc.bind (m := 8) loc_getU16 (fun _ => ?_) rfl
  refine Loc.bind (m := 6) loc_getU16 (fun _ => ?_) rfl
  refine Loc.bind (m := 4) loc_getU16 (fun _ => ?_) rfl
  refine Loc.bind (m := 2) loc_getU16 (fun _ => ?_) rfl
  refine Loc.bind (m := 1) loc_getByte (fun _ => ?_) rfl
  refine Loc.bind (m := 0) loc_getByte (fun _ => ?_) rfl
  exact Loc.pure _

/-- The header of a datagram, as the parser of the block reader reads it (for a datagram that starts with
the encoding of a header, that header: `hdrOf_enc`). -/
def hdrOf (d : List Byte) : RpcHeader :=
  match getRpcHeader ⟨d, false, d.length, false, .ok, 0⟩ with
  | some (h, _) => h
  | none => ⟨0, 0, false, false, false, false, false, false, false, false, 0, 0, 0, nilUuid, nilUuid, nilUuid, 0, 0, 0, 0,
    0, 0, 0, 0, 0, 0⟩

theorem hdrOf_enc {h : RpcHeader} (hw : h.Wf) (b : List Byte) : hdrOf (encRpcHeader h ++ b) = h := by
  unfold hdrOf
  have hl := encRpcHeader_length hw
  have := parses_getRpcHeader hw false ⟨encRpcHeader h ++ b, false, (encRpcHeader h ++ b).length, false, .ok, 0⟩ rfl rfl rfl
    (by simp) (by rw [slice_zero (by simp)]; simp)
  rw [this]

theorem parse_frame {f d : List Byte} :
    ∃ r, getRpcHeader ⟨newFrame f d, false, d.length, false, .ok, 0⟩ = some (hdrOf d, r) ∧ r.buf = newFrame f d ∧
      r.null = false ∧ r.len = d.length ∧ r.pos ≤ 80 ∧ HOk (hdrOf d) ∧ (80 ≤ d.length → r.pos = 80) := by
  obtain ⟨h, r, e, n1, l1, b1, f1, g1⟩ := loc_getRpcHeader ⟨d, false, d.length, false, .ok, 0⟩ (f.drop d.length) rfl (Nat.le_refl _)
  have hh : hdrOf d = h := by unfold hdrOf; rw [e]
  rw [hh]
  have hb := bnd_getRpcHeader _ _ _ e
  dsimp only at hb f1 l1 g1
  refine ⟨_, f1, rfl, n1, l1, by dsimp only; omega, post_getRpcHeader _ _ _ e, ?_⟩
  intro h80
  have := (g1 rfl (by omega)).2
  dsimp only
  omega

/-! ## One step -/

/-- What a delivered datagram does. -/
inductive Recv (c : Cfg) (st st' : St) (d : List Byte) (rep : Reply) (ev : List Ev) : Prop where
  /-- No session. -/
  | lost (hf : findSess c (hdrOf d).actUuid rep.gen st.sess = none) (hs : st'.sess = st.sess) (he : ev = [])
  /-- The datagram is handled by session `i`. -/
  | handled (i : Nat) (isNew : Bool) (s t t2 : Sess) (r r' : Rd) (er : Bool)
      (hf : findSess c (hdrOf d).actUuid rep.gen st.sess = some (i, isNew, s))
      (hr : r.buf = newFrame st.frame d ∧ RdOk r ∧ r.len = d.length ∧ r.pos ≤ 80 ∧ (80 ≤ d.length → r.pos = 80))
      (hpar : getRpcHeader ⟨newFrame st.frame d, false, d.length, false, .ok, 0⟩ = some (hdrOf d, r))
      (hcol : collect c (hdrOf d) r s = some (t, r', er))
      (hrd : RdOk r')
      (hok : SOk c s ∧ SOk c t)
      (hdis : dispatch c i isNew (hdrOf d) r' er rep { t with timer := false } = some (t2, ev))
      (hst : st'.sess = st.sess.set i (finish c t2))

theorem recv_cases {c : Cfg} (hc : CfgOk c) {st st' : St} (hi : Inv c st) {d : List Byte} {rep : Reply} {ev : List Ev}
    (h0 : 0 < d.length) (h1 : d.length ≤ c.frameSize) (h : step c st (.recv d rep) = some (st', ev)) :
    st'.frame = newFrame st.frame d ∧ HOk (hdrOf d) ∧ Recv c st st' d rep ev := by
  unfold step at h
  dsimp only at h
  rw [if_neg (by omega)] at h
  obtain ⟨r, e, hb, hn, hl, hp, hw, h80⟩ := parse_frame (f := st.frame) (d := d)
  unfold dcePacket at h
  rw [show d ++ st.frame.drop d.length = newFrame st.frame d from rfl] at h
  dsimp only at h
  rw [e] at h
  dsimp only [Option.bind_some] at h
  have hfl : (newFrame st.frame d).length = c.frameSize := by rw [newFrame_length (by rw [hi.frame]; exact h1), hi.frame]
  cases hf : findSess c (hdrOf d).actUuid rep.gen st.sess with
  | none =>
    rw [hf] at h
    cases h
    exact ⟨rfl, hw, .lost hf rfl rfl⟩
  | some q =>
    obtain ⟨i, n, s⟩ := q
    rw [hf] at h
    dsimp only at h
    have hro : RdOk r := ⟨hn, by rw [hl, hb, hfl]; exact h1⟩
    obtain ⟨hlt, hsok, _, _⟩ := findSess_ok hi.sess hf
    obtain ⟨t, r', er, ec, ht, _, hr', _, _⟩ := collect_ok hc (h := hdrOf d) hsok hro (by rw [hb, hfl]) hp
    rw [ec] at h
    dsimp only [Option.bind_some] at h
    obtain ⟨z, hz, ez⟩ := Option.map_eq_some_iff.mp h
    obtain ⟨t2, ev2⟩ := z
    cases ez
    exact ⟨rfl, hw, .handled i n s t t2 r r' er hf ⟨hb, hro, hl, hp, h80⟩ e ec hr' ⟨hsok, ht⟩ hz rfl⟩

/-! ## Looking up sessions -/

theorem findIdx?_set_false {α} {p : α → Bool} {l : List α} {j : Nat} {x : α} (h0 : ∀ y, l[j]? = some y → p y = false)
    (hx : p x = false) : (l.set j x).findIdx? p = l.findIdx? p := by
  induction l generalizing j with
  | nil => rfl
  | cons a l ih =>
    cases j with
    | zero =>
      have := h0 a rfl
      simp [List.findIdx?_cons, this, hx]
    | succ j =>
      simp only [List.set_cons_succ, List.findIdx?_cons]
      rw [ih (j := j) (fun y hy => h0 y (by simpa using hy))]

theorem findIdx?_set_true {α} {p : α → Bool} {l : List α} {j : Nat} {x : α} (h0 : l.findIdx? p = some j)
    (hx : p x = true) : (l.set j x).findIdx? p = some j := by
  induction l generalizing j with
  | nil => cases h0
  | cons a l ih =>
    rw [List.findIdx?_cons] at h0
    split at h0
    · cases h0
      simp [List.findIdx?_cons, hx]
    · rename_i ha
      cases hq : List.findIdx? p l with
      | none => rw [hq] at h0; cases h0
      | some k =>
        rw [hq] at h0
        cases h0
        simp only [List.set_cons_succ, List.findIdx?_cons, ih hq]
        simp [ha]

theorem findIdx?_set_new {α} {p : α → Bool} {l : List α} {j : Nat} {x : α} (h0 : l.findIdx? p = none)
    (hx : p x = true) (hj : j < l.length) : (l.set j x).findIdx? p = some j := by
  induction l generalizing j with
  | nil => cases hj
  | cons a l ih =>
    rw [List.findIdx?_cons] at h0
    split at h0
    · cases h0
    · rename_i ha
      have h0' : List.findIdx? p l = none := by
        cases hq : List.findIdx? p l with
        | none => rfl
        | some k => rw [hq] at h0; cases h0
      cases j with
      | zero => simp [List.findIdx?_cons, hx]
      | succ j =>
        simp only [List.set_cons_succ, List.findIdx?_cons, ih h0' (by simpa using hj)]
        simp [ha]

/-- Session `i` serves activity `u`. -/
def Serves (st : St) (u : Uuid) (i : Nat) (s : Sess) : Prop := locate u st.sess = some i ∧ st.sess[i]? = some s

theorem Serves.inUse {st : St} {u : Uuid} {i : Nat} {s : Sess} (h : Serves st u i s) : s.inUse = true ∧ s.uuid = u ∧ i < st.sess.length := by
  obtain ⟨hlt, hp, _⟩ := List.findIdx?_eq_some_iff_getElem.mp h.1
  have := h.2
  rw [List.getElem?_eq_getElem hlt] at this
  cases this
  simp at hp
  exact ⟨hp.1, hp.2, hlt⟩

/-- A datagram of another activity leaves the session alone. -/
theorem other_recv {c : Cfg} (hc : CfgOk c) {st st' : St} (hi : Inv c st) {d : List Byte} {rep : Reply} {ev : List Ev}
    {u : Uuid} {i : Nat} {s : Sess} (hs : Serves st u i s) (hd : (hdrOf d).actUuid ≠ u) (hg : rep.gen ≠ u)
    (h : step c st (.recv d rep) = some (st', ev)) :
    Serves st' u i s ∧ ∃ j, j ≠ i ∧ Own j ev := by
  by_cases h0 : d.length = 0 ∨ d.length > c.frameSize
  · unfold step at h
    dsimp only at h
    rw [if_pos h0] at h
    cases h
    exact ⟨hs, i + 1, by omega, own_nil _⟩
  · obtain ⟨_, hw, hrec⟩ := recv_cases hc hi (by omega) (by omega) h
    cases hrec with
    | lost hf hss he =>
      subst he
      exact ⟨⟨by rw [hss]; exact hs.1, by rw [hss]; exact hs.2⟩, i + 1, by omega, own_nil _⟩
    | handled j isNew s1 t t2 r r' er hf hr hpar hcol hrd hok hdis hst =>
      obtain ⟨hlt, _, hin, hcase⟩ := findSess_ok hi.sess hf
      obtain ⟨tt, rr, ee, e1, _, hso, _, _, hu⟩ := collect_ok hc (h := hdrOf d) hok.1 hr.2.1
        (by rw [hr.1, newFrame_length (by rw [hi.frame]; omega), hi.frame]) hr.2.2.2.1
      rw [hcol] at e1
      cases e1
      obtain ⟨tt2, ee2, e2, _, hsi, hown⟩ := dispatch_ok hc (i := j) (isNew := isNew) hw hrd (err := er) (rep := rep)
        (s := { t with timer := false }) ⟨hok.2.inBuf, hok.2.inLen, ⟨hok.2.out.len, hok.2.out.outLen, hok.2.out.phase⟩⟩
      rw [hdis] at e2
      cases e2
      obtain ⟨hsu, hsuu, hilt⟩ := hs.inUse
      have hji : j ≠ i := by
        rintro rfl
        rcases hcase with ⟨_, hgj, hux, _⟩ | ⟨_, _, _, s0, hgj, hf0⟩
        · rw [hs.2] at hgj; cases hgj; exact hd (hux.symm.trans hsuu)
        · rw [hs.2] at hgj; cases hgj; rw [hsu] at hf0; cases hf0
      refine ⟨⟨?_, ?_⟩, j, hji, hown⟩
      · rw [hst]
        unfold locate
        rw [findIdx?_set_false]
        · exact hs.1
        · intro y hy
          rcases hcase with ⟨_, hgj, hux, _⟩ | ⟨_, _, _, s0, hgj, hf0⟩
          · rw [hgj] at hy; cases hy; simp [hux, hd]
          · rw [hgj] at hy; cases hy; simp [hf0]
        · have hne : t2.uuid ≠ u := by
            rw [hsi.uuid]
            dsimp only
            rcases hu with hu | hu
            · rw [hu]
              rcases hcase with ⟨_, hgj, hux, _⟩ | ⟨_, hz, _⟩
              · rw [hux]; exact hd
              · rw [hz]; exact hg
            · rw [hu]; exact hd
          unfold finish
          split
          · rfl
          · simp [hne]
      · rw [hst, List.getElem?_set_ne hji]
        exact hs.2

/-- A timeout sends the last packet again, or gives up; nothing else changes. -/
theorem expire_step {c : Cfg} {st st' : St} (hi : Inv c st) {j : Nat} {ev : List Ev} {u : Uuid} {i : Nat} {s : Sess}
    (hs : Serves st u i s) (h : step c st (.expire j) = some (st', ev)) :
    ∃ s', Serves st' u i s' ∧ SameIn s s' ∧ s'.kill = s.kill ∧ SameOut { s with resend := s'.resend } s' ∧
      (∀ e ∈ ev, e = .abort i ∨ (e = .sent i true (s.outBuf.take s.sendLen) ∧ (s.outBuf.take s.sendLen).length ≠ 0) ∨ ∀ x, Own x [e] → x ≠ i) := by
  obtain ⟨hsu, hsuu, hilt⟩ := hs.inUse
  unfold step at h
  dsimp only at h
  cases hg : st.sess[j]? with
  | none =>
    rw [hg] at h
    cases h
    exact ⟨s, hs, ⟨rfl, rfl, rfl, rfl, rfl, rfl⟩, rfl, ⟨rfl, rfl, rfl, rfl, rfl, rfl, rfl⟩, fun e he => by cases he⟩
  | some s1 =>
    rw [hg] at h
    dsimp only at h
    split at h
    · rename_i hc1
      obtain ⟨t, e, h1, h2, h3, h4, h5, h6⟩ := sendTimed_ok (i := j) (again := true) (hi.sess s1 (List.mem_of_getElem? hg))
      rw [h1] at h
      cases h
      by_cases hji : j = i
      · subst hji
        rw [hs.2] at hg
        cases hg
        refine ⟨t, ⟨?_, by simp [hilt]⟩, h3, h5, h6, ?_⟩
        · unfold locate
          exact findIdx?_set_true hs.1 (by simp [h3.inUse, hsu, h3.uuid, hsuu])
        · intro x hx
          unfold sendTimed at h1
          split at h1
          · obtain ⟨y, hy, ey⟩ := Option.map_eq_some_iff.mp h1
            cases ey
            unfold sendOnce at hy
            obtain ⟨z, hz, ez⟩ := Option.map_eq_some_iff.mp hy
            subst ez
            have hz' : z = s.outBuf.take s.sendLen := by
              unfold slice at hz
              split at hz
              · cases hz; simp
              · cases hz
            dsimp only at hx
            unfold sentEv at hx
            split at hx
            · cases hx
            · rename_i hz0
              rw [List.mem_singleton.mp hx, hz']; right; left; exact ⟨rfl, by rw [← hz']; exact hz0⟩
          · cases h1
            left
            exact List.mem_singleton.mp hx
      · refine ⟨s, ⟨?_, ?_⟩, ⟨rfl, rfl, rfl, rfl, rfl, rfl⟩, rfl, ⟨rfl, rfl, rfl, rfl, rfl, rfl, rfl⟩, ?_⟩
        · unfold locate
          have : (s1.inUse && s1.uuid == u) = (t.inUse && t.uuid == u) := by rw [h3.inUse, h3.uuid]
          cases hb : (s1.inUse && s1.uuid == u) with
          | false =>
            rw [findIdx?_set_false]
            · exact hs.1
            · intro y hy; rw [hg] at hy; cases hy; exact hb
            · rw [← this]; exact hb
          | true =>
            -- another session with the same activity behind `i`
            obtain ⟨hlt, hp, hmin⟩ := List.findIdx?_eq_some_iff_getElem.mp hs.1
            have hjlt : j < st.sess.length := by
              rcases Nat.lt_or_ge j st.sess.length with h | h
              · exact h
              · rw [List.getElem?_eq_none h] at hg; cases hg
            have hij : i < j := by
              rcases Nat.lt_or_ge j i with hji' | hji'
              · have := hmin j hji'
                rw [List.getElem?_eq_getElem hjlt] at hg
                cases hg
                exact absurd hb (hmin j hji')
              · omega
            apply List.findIdx?_eq_some_iff_getElem.mpr
            refine ⟨by simpa using hlt, ?_, ?_⟩
            · rw [List.getElem_set_ne (by omega)]; exact hp
            · intro k hk
              rw [List.getElem_set_ne (by omega)]
              exact hmin k hk
        · dsimp only
          rw [List.getElem?_set_ne hji]; exact hs.2
        · intro x hx
          right; right
          intro y hy hyi
          have h1 := h4 x hx
          have h2 := hy x (by simp)
          subst hyi
          cases x <;> · dsimp only at h1 h2; omega
    · cases h
      exact ⟨s, hs, ⟨rfl, rfl, rfl, rfl, rfl, rfl⟩, rfl, ⟨rfl, rfl, rfl, rfl, rfl, rfl, rfl⟩, fun e he => by cases he⟩

end Verif.Rpc
