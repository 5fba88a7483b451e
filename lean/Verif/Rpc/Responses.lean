import Verif.Rpc.InOrder
/-! Responses in fragments (C29). -/
set_option linter.unusedSimpArgs false
set_option linter.unusedVariables false

namespace Verif.Rpc
open Verif.Wire

/-! ## Specification -/

/-- The datagrams that session `i` sends for the first time. -/
def fresh (i : Nat) (ev : List Ev) : List (List Byte) := ev.filterMap fun
  | .sent j false d => if j = i then some d else none
  | _ => none

/-- Room for the body in a datagram. -/
def Cfg.room (c : Cfg) : Nat := c.maxUdp - 80

/-- `p` is fragment `k` of the response with body `B` to activity `u`. -/
structure Pkt (c : Cfg) (u : Uuid) (B : List Byte) (k : Nat) (p : List Byte) : Prop where
  size : p.length ≤ c.maxUdp
  honest : p.length = 80 + (hdrOf p).lengthOfBody.toNat
  body : bodyOf p = (B.drop (k * c.room)).take c.room
  type : (hdrOf p).packetType = 2
  uuid : (hdrOf p).actUuid = u
  nmb : (hdrOf p).fragmentNmb.toNat = k
  frag : (hdrOf p).fragment = true
  last : (hdrOf p).lastFragment = decide (B.length < (k + 1) * c.room)
  /-- the serial number is the fragment number -/
  serial : (hdrOf p).serialHigh.toNat * 256 + (hdrOf p).serialLow.toNat = k

/-- An acknowledge of a fragment. -/
structure IsAck (c : Cfg) (u : Uuid) (d : List Byte) : Prop where
  pos : 0 < d.length
  size : d.length ≤ c.frameSize
  uuid : (hdrOf d).actUuid = u
  frag : (hdrOf d).fragment = false
  type : (hdrOf d).packetType = 9
  body : (hdrOf d).lengthOfBody.toNat ≤ c.maxBody

/-- The events `ops` contain `n` acknowledges for activity `u`; otherwise only timeouts and datagrams of
other activities. -/
inductive Fetch (c : Cfg) (u : Uuid) : Nat → List Op → Prop where
  | done : Fetch c u 0 []
  | ack {n d rep ops} : IsAck c u d → Fetch c u n ops → Fetch c u (n + 1) (.recv d rep :: ops)
  | other {n d rep ops} : (hdrOf d).actUuid ≠ u → rep.gen ≠ u → Fetch c u n ops → Fetch c u n (.recv d rep :: ops)
  | timeout {n i ops} : Fetch c u n ops → Fetch c u n (.expire i :: ops)

/-- The number of fragments of a body. -/
def Cfg.frags (c : Cfg) (B : List Byte) : Nat := (B.length + c.room - 1) / c.room

/-! ## Proof -/

theorem fresh_append (i : Nat) (a b : List Ev) : fresh i (a ++ b) = fresh i a ++ fresh i b := by simp [fresh]

theorem fresh_other {i j : Nat} (hij : j ≠ i) {ev : List Ev} (h : Own j ev) : fresh i ev = [] := by
  unfold fresh
  rw [List.filterMap_eq_nil_iff]
  intro e he
  have := h e he
  cases e with
  | sent k a d =>
    dsimp only at this
    cases a
    · dsimp only; rw [if_neg (by omega)]
    · rfl
  | _ => rfl

theorem fresh_again {i : Nat} {ev : List Ev} (h : ∀ e ∈ ev, ∀ d, e ≠ .sent i false d) : fresh i ev = [] := by
  unfold fresh
  rw [List.filterMap_eq_nil_iff]
  intro e he
  have := h e he
  cases e with
  | sent k a d =>
    cases a
    · dsimp only
      rw [if_neg]
      rintro rfl
      exact this d rfl
    · rfl
  | _ => rfl

theorem wf_of_hOk {h : RpcHeader} (hw : HOk h) (h1 : h.packetType.toNat < 32) (h2 : h.cancelPending = false) : h.Wf :=
  ⟨h1, h2, hw.1, hw.2.1, hw.2.2.1, hw.2.2.2⟩

/-- The state of a session in which fragment `k`, the packet `p`, is waiting for its acknowledge. -/
structure Out (c : Cfg) (B : List Byte) (k : Nat) (p : List Byte) (s : Sess) : Prop where
  frag : s.outFrag = k
  len : s.outLen = 80 + B.length
  ack : s.ackPos = 80 + min ((k + 1) * c.room) B.length
  left : (s.outBuf.drop s.ackPos).take (B.length - (k + 1) * c.room) = B.drop ((k + 1) * c.room)
  pkt : s.outBuf.take s.sendLen = p
  alive : s.kill = false

/-- The state of a session whose response is acknowledged. -/
structure Done (s : Sess) : Prop where
  frag : s.outFrag = 0
  len : s.outLen = 0
  pos : s.sentPos = 0
  send : s.sendLen = 0
  alive : s.kill = false

theorem serves_set {c : Cfg} {st st' : St} {u : Uuid} {i : Nat} {s x : Sess} (hs : Serves st u i s) (h1 : x.inUse = true) (h2 : x.uuid = u)
    (h3 : x.kill = false) (h4 : st'.sess = st.sess.set i (finish c x)) : Serves st' u i x := by
  have hfin : finish c x = x := by unfold finish; rw [h3]; rfl
  rw [hfin] at h4
  have hlt := hs.inUse.2.2
  refine ⟨?_, by rw [h4]; simp [hlt]⟩
  rw [h4]
  exact findIdx?_set_true hs.1 (by simp [h1, h2])

/-- What an acknowledge leads to: `fragAck` on the session with the input side started anew. -/
theorem ack_recv {c : Cfg} (hc : CfgOk c) {st st' : St} (hi : Inv c st) {u : Uuid} {i : Nat} {s : Sess} (hs : Serves st u i s)
    {d : List Byte} (ha : IsAck c u d) {rep : Reply} {ev : List Ev} (h : step c st (.recv d rep) = some (st', ev)) :
    ∃ s0 t be, HOk (hdrOf d) ∧ SameOut s s0 ∧ SOk c s0 ∧ s0.kill = false ∧ s0.uuid = u ∧ fragAck c i (hdrOf d) be s0 = some (t, ev) ∧
      st'.sess = st.sess.set i (finish c t) := by
  obtain ⟨_, hw, hrec⟩ := recv_cases hc hi ha.pos ha.size h
  cases hrec with
  | lost hf' hss he => rw [ha.uuid, findSess_serves hs] at hf'; cases hf'
  | handled j isNew' s1 t t2 r r' er hf' hr hpar hcol hrd hok hdis hset =>
    rw [ha.uuid, findSess_serves hs] at hf'
    cases hf'
    have hbd := ha.body
    unfold collect at hcol
    rw [if_neg (by omega), if_pos ha.frag] at hcol
    cases hcol
    unfold dispatch at hdis
    rw [if_neg (by omega), if_pos (Or.inl ha.frag), if_neg (by rw [ha.type]; decide), if_neg (by rw [ha.type]; decide),
      if_pos ha.type] at hdis
    refine ⟨_, _, _, hw, ?_, ?_, ?_, ?_, hdis, hset⟩
    · exact ⟨rfl, rfl, rfl, rfl, rfl, rfl, rfl⟩
    · exact ⟨hok.2.inBuf, hok.2.inLen, ⟨hok.2.out.len, hok.2.out.outLen, hok.2.out.phase⟩⟩
    · rfl
    · exact ha.uuid

theorem ackPos_same {s t : Sess} (h : SameOut s t) : t.ackPos = s.ackPos := by
  unfold Sess.ackPos
  rw [h.outFrag, h.sentPos, h.sendLen]

theorem sess_out {c : Cfg} {st : St} (hi : Inv c st) {u : Uuid} {i : Nat} {s : Sess} (hs : Serves st u i s) : SOk c s :=
  hi.sess s (List.mem_of_getElem? hs.2)

theorem fresh_sent (i : Nat) (d : List Byte) : fresh i [.sent i false d] = [d] := by simp [fresh]

theorem drop_shift {E X Y : List Byte} {n : Nat} (hE : E.length = 80) (hX : X.length = n) (x : Nat) :
    (E ++ (X ++ Y.drop (80 + n))).drop (80 + n + x) = Y.drop (80 + n + x) := by
  rw [List.drop_append, hE, List.drop_of_length_le (by omega), List.nil_append, List.drop_append, hX,
    List.drop_of_length_le (by omega), List.nil_append, List.drop_drop]
  congr 1
  omega

theorem left_next {O D : List Byte} {a L r n : Nat} (h : (O.drop a).take L = D) (hn : n = min L r) :
    (O.drop (a + n)).take (L - r) = D.drop r := by
  rw [← h, List.drop_take, List.drop_drop]
  by_cases hf : r ≤ L
  · rw [show n = r by omega]
  · rw [show L - r = 0 by omega]
    simp

theorem ack_more {c : Cfg} (hc : CfgOk c) {st st' : St} (hi : Inv c st) {u : Uuid} {i : Nat} {s : Sess} (hs : Serves st u i s)
    {B : List Byte} {k : Nat} {p : List Byte} (ho : Out c B k p s) (hm : (k + 1) * c.room < B.length)
    {d : List Byte} (ha : IsAck c u d) {rep : Reply} {ev : List Ev} (h : step c st (.recv d rep) = some (st', ev)) :
    ∃ p' s', ev = [.sent i false p'] ∧ Pkt c u B (k + 1) p' ∧ Serves st' u i s' ∧ Out c B (k + 1) p' s' := by
  obtain ⟨s0, t, be, hw, hso, hsok, hkl, huu, hfa, hset⟩ := ack_recv hc hi hs ha h
  have hudp := hc.udp
  have hcap := hc.cap
  have hroom : c.room = c.maxUdp - 80 := rfl
  have hack : s0.ackPos = 80 + (k + 1) * c.room := by rw [ackPos_same hso, ho.ack]; omega
  have hlen : s0.outLen = 80 + B.length := by rw [hso.outLen, ho.len]
  have hfrag : s0.outFrag = k := by rw [hso.outFrag, ho.frag]
  obtain ⟨hM, n, last, hn, hl, e⟩ := fragAck_more hc (i := i) hw (be := be) hsok.out (by omega : s0.ackPos < s0.outLen)
  rw [hfa] at e
  obtain ⟨ht, hev⟩ := Prod.mk.inj (Option.some.inj e)
  have t1 : t.outFrag = s0.outFrag + 1 := by rw [ht]
  have t2 : t.outLen = s0.outLen := by rw [ht]
  have t3 : t.sentPos = s0.ackPos := by rw [ht]
  have t4 : t.sendLen = n + 80 := by rw [ht]
  have t5 : t.inUse = s0.inUse := by rw [ht]
  have t6 : t.uuid = s0.uuid := by rw [ht]
  have t7 : t.kill = s0.kill := by rw [ht]
  have t8 : t.outBuf = encRpcHeader (withLen (fragHeader (hdrOf d) be (s0.outFrag + 1) last) n) ++
      ((s0.outBuf.drop s0.ackPos).take n ++ s0.outBuf.drop (80 + n)) := by rw [ht]
  clear ht
  have hol := hsok.out.outLen
  have hbl := hsok.out.len
  have hstep : (k + 1 + 1) * c.room = (k + 1) * c.room + c.room := Nat.succ_mul _ _
  have hn' : n = min (B.length - (k + 1) * c.room) c.room := by rw [hn, hlen, hack, hroom]; omega
  have hnle : n ≤ c.maxUdp - 80 := by omega
  have hhw : HOk (withLen (fragHeader (hdrOf d) be (s0.outFrag + 1) last) n) := hOk_withLen (hOk_frag hw _ _ _) n
  have hel := encHdr_length hhw
  have hwf : (withLen (fragHeader (hdrOf d) be (s0.outFrag + 1) last) n).Wf := wf_of_hOk hhw (Nat.lt_of_succ_lt_succ (by exact (by decide : (3 : Nat) < 33))) rfl
  have hleft : (s0.outBuf.drop s0.ackPos).take (B.length - (k + 1) * c.room) = B.drop ((k + 1) * c.room) := by
    rw [ackPos_same hso, hso.outBuf]; exact ho.left
  have hbody : (s0.outBuf.drop s0.ackPos).take n = (B.drop ((k + 1) * c.room)).take c.room := by
    rw [← hleft, List.take_take, hn']
    congr 1
    omega
  have hbodyLen : ((s0.outBuf.drop s0.ackPos).take n).length = n := by
    rw [hbody]; simp; omega
  have hfmax : s0.outFrag + 1 < 65536 := by
    have := hsok.out.phase
    rcases this with ⟨h0, _⟩ | ⟨_, h1, _, h2, _, h3⟩
    · omega
    · omega
  have hkeep : s0.uuid = u ∧ s0.kill = false := ⟨huu, hkl⟩
  have hin : s0.inUse = true := by rw [hso.inUse]; exact hs.inUse.1
  have hnm : n < 65536 := by omega
  have htap : t.ackPos = s0.ackPos + n := by
    unfold Sess.ackPos at *
    rw [if_pos (by omega), t3, t4]
    omega
  refine ⟨_, t, hev, ⟨?_, ?_, ?_, ?_, ?_, ?_, ?_, ?_, ?_⟩, serves_set hs ?_ ?_ ?_ hset, ⟨?_, ?_, ?_, ?_, ?_, ?_⟩⟩
  · rw [List.length_append, hel, hbodyLen]; omega
  · rw [hdrOf_enc hwf, List.length_append, hel, hbodyLen]
    simp [withLen, Nat.mod_eq_of_lt hnm]
  · unfold bodyOf
    rw [hdrOf_enc hwf, List.drop_append_of_le_length (by omega), List.drop_of_length_le (by omega), List.nil_append]
    rw [← hbody]
    apply List.take_of_length_le
    rw [hbodyLen]
    simp [withLen, Nat.mod_eq_of_lt hnm]
  · rw [hdrOf_enc hwf]; rfl
  · rw [hdrOf_enc hwf]; exact ha.uuid
  · rw [hdrOf_enc hwf]
    show (BitVec.ofNat 16 (s0.outFrag + 1)).toNat = k + 1
    rw [BitVec.toNat_ofNat, Nat.mod_eq_of_lt hfmax, hfrag]
  · rw [hdrOf_enc hwf]; rfl
  · rw [hdrOf_enc hwf]
    have : (withLen (fragHeader (hdrOf d) be (s0.outFrag + 1) last) n).lastFragment = last := rfl
    rw [this, hl]
    apply decide_eq_decide.mpr
    rw [hlen, hack]
    omega
  · rw [hdrOf_enc hwf]
    show (BitVec.ofNat 8 ((s0.outFrag + 1) / 256)).toNat * 256 + (BitVec.ofNat 8 (s0.outFrag + 1)).toNat = k + 1
    rw [BitVec.toNat_ofNat, BitVec.toNat_ofNat, hfrag]
    omega
  · rw [t5]; exact hin
  · rw [t6]; exact huu
  · rw [t7]; exact hkl
  · rw [t1, hfrag]
  · rw [t2]; exact hlen
  · rw [htap, hack, hstep]; omega
  · have hx : t.ackPos = 80 + n + (s0.ackPos - 80) := by omega
    have hx2 : 80 + n + (s0.ackPos - 80) = s0.ackPos + n := by omega
    rw [hx, t8, drop_shift hel hbodyLen, hx2]
    have := left_next hleft hn'
    rw [List.drop_drop] at this
    rw [hstep, ← this]
    congr 1
    omega
  · rw [t8, t4, ← List.append_assoc, List.take_append_of_le_length (by rw [List.length_append, hel, hbodyLen]; omega),
      List.take_of_length_le (by rw [List.length_append, hel, hbodyLen]; omega)]
  · rw [t7]; exact hkl

theorem ack_last {c : Cfg} (hc : CfgOk c) {st st' : St} (hi : Inv c st) {u : Uuid} {i : Nat} {s : Sess} (hs : Serves st u i s)
    (hm : s.outLen ≤ s.ackPos)
    {d : List Byte} (ha : IsAck c u d) {rep : Reply} {ev : List Ev} (h : step c st (.recv d rep) = some (st', ev)) :
    ev = [] ∧ ∃ s', Serves st' u i s' ∧ Done s' := by
  obtain ⟨s0, t, be, hw, hso, hsok, hkl, huu, hfa, hset⟩ := ack_recv hc hi hs ha h
  rw [fragAck_done hc hsok.out (by rw [ackPos_same hso, hso.outLen]; exact hm)] at hfa
  cases hfa
  refine ⟨rfl, _, serves_set hs ?_ ?_ ?_ hset, ⟨rfl, rfl, rfl, rfl, hkl⟩⟩
  · exact hso.inUse.trans hs.inUse.1
  · exact huu
  · exact hkl

theorem out_same {c : Cfg} {B : List Byte} {k : Nat} {p : List Byte} {s t : Sess} (h : Out c B k p s)
    (hs : SameOut { s with resend := t.resend } t) (hk : t.kill = s.kill) : Out c B k p t := by
  have ha : t.ackPos = s.ackPos := by
    have := ackPos_same hs
    exact this
  have e1 := hs.outFrag
  have e2 := hs.outLen
  have e3 := hs.outBuf
  have e4 := hs.sendLen
  dsimp only at e1 e2 e3 e4
  exact ⟨e1.trans h.frag, e2.trans h.len, ha.trans h.ack, by rw [ha, e3]; exact h.left, by rw [e3, e4]; exact h.pkt, hk.trans h.alive⟩

theorem done_same {s t : Sess} (h : Done s) (hs : SameOut { s with resend := t.resend } t) (hk : t.kill = s.kill) : Done t :=
  ⟨hs.outFrag.trans h.frag, hs.outLen.trans h.len, hs.sentPos.trans h.pos, hs.sendLen.trans h.send, hk.trans h.alive⟩

theorem expire_fresh {i : Nat} {p : List Byte} {ev : List Ev}
    (h : ∀ e ∈ ev, e = .abort i ∨ (e = .sent i true p ∧ p.length ≠ 0) ∨ ∀ x, Own x [e] → x ≠ i) :
    fresh i ev = [] ∧ ∀ d, Ev.sent i true d ∈ ev → d = p ∧ p.length ≠ 0 := by
  constructor
  · apply fresh_again
    intro e he d hd
    subst hd
    rcases h _ he with h1 | h1 | h1
    · cases h1
    · cases h1.1
    · exact h1 i (by intro x hx; cases List.mem_singleton.mp hx; rfl) rfl
  · intro d he
    rcases h _ he with h1 | h1 | h1
    · cases h1
    · cases h1.1; exact ⟨rfl, h1.2⟩
    · exact absurd rfl (h1 i (by intro x hx; cases List.mem_singleton.mp hx; rfl))

theorem own_not {i j : Nat} (hij : j ≠ i) {ev : List Ev} (h : Own j ev) {a : Bool} {d : List Byte} : Ev.sent i a d ∉ ev := by
  intro hm
  have := h _ hm
  dsimp only at this
  omega

/-- Nothing is sent any more. -/
theorem done_run {c : Cfg} (hc : CfgOk c) {u : Uuid} {n : Nat} {ops : List Op} (hf : Fetch c u n ops) :
    ∀ {st st' : St} {i : Nat} {s : Sess} {ev : List Ev}, Inv c st → Serves st u i s → Done s → run c st ops = some (st', ev) →
    fresh i ev = [] ∧ ∀ d, Ev.sent i true d ∉ ev := by
  induction hf with
  | done =>
    intro st st' i s ev hi hs hd hr
    cases hr
    exact ⟨rfl, fun d h => by cases h⟩
  | @ack n d rep ops ha hf ih =>
    intro st st' i s ev hi hs hd hr
    unfold run at hr
    obtain ⟨x, hx, hr⟩ := Option.bind_eq_some_iff.mp hr
    obtain ⟨y, hy, hr⟩ := Option.map_eq_some_iff.mp hr
    cases hr
    obtain ⟨st1, e1, e2, hi1, _⟩ := step_ok hc hi (.recv d rep)
    rw [hx] at e2
    cases e2
    obtain ⟨he, s', hs', hd'⟩ := ack_last hc hi hs (by unfold Sess.ackPos; simp [hd.len]) ha hx
    obtain ⟨g1, g2⟩ := ih hi1 hs' hd' hy
    subst he
    exact ⟨g1, g2⟩
  | @other n d rep ops hd' hg hf ih =>
    intro st st' i s ev hi hs hd hr
    unfold run at hr
    obtain ⟨x, hx, hr⟩ := Option.bind_eq_some_iff.mp hr
    obtain ⟨y, hy, hr⟩ := Option.map_eq_some_iff.mp hr
    cases hr
    obtain ⟨st1, e1, e2, hi1, _⟩ := step_ok hc hi (.recv d rep)
    rw [hx] at e2
    cases e2
    obtain ⟨hs', j, hij, hown⟩ := other_recv hc hi hs hd' hg hx
    obtain ⟨g1, g2⟩ := ih hi1 hs' hd hy
    refine ⟨by rw [fresh_append, fresh_other hij hown, g1]; rfl, ?_⟩
    intro d hm
    rcases List.mem_append.mp hm with hm | hm
    · exact own_not hij hown hm
    · exact g2 d hm
  | @timeout n j ops hf ih =>
    intro st st' i s ev hi hs hd hr
    unfold run at hr
    obtain ⟨x, hx, hr⟩ := Option.bind_eq_some_iff.mp hr
    obtain ⟨y, hy, hr⟩ := Option.map_eq_some_iff.mp hr
    cases hr
    obtain ⟨st1, e1, e2, hi1, _⟩ := step_ok hc hi (.expire j)
    rw [hx] at e2
    cases e2
    obtain ⟨s', hs', hsi, hkl, hso, hev⟩ := expire_step hi hs hx
    obtain ⟨q1, q2⟩ := expire_fresh hev
    obtain ⟨g1, g2⟩ := ih hi1 hs' (done_same hd hso hkl) hy
    refine ⟨by rw [fresh_append, q1, g1]; rfl, ?_⟩
    intro d hm
    rcases List.mem_append.mp hm with hm | hm
    · obtain ⟨_, h2⟩ := q2 d hm
      rw [hd.send] at h2
      exact h2 (by simp)
    · exact g2 d hm

theorem frags_lt {c : Cfg} (hc : CfgOk c) {B : List Byte} {k : Nat} : k + 1 < c.frags B ↔ (k + 1) * c.room < B.length := by
  have hudp := hc.udp
  have hroom : c.room = c.maxUdp - 80 := rfl
  unfold Cfg.frags
  have h1 : k + 1 < (B.length + c.room - 1) / c.room ↔ (k + 2) * c.room ≤ B.length + c.room - 1 :=
    Nat.le_div_iff_mul_le (by omega)
  have h2 : (k + 2) * c.room = (k + 1) * c.room + c.room := Nat.succ_mul _ _
  rw [h1, h2]
  omega

/-- The fragments after fragment `k`. -/
theorem fetch_run {c : Cfg} (hc : CfgOk c) {u : Uuid} {n : Nat} {ops : List Op} (hf : Fetch c u n ops) {B : List Byte} :
    ∀ {st st' : St} {i k : Nat} {p : List Byte} {s : Sess} {ev : List Ev}, Inv c st → Serves st u i s → Out c B k p s →
    run c st ops = some (st', ev) →
    (fresh i ev).length = min n (c.frags B - (k + 1)) ∧
    (∀ j q, (fresh i ev)[j]? = some q → Pkt c u B (k + 1 + j) q) ∧
    (∀ d, Ev.sent i true d ∈ ev → d ∈ p :: fresh i ev) := by
  induction hf with
  | done =>
    intro st st' i k p s ev hi hs ho hr
    cases hr
    exact ⟨by simp [fresh], fun j q h => by simp [fresh] at h, fun d h => by cases h⟩
  | @ack n d rep ops ha hf ih =>
    intro st st' i k p s ev hi hs ho hr
    unfold run at hr
    obtain ⟨x, hx, hr⟩ := Option.bind_eq_some_iff.mp hr
    obtain ⟨y, hy, hr⟩ := Option.map_eq_some_iff.mp hr
    cases hr
    obtain ⟨st1, e1, e2, hi1, _⟩ := step_ok hc hi (.recv d rep)
    rw [hx] at e2
    cases e2
    by_cases hm : (k + 1) * c.room < B.length
    · have hfr := (frags_lt hc).mpr hm
      obtain ⟨p', s', he, hpk, hs', ho'⟩ := ack_more hc hi hs ho hm ha hx
      subst he
      obtain ⟨g1, g2, g3⟩ := ih hi1 hs' ho' hy
      have hfa : fresh i ([Ev.sent i false p'] ++ y.2) = p' :: fresh i y.2 := by rw [fresh_append, fresh_sent]; rfl
      dsimp only
      rw [hfa]
      refine ⟨by rw [List.length_cons, g1]; omega, ?_, ?_⟩
      · intro j q hj
        cases j with
        | zero => cases hj; exact hpk
        | succ j =>
          have := g2 j q (by simpa using hj)
          rwa [show k + 1 + 1 + j = k + 1 + (j + 1) by omega] at this
      · intro d hm'
        rcases List.mem_append.mp hm' with hm' | hm'
        · cases List.mem_singleton.mp hm'
        · exact List.mem_cons_of_mem _ (g3 d hm')
    · have hfr : ¬ k + 1 < c.frags B := fun h => hm ((frags_lt hc).mp h)
      obtain ⟨he, s', hs', hd'⟩ := ack_last hc hi hs (by rw [ho.ack, ho.len]; omega) ha hx
      obtain ⟨g1, g2⟩ := done_run hc hf hi1 hs' hd' hy
      subst he
      dsimp only [List.nil_append]
      refine ⟨by rw [g1, List.length_nil]; omega, ?_, ?_⟩
      · intro j q hj
        rw [g1] at hj; simp at hj
      · intro d hm'; exact absurd hm' (g2 d)
  | @other n d rep ops hd' hg hf ih =>
    intro st st' i k p s ev hi hs ho hr
    unfold run at hr
    obtain ⟨x, hx, hr⟩ := Option.bind_eq_some_iff.mp hr
    obtain ⟨y, hy, hr⟩ := Option.map_eq_some_iff.mp hr
    cases hr
    obtain ⟨st1, e1, e2, hi1, _⟩ := step_ok hc hi (.recv d rep)
    rw [hx] at e2
    cases e2
    obtain ⟨hs', j, hij, hown⟩ := other_recv hc hi hs hd' hg hx
    obtain ⟨g1, g2, g3⟩ := ih hi1 hs' ho hy
    have hfa : fresh i (e1 ++ y.2) = fresh i y.2 := by rw [fresh_append, fresh_other hij hown]; rfl
    dsimp only
    rw [hfa]
    refine ⟨g1, g2, ?_⟩
    intro d hm
    rcases List.mem_append.mp hm with hm | hm
    · exact absurd hm (own_not hij hown)
    · exact g3 d hm
  | @timeout n j ops hf ih =>
    intro st st' i k p s ev hi hs ho hr
    unfold run at hr
    obtain ⟨x, hx, hr⟩ := Option.bind_eq_some_iff.mp hr
    obtain ⟨y, hy, hr⟩ := Option.map_eq_some_iff.mp hr
    cases hr
    obtain ⟨st1, e1, e2, hi1, _⟩ := step_ok hc hi (.expire j)
    rw [hx] at e2
    cases e2
    obtain ⟨s', hs', hsi, hkl, hso, hev⟩ := expire_step hi hs hx
    obtain ⟨q1, q2⟩ := expire_fresh hev
    obtain ⟨g1, g2, g3⟩ := ih hi1 hs' (out_same ho hso hkl) hy
    have hfa : fresh i (e1 ++ y.2) = fresh i y.2 := by rw [fresh_append, q1]; rfl
    dsimp only
    rw [hfa]
    refine ⟨g1, g2, ?_⟩
    intro d hm
    rcases List.mem_append.mp hm with hm | hm
    · rw [(q2 d hm).1, ho.pkt]; exact List.mem_cons_self
    · exact g3 d hm

/-- The first packet of a response that was stored completely. -/
theorem first_packet {c : Cfg} (hc : CfgOk c) {st st1 : St} (hi : Inv c st) {d : List Byte} {rep : Reply} {ev : List Ev}
    (h : step c st (.recv d rep) = some (st1, ev)) {i : Nat} {h' : RpcHeader} {er : Bool} {msg : List Byte}
    (hm : Ev.request i h' er msg ∈ ev) (hk : rep.kill = false) {s1 : Sess} (hs : Serves st1 h'.actUuid i s1)
    (hl : s1.outLen = 80 + rep.body.length) :
    ∃ p, fresh i ev = [p] ∧ Out c rep.body 0 p s1 ∧ (∀ x, Ev.sent i true x ∉ ev) ∧
      (c.room ≤ rep.body.length → Pkt c h'.actUuid rep.body 0 p) ∧
      (rep.body.length < c.room → p.length = 80 + rep.body.length ∧ bodyOf p = rep.body ∧ (hdrOf p).packetType = 2 ∧
        (hdrOf p).actUuid = h'.actUuid ∧ (hdrOf p).fragment = false ∧ (hdrOf p).lengthOfBody.toNat = rep.body.length) := by
  have hroom : c.room = c.maxUdp - 80 := rfl
  have hudp := hc.udp
  have hcap := hc.cap
  by_cases h0 : d.length = 0 ∨ d.length > c.frameSize
  · unfold step at h
    dsimp only at h
    rw [if_pos h0] at h
    cases h
    cases hm
  obtain ⟨_, hw, hrec⟩ := recv_cases hc hi (by omega) (by omega) h
  cases hrec with
  | lost hf' hss he => subst he; cases hm
  | handled j isNew' s0 t t2 r r' er' hf' hr hpar hcol hrd hok hdis hset =>
    have hsok : SOk c { t with timer := false } := ⟨hok.2.inBuf, hok.2.inLen, ⟨hok.2.out.len, hok.2.out.outLen, hok.2.out.phase⟩⟩
    obtain ⟨e0, e1, e2, e3, e4, e5, e6, e7⟩ := dispatch_request hc hw hrd hsok hdis hm
    subst e0
    subst e1
    unfold dispatch at hdis
    rw [if_neg (by omega), if_pos e5, if_neg (by rw [e6]; decide), if_pos e6] at hdis
    obtain ⟨t1, ev1, e, ha⟩ := request_ok hc (i := i) hw hrd (err := er') (rep := rep) hsok
    rw [e] at hdis
    cases hdis
    have hkl : t2.kill = false := by rw [ha.kill, if_pos e7, hk]
    have hfin : finish c t2 = t2 := by unfold finish; rw [hkl]; rfl
    obtain ⟨hlt, _⟩ := findSess_ok hi.sess hf'
    have hst1 : t2 = s1 := by
      have := hs.2
      rw [hset, hfin] at this
      simpa [hlt] using this
    subst hst1
    obtain ⟨hof, hsp, hsl⟩ := ha.start
    obtain ⟨be, hA, hB⟩ := ha.sent hl e7
    have hle := ha.ok.out.outLen
    have hbl := ha.ok.out.len
    have hfe : sentEv i false (t2.outBuf.take t2.sendLen) = [.sent i false (t2.outBuf.take t2.sendLen)] := by
      unfold sentEv
      rw [if_neg]
      rw [List.length_take]
      omega
    have hev : ev = [.request i (hdrOf d) er' (Rd.rest r'), .sent i false (t2.outBuf.take t2.sendLen)] := by
      rw [ha.evs, if_pos e7, hfe]; rfl
    refine ⟨t2.outBuf.take t2.sendLen, by rw [hev]; simp [fresh], ?_, ?_, ?_, ?_⟩
    · refine ⟨hof, hl, ?_, ?_, rfl, hkl⟩
      · unfold Sess.ackPos
        rw [if_neg (by omega)]
        omega
      · unfold Sess.ackPos
        rw [if_neg (by omega), hsp, hsl]
        by_cases hq : t2.outLen < c.maxUdp
        · rw [show rep.body.length - (0 + 1) * c.room = 0 by omega, List.take_zero, List.drop_of_length_le (by omega)]
        · obtain ⟨rest, hrest⟩ := hB (by omega)
          have hel := encHdr_length (hOk_withLen (hOk_frag0 hw be) (c.maxUdp - 80))
          rw [hrest, show 0 + min t2.outLen c.maxUdp = 80 + c.room by omega, List.drop_append, hel,
            List.drop_of_length_le (by omega), List.nil_append, show 80 + c.room - 80 = c.room by omega, Nat.zero_add, Nat.one_mul,
            List.drop_append_of_le_length (by omega), List.take_append_of_le_length (by simp),
            List.take_of_length_le (by simp)]
    · intro x hx
      rw [hev] at hx
      simp at hx
    · intro hge
      obtain ⟨rest, hrest⟩ := hB (by omega)
      have hhw := hOk_withLen (hOk_frag0 hw be) (c.maxUdp - 80)
      have hel := encHdr_length hhw
      have hwf : (withLen (fragHeader0 (hdrOf d) be) (c.maxUdp - 80)).Wf := wf_of_hOk hhw (Nat.lt_of_succ_lt_succ (by exact (by decide : (3 : Nat) < 33))) rfl
      have hp : t2.outBuf.take t2.sendLen = encRpcHeader (withLen (fragHeader0 (hdrOf d) be) (c.maxUdp - 80)) ++ rep.body.take c.room := by
        rw [hrest, hsl, List.take_append, hel, List.take_of_length_le (by omega), List.take_append_of_le_length (by omega)]
        congr 2
        omega
      have hmm : c.maxUdp - 80 < 65536 := by omega
      rw [hp]
      refine ⟨?_, ?_, ?_, ?_, ?_, ?_, ?_, ?_, ?_⟩
      · rw [List.length_append, hel, List.length_take]; omega
      · rw [hdrOf_enc hwf, List.length_append, hel, List.length_take]
        simp only [withLen, BitVec.toNat_ofNat]
        rw [Nat.mod_eq_of_lt (by omega)]
        omega
      · unfold bodyOf
        rw [hdrOf_enc hwf, List.drop_append_of_le_length (by omega), List.drop_of_length_le (by omega), List.nil_append, Nat.zero_mul,
          List.drop_zero]
        apply List.take_of_length_le
        simp only [withLen, BitVec.toNat_ofNat, List.length_take]
        rw [Nat.mod_eq_of_lt (by omega)]
        omega
      · rw [hdrOf_enc hwf]; rfl
      · rw [hdrOf_enc hwf]; rfl
      · rw [hdrOf_enc hwf]; rfl
      · rw [hdrOf_enc hwf]; rfl
      · rw [hdrOf_enc hwf]
        have : (withLen (fragHeader0 (hdrOf d) be) (c.maxUdp - 80)).lastFragment = false := rfl
        rw [this]
        symm
        rw [decide_eq_false_iff_not]
        omega
      · rw [hdrOf_enc hwf]
        have e1 : (withLen (fragHeader0 (hdrOf d) be) (c.maxUdp - 80)).serialHigh = 0 := rfl
        have e2 : (withLen (fragHeader0 (hdrOf d) be) (c.maxUdp - 80)).serialLow = 0 := rfl
        rw [e1, e2]
        rfl
    · intro hlt'
      obtain ⟨rest, hrest⟩ := hA (by omega)
      have hhw := hOk_withLen (hOk_resp hw be) rep.body.length
      have hel := encHdr_length hhw
      have hwf : (withLen (respHeader (hdrOf d) be) rep.body.length).Wf := wf_of_hOk hhw (Nat.lt_of_succ_lt_succ (by exact (by decide : (3 : Nat) < 33))) rfl
      have hp : t2.outBuf.take t2.sendLen = encRpcHeader (withLen (respHeader (hdrOf d) be) rep.body.length) ++ rep.body := by
        rw [hrest, hsl, ← List.append_assoc, List.take_append_of_le_length (by rw [List.length_append, hel]; omega),
          List.take_of_length_le (by rw [List.length_append, hel]; omega)]
      have hmm : rep.body.length < 65536 := by omega
      have hlb : (withLen (respHeader (hdrOf d) be) rep.body.length).lengthOfBody.toNat = rep.body.length := by
        simp only [withLen, BitVec.toNat_ofNat]
        exact Nat.mod_eq_of_lt (by omega)
      rw [hp]
      refine ⟨by rw [List.length_append, hel], ?_, ?_, ?_, ?_, ?_⟩
      · unfold bodyOf
        rw [hdrOf_enc hwf, List.drop_append_of_le_length (by omega), List.drop_of_length_le (by omega), List.nil_append, hlb,
          List.take_length]
      · rw [hdrOf_enc hwf]; rfl
      · rw [hdrOf_enc hwf]; rfl
      · rw [hdrOf_enc hwf]; rfl
      · rw [hdrOf_enc hwf]; exact hlb

end Verif.Rpc
