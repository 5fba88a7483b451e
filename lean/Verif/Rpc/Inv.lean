import Verif.Rpc.Lemmas
/-! The invariant of the RPC layer, and that no array is accessed outside. -/
set_option linter.unusedSimpArgs false
set_option linter.unusedVariables false

namespace Verif.Rpc
open Verif.Wire

/-- Conditions on the sizes; the values in the source are 1440, 1384, 1500 and 3, and
`PNET_MAX_SESSION_BUFFER_SIZE` is at most 65535 (src/device/pf_cmrpc.c:60-62). -/
structure CfgOk (c : Cfg) : Prop where
  udp : 80 < c.maxUdp
  udpFrame : c.maxUdp ≤ c.frameSize
  body : 80 + c.maxBody ≤ c.frameSize
  cap : c.cap ≤ 65535
  resends : 0 < c.resends

/-- The number of response bytes that will be acknowledged by the next acknowledge. -/
def Sess.ackPos (s : Sess) : Nat := if s.outFrag > 0 then s.sentPos + s.sendLen - 80 else s.sentPos + s.sendLen

/-- The output side of a session: nothing sent yet beyond the first packet, or inside a fragmented
response. -/
structure OutOk (c : Cfg) (s : Sess) : Prop where
  len : s.outBuf.length = c.cap
  outLen : s.outLen ≤ c.cap
  phase : (s.outFrag = 0 ∧ s.sentPos = 0 ∧
      (s.sendLen = s.outLen ∨ (s.sendLen = c.maxUdp ∧ c.maxUdp ≤ s.outLen))) ∨
    (0 < s.outFrag ∧ s.outFrag ≤ s.sentPos ∧ c.maxUdp ≤ s.sentPos ∧ 80 < s.sendLen ∧ s.sendLen ≤ c.maxUdp ∧
      s.sentPos + s.sendLen ≤ s.outLen + 80)

/-- A session. -/
structure SOk (c : Cfg) (s : Sess) : Prop where
  inBuf : s.inBuf.length = c.cap
  inLen : s.inLen ≤ c.cap
  out : OutOk c s

/-- The state. -/
structure Inv (c : Cfg) (st : St) : Prop where
  frame : st.frame.length = c.frameSize
  sess : ∀ s ∈ st.sess, SOk c s

theorem sok_zero (c : Cfg) : SOk c (Sess.zero c) :=
  ⟨by simp [Sess.zero], by simp [Sess.zero], ⟨by simp [Sess.zero], by simp [Sess.zero], Or.inl ⟨rfl, rfl, Or.inl rfl⟩⟩⟩

theorem inv_init (c : Cfg) (n : Nat) : Inv c (St.init c n) := by
  refine ⟨by simp [St.init], ?_⟩
  intro s hs
  simp only [St.init] at hs
  rw [(List.mem_replicate.mp hs).2]
  exact sok_zero c

/-! ## Collecting -/

/-- What `collect` leaves alone. -/
structure SameOut (s t : Sess) : Prop where
  inUse : t.inUse = s.inUse
  outBuf : t.outBuf = s.outBuf
  outLen : t.outLen = s.outLen
  sentPos : t.sentPos = s.sentPos
  sendLen : t.sendLen = s.sendLen
  outFrag : t.outFrag = s.outFrag
  resend : t.resend = s.resend

theorem SameOut.outOk {c : Cfg} {s t : Sess} (h : SameOut s t) (ho : OutOk c s) : OutOk c t := by
  obtain ⟨a, b, d⟩ := ho
  refine ⟨by rw [h.outBuf]; exact a, by rw [h.outLen]; exact b, ?_⟩
  rw [h.outFrag, h.sentPos, h.sendLen, h.outLen]
  exact d

theorem sameOut_start (s : Sess) (h : RpcHeader) (b : Bool) : SameOut s (s.start h b) := ⟨rfl, rfl, rfl, rfl, rfl, rfl, rfl⟩

theorem SameOut.refl (s : Sess) : SameOut s s := ⟨rfl, rfl, rfl, rfl, rfl, rfl, rfl⟩

/-- A reader that stays inside its buffer. -/
def RdOk (r : Rd) : Prop := r.null = false ∧ r.len ≤ r.buf.length

theorem collect_ok {c : Cfg} (hc : CfgOk c) {h : RpcHeader} {r : Rd} {s : Sess} (hs : SOk c s) (hr : RdOk r)
    (hb : r.buf.length = c.frameSize) (hp : r.pos ≤ 80) :
    ∃ t r' e, collect c h r s = some (t, r', e) ∧ SOk c t ∧ SameOut s t ∧ RdOk r' ∧ r'.be = r.be ∧
      (t.uuid = s.uuid ∨ t.uuid = h.actUuid) := by
  unfold collect
  split
  · exact ⟨s, r, false, rfl, hs, SameOut.refl s, hr, rfl, Or.inl rfl⟩
  · rename_i h1
    split
    · exact ⟨_, r, false, rfl, ⟨hs.inBuf, Nat.zero_le _, (sameOut_start s h r.be).outOk hs.out⟩, sameOut_start _ _ _, hr, rfl, Or.inr rfl⟩
    · dsimp only
      have key : ∀ s1 : Sess, SOk c s1 → SameOut s s1 → (s1.uuid = s.uuid ∨ s1.uuid = h.actUuid) → ∃ t r' e,
          (if s1.inFrag ≠ h.fragmentNmb.toNat then some (s1, r, true)
          else if s1.inLen + h.lengthOfBody.toNat > c.cap then some (s1, r, true)
          else
            (slice r.buf r.pos h.lengthOfBody.toNat).bind fun d =>
              (writeAt s1.inBuf s1.inLen d).map fun b =>
                ({ s1 with
                  inBuf := b, inLen := s1.inLen + h.lengthOfBody.toNat, inFrag := (s1.inFrag + 1) % 65536 },
                if h.lastFragment then (⟨b, false, s1.inLen + h.lengthOfBody.toNat, r.be, r.err, 0⟩ : Rd) else r,
                h.fragmentNmb != 0 && s1.be != h.isBe)) = some (t, r', e) ∧ SOk c t ∧ SameOut s t ∧ RdOk r' ∧ r'.be = r.be ∧
            (t.uuid = s.uuid ∨ t.uuid = h.actUuid) := by
        intro s1 hs1 hso hu
        split
        · exact ⟨_, _, _, rfl, hs1, hso, hr, rfl, hu⟩
        · split
          · exact ⟨_, _, _, rfl, hs1, hso, hr, rfl, hu⟩
          · rename_i hle
            have hsl : r.pos + h.lengthOfBody.toNat ≤ r.buf.length := by have := hc.body; omega
            rw [slice_eq_some hsl]
            dsimp only [Option.bind_some]
            have hl : (List.take h.lengthOfBody.toNat (List.drop r.pos r.buf)).length = h.lengthOfBody.toNat := by
              simp; omega
            have hw : s1.inLen + (List.take h.lengthOfBody.toNat (List.drop r.pos r.buf)).length ≤ s1.inBuf.length := by
              rw [hl, hs1.inBuf]; omega
            cases hwe : writeAt s1.inBuf s1.inLen (List.take h.lengthOfBody.toNat (List.drop r.pos r.buf)) with
            | none => rw [writeAt_eq_some hw] at hwe; cases hwe
            | some b =>
              have hbl := writeAt_length hwe
              refine ⟨_, _, _, rfl, ⟨by simp [hbl, hs1.inBuf], by simp; omega, ?_⟩, ?_, ?_, ?_, hu⟩
              · exact SameOut.outOk (s := s) ⟨hso.1, hso.2, hso.3, hso.4, hso.5, hso.6, hso.7⟩ hs.out
              · exact ⟨hso.1, hso.2, hso.3, hso.4, hso.5, hso.6, hso.7⟩
              · split
                · exact ⟨rfl, by simp [hbl, hs1.inBuf]; omega⟩
                · exact hr
              · split <;> rfl
      by_cases h0 : h.fragmentNmb = 0
      · rw [if_pos h0]
        exact key _ ⟨hs.inBuf, Nat.zero_le _, (sameOut_start s h r.be).outOk hs.out⟩ (sameOut_start _ _ _) (Or.inr rfl)
      · rw [if_neg h0]
        exact key _ hs (SameOut.refl s) (Or.inl rfl)

/-! ## Sending -/

theorem slice_zero {α} {l : List α} {n : Nat} (h : n ≤ l.length) : slice l 0 n = some (l.take n) := by
  rw [slice_eq_some (by omega)]
  simp

theorem sendTimed_pos {i : Nat} {again : Bool} {s : Sess} (hr : 0 < s.resend) (hl : s.sendLen ≤ s.outBuf.length) :
    sendTimed i again s =
      some ({ s with resend := s.resend - 1, timer := true }, sentEv i again (s.outBuf.take s.sendLen)) := by
  unfold sendTimed sendOnce
  rw [if_pos hr, slice_zero hl]
  rfl

theorem hOk_res {h : RpcHeader} (hw : HOk h) (t : Byte) (a b d : Bool) (n : U16) : HOk (resHeader h t a b d n) := hw
theorem hOk_resp {h : RpcHeader} (hw : HOk h) (be : Bool) : HOk (respHeader h be) := hw
theorem hOk_frag0 {h : RpcHeader} (hw : HOk h) (be : Bool) : HOk (fragHeader0 h be) := hw
theorem hOk_frag {h : RpcHeader} (hw : HOk h) (be : Bool) (n : Nat) (l : Bool) : HOk (fragHeader h be n l) := hw

theorem shortAnswer_ok {c : Cfg} (hc : CfgOk c) (i : Nat) (h : RpcHeader) {rest : W} (hr : WSafe rest) :
    ∃ d, shortAnswer c i h rest = some (sentEv i false d) := by
  unfold shortAnswer
  obtain ⟨x, n, e, ec, el, em, ep⟩ := putHdr_safe h ⟨List.replicate c.frameSize 0, c.maxUdp, 0⟩
    (by simp; exact hc.udpFrame) (by simp)
  simp only [List.length_replicate] at el ec ep
  have := hc.udpFrame
  rw [e]
  dsimp only [Option.bind_some]
  obtain ⟨w, ew, cw, lw, mw, xw, _⟩ := hr x (by omega)
  rw [ew]
  dsimp only [Option.bind_some]
  rw [slice_zero (by omega)]
  exact ⟨_, rfl⟩

theorem wsafe_id : WSafe some := fun w _ => ⟨w, rfl, rfl, rfl, Nat.le_refl _, Or.inr rfl, fun _ _ => rfl⟩

/-- What every answer leaves alone. -/
structure SameIn (s t : Sess) : Prop where
  inUse : t.inUse = s.inUse
  uuid : t.uuid = s.uuid
  be : t.be = s.be
  inBuf : t.inBuf = s.inBuf
  inLen : t.inLen = s.inLen
  inFrag : t.inFrag = s.inFrag

/-- All effects concern session `i`. -/
def Own (i : Nat) (evs : List Ev) : Prop := ∀ e ∈ evs,
  match e with
  | .request j _ _ _ | .response j _ _ _ | .sent j _ _ | .abort j => j = i

theorem own_sentEv (i : Nat) (a : Bool) (d : List Byte) : Own i (sentEv i a d) := by
  unfold sentEv
  split
  · intro e h; cases h
  · intro e h; cases List.mem_singleton.mp h; rfl

theorem own_nil (i : Nat) : Own i [] := by intro e h; cases h

theorem own_append {i : Nat} {a b : List Ev} (ha : Own i a) (hb : Own i b) : Own i (a ++ b) := by
  intro e h
  rcases List.mem_append.mp h with h | h
  · exact ha e h
  · exact hb e h

/-- The acknowledge of a fragment when more is to be sent. -/
theorem fragAck_more {c : Cfg} (hc : CfgOk c) {i : Nat} {h : RpcHeader} (hw : HOk h) {be : Bool} {s : Sess} (ho : OutOk c s)
    (hm : s.ackPos < s.outLen) :
    c.maxUdp ≤ s.ackPos ∧ ∃ n last, n = min (s.outLen - s.ackPos) (c.maxUdp - 80) ∧
      last = decide (s.outLen - s.ackPos < c.maxUdp - 80) ∧
      fragAck c i h be s = some
        ({ s with
            outBuf := encRpcHeader (withLen (fragHeader h be (s.outFrag + 1) last) n) ++
              ((s.outBuf.drop s.ackPos).take n ++ s.outBuf.drop (80 + n))
            sentPos := s.ackPos
            sendLen := n + 80
            outFrag := s.outFrag + 1
            resend := c.resends - 1
            timer := true },
          [.sent i false (encRpcHeader (withLen (fragHeader h be (s.outFrag + 1) last) n) ++
            (s.outBuf.drop s.ackPos).take n)]) := by
  obtain ⟨hl, hol, hph⟩ := ho
  have h1 := hc.udp
  have h2 := hc.cap
  have hM : c.maxUdp ≤ s.ackPos ∧ s.outFrag < 65535 ∧
      (if s.outFrag > 0 then (s.sentPos + s.sendLen + (65536 - 80)) % 65536 else (s.sentPos + s.sendLen) % 65536) =
        s.ackPos := by
    unfold Sess.ackPos at hm ⊢
    split at hm
    · rename_i hz
      rw [if_pos hz, if_pos hz]
      rcases hph with ⟨h0, _⟩ | ⟨_, ha, hb, hd, he, hf⟩
      · omega
      · refine ⟨by omega, by omega, by omega⟩
    · rename_i hz
      rw [if_neg hz, if_neg hz]
      rcases hph with ⟨h0, hsp, hx⟩ | ⟨ha, _⟩
      · refine ⟨by omega, by omega, by omega⟩
      · omega
  obtain ⟨hM1, hM2, hM3⟩ := hM
  refine ⟨hM1, min (s.outLen - s.ackPos) (c.maxUdp - 80), decide (s.outLen - s.ackPos < c.maxUdp - 80), rfl, rfl, ?_⟩
  unfold fragAck
  rw [hM3]
  have hnmb : (s.outFrag + 1) % 65536 = s.outFrag + 1 := by omega
  rw [hnmb]
  dsimp only
  rw [if_pos hm, putHdr_fits (hOk_frag hw _ _ _) (by omega) (by omega)]
  dsimp only [Option.bind_some]
  -- the two cases of the last fragment
  have tail : ∀ (n : Nat) (last : Bool), n = min (s.outLen - s.ackPos) (c.maxUdp - 80) →
      (slice (encRpcHeader (fragHeader h be (s.outFrag + 1) last) ++ s.outBuf.drop 80) s.ackPos n).bind (fun d =>
          (putMem d ⟨encRpcHeader (fragHeader h be (s.outFrag + 1) last) ++ s.outBuf.drop 80, c.maxUdp, 80⟩).bind fun w2 =>
            (putU16 be (BitVec.ofNat 16 n) ⟨w2.buf, c.maxUdp, 74⟩).bind fun w3 =>
              sendTimed i false { s with
                outBuf := w3.buf, sentPos := s.ackPos, sendLen := n + 80, outFrag := s.outFrag + 1,
                resend := c.resends }) = some
        ({ s with
            outBuf := encRpcHeader (withLen (fragHeader h be (s.outFrag + 1) last) n) ++
              ((s.outBuf.drop s.ackPos).take n ++ s.outBuf.drop (80 + n))
            sentPos := s.ackPos
            sendLen := n + 80
            outFrag := s.outFrag + 1
            resend := c.resends - 1
            timer := true },
          [.sent i false (encRpcHeader (withLen (fragHeader h be (s.outFrag + 1) last) n) ++
            (s.outBuf.drop s.ackPos).take n)]) := by
    intro n last hn
    have hok := hOk_frag hw be (s.outFrag + 1) last
    have hel := encHdr_length hok
    have hsl : slice (encRpcHeader (fragHeader h be (s.outFrag + 1) last) ++ s.outBuf.drop 80) s.ackPos n =
        some ((s.outBuf.drop s.ackPos).take n) := by
      rw [slice_eq_some (by simp [hel]; omega)]
      rw [List.drop_append, hel, List.drop_of_length_le (by omega), List.nil_append, List.drop_drop]
      congr 3
      omega
    rw [hsl]
    dsimp only [Option.bind_some]
    have hdl : ((s.outBuf.drop s.ackPos).take n).length = n := by simp; omega
    generalize hd : (s.outBuf.drop s.ackPos).take n = d at hdl ⊢
    unfold putMem
    dsimp only
    rw [if_neg (by omega), writeAt_eq_some (by simp [hel]; omega)]
    dsimp only [Option.map_some, Option.bind_some]
    have e1 : List.take 80 (encRpcHeader (fragHeader h be (s.outFrag + 1) last) ++ s.outBuf.drop 80) ++ d ++
        List.drop (80 + d.length) (encRpcHeader (fragHeader h be (s.outFrag + 1) last) ++ s.outBuf.drop 80) =
        encRpcHeader (fragHeader h be (s.outFrag + 1) last) ++ (d ++ s.outBuf.drop (80 + n)) := by
      rw [List.take_append, List.drop_append, hel]
      simp [hel, hdl, List.drop_drop, List.take_of_length_le, List.drop_of_length_le]
    rw [e1]
    have := putLen hok (t := d ++ s.outBuf.drop (80 + n)) (cap := c.maxUdp) n
      (by simp [hdl]; omega) (by omega)
    rw [show (fragHeader h be (s.outFrag + 1) last).isBe = be from rfl] at this
    rw [this]
    dsimp only [Option.bind_some]
    have hel2 : (encRpcHeader (withLen (fragHeader h be (s.outFrag + 1) last) n)).length = 80 :=
      encHdr_length (hOk_withLen hok n)
    rw [sendTimed_pos (by exact hc.resends) (by simp [hel2, hdl]; omega)]
    have e2 : List.take (n + 80) (encRpcHeader (withLen (fragHeader h be (s.outFrag + 1) last) n) ++
        (d ++ s.outBuf.drop (80 + n))) =
        encRpcHeader (withLen (fragHeader h be (s.outFrag + 1) last) n) ++ d := by
      rw [List.take_append, hel2, List.take_of_length_le (by omega), List.take_append, List.take_of_length_le (by omega)]
      simp [hdl]
    dsimp only
    rw [e2]
    unfold sentEv
    rw [if_neg (by simp [hel2])]
  by_cases hlast : s.outLen - s.ackPos < c.maxUdp - 80
  · simp only [hlast, decide_true, if_true]
    have hn : s.outLen - s.ackPos = min (s.outLen - s.ackPos) (c.maxUdp - 80) := by omega
    have hel := encHdr_length (hOk_frag hw be (s.outFrag + 1) false)
    rw [putHdr_fits (hOk_frag hw _ _ _) (by simp [hel]; omega) (by omega)]
    dsimp only [Option.bind_some]
    have e1 : List.drop 80 (encRpcHeader (fragHeader h be (s.outFrag + 1) false) ++ s.outBuf.drop 80) = s.outBuf.drop 80 := by
      rw [List.drop_append, hel, List.drop_of_length_le (by omega)]
      simp
    rw [e1]
    have := tail (s.outLen - s.ackPos) true hn
    rw [← hn]
    exact this
  · simp only [hlast, decide_false, Bool.false_eq_true, if_false, Option.bind_some]
    have hn : c.maxUdp - 80 = min (s.outLen - s.ackPos) (c.maxUdp - 80) := by omega
    have := tail (c.maxUdp - 80) false hn
    rw [← hn]
    exact this

/-- The acknowledge of a fragment when nothing more is to be sent. -/
theorem fragAck_done {c : Cfg} (hc : CfgOk c) {i : Nat} {h : RpcHeader} {be : Bool} {s : Sess} (ho : OutOk c s)
    (hm : s.outLen ≤ s.ackPos) :
    fragAck c i h be s = some ({ s with outLen := 0, sentPos := 0, sendLen := 0, outFrag := 0 }, []) := by
  obtain ⟨hl, hol, hph⟩ := ho
  have h1 := hc.udp
  have h2 := hc.cap
  have hM3 : (if s.outFrag > 0 then (s.sentPos + s.sendLen + (65536 - 80)) % 65536 else (s.sentPos + s.sendLen) % 65536) =
        s.ackPos := by
    unfold Sess.ackPos at hm ⊢
    split at hm
    · rename_i hz
      rw [if_pos hz, if_pos hz]
      rcases hph with ⟨h0, _⟩ | ⟨_, ha, hb, hd, he, hf⟩
      · omega
      · omega
    · rename_i hz
      rw [if_neg hz, if_neg hz]
      rcases hph with ⟨h0, hsp, hx⟩ | ⟨ha, _⟩
      · omega
      · omega
  unfold fragAck
  rw [hM3]
  dsimp only
  rw [if_neg (by omega)]

theorem fragAck_ok {c : Cfg} (hc : CfgOk c) {i : Nat} {h : RpcHeader} (hw : HOk h) {be : Bool} {s : Sess} (hs : SOk c s) :
    ∃ t e, fragAck c i h be s = some (t, e) ∧ SOk c t ∧ SameIn s t ∧ Own i e ∧ t.kill = s.kill := by
  have h1 := hc.udp
  have h2 := hc.cap
  by_cases hm : s.ackPos < s.outLen
  · obtain ⟨hM, n, last, hn, hl, e⟩ := fragAck_more hc (i := i) hw (be := be) hs.out hm
    refine ⟨_, _, e, ⟨hs.inBuf, hs.inLen, ?_⟩, ⟨rfl, rfl, rfl, rfl, rfl, rfl⟩, ?_, rfl⟩
    · have ho := hs.out.outLen
      have hb := hs.out.len
      refine ⟨?_, hs.out.outLen, Or.inr ?_⟩
      · have hel2 : (encRpcHeader (withLen (fragHeader h be (s.outFrag + 1) last) n)).length = 80 :=
          encHdr_length (hOk_withLen (hOk_frag hw _ _ _) n)
        simp [hel2]
        omega
      · dsimp only
        refine ⟨by omega, ?_, hM, by omega, by omega, by omega⟩
        have : s.outFrag + 1 ≤ s.ackPos := by
          unfold Sess.ackPos
          rcases hs.out.phase with ⟨h0, hsp, hx⟩ | ⟨ha, hb, hd, he, hf, hg⟩
          · have := hM; unfold Sess.ackPos at this; rw [h0] at this ⊢; simp at this ⊢; omega
          · rw [if_pos (by omega)]; omega
        exact this
    · intro x hx
      cases List.mem_singleton.mp hx
      rfl
  · refine ⟨_, _, fragAck_done hc hs.out (by omega), ⟨hs.inBuf, hs.inLen, ?_⟩, ⟨rfl, rfl, rfl, rfl, rfl, rfl⟩, own_nil i, rfl⟩
    exact ⟨hs.out.len, Nat.zero_le _, Or.inl ⟨rfl, rfl, Or.inl rfl⟩⟩

/-! ## Requests -/

theorem respLimit_ok {c : Cfg} {h : RpcHeader} {r : Rd} (hr : RdOk r) :
    ∃ x n, respLimit c h r = some (x, n) ∧ n ≤ c.cap := by
  unfold respLimit
  split
  · obtain ⟨a, r', e, _⟩ := safe_getNdr r (fun _ => hr.2)
    rw [e]
    refine ⟨_, _, rfl, ?_⟩
    dsimp only
    split <;> omega
  · exact ⟨_, _, rfl, Nat.le_refl _⟩

theorem putMem_cases (d : List Byte) (w : Wr) (hc : w.cap ≤ w.buf.length) :
    ∃ x, putMem d w = some x ∧ x.cap = w.cap ∧ x.buf.length = w.buf.length ∧
      (x = w ∨ (w.pos + d.length ≤ w.cap ∧ x.pos = w.pos + d.length ∧ writeAt w.buf w.pos d = some x.buf)) := by
  unfold putMem
  split
  · exact ⟨w, rfl, rfl, rfl, Or.inl rfl⟩
  · rename_i h
    cases hw : writeAt w.buf w.pos d with
    | none => rw [writeAt_eq_some (by omega)] at hw; cases hw
    | some b => exact ⟨_, rfl, rfl, writeAt_length hw, Or.inr ⟨by omega, rfl, rfl⟩⟩

/-- The bytes a handler can read. -/
def Rd.rest (r : Rd) : List Byte := (r.buf.drop r.pos).take (r.len - r.pos)

/-- The requests that have a handler. -/
def Known (h : RpcHeader) : Prop := h.ifUuid = uuidPnio ∨ h.ifUuid = uuidEpm

instance (h : RpcHeader) : Decidable (Known h) := inferInstanceAs (Decidable (_ ∨ _))

/-- The session after a request that was answered. -/
structure Answered (c : Cfg) (i : Nat) (h : RpcHeader) (r : Rd) (err : Bool) (rep : Reply) (s t : Sess) (e : List Ev) :
    Prop where
  ok : SOk c t
  same : SameIn s t
  kill : t.kill = if Known h then rep.kill else s.kill
  evs : e = (if Known h then [.request i h err (Rd.rest r)] else []) ++ sentEv i false (t.outBuf.take t.sendLen)
  /-- The state right after the request. -/
  start : t.outFrag = 0 ∧ t.sentPos = 0 ∧ t.sendLen = min t.outLen c.maxUdp
  /-- If the answer of the handler has found room, the buffer. -/
  sent : t.outLen = 80 + rep.body.length → Known h → ∃ be,
    (t.outLen < c.maxUdp → ∃ rest, t.outBuf = encRpcHeader (withLen (respHeader h be) rep.body.length) ++ (rep.body ++ rest)) ∧
    (c.maxUdp ≤ t.outLen → ∃ rest, t.outBuf = encRpcHeader (withLen (fragHeader0 h be) (c.maxUdp - 80)) ++ (rep.body ++ rest))

theorem sendOnce_ok {i : Nat} {again : Bool} {s : Sess} (hl : s.sendLen ≤ s.outBuf.length) :
    sendOnce i again s = some (sentEv i again (s.outBuf.take s.sendLen)) := by
  unfold sendOnce
  rw [slice_zero hl]
  rfl

theorem writeAt_80 {b b1 d : List Byte} {e : List Byte} (he : e.length = 80)
    (h : writeAt (e ++ b.drop 80) 80 d = some b1) : b1 = e ++ (d ++ b.drop (80 + d.length)) := by
  unfold writeAt at h
  split at h
  · cases h
    rw [List.take_append, List.drop_append, he]
    simp [he, List.drop_drop, List.take_of_length_le, List.drop_of_length_le]
  · cases h

/-- A header of a message whose body has found room must have been written completely. -/
theorem body_fits {h : RpcHeader} (hw : HOk h) {b d : List Byte} {n : Nat} (hn : n ≤ b.length) {w w1 : Wr} {k : Nat}
    (e : putHdr h ⟨b, n, 0⟩ = some (w, k)) (hp : w.pos ≤ n) (hm : putMem d w = some w1)
    (hx : w1.pos = 80 + d.length) :
    80 ≤ n ∧ w = ⟨encRpcHeader h ++ b.drop 80, n, 80⟩ ∧ k = 74 ∧
      w1.buf = encRpcHeader h ++ (d ++ b.drop (80 + d.length)) ∧ 80 + d.length ≤ n := by
  have hwb : ∃ x, putHdr h ⟨b, n, 0⟩ = some x ∧ x.1.cap = n ∧ x.1.buf.length = b.length := by
    obtain ⟨x, m, e', c', l', _⟩ := putHdr_safe h ⟨b, n, 0⟩ hn (Nat.zero_le _)
    exact ⟨(x, m), e', c', l'⟩
  obtain ⟨x, ex, hcx, hlx⟩ := hwb
  rw [e] at ex
  cases ex
  dsimp only at hcx hlx
  have h80 : 80 ≤ n := by
    obtain ⟨y, ey, _, _, hy⟩ := putMem_cases d w (by omega)
    rw [hm] at ey
    cases ey
    rcases hy with rfl | ⟨h1, h2, _⟩
    · omega
    · omega
  rw [putHdr_fits hw hn h80] at e
  cases e
  refine ⟨h80, rfl, rfl, ?_⟩
  obtain ⟨y, ey, _, _, hy⟩ := putMem_cases d ⟨encRpcHeader h ++ b.drop 80, n, 80⟩ (by simp [encHdr_length hw]; omega)
  rw [hm] at ey
  cases ey
  rcases hy with rfl | ⟨h1, h2, h3⟩
  · dsimp only at hx
    have : d = [] := List.eq_nil_of_length_eq_zero (by omega)
    subst this
    exact ⟨by simp, by simpa using h80⟩
  · exact ⟨writeAt_80 (encHdr_length hw) h3, h1⟩

theorem request_ok {c : Cfg} (hc : CfgOk c) {i : Nat} {h : RpcHeader} (hw : HOk h) {r : Rd} (hr : RdOk r) {err : Bool}
    {rep : Reply} {s : Sess} (hs : SOk c s) :
    ∃ t e, request c i h r err rep s = some (t, e) ∧ Answered c i h r err rep s t e := by
  have hu := hc.udp
  have hl := hs.out.len
  unfold request
  obtain ⟨x, n, ex, hn⟩ := respLimit_ok (c := c) (h := h) hr
  rw [ex]
  dsimp only [Option.bind_some]
  obtain ⟨w, k, ew, cw, lw, mw, pw⟩ := putHdr_safe (respHeader h x.be) ⟨s.outBuf, n, 0⟩ (by simp; omega) (Nat.zero_le _)
  dsimp only at cw lw pw
  rw [ew]
  dsimp only [Option.bind_some]
  have hkn : (h.ifUuid = uuidPnio ∨ h.ifUuid = uuidEpm) ↔ Known h := Iff.rfl
  simp only [hkn]
  generalize hd : (if Known h then rep.body else []) = d
  obtain ⟨w1, e1, c1, l1, hy⟩ := putMem_cases d w (by omega)
  rw [e1]
  dsimp only [Option.bind_some]
  have p1 : w1.pos ≤ n := by
    rcases hy with rfl | ⟨h1, h2, _⟩
    · omega
    · omega
  have hfits : w1.pos = 80 + rep.body.length → Known h → d = rep.body ∧ w = ⟨encRpcHeader (respHeader h x.be) ++ s.outBuf.drop 80, n, 80⟩ ∧
      k = 74 ∧ w1.buf = encRpcHeader (respHeader h x.be) ++ (d ++ s.outBuf.drop (80 + d.length)) ∧ 80 + d.length ≤ n := by
    intro hx hk
    rw [if_pos hk] at hd
    subst hd
    obtain ⟨_, a, b, c', d'⟩ := body_fits (hOk_resp hw x.be) (by omega : n ≤ s.outBuf.length) ew (by omega) e1 hx
    exact ⟨rfl, a, b, c', d'⟩
  split
  · rename_i hlt
    obtain ⟨w2, e2, c2, l2, _⟩ := wsafe_putU16 x.be (BitVec.ofNat 16 (w1.pos - w.pos)) ⟨w1.buf, w1.pos, k⟩ (by dsimp only; omega)
    rw [e2]
    dsimp only [Option.bind_some] at l2 ⊢
    rw [sendOnce_ok (by dsimp only; omega)]
    dsimp only [Option.map_some]
    refine ⟨_, _, rfl, ⟨⟨hs.inBuf, hs.inLen, ⟨by dsimp only; omega, by dsimp only; omega, Or.inl ⟨rfl, rfl, Or.inl rfl⟩⟩⟩,
      ⟨rfl, rfl, rfl, rfl, rfl, rfl⟩, rfl, rfl, ⟨rfl, rfl, by dsimp only; omega⟩, ?_⟩⟩
    intro hx hk
    refine ⟨x.be, ?_, fun hh => by dsimp only at hh; omega⟩
    intro _
    obtain ⟨hd', a, b, c', d'⟩ := hfits hx hk
    rw [a] at e2
    dsimp only at hx
    rw [b, c', hx, hd'] at e2
    rw [show 80 + rep.body.length - (⟨encRpcHeader (respHeader h x.be) ++ s.outBuf.drop 80, n, 80⟩ : Wr).pos = rep.body.length by
      simp] at e2
    rw [hd'] at d'
    refine ⟨s.outBuf.drop (80 + rep.body.length), ?_⟩
    have hok := hOk_resp hw x.be
    have := putLen hok (t := rep.body ++ s.outBuf.drop (80 + rep.body.length)) (cap := 80 + rep.body.length) rep.body.length
      (by simp) (by omega)
    rw [show (respHeader h x.be).isBe = x.be from rfl] at this
    rw [this] at e2
    cases e2
    rfl
  · rename_i hge
    obtain ⟨w3, k3, e3, c3, l3, m3, p3⟩ := putHdr_safe (fragHeader0 h x.be) ⟨w1.buf, n, 0⟩ (by dsimp only; omega) (Nat.zero_le _)
    dsimp only at c3 l3 p3
    rw [e3]
    dsimp only [Option.bind_some]
    obtain ⟨w2, e2, c2, l2, _⟩ := wsafe_putU16 x.be (BitVec.ofNat 16 (c.maxUdp - w.pos)) ⟨w3.buf, c.maxUdp, k3⟩ (by dsimp only; omega)
    rw [e2]
    dsimp only [Option.bind_some] at l2 ⊢
    rw [sendTimed_pos (by dsimp only; exact hc.resends) (by dsimp only; omega)]
    dsimp only [Option.map_some]
    refine ⟨_, _, rfl, ⟨⟨hs.inBuf, hs.inLen, ⟨by dsimp only; omega, by dsimp only; omega,
      Or.inl ⟨rfl, rfl, Or.inr ⟨rfl, by dsimp only; omega⟩⟩⟩⟩,
      ⟨rfl, rfl, rfl, rfl, rfl, rfl⟩, rfl, rfl, ⟨rfl, rfl, by dsimp only; omega⟩, ?_⟩⟩
    intro hx hk
    refine ⟨x.be, fun hh => by dsimp only at hh; omega, ?_⟩
    intro _
    obtain ⟨hd', a, b, c', d'⟩ := hfits hx hk
    have hok := hOk_frag0 hw x.be
    rw [putHdr_fits hok (by omega) (by omega)] at e3
    cases e3
    have hel := encHdr_length (hOk_resp hw x.be)
    have hdrop : w1.buf.drop 80 = rep.body ++ s.outBuf.drop (80 + rep.body.length) := by
      rw [c', hd', List.drop_append, hel, List.drop_of_length_le (by omega)]
      simp
    rw [hdrop] at e2
    rw [show c.maxUdp - w.pos = c.maxUdp - 80 by rw [a]] at e2
    refine ⟨s.outBuf.drop (80 + rep.body.length), ?_⟩
    dsimp only at hx
    have := putLen hok (t := rep.body ++ s.outBuf.drop (80 + rep.body.length)) (cap := c.maxUdp) (c.maxUdp - 80)
      (by simp; omega) (by omega)
    rw [show (fragHeader0 h x.be).isBe = x.be from rfl] at this
    rw [this] at e2
    cases e2
    rfl

/-! ## Datagrams -/

/-- The answer to a datagram: what stays, whom the effects concern. -/
theorem dispatch_ok {c : Cfg} (hc : CfgOk c) {i : Nat} {isNew : Bool} {h : RpcHeader} (hw : HOk h) {r : Rd} (hr : RdOk r)
    {err : Bool} {rep : Reply} {s : Sess} (hs : SOk c s) :
    ∃ t e, dispatch c i isNew h r err rep s = some (t, e) ∧ SOk c t ∧ SameIn s t ∧ Own i e := by
  unfold dispatch
  split
  · obtain ⟨d, ed⟩ := shortAnswer_ok hc i { resHeader h 6 true true s.be 0 with lengthOfBody := 4 } (wsafe_putU32 s.be 0x1C01000B)
    rw [ed]
    exact ⟨_, _, rfl, ⟨hs.inBuf, hs.inLen, ⟨hs.out.len, hs.out.outLen, hs.out.phase⟩⟩, ⟨rfl, rfl, rfl, rfl, rfl, rfl⟩, own_sentEv _ _ _⟩
  · split
    · split
      · obtain ⟨d, ed⟩ := shortAnswer_ok hc i (resHeader h 5 true true s.be 0) wsafe_id
        rw [ed]
        exact ⟨_, _, rfl, ⟨hs.inBuf, hs.inLen, ⟨hs.out.len, Nat.zero_le _, Or.inl ⟨rfl, rfl, Or.inl rfl⟩⟩⟩,
          ⟨rfl, rfl, rfl, rfl, rfl, rfl⟩, own_sentEv _ _ _⟩
      · split
        · obtain ⟨t, e, he, ha⟩ := request_ok hc (i := i) hw hr (err := err) (rep := rep) hs
          refine ⟨t, e, he, ha.ok, ha.same, ?_⟩
          rw [ha.evs]
          refine own_append ?_ (own_sentEv _ _ _)
          split
          · intro y hy; cases List.mem_singleton.mp hy; rfl
          · exact own_nil i
        · split
          · obtain ⟨t, e, he, h1, h2, h3, _⟩ := fragAck_ok hc (i := i) hw (be := r.be) hs
            exact ⟨t, e, he, h1, h2, h3⟩
          · split
            · split
              · exact ⟨_, _, rfl, ⟨hs.inBuf, hs.inLen, ⟨hs.out.len, hs.out.outLen, hs.out.phase⟩⟩, ⟨rfl, rfl, rfl, rfl, rfl, rfl⟩, own_nil i⟩
              · refine ⟨_, _, rfl, ⟨hs.inBuf, hs.inLen, ⟨hs.out.len, hs.out.outLen, hs.out.phase⟩⟩, ⟨rfl, rfl, rfl, rfl, rfl, rfl⟩, ?_⟩
                intro y hy; cases List.mem_singleton.mp hy; rfl
            · split
              · refine ⟨_, _, rfl, ⟨hs.inBuf, hs.inLen, ⟨hs.out.len, hs.out.outLen, hs.out.phase⟩⟩, ⟨rfl, rfl, rfl, rfl, rfl, rfl⟩, ?_⟩
                intro y hy; cases List.mem_singleton.mp hy; rfl
              · exact ⟨_, _, rfl, hs, ⟨rfl, rfl, rfl, rfl, rfl, rfl⟩, own_nil i⟩
    · split
      · obtain ⟨d, ed⟩ := shortAnswer_ok hc i { resHeader h 9 false false s.be h.fragmentNmb with lengthOfBody := 0 } wsafe_id
        rw [ed]
        exact ⟨_, _, rfl, hs, ⟨rfl, rfl, rfl, rfl, rfl, rfl⟩, own_sentEv _ _ _⟩
      · exact ⟨_, _, rfl, hs, ⟨rfl, rfl, rfl, rfl, rfl, rfl⟩, own_nil i⟩

/-- The session that handles a datagram. -/
theorem findSess_ok {c : Cfg} {u g : Uuid} {l : List Sess} (hl : ∀ s ∈ l, SOk c s) {i : Nat} {n : Bool} {s : Sess}
    (h : findSess c u g l = some (i, n, s)) :
    i < l.length ∧ SOk c s ∧ s.inUse = true ∧
      ((n = false ∧ l[i]? = some s ∧ s.uuid = u ∧ locate u l = some i) ∨
       (n = true ∧ s = { Sess.zero c with inUse := true, uuid := g } ∧ locate u l = none ∧
         ∃ s0, l[i]? = some s0 ∧ s0.inUse = false)) := by
  unfold findSess at h
  cases hlo : locate u l with
  | some j =>
    rw [hlo] at h
    obtain ⟨s', hs', e⟩ := Option.map_eq_some_iff.mp h
    cases e
    obtain ⟨hlt, hp, _⟩ := List.findIdx?_eq_some_iff_getElem.mp hlo
    rw [List.getElem?_eq_getElem hlt] at hs'
    cases hs'
    simp at hp
    exact ⟨hlt, hl _ (List.getElem_mem hlt), hp.1, Or.inl ⟨rfl, by simp [hlt], hp.2, rfl⟩⟩
  | none =>
    rw [hlo] at h
    obtain ⟨j, hj, e⟩ := Option.map_eq_some_iff.mp h
    cases e
    obtain ⟨hlt, hp, _⟩ := List.findIdx?_eq_some_iff_getElem.mp hj
    simp at hp
    refine ⟨hlt, ?_, rfl, Or.inr ⟨rfl, rfl, rfl, _, List.getElem?_eq_getElem hlt, hp⟩⟩
    have := sok_zero c
    exact ⟨this.inBuf, this.inLen, ⟨this.out.len, this.out.outLen, this.out.phase⟩⟩

/-- A datagram is handled without access outside an array, and keeps the invariant. -/
theorem dcePacket_ok {c : Cfg} (hc : CfgOk c) {len : Nat} {rep : Reply} {st : St} (hi : Inv c st) (hlen : len ≤ c.frameSize) :
    ∃ st' e, dcePacket c len rep st = some (st', e) ∧ Inv c st' ∧ st'.frame = st.frame ∧ st'.sess.length = st.sess.length := by
  unfold dcePacket
  obtain ⟨h, r, e, b1, n1, l1, m1, x1, _⟩ := safe_getRpcHeader ⟨st.frame, false, len, false, .ok, 0⟩
    (fun _ => by simp [hi.frame]; exact hlen)
  have hp := bnd_getRpcHeader _ _ _ e
  have hw := post_getRpcHeader _ _ _ e
  rw [e]
  dsimp only [Option.bind_some] at *
  cases hf : findSess c h.actUuid rep.gen st.sess with
  | none => exact ⟨st, [], rfl, hi, rfl, rfl⟩
  | some q =>
    obtain ⟨i, n, s⟩ := q
    obtain ⟨hlt, hsok, _, _⟩ := findSess_ok hi.sess hf
    have hr : RdOk r := ⟨n1, by rw [l1, b1, hi.frame]; exact hlen⟩
    obtain ⟨t, r', er, ec, hs', hso, hr', _, _⟩ := collect_ok hc (h := h) hsok hr (by rw [b1, hi.frame]) (by omega)
    dsimp only
    rw [ec]
    dsimp only [Option.bind_some]
    have hs2 : SOk c { t with timer := false } := ⟨hs'.inBuf, hs'.inLen, ⟨hs'.out.len, hs'.out.outLen, hs'.out.phase⟩⟩
    obtain ⟨t2, ev, ed, hs3, _, _⟩ := dispatch_ok hc (i := i) (isNew := n) hw hr' (err := er) (rep := rep) hs2
    rw [ed]
    refine ⟨_, _, rfl, ⟨hi.frame, ?_⟩, rfl, by simp⟩
    intro x hx
    rcases List.mem_or_eq_of_mem_set hx with hx | rfl
    · exact hi.sess x hx
    · unfold finish
      split
      · exact sok_zero c
      · exact hs3

theorem sendTimed_ok {c : Cfg} {i : Nat} {again : Bool} {s : Sess} (hs : SOk c s) :
    ∃ t e, sendTimed i again s = some (t, e) ∧ SOk c t ∧ SameIn s t ∧ Own i e ∧ t.kill = s.kill ∧ SameOut { s with resend := t.resend } t := by
  have hl : s.sendLen ≤ s.outBuf.length := by
    rw [hs.out.len]
    have := hs.out.outLen
    rcases hs.out.phase with ⟨_, _, h⟩ | ⟨_, _, h1, h2, h3, h4⟩
    · omega
    · omega
  by_cases hr : s.resend > 0
  · rw [sendTimed_pos hr hl]
    exact ⟨_, _, rfl, ⟨hs.inBuf, hs.inLen, ⟨hs.out.len, hs.out.outLen, hs.out.phase⟩⟩, ⟨rfl, rfl, rfl, rfl, rfl, rfl⟩,
      own_sentEv _ _ _, rfl, ⟨rfl, rfl, rfl, rfl, rfl, rfl, rfl⟩⟩
  · unfold sendTimed
    rw [if_neg hr]
    refine ⟨_, _, rfl, ⟨hs.inBuf, hs.inLen, ⟨hs.out.len, hs.out.outLen, hs.out.phase⟩⟩, ⟨rfl, rfl, rfl, rfl, rfl, rfl⟩, ?_, rfl,
      ⟨rfl, rfl, rfl, rfl, rfl, rfl, rfl⟩⟩
    intro y hy; cases List.mem_singleton.mp hy; rfl

/-- The frame array after a datagram. -/
def newFrame (f d : List Byte) : List Byte := d ++ f.drop d.length

theorem newFrame_length {f d : List Byte} (h : d.length ≤ f.length) : (newFrame f d).length = f.length := by
  simp [newFrame]; omega

theorem step_ok {c : Cfg} (hc : CfgOk c) {st : St} (hi : Inv c st) (o : Op) :
    ∃ st' e, step c st o = some (st', e) ∧ Inv c st' ∧ st'.sess.length = st.sess.length := by
  cases o with
  | recv d rep =>
    unfold step
    dsimp only
    split
    · exact ⟨st, [], rfl, hi, rfl⟩
    · rename_i hd
      have hf : (d ++ st.frame.drop d.length).length = st.frame.length := newFrame_length (by rw [hi.frame]; omega)
      obtain ⟨st', e, h1, h2, _, h3⟩ := dcePacket_ok hc (rep := rep) (st := { st with frame := d ++ st.frame.drop d.length })
        ⟨by dsimp only; rw [hf, hi.frame], hi.sess⟩ (by omega : d.length ≤ c.frameSize)
      exact ⟨st', e, h1, h2, h3⟩
  | expire i =>
    unfold step
    dsimp only
    cases hg : st.sess[i]? with
    | none => exact ⟨st, [], rfl, hi, rfl⟩
    | some s =>
      dsimp only
      split
      · obtain ⟨t, e, h1, h2, _⟩ := sendTimed_ok (i := i) (again := true) (hi.sess s (List.mem_of_getElem? hg))
        rw [h1]
        refine ⟨_, _, rfl, ⟨hi.frame, ?_⟩, by simp⟩
        intro x hx
        rcases List.mem_or_eq_of_mem_set hx with hx | rfl
        · exact hi.sess x hx
        · exact h2
      · exact ⟨st, [], rfl, hi, rfl⟩

/-- Every sequence of datagrams and timeouts is handled without access outside an array. -/
theorem run_ok {c : Cfg} (hc : CfgOk c) {st : St} (hi : Inv c st) (ops : List Op) :
    ∃ st' e, run c st ops = some (st', e) ∧ Inv c st' := by
  induction ops generalizing st with
  | nil => exact ⟨st, [], rfl, hi⟩
  | cons o os ih =>
    obtain ⟨st1, e1, h1, h2, _⟩ := step_ok hc hi o
    obtain ⟨st2, e2, h3, h4⟩ := ih h2
    exact ⟨st2, e1 ++ e2, by simp [run, h1, h3], h4⟩

end Verif.Rpc
