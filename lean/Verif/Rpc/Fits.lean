import Verif.Rpc.Responses
/-! When the response of the handler finds room, and what happens to a session that is released at once. -/
set_option linter.unusedSimpArgs false
set_option linter.unusedVariables false

namespace Verif.Rpc
open Verif.Wire

/-- The five numbers in front of the blocks of a request. -/
def encNdr (be : Bool) (n : Ndr) : List Byte :=
  enc32 be n.argsMax ++ (enc32 be n.argsLen ++ (enc32 be n.maxCount ++ (enc32 be n.offset ++ enc32 be n.actual)))

theorem encNdr_length (be : Bool) (n : Ndr) : (encNdr be n).length = 20 := by simp [encNdr, enc32_length]

theorem parses_getNdr (be : Bool) (n : Ndr) : Parses be getNdr (encNdr be n) n := by
  unfold getNdr encNdr
  refine ParsesTo.bind (parses_getU32 _ _) (ParsesTo.bind (parses_getU32 _ _) (ParsesTo.bind (parses_getU32 _ _)
    (ParsesTo.bind (parses_getU32 _ _) (ParsesTo.bind_nil (parses_getU32 _ _) ?_))))
  exact ParsesTo.pure _ _

theorem sendTimed_outLen {i : Nat} {a : Bool} {s : Sess} {y : Sess × List Ev} (h : sendTimed i a s = some y) : y.1.outLen = s.outLen := by
  unfold sendTimed at h
  split at h
  · obtain ⟨z, _, ez⟩ := Option.map_eq_some_iff.mp h
    subst ez
    rfl
  · cases h
    rfl

theorem request_len {c : Cfg} {i : Nat} {h : RpcHeader} (hw : HOk h) {r : Rd} {err : Bool} {rep : Reply} {s : Sess} {x : Rd} {n : Nat}
    (hx : respLimit c h r = some (x, n)) (hn : n ≤ s.outBuf.length) (hk : Known h) (hfit : 80 + rep.body.length ≤ n) {t : Sess}
    {e : List Ev} (h' : request c i h r err rep s = some (t, e)) : t.outLen = 80 + rep.body.length := by
  unfold request at h'
  rw [hx] at h'
  dsimp only [Option.bind_some] at h'
  rw [putHdr_fits (hOk_resp hw _) hn (by omega)] at h'
  dsimp only [Option.bind_some] at h'
  rw [if_pos (show h.ifUuid = uuidPnio ∨ h.ifUuid = uuidEpm from hk)] at h'
  have hel := encHdr_length (hOk_resp hw x.be)
  have hpm : ∃ b, putMem rep.body ⟨encRpcHeader (respHeader h x.be) ++ s.outBuf.drop 80, n, 80⟩ =
      some ⟨b, n, 80 + rep.body.length⟩ := by
    unfold putMem
    rw [if_neg (by dsimp only; omega)]
    dsimp only
    rw [writeAt_eq_some (by simp [hel]; omega)]
    exact ⟨_, rfl⟩
  obtain ⟨b, hb⟩ := hpm
  rw [hb] at h'
  dsimp only [Option.bind_some] at h'
  split at h'
  · obtain ⟨w, _, h'⟩ := Option.bind_eq_some_iff.mp h'
    obtain ⟨y, _, h'⟩ := Option.map_eq_some_iff.mp h'
    cases h'
    rfl
  · obtain ⟨w, _, h'⟩ := Option.bind_eq_some_iff.mp h'
    obtain ⟨w2, _, h'⟩ := Option.bind_eq_some_iff.mp h'
    obtain ⟨y, hy, h'⟩ := Option.map_eq_some_iff.mp h'
    cases h'
    exact sendTimed_outLen hy

/-- An unfragmented request whose header names an interface that has a handler. -/
structure Plain (c : Cfg) (h : RpcHeader) (b : List Byte) : Prop where
  wf : h.Wf
  frag : h.fragment = false
  type : h.packetType = 0
  known : Known h
  body : h.lengthOfBody.toNat ≤ c.maxBody
  size : 80 + b.length ≤ c.frameSize

/-- What an unfragmented request does. -/
theorem plain_recv {c : Cfg} (hc : CfgOk c) {st st' : St} (hi : Inv c st) {h : RpcHeader} {b : List Byte} (hp : Plain c h b)
    (hfree : ∃ s ∈ st.sess, s.inUse = false ∨ s.uuid = h.actUuid) {rep : Reply} {ev : List Ev}
    (hs : step c st (.recv (encRpcHeader h ++ b) rep) = some (st', ev)) :
    ∃ i s t r, s.uuid = h.actUuid ∧ s.inUse = true ∧ SOk c s ∧ HOk h ∧ RdOk r ∧ Rd.rest r = b ∧
      r = ⟨newFrame st.frame (encRpcHeader h ++ b), false, 80 + b.length, h.isBe, .ok, 80⟩ ∧
      request c i h r false rep s = some (t, ev) ∧ st'.sess = st.sess.set i (finish c t) ∧ i < st.sess.length ∧
      (locate h.actUuid st.sess = some i ∨ locate h.actUuid st.sess = none) := by
  have hl := encRpcHeader_length hp.wf
  have hsz := hp.size
  have hdl : (encRpcHeader h ++ b).length = 80 + b.length := by simp [hl]
  have hhd : hdrOf (encRpcHeader h ++ b) = h := hdrOf_enc hp.wf b
  obtain ⟨_, hw, hrec⟩ := recv_cases hc hi (by omega) (by omega) hs
  have hbd := hp.body
  rw [hhd] at hw
  cases hrec with
  | lost hf' hss he =>
    exfalso
    rw [hhd] at hf'
    unfold findSess at hf'
    cases hlo : locate h.actUuid st.sess with
    | some i =>
      rw [hlo] at hf'
      dsimp only at hf'
      obtain ⟨hlt, _⟩ := List.findIdx?_eq_some_iff_getElem.mp hlo
      rw [List.getElem?_eq_getElem hlt] at hf'
      cases hf'
    | none =>
      rw [hlo] at hf'
      dsimp only at hf'
      cases hq : freeIx st.sess with
      | some i => rw [hq] at hf'; cases hf'
      | none =>
        unfold freeIx at hq
        obtain ⟨s, hs, hx⟩ := hfree
        rw [List.findIdx?_eq_none_iff] at hq
        unfold locate at hlo
        rw [List.findIdx?_eq_none_iff] at hlo
        have a1 := hq s hs
        have a2 := hlo s hs
        simp at a1 a2
        rcases hx with hx | hx
        · rw [hx] at a1; cases a1
        · exact a2 a1 hx
  | handled j isNew s0 t t2 r r' er hf' hr hpar hcol hrd hok hdis hset =>
    rw [hhd] at hf' hcol hdis
    obtain ⟨hlt, _, hin, hcase⟩ := findSess_ok hi.sess hf'
    have hreq : r = ⟨newFrame st.frame (encRpcHeader h ++ b), false, 80 + b.length, h.isBe, .ok, 80⟩ := by
      have := parses_getRpcHeader hp.wf false ⟨newFrame st.frame (encRpcHeader h ++ b), false, (encRpcHeader h ++ b).length, false, .ok, 0⟩
        rfl rfl rfl (by simp) (by rw [slice_zero (by simp [newFrame])]; simp [newFrame])
      have h2 := (Prod.mk.inj (Option.some.inj (this.symm.trans hpar))).2
      rw [← h2]
      dsimp only
      rw [hdl, hl]
    unfold collect at hcol
    rw [if_neg (by omega), if_pos hp.frag] at hcol
    cases hcol
    unfold dispatch at hdis
    rw [if_neg (by omega), if_pos (Or.inl hp.frag), if_neg (by rw [hp.type]; decide), if_pos hp.type] at hdis
    refine ⟨j, { s0.start h r.be with timer := false }, t2, r, rfl, hin,
      ⟨hok.2.inBuf, hok.2.inLen, ⟨hok.2.out.len, hok.2.out.outLen, hok.2.out.phase⟩⟩, hw, hrd, ?_, hreq, hdis, hset, hlt, ?_⟩
    · subst hreq
      simp only [Rd.rest]
      unfold newFrame
      rw [List.append_assoc, List.drop_append, hl, List.drop_of_length_le (by omega)]
      simp
    · rcases hcase with ⟨_, _, _, hlo⟩ | ⟨_, _, hlo, _⟩
      · exact Or.inl hlo
      · exact Or.inr hlo

theorem serves_after {c : Cfg} {st st' : St} {u : Uuid} {i : Nat} {t : Sess} (hlt : i < st.sess.length)
    (hlo : locate u st.sess = some i ∨ locate u st.sess = none) (h1 : t.inUse = true) (h2 : t.uuid = u) (h3 : t.kill = false)
    (h4 : st'.sess = st.sess.set i (finish c t)) : Serves st' u i t := by
  have hfin : finish c t = t := by unfold finish; rw [h3]; rfl
  rw [hfin] at h4
  refine ⟨?_, by rw [h4]; simp [hlt]⟩
  rw [h4]
  rcases hlo with hlo | hlo
  · exact findIdx?_set_true hlo (by simp [h1, h2])
  · exact findIdx?_set_new hlo (by simp [h1, h2]) hlt

/-- The size limit of the response to an unfragmented request. -/
theorem plain_limit {c : Cfg} {h : RpcHeader} {f : List Byte} {n : Ndr} {x : List Byte} (hw : h.Wf) (hk : h.ifUuid = uuidPnio) :
    respLimit c h ⟨newFrame f (encRpcHeader h ++ (encNdr h.isBe n ++ x)), false, 80 + (encNdr h.isBe n ++ x).length, h.isBe, .ok, 80⟩ =
      some (⟨newFrame f (encRpcHeader h ++ (encNdr h.isBe n ++ x)), false, 80 + (encNdr h.isBe n ++ x).length, true, .ok, 100⟩,
        min ((100 + n.argsMax.toNat) % 2 ^ 32) c.cap) := by
  have hl := encRpcHeader_length hw
  have hnl := encNdr_length h.isBe n
  unfold respLimit
  rw [if_pos (by rw [hk]; decide)]
  have hsl : slice (newFrame f (encRpcHeader h ++ (encNdr h.isBe n ++ x))) 80 (encNdr h.isBe n).length = some (encNdr h.isBe n) := by
    rw [slice_eq_some (by simp [newFrame, hl])]
    unfold newFrame
    rw [List.append_assoc, List.drop_append, hl, List.drop_of_length_le (by omega)]
    simp
  have := parses_getNdr h.isBe n ⟨newFrame f (encRpcHeader h ++ (encNdr h.isBe n ++ x)), false,
    80 + (encNdr h.isBe n ++ x).length, h.isBe, .ok, 80⟩ rfl rfl rfl (by simp) hsl
  rw [this]
  dsimp only [Option.map_some]
  rw [hnl]
  have ht : (BitVec.ofNat 32 (80 + 20) + n.argsMax).toNat = (100 + n.argsMax.toNat) % 2 ^ 32 := by
    rw [BitVec.toNat_add]; rfl
  rw [ht]
  congr 2
  split <;> omega

end Verif.Rpc
