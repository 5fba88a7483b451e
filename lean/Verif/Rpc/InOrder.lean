import Verif.Rpc.Requests
/-! Fragments that arrive in order (C28). -/
set_option linter.unusedSimpArgs false
set_option linter.unusedVariables false

namespace Verif.Rpc
open Verif.Wire

/-! ## Specification -/

/-- The requests of activity `u` that are handed over: header, error mark, message. -/
def reqs (u : Uuid) (ev : List Ev) : List (RpcHeader × Bool × List Byte) := ev.filterMap fun
  | .request _ h e m => if h.actUuid = u then some (h, e, m) else none
  | _ => none

/-- `h` is the header of fragment `k` of activity `u`, with body `b`, in byte order `B`. -/
structure FragOk (c : Cfg) (u : Uuid) (B : Bool) (k : Nat) (h : RpcHeader) (b : List Byte) : Prop where
  wf : h.Wf
  frag : h.fragment = true
  uuid : h.actUuid = u
  order : h.isBe = B
  nmb : h.fragmentNmb.toNat = k
  len : h.lengthOfBody.toNat = b.length
  max : b.length ≤ c.maxBody

/-- The events `ops` contain the fragments `fs`, in order and numbered from `k`, up to the last one; in
between there are datagrams of other activities, timeouts, and repetitions of fragments received before. -/
inductive Feeds (c : Cfg) (u : Uuid) (B : Bool) : Nat → List (RpcHeader × List Byte) → List Op → Prop where
  | last {k h b rep} : FragOk c u B k h b → h.lastFragment = true → h.packetType = 0 → Known h →
      Feeds c u B k [(h, b)] [.recv (encRpcHeader h ++ b) rep]
  | next {k h b rep fs ops} : FragOk c u B k h b → h.lastFragment = false → Feeds c u B (k + 1) fs ops →
      Feeds c u B k ((h, b) :: fs) (.recv (encRpcHeader h ++ b) rep :: ops)
  | other {k d rep fs ops} : (hdrOf d).actUuid ≠ u → rep.gen ≠ u → Feeds c u B k fs ops →
      Feeds c u B k fs (.recv d rep :: ops)
  | timeout {k i fs ops} : Feeds c u B k fs ops → Feeds c u B k fs (.expire i :: ops)
  | again {k d rep fs ops} : (hdrOf d).actUuid = u → (hdrOf d).fragment = true → (hdrOf d).lastFragment = false →
      0 < (hdrOf d).fragmentNmb.toNat → (hdrOf d).fragmentNmb.toNat < k → Feeds c u B k fs ops →
      Feeds c u B k fs (.recv d rep :: ops)

/-! ## Proof -/

theorem reqs_append (u : Uuid) (a b : List Ev) : reqs u (a ++ b) = reqs u a ++ reqs u b := by simp [reqs]

theorem reqs_nil {u : Uuid} {ev : List Ev} (h : ∀ j h e m, Ev.request j h e m ∈ ev → h.actUuid ≠ u) : reqs u ev = [] := by
  unfold reqs
  rw [List.filterMap_eq_nil_iff]
  intro e he
  cases e with
  | request j h' e m =>
    dsimp only
    rw [if_neg (h j h' e m he)]
  | response => rfl
  | sent => rfl
  | abort => rfl

theorem reqs_sentEv (u : Uuid) (i : Nat) (a : Bool) (d : List Byte) : reqs u (sentEv i a d) = [] := by
  unfold sentEv
  split <;> rfl

/-- A handed over request carries the header of the datagram that just arrived. -/
theorem req_hdr {c : Cfg} (hc : CfgOk c) {st st' : St} (hi : Inv c st) {o : Op} {ev : List Ev}
    (h : step c st o = some (st', ev)) {j : Nat} {h' : RpcHeader} {e : Bool} {m : List Byte} (hm : Ev.request j h' e m ∈ ev) :
    ∃ d rep, o = .recv d rep ∧ h' = hdrOf d ∧ (h'.fragment = false ∨ h'.lastFragment = true) := by
  cases o with
  | expire j =>
    exfalso
    unfold step at h
    dsimp only at h
    split at h
    · split at h
      · obtain ⟨x, h1, h2⟩ := Option.map_eq_some_iff.mp h
        cases h2
        unfold sendTimed at h1
        split at h1
        · obtain ⟨y, hy, ey⟩ := Option.map_eq_some_iff.mp h1
          cases ey
          unfold sendOnce at hy
          obtain ⟨z, hz, ez⟩ := Option.map_eq_some_iff.mp hy
          subst ez
          dsimp only at hm
          unfold sentEv at hm
          split at hm
          · cases hm
          · cases List.mem_singleton.mp hm
        · cases h1
          cases List.mem_singleton.mp hm
      · cases h; cases hm
    · cases h; cases hm
  | recv d rep =>
    by_cases h0 : d.length = 0 ∨ d.length > c.frameSize
    · unfold step at h
      dsimp only at h
      rw [if_pos h0] at h
      cases h
      cases hm
    · obtain ⟨_, hw, hrec⟩ := recv_cases hc hi (by omega) (by omega) h
      cases hrec with
      | lost hf hss he => subst he; cases hm
      | handled j isNew s1 t t2 r r' er hf hr hpar hcol hrd hok hdis hst =>
        have hsok : SOk c { t with timer := false } := ⟨hok.2.inBuf, hok.2.inLen, ⟨hok.2.out.len, hok.2.out.outLen, hok.2.out.phase⟩⟩
        obtain ⟨_, e1, _, _, _, e5, _⟩ := dispatch_request hc hw hrd hsok hdis hm
        subst e1
        exact ⟨d, rep, rfl, rfl, e5⟩

/-- The session has collected `acc` in `k` fragments. -/
structure Prog (B : Bool) (k : Nat) (acc : List Byte) (s : Sess) : Prop where
  frag : s.inFrag = k % 65536
  len : s.inLen = acc.length
  bytes : s.inBuf.take s.inLen = acc
  be : s.be = B
  alive : s.kill = false

theorem parse_enc {f : List Byte} {h : RpcHeader} (hw : h.Wf) (b : List Byte) {x : RpcHeader} {r : Rd}
    (hp : getRpcHeader ⟨newFrame f (encRpcHeader h ++ b), false, (encRpcHeader h ++ b).length, false, .ok, 0⟩ = some (x, r)) :
    r.be = h.isBe := by
  have hl := encRpcHeader_length hw
  have := parses_getRpcHeader hw false ⟨newFrame f (encRpcHeader h ++ b), false, (encRpcHeader h ++ b).length, false, .ok, 0⟩ rfl rfl rfl
    (by simp) (by rw [slice_zero (by simp [newFrame])]; simp [newFrame])
  rw [this] at hp
  cases hp
  rfl

/-- One fragment that fits. -/
theorem frag_recv {c : Cfg} (hc : CfgOk c) {st st' : St} (hi : Inv c st) {u : Uuid} {B : Bool} {k : Nat} {h : RpcHeader}
    {b acc : List Byte} (hf : FragOk c u B k h b) {rep : Reply} {i : Nat} {isNew : Bool} {s : Sess}
    (hfs : findSess c u rep.gen st.sess = some (i, isNew, s))
    (hp : Prog B k acc (begun h B s)) (hu : (begun h B s).uuid = u) (hcap : acc.length + b.length ≤ c.cap) {ev : List Ev}
    (hst : step c st (.recv (encRpcHeader h ++ b) rep) = some (st', ev)) :
    (h.lastFragment = false → reqs u ev = [] ∧ ∃ s', Serves st' u i s' ∧ Prog B (k + 1) (acc ++ b) s') ∧
    (h.lastFragment = true → h.packetType = 0 → Known h → reqs u ev = [(h, false, acc ++ b)]) := by
  have hl := encRpcHeader_length hf.wf
  have hb1 := hc.body
  have hmax := hf.max
  have hlen := hf.len
  have hdl : (encRpcHeader h ++ b).length = 80 + b.length := by simp [hl]
  have hhd : hdrOf (encRpcHeader h ++ b) = h := hdrOf_enc hf.wf b
  have hbody : bodyOf (encRpcHeader h ++ b) = b := by
    unfold bodyOf
    rw [hhd, List.drop_append_of_le_length (by omega), List.drop_of_length_le (by omega), hlen]
    simp
  have hhon : Honest (encRpcHeader h ++ b) := by unfold Honest; rw [hhd]; omega
  obtain ⟨_, hw, hrec⟩ := recv_cases hc hi (by omega) (by omega) hst
  rw [hhd] at hw
  cases hrec with
  | lost hf' hss he => rw [hhd, hf.uuid, hfs] at hf'; cases hf'
  | handled j isNew' s1 t t2 r r' er hf' hr hpar hcol hrd hok hdis hset =>
    rw [hhd, hf.uuid, hfs] at hf'
    cases hf'
    have hrbe : r.be = B := (parse_enc hf.wf b hpar).trans hf.order
    have hr80 := hr.2.2.2.2 (by omega)
    rw [hhd] at hcol hdis
    obtain ⟨hlt, _, hin, hcase⟩ := findSess_ok hi.sess hfs
    have hk : h.fragmentNmb.toNat = k := hf.nmb
    have hklt := h.fragmentNmb.isLt
    have hcf := collect_frag (by omega : h.lengthOfBody.toNat ≤ c.maxBody) hf.frag hcol
    rw [hrbe] at hcf
    rcases hcf with ⟨_, _, h3, h4⟩ | ⟨x, b1, h1, h2, h3, h4, h5, h6, h7⟩
    · exfalso
      subst h3
      have e1 := hp.frag
      have e2 := hp.len
      rcases h4 with h4 | h4
      · apply h4; rw [e1, hk]; omega
      · omega
    · have hsl := body_slice (f := st.frame) hhon
      rw [hhd, hbody] at hsl
      rw [hr.1, hr80, hsl] at h3
      cases h3
      have htk := writeAt_take h4
      rw [hp.bytes, ← hlen] at htk
      have her : er = false := by
        rw [h7, hp.be, hf.order]
        simp
      have hsok : SOk c { t with timer := false } := ⟨hok.2.inBuf, hok.2.inLen, ⟨hok.2.out.len, hok.2.out.outLen, hok.2.out.phase⟩⟩
      constructor
      · intro hnl
        refine ⟨?_, ?_⟩
        · apply reqs_nil
          intro j h' e m hm
          obtain ⟨_, _, _, _, _, e5, _⟩ := dispatch_request hc hw hrd hsok hdis hm
          rw [hf.frag, hnl] at e5
          rcases e5 with e5 | e5 <;> cases e5
        · have ht2 : t2 = { t with timer := false } := by
            unfold dispatch at hdis
            rw [if_neg (by omega), if_neg (by simp [hf.frag, hnl])] at hdis
            split at hdis
            · obtain ⟨z, hz, ez⟩ := Option.map_eq_some_iff.mp hdis
              cases ez; rfl
            · cases hdis; rfl
          have hkt : t2.kill = false := by rw [ht2, h5]; exact hp.alive
          have hfin : finish c t2 = t2 := by unfold finish; rw [hkt]; rfl
          have hpt : (t2.inUse && t2.uuid == u) = true := by
            have : t2.inUse = true := by
              rw [ht2, h5]
              unfold grown begun
              split
              · exact hin
              · exact hin
            have hu2 : t2.uuid = u := by rw [ht2, h5]; exact hu
            simp [this, hu2]
          refine ⟨t2, ⟨?_, ?_⟩, ⟨?_, ?_, ?_, ?_, hkt⟩⟩
          · rw [hset, hfin]
            unfold locate
            rcases hcase with ⟨_, _, _, hlo⟩ | ⟨_, _, hlo, _⟩
            · exact findIdx?_set_true hlo hpt
            · exact findIdx?_set_new hlo hpt hlt
          · rw [hset, hfin]; simp [hlt]
          · rw [ht2, h5]; simp only [grown]; rw [hp.frag]; omega
          · rw [ht2, h5]; simp only [grown]; rw [hp.len, hlen]; simp
          · rw [ht2, h5]; simp only [grown]; exact htk
          · rw [ht2, h5]; exact hp.be
      · intro hla hpt hkn
        unfold dispatch at hdis
        rw [if_neg (by omega), if_pos (Or.inr hla), if_neg (by rw [hpt]; decide), if_pos hpt] at hdis
        obtain ⟨t1, e1, e, ha⟩ := request_ok hc (i := i) hw hrd (err := er) (rep := rep) hsok
        rw [e] at hdis
        cases hdis
        rw [ha.evs, if_pos hkn, reqs_append, reqs_sentEv, her]
        have : Rd.rest r' = acc ++ b := by
          rw [h6, if_pos hla]
          simp only [Rd.rest, List.drop_zero, Nat.sub_zero]
          exact htk
        rw [this]
        simp [reqs, hf.uuid]

theorem findSess_serves {c : Cfg} {st : St} {u g : Uuid} {i : Nat} {s : Sess} (h : Serves st u i s) :
    findSess c u g st.sess = some (i, false, s) := by
  unfold findSess
  rw [h.1]
  dsimp only
  rw [h.2]
  rfl

/-- A fragment that was received before. -/
theorem again_recv {c : Cfg} (hc : CfgOk c) {st st' : St} (hi : Inv c st) {u : Uuid} {B : Bool} {k : Nat} {acc : List Byte}
    {i : Nat} {s : Sess} (hs : Serves st u i s) (hp : Prog B k acc s) (hk : k ≤ 65536) {d : List Byte} {rep : Reply} {ev : List Ev}
    (h1 : (hdrOf d).actUuid = u) (h2 : (hdrOf d).fragment = true) (h3 : (hdrOf d).lastFragment = false)
    (h4 : 0 < (hdrOf d).fragmentNmb.toNat) (h5 : (hdrOf d).fragmentNmb.toNat < k)
    (h : step c st (.recv d rep) = some (st', ev)) :
    reqs u ev = [] ∧ ∃ s', Serves st' u i s' ∧ Prog B k acc s' := by
  have hreq : reqs u ev = [] := by
    apply reqs_nil
    intro j h' e m hm
    obtain ⟨d', rep', e1, e2, e3⟩ := req_hdr hc hi h hm
    cases e1
    rw [e2, h2, h3] at e3
    rcases e3 with e3 | e3 <;> cases e3
  refine ⟨hreq, ?_⟩
  by_cases h0 : d.length = 0 ∨ d.length > c.frameSize
  · unfold step at h
    dsimp only at h
    rw [if_pos h0] at h
    cases h
    exact ⟨s, hs, hp⟩
  obtain ⟨_, hw, hrec⟩ := recv_cases hc hi (by omega) (by omega) h
  cases hrec with
  | lost hf' hss he => rw [h1, findSess_serves hs] at hf'; cases hf'
  | handled j isNew' s1 t t2 r r' er hf' hr hpar hcol hrd hok hdis hset =>
    rw [h1, findSess_serves hs] at hf'
    cases hf'
    obtain ⟨hsu, hsuu, hilt⟩ := hs.inUse
    have hfin : ∀ x : Sess, x.inUse = s.inUse → x.uuid = s.uuid → x.kill = false → st'.sess = st.sess.set i (finish c x) →
        Serves st' u i x := by
      intro x hx1 hx2 hx3 hx4
      have : finish c x = x := by unfold finish; rw [hx3]; rfl
      rw [this] at hx4
      refine ⟨?_, by rw [hx4]; simp [hilt]⟩
      rw [hx4]
      exact findIdx?_set_true hs.1 (by simp [hx1, hx2, hsu, hsuu])
    by_cases hl : (hdrOf d).lengthOfBody.toNat > c.maxBody
    · have ht : t = s := by
        unfold collect at hcol
        rw [if_pos hl] at hcol
        cases hcol; rfl
      subst ht
      unfold dispatch at hdis
      rw [if_pos hl] at hdis
      obtain ⟨z, hz, ez⟩ := Option.map_eq_some_iff.mp hdis
      cases ez
      exact ⟨{ t with timer := false, kill := false }, hfin { t with timer := false, kill := false } rfl rfl rfl hset, ⟨hp.frag, hp.len, hp.bytes, hp.be, rfl⟩⟩
    · have hne : (hdrOf d).fragmentNmb ≠ 0 := by
        intro h; rw [h] at h4; simp at h4
      have hbg : begun (hdrOf d) r.be s = s := by unfold begun; exact if_neg hne
      have ht : t = s := by
        have hcf := collect_frag (by omega : (hdrOf d).lengthOfBody.toNat ≤ c.maxBody) h2 hcol
        rw [hbg] at hcf
        have hfr := hp.frag
        rcases hcf with ⟨_, _, e, _⟩ | ⟨_, _, e, _⟩
        · exact e
        · omega
      subst ht
      unfold dispatch at hdis
      rw [if_neg hl, if_neg (by simp [h2, h3])] at hdis
      have ht2 : t2 = { t with timer := false } := by
        split at hdis
        · obtain ⟨z, hz, ez⟩ := Option.map_eq_some_iff.mp hdis
          cases ez; rfl
        · cases hdis; rfl
      subst ht2
      exact ⟨{ t with timer := false }, hfin { t with timer := false } rfl rfl hp.alive hset, ⟨hp.frag, hp.len, hp.bytes, hp.be, hp.alive⟩⟩

theorem feeds_run {c : Cfg} (hc : CfgOk c) {u : Uuid} {B : Bool} {k : Nat} {fs : List (RpcHeader × List Byte)} {ops : List Op}
    (hf : Feeds c u B k fs ops) : ∀ {st st' : St} {i : Nat} {s : Sess} {acc : List Byte} {ev : List Ev}, Inv c st → 0 < k →
    k ≤ 65536 → Serves st u i s → Prog B k acc s → acc.length + ((fs.map (·.2)).flatten).length ≤ c.cap →
    run c st ops = some (st', ev) →
    ∃ h b, fs.getLast? = some (h, b) ∧ reqs u ev = [(h, false, acc ++ (fs.map (·.2)).flatten)] := by
  induction hf with
  | @last k h b rep hfo hla hpt hkn =>
    intro st st' i s acc ev hi h0 hk hs hp hcap hr
    unfold run at hr
    obtain ⟨x, hx, hr⟩ := Option.bind_eq_some_iff.mp hr
    obtain ⟨y, hy, hr⟩ := Option.map_eq_some_iff.mp hr
    cases hr
    cases hy
    have hbg : begun h B s = s := by
      unfold begun; apply if_neg
      intro hz; have := hfo.nmb; rw [hz] at this; simp at this; omega
    refine ⟨h, b, rfl, ?_⟩
    simp at hcap
    simp
    exact (frag_recv hc hi hfo (findSess_serves hs) (by rw [hbg]; exact hp) (by rw [hbg]; exact hs.inUse.2.1) hcap hx).2 hla hpt hkn
  | @next k h b rep fs ops hfo hnl hfeeds ih =>
    intro st st' i s acc ev hi h0 hk hs hp hcap hr
    unfold run at hr
    obtain ⟨x, hx, hr⟩ := Option.bind_eq_some_iff.mp hr
    obtain ⟨y, hy, hr⟩ := Option.map_eq_some_iff.mp hr
    cases hr
    have hbg : begun h B s = s := by
      unfold begun; apply if_neg
      intro hz; have := hfo.nmb; rw [hz] at this; simp at this; omega
    simp at hcap
    obtain ⟨hq, s', hs', hp'⟩ := (frag_recv hc hi hfo (findSess_serves hs) (by rw [hbg]; exact hp) (by rw [hbg]; exact hs.inUse.2.1)
      (by omega) hx).1 hnl
    obtain ⟨st1, e1, e2, hi1, _⟩ := step_ok hc hi (.recv (encRpcHeader h ++ b) rep)
    rw [hx] at e2
    cases e2
    have hklt := h.fragmentNmb.isLt
    have hkn := hfo.nmb
    obtain ⟨h', b', g1, g2⟩ := ih hi1 (by omega) (by omega) hs' hp' (by simp; omega) hy
    refine ⟨h', b', ?_, ?_⟩
    · cases fs with
      | nil => cases g1
      | cons a l => simpa using g1
    · rw [reqs_append, hq, g2]; simp
  | @other k d rep fs ops hd hg hfeeds ih =>
    intro st st' i s acc ev hi h0 hk hs hp hcap hr
    unfold run at hr
    obtain ⟨x, hx, hr⟩ := Option.bind_eq_some_iff.mp hr
    obtain ⟨y, hy, hr⟩ := Option.map_eq_some_iff.mp hr
    cases hr
    obtain ⟨st1, e1, e2, hi1, _⟩ := step_ok hc hi (.recv d rep)
    rw [hx] at e2
    cases e2
    obtain ⟨hs', _⟩ := other_recv hc hi hs hd hg hx
    obtain ⟨h', b', g1, g2⟩ := ih hi1 h0 hk hs' hp hcap hy
    refine ⟨h', b', g1, ?_⟩
    rw [reqs_append, g2, reqs_nil]
    · rfl
    · intro j h'' e m hm
      obtain ⟨d', rep', e1, e2, _⟩ := req_hdr hc hi hx hm
      cases e1
      rw [e2]; exact hd
  | @timeout k j fs ops hfeeds ih =>
    intro st st' i s acc ev hi h0 hk hs hp hcap hr
    unfold run at hr
    obtain ⟨x, hx, hr⟩ := Option.bind_eq_some_iff.mp hr
    obtain ⟨y, hy, hr⟩ := Option.map_eq_some_iff.mp hr
    cases hr
    obtain ⟨st1, e1, e2, hi1, _⟩ := step_ok hc hi (.expire j)
    rw [hx] at e2
    cases e2
    obtain ⟨s', hs', hsi, hkl, _⟩ := expire_step hi hs hx
    obtain ⟨h', b', g1, g2⟩ := ih hi1 h0 hk hs' ⟨hsi.inFrag.trans hp.frag, hsi.inLen.trans hp.len, by rw [hsi.inBuf, hsi.inLen]; exact hp.bytes,
      hsi.be.trans hp.be, hkl.trans hp.alive⟩ hcap hy
    refine ⟨h', b', g1, ?_⟩
    rw [reqs_append, g2, reqs_nil]
    · rfl
    · intro j h'' e m hm
      obtain ⟨d', rep', e1, e2, _⟩ := req_hdr hc hi hx hm
      cases e1
  | @again k d rep fs ops h1 h2 h3 h4 h5 hfeeds ih =>
    intro st st' i s acc ev hi h0 hk hs hp hcap hr
    unfold run at hr
    obtain ⟨x, hx, hr⟩ := Option.bind_eq_some_iff.mp hr
    obtain ⟨y, hy, hr⟩ := Option.map_eq_some_iff.mp hr
    cases hr
    obtain ⟨st1, e1, e2, hi1, _⟩ := step_ok hc hi (.recv d rep)
    rw [hx] at e2
    cases e2
    obtain ⟨hq, s', hs', hp'⟩ := again_recv hc hi hs hp hk h1 h2 h3 h4 h5 hx
    obtain ⟨h', b', g1, g2⟩ := ih hi1 h0 hk hs' hp' hcap hy
    exact ⟨h', b', g1, by rw [reqs_append, hq, g2]; rfl⟩

/-- From the first fragment on. -/
theorem feeds_start {c : Cfg} (hc : CfgOk c) {st : St} (hi : Inv c st) {u : Uuid} {B : Bool} {h : RpcHeader} {b : List Byte}
    {rep : Reply} (hfree : ∃ s ∈ st.sess, s.inUse = false ∨ s.uuid = u) {fs : List (RpcHeader × List Byte)} {ops : List Op}
    (hfo : FragOk c u B 0 h b)
    (hrest : (fs = [] ∧ ops = [] ∧ h.lastFragment = true ∧ h.packetType = 0 ∧ Known h) ∨
      (h.lastFragment = false ∧ Feeds c u B 1 fs ops))
    (hcap : (((h, b) :: fs).map (·.2)).flatten.length ≤ c.cap) {st' : St} {ev : List Ev}
    (hr : run c st (.recv (encRpcHeader h ++ b) rep :: ops) = some (st', ev)) :
    ∃ h' b', ((h, b) :: fs).getLast? = some (h', b') ∧
      reqs u ev = [(h', false, (((h, b) :: fs).map (·.2)).flatten)] := by
  have hfs : ∃ i isNew s, findSess c u rep.gen st.sess = some (i, isNew, s) := by
    unfold findSess
    cases hlo : locate u st.sess with
    | some i =>
      obtain ⟨hlt, _⟩ := List.findIdx?_eq_some_iff_getElem.mp hlo
      dsimp only
      rw [List.getElem?_eq_getElem hlt]
      exact ⟨_, _, _, rfl⟩
    | none =>
      dsimp only
      have : ∃ i, freeIx st.sess = some i := by
        unfold freeIx
        cases hq : List.findIdx? (fun s => !s.inUse) st.sess with
        | some i => exact ⟨i, rfl⟩
        | none =>
          exfalso
          obtain ⟨s, hs, hx⟩ := hfree
          rw [List.findIdx?_eq_none_iff] at hq
          unfold locate at hlo
          rw [List.findIdx?_eq_none_iff] at hlo
          have a1 := hq s hs
          have a2 := hlo s hs
          simp at a1 a2
          rcases hx with hx | hx
          · rw [hx] at a1; cases a1
          · exact a2 a1 hx
      obtain ⟨i, hi⟩ := this
      rw [hi]
      exact ⟨_, _, _, rfl⟩
  obtain ⟨i, isNew, s, hfs⟩ := hfs
  unfold run at hr
  obtain ⟨x, hx, hr⟩ := Option.bind_eq_some_iff.mp hr
  obtain ⟨y, hy, hr⟩ := Option.map_eq_some_iff.mp hr
  cases hr
  have hz : h.fragmentNmb = 0 := BitVec.eq_of_toNat_eq (by simpa using hfo.nmb)
  have hbg : begun h B s = s.start h B := by unfold begun; exact if_pos hz
  simp only [List.map_cons, List.flatten_cons, List.length_append] at hcap
  have hfr := frag_recv hc hi (acc := []) hfo hfs (by rw [hbg]; exact ⟨rfl, rfl, by simp [Sess.start], rfl, rfl⟩)
    (by rw [hbg]; exact hfo.uuid) (by simp; omega) hx
  rcases hrest with ⟨e1, e2, hla, hpt, hkn⟩ | ⟨hnl, hfeeds⟩
  · subst e1 e2
    cases hy
    refine ⟨h, b, rfl, ?_⟩
    have := hfr.2 hla hpt hkn
    simpa using this
  · obtain ⟨hq, s', hs', hp'⟩ := hfr.1 hnl
    obtain ⟨st1, e1, e2, hi1, _⟩ := step_ok hc hi (.recv (encRpcHeader h ++ b) rep)
    rw [hx] at e2
    cases e2
    obtain ⟨h', b', g1, g2⟩ := feeds_run hc hfeeds hi1 (by omega) (by omega) hs' hp' (by rw [List.nil_append]; exact hcap) hy
    refine ⟨h', b', ?_, ?_⟩
    · cases fs with
      | nil => cases g1
      | cons a l => simpa using g1
    · rw [reqs_append, hq, g2]; simp

end Verif.Rpc
