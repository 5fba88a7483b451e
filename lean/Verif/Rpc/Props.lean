import Verif.Rpc.Fits
/-! Properties of the RPC layer: C28 (reassembly of requests), C29 (responses in fragments). -/
set_option linter.unusedSimpArgs false
set_option linter.unusedVariables false

namespace Verif.Rpc
open Verif.Wire

/-! ## Every datagram is handled without an access outside an array -/

/-- Any sequence of datagrams of any content, and of timeouts, is handled. -/
theorem C28_total {c : Cfg} (hc : CfgOk c) (n : Nat) (ops : List Op) : ∃ st ev, run c (St.init c n) ops = some (st, ev) ∧ Inv c st :=
  run_ok hc (inv_init c n) ops

/-! ## C28 -/

/-- Fragments in order: if the fragments of a request of activity `u` arrive in order and fit in the session
buffer, then exactly one request of this activity is handed over, with the header of the last fragment,
without error mark, and its message is the concatenation of the bodies.  Datagrams of other activities,
timeouts and repetitions of fragments received before may come in between. -/
theorem C28_in_order {c : Cfg} (hc : CfgOk c) {n : Nat} {pre : List Op} {st : St} {ev0 : List Ev}
    (hpre : run c (St.init c n) pre = some (st, ev0)) {u : Uuid} {B : Bool} {h : RpcHeader} {b : List Byte} {rep : Reply}
    (hfree : ∃ s ∈ st.sess, s.inUse = false ∨ s.uuid = u) {fs : List (RpcHeader × List Byte)} {ops : List Op}
    (hfirst : FragOk c u B 0 h b)
    (hrest : (fs = [] ∧ ops = [] ∧ h.lastFragment = true ∧ h.packetType = 0 ∧ Known h) ∨
      (h.lastFragment = false ∧ Feeds c u B 1 fs ops))
    (hcap : (((h, b) :: fs).map (·.2)).flatten.length ≤ c.cap) :
    ∃ st' ev h' b', run c st (.recv (encRpcHeader h ++ b) rep :: ops) = some (st', ev) ∧
      ((h, b) :: fs).getLast? = some (h', b') ∧ reqs u ev = [(h', false, (((h, b) :: fs).map (·.2)).flatten)] := by
  obtain ⟨st1, _, e, hi⟩ := run_ok hc (inv_init c n) pre
  rw [hpre] at e
  cases e
  obtain ⟨st', ev, hr, _⟩ := run_ok hc hi (.recv (encRpcHeader h ++ b) rep :: ops)
  obtain ⟨h', b', g1, g2⟩ := feeds_start hc hi hfree hfirst hrest hcap hr
  exact ⟨st', ev, h', b', hr, g1, g2⟩

/-- Whatever arrives: if a fragmented request is handed over without an error mark then its last fragment
is the datagram just received, its message is the concatenation of the bodies of fragments numbered
0, 1, 2, ... of the same activity that arrived in this order, and it is not longer than the session buffer.
(Precondition: no datagram is shorter than its header says, see `C28_fails_short_datagram`.
Missing from the full property: requests with an error mark are handed over as well, see
`C28_fails_missing`.) -/
theorem C28_complete_partial {c : Cfg} (hc : CfgOk c) {n : Nat} {ops : List Op} {d : List Byte} {rep : Reply}
    (hon : ∀ x ∈ received (ops ++ [.recv d rep]), Honest x) {st st' : St} {ev0 ev : List Ev}
    (h1 : run c (St.init c n) ops = some (st, ev0)) (h2 : step c st (.recv d rep) = some (st', ev)) {i : Nat} {h : RpcHeader}
    {msg : List Byte} (hm : Ev.request i h false msg ∈ ev) (hf : h.fragment = true) :
    h = hdrOf d ∧ h.lastFragment = true ∧ msg.length ≤ c.cap ∧
    ∃ ds, (ds ++ [d]).Sublist (received ops ++ [d]) ∧ Series h.actUuid (ds ++ [d]) ∧ msg = ((ds ++ [d]).map bodyOf).flatten := by
  have h0 : AllColl [] (St.init c n) := by
    intro s hs
    simp only [St.init] at hs
    rw [(List.mem_replicate.mp hs).2]
    exact coll_zero _ rfl rfl
  rw [received_append] at hon
  obtain ⟨hcoll, hi⟩ := run_coll hc (inv_init c n) h0 (fun x hx => hon x (List.mem_append_left _ hx)) h1
  obtain ⟨d', ds, g1, g2, g3, g4, g5, g6, g7⟩ := (step_coll hc hi hcoll (o := .recv d rep)
    (fun x hx => hon x (List.mem_append_right _ hx)) h2).2 i h msg hm hf
  have : d' = d := by
    have : received [Op.recv d rep] = [d] := rfl
    rw [this] at g1
    exact (List.cons.inj g1).1.symm
  subst this
  exact ⟨g2, g7, g6, ds, g3.append (List.Sublist.refl _), g4, g5⟩

/-! Non-vacuity and counterexamples, on a small configuration. -/

/-- Ten bytes per fragment. -/
def cfgT : Cfg := ⟨200, 90, 10, 100, 2⟩

theorem cfgT_ok : CfgOk cfgT := ⟨by decide, by decide, by decide, by decide, by decide⟩

/-- The sizes of the sources (src/pf_types.h:69-74, src/device/pf_cmrpc.c:69-89, PNET_MAX_SESSION_BUFFER_SIZE 4500) are admissible. -/
example : CfgOk ⟨4500, 1440, 1384, 1500, 3⟩ := ⟨by decide, by decide, by decide, by decide, by decide⟩

def uuidT : Uuid := ⟨1, 2, 3, [4, 5, 6, 7, 8, 9, 10, 11]⟩

/-- A header of activity `uuidT`. -/
def hdrT (type : Byte) (frag last : Bool) (nmb seq len : Nat) : RpcHeader where
  version := 4
  packetType := type
  lastFragment := last
  fragment := frag
  noFack := false
  maybe := false
  idempotent := false
  broadcast := false
  cancelPending := false
  isBe := false
  floatRepr := 0
  reserved := 0
  serialHigh := 0
  objUuid := nilUuid
  ifUuid := uuidPnio
  actUuid := uuidT
  bootTime := 0
  ifVersion := 1
  seqNmb := BitVec.ofNat 32 seq
  opnum := 3
  ifHint := 0
  actHint := 0
  lengthOfBody := BitVec.ofNat 16 len
  fragmentNmb := BitVec.ofNat 16 nmb
  auth := 0
  serialLow := 0

theorem hdrT_wf (type : Byte) (ht : type.toNat < 32) (f l : Bool) (n s k : Nat) : (hdrT type f l n s k).Wf :=
  ⟨ht, rfl, rfl, rfl, rfl, rfl⟩

def repT : Reply := ⟨[], false, nilUuid⟩

/-- A datagram of activity `uuidT`. -/
def dgT (type : Byte) (frag last : Bool) (nmb seq : Nat) (b : List Byte) : Op :=
  .recv (encRpcHeader (hdrT type frag last nmb seq b.length) ++ b) repT

theorem fragOkT {k : Nat} {l : Bool} {b : List Byte} (hk : k < 65536) (hb : b.length ≤ 10) :
    FragOk cfgT uuidT false k (hdrT 0 true l k 5 b.length) b :=
  ⟨hdrT_wf 0 (by decide) _ _ _ _ _, rfl, rfl, rfl, by simp [hdrT]; omega, by simp [hdrT]; omega, hb⟩

/-- Three fragments, with a timeout and a repetition in between, meet the hypotheses of `C28_in_order`. -/
example : Feeds cfgT uuidT false 1 [(hdrT 0 true false 1 5 1, [3]), (hdrT 0 true true 2 5 2, [4, 5])]
    [dgT 0 true false 1 5 [3], .expire 0, dgT 0 true false 1 5 [3], dgT 0 true true 2 5 [4, 5]] := by
  refine .next (fragOkT (l := false) (b := [3]) (by decide) (by decide)) rfl (.timeout (.again ?_ ?_ ?_ ?_ ?_
    (.last (fragOkT (l := true) (b := [4, 5]) (by decide) (by decide)) rfl rfl (Or.inl rfl))))
  all_goals
    rw [hdrOf_enc (hdrT_wf 0 (by decide) _ _ _ _ _)]
    first | rfl | decide

/-- The same on the model. -/
example : (run cfgT (St.init cfgT 2) [dgT 0 true false 0 5 [1, 2], dgT 0 true false 1 5 [3], .expire 0, dgT 0 true false 1 5 [3],
    dgT 0 true true 2 5 [4, 5]]).map (fun x => reqs uuidT x.2) = some [(hdrT 0 true true 2 5 2, false, [1, 2, 3, 4, 5])] := by
  decide +kernel

/-- **Negative result.**  If a last fragment arrives that is not the next one (a fragment is missing, or the
order is wrong, or the request was already complete), the single fragment is handed over to the handler
all the same, with an error mark.  The handlers of write and control requests do not look at the mark
(src/device/pf_cmrpc.c:3355-3608). -/
theorem C28_fails_missing {c : Cfg} (hc : CfgOk c) {st : St} (hi : Inv c st) {u : Uuid} {i : Nat} {s : Sess} (hs : Serves st u i s)
    {B : Bool} {k : Nat} {h : RpcHeader} {b : List Byte} (hf : FragOk c u B k h b) (hk : 0 < k) (hne : s.inFrag ≠ k)
    (hl : h.lastFragment = true) (ht : h.packetType = 0) (hkn : Known h) {rep : Reply} {st' : St} {ev : List Ev}
    (hst : step c st (.recv (encRpcHeader h ++ b) rep) = some (st', ev)) : reqs u ev = [(h, true, b)] := by
  have hel := encRpcHeader_length hf.wf
  have hb1 := hc.body
  have hmax := hf.max
  have hlen := hf.len
  have hdl : (encRpcHeader h ++ b).length = 80 + b.length := by simp [hel]
  have hhd : hdrOf (encRpcHeader h ++ b) = h := hdrOf_enc hf.wf b
  obtain ⟨_, hw, hrec⟩ := recv_cases hc hi (by omega) (by omega) hst
  rw [hhd] at hw
  cases hrec with
  | lost hf' hss he => rw [hhd, hf.uuid, findSess_serves hs] at hf'; cases hf'
  | handled j isNew' s1 t t2 r r' er hf' hr hpar hcol hrd hok hdis hset =>
    rw [hhd, hf.uuid, findSess_serves hs] at hf'
    cases hf'
    rw [hhd] at hcol hdis
    have hnz : h.fragmentNmb ≠ 0 := by
      intro hz; have := hf.nmb; rw [hz] at this; simp at this; omega
    have hbg : begun h r.be s = s := by unfold begun; exact if_neg hnz
    have hcf := collect_frag (by omega : h.lengthOfBody.toNat ≤ c.maxBody) hf.frag hcol
    rw [hbg] at hcf
    rcases hcf with ⟨h1, h2, h3, _⟩ | ⟨x, b1, h1, _⟩
    · subst h1 h2 h3
      unfold dispatch at hdis
      rw [if_neg (by omega), if_pos (Or.inr hl), if_neg (by rw [ht]; decide), if_pos ht] at hdis
      have hsok : SOk c { t with timer := false } := ⟨hok.2.inBuf, hok.2.inLen, ⟨hok.2.out.len, hok.2.out.outLen, hok.2.out.phase⟩⟩
      obtain ⟨t1, e1, e, ha⟩ := request_ok hc (i := i) hw hrd (err := true) (rep := rep) hsok
      rw [e] at hdis
      cases hdis
      rw [ha.evs, if_pos hkn, reqs_append, reqs_sentEv]
      have : Rd.rest r' = b := by
        simp only [Rd.rest]
        rw [hr.1, hr.2.2.1, hr.2.2.2.2 (by omega), hdl]
        unfold newFrame
        rw [List.append_assoc, List.drop_append, hel, List.drop_of_length_le (by omega)]
        simp
      rw [this]
      simp [reqs, hf.uuid]
    · exact absurd (h1.trans hf.nmb) hne

/-- For example: fragments 0 and 2, without 1. -/
example : (run cfgT (St.init cfgT 2) [dgT 0 true false 0 5 [1, 2], dgT 0 true true 2 5 [4, 5]]).map (fun x => reqs uuidT x.2) =
    some [(hdrT 0 true true 2 5 2, true, [4, 5])] := by decide +kernel

/-- **Negative result.**  After a complete request its fragments stay in the session: a further "last"
fragment makes the old fragments a second, longer request, without error mark. -/
theorem C28_fails_reuse : (run cfgT (St.init cfgT 2) [dgT 0 true false 0 5 [1, 2], dgT 0 true true 1 5 [3], dgT 0 true true 2 5 [4]]).map
    (fun x => reqs uuidT x.2) =
    some [(hdrT 0 true true 1 5 1, false, [1, 2, 3]), (hdrT 0 true true 2 5 1, false, [1, 2, 3, 4])] := by decide +kernel

/-- **Negative result.**  The sequence number is not looked at: fragments of two different requests are
joined, without error mark. -/
theorem C28_fails_sequence : (run cfgT (St.init cfgT 2) [dgT 0 true false 0 5 [1, 2], dgT 0 true true 1 6 [3]]).map
    (fun x => reqs uuidT x.2) = some [(hdrT 0 true true 1 6 1, false, [1, 2, 3])] := by decide +kernel

/-- **Negative result.**  A ping between the fragments throws away what was collected; the rest of the request
is then handed over alone. -/
theorem C28_fails_ping : (run cfgT (St.init cfgT 2) [dgT 0 true false 0 5 [1, 2], dgT 1 false false 0 5 [], dgT 0 true true 1 5 [3]]).map
    (fun x => reqs uuidT x.2) = some [(hdrT 0 true true 1 5 1, true, [3])] := by decide +kernel

/-- **Negative result.**  A datagram that is shorter than its header says is filled up with bytes of an earlier
datagram (here of another activity): 9 is never sent in a request of `uuidT`. -/
theorem C28_fails_short_datagram :
    (run cfgT (St.init cfgT 2) [.recv (encRpcHeader { hdrT 1 false false 0 5 0 with actUuid := nilUuid } ++ [9, 9, 9, 9]) repT,
      .recv (encRpcHeader (hdrT 0 true true 0 5 4) ++ [1]) repT]).map
    (fun x => reqs uuidT x.2) = some [(hdrT 0 true true 0 5 4, false, [1, 9, 9, 9])] := by decide +kernel

/-! ## C29 -/

/-- The fragments of a response.  Suppose a request is handed over, the handler appends `rep.body` and does not
ask for the end of the session, and the response found room in the session buffer (`C29_fits`).  Then
with `n` acknowledges afterwards (and any timeouts and datagrams of other activities in between):
`min (n + 1) frags` datagrams are sent; datagram `k` fits in a UDP payload, carries bytes `k * room ...` of the
response body, as many as fit, has fragment number `k`, and is marked as last exactly if fewer than `room`
bytes were left for it; and what is sent again after a timeout is one of these datagrams. -/
theorem C29_fragments {c : Cfg} (hc : CfgOk c) {m : Nat} {pre : List Op} {st : St} {ev0 : List Ev}
    (hpre : run c (St.init c m) pre = some (st, ev0)) {d : List Byte} {rep : Reply} {st1 : St} {ev1 : List Ev}
    (hreq : step c st (.recv d rep) = some (st1, ev1)) {i : Nat} {h : RpcHeader} {er : Bool} {msg : List Byte}
    (hm : Ev.request i h er msg ∈ ev1) (hk : rep.kill = false) {s1 : Sess} (hs : Serves st1 h.actUuid i s1)
    (hl : s1.outLen = 80 + rep.body.length) (hbig : c.room ≤ rep.body.length) {n : Nat} {ops : List Op}
    (hf : Fetch c h.actUuid n ops) :
    ∃ st2 ev2, run c st1 ops = some (st2, ev2) ∧
      (fresh i (ev1 ++ ev2)).length = min (n + 1) (c.frags rep.body) ∧
      (∀ k p, (fresh i (ev1 ++ ev2))[k]? = some p → Pkt c h.actUuid rep.body k p) ∧
      (∀ x, Ev.sent i true x ∈ ev1 ++ ev2 → x ∈ fresh i (ev1 ++ ev2)) := by
  obtain ⟨_, _, e, hi⟩ := run_ok hc (inv_init c m) pre
  rw [hpre] at e
  cases e
  obtain ⟨_, _, e, hi1, _⟩ := step_ok hc hi (.recv d rep)
  rw [hreq] at e
  cases e
  obtain ⟨p, hp1, hp2, hp3, hp4, _⟩ := first_packet hc hi hreq hm hk hs hl
  obtain ⟨st2, ev2, hr, _⟩ := run_ok hc hi1 ops
  obtain ⟨g1, g2, g3⟩ := fetch_run hc hf hi1 hs hp2 hr
  have hfa : fresh i (ev1 ++ ev2) = p :: fresh i ev2 := by rw [fresh_append, hp1]; rfl
  have hfr : 1 ≤ c.frags rep.body := by
    have hudp := hc.udp
    have hroom : c.room = c.maxUdp - 80 := rfl
    unfold Cfg.frags
    rw [Nat.le_div_iff_mul_le (by omega)]
    omega
  refine ⟨st2, ev2, hr, ?_, ?_, ?_⟩
  · rw [hfa, List.length_cons, g1]; omega
  · rw [hfa]
    intro k q hq
    cases k with
    | zero => cases hq; exact hp4 hbig
    | succ k =>
      have := g2 k q (by simpa using hq)
      rwa [show 0 + 1 + k = k + 1 by omega] at this
  · rw [hfa]
    intro x hx
    rcases List.mem_append.mp hx with hx | hx
    · exact absurd hx (hp3 x)
    · exact g3 x hx

theorem take_mul_append {B : List Byte} {r : Nat} (n : Nat) :
    ((List.range n).map fun k => (B.drop (k * r)).take r).flatten = B.take (n * r) := by
  induction n with
  | zero => simp
  | succ n ih =>
    rw [List.range_succ, List.map_append, List.flatten_append, ih, Nat.succ_mul, List.take_add]
    simp

theorem bodies_flatten {c : Cfg} {u : Uuid} {B : List Byte} {ps : List (List Byte)} (h : ∀ k p, ps[k]? = some p → Pkt c u B k p) :
    (ps.map bodyOf).flatten = B.take (ps.length * c.room) := by
  have : ps.map bodyOf = (List.range ps.length).map fun k => (B.drop (k * c.room)).take c.room := by
    apply List.ext_getElem
    · simp
    · intro k h1 h2
      have hk : k < ps.length := by simpa using h1
      simp only [List.getElem_map, List.getElem_range]
      exact (h k _ (List.getElem?_eq_getElem hk)).body
  rw [this, take_mul_append]

theorem frags_cover {c : Cfg} (hc : CfgOk c) (B : List Byte) : B.length ≤ c.frags B * c.room := by
  have hudp := hc.udp
  have hroom : c.room = c.maxUdp - 80 := rfl
  have := Nat.lt_mul_div_succ (B.length + c.room - 1) (by omega : 0 < c.room)
  unfold Cfg.frags
  rw [Nat.mul_comm] at this
  rw [Nat.succ_mul] at this
  omega

/-- With enough acknowledges the bodies of the datagrams, in order, are the response body. -/
theorem C29_all {c : Cfg} (hc : CfgOk c) {m : Nat} {pre : List Op} {st : St} {ev0 : List Ev}
    (hpre : run c (St.init c m) pre = some (st, ev0)) {d : List Byte} {rep : Reply} {st1 : St} {ev1 : List Ev}
    (hreq : step c st (.recv d rep) = some (st1, ev1)) {i : Nat} {h : RpcHeader} {er : Bool} {msg : List Byte}
    (hm : Ev.request i h er msg ∈ ev1) (hk : rep.kill = false) {s1 : Sess} (hs : Serves st1 h.actUuid i s1)
    (hl : s1.outLen = 80 + rep.body.length) (hbig : c.room ≤ rep.body.length) {n : Nat} {ops : List Op}
    (hf : Fetch c h.actUuid n ops) (hn : rep.body.length ≤ n * c.room + c.room) {st2 : St} {ev2 : List Ev}
    (hr : run c st1 ops = some (st2, ev2)) :
    ((fresh i (ev1 ++ ev2)).map bodyOf).flatten = rep.body := by
  obtain ⟨st2', ev2', hr', g1, g2, _⟩ := C29_fragments hc hpre hreq hm hk hs hl hbig hf
  rw [hr] at hr'
  cases hr'
  rw [bodies_flatten g2, g1]
  apply List.take_of_length_le
  have := frags_cover hc rep.body
  rcases Nat.le_total (n + 1) (c.frags rep.body) with h | h
  · rw [Nat.min_eq_left h, Nat.succ_mul]; omega
  · rw [Nat.min_eq_right h]; exact this

/-- A response that is shorter than the room in a datagram is sent as one datagram without fragment flag. -/
theorem C29_single {c : Cfg} (hc : CfgOk c) {m : Nat} {pre : List Op} {st : St} {ev0 : List Ev}
    (hpre : run c (St.init c m) pre = some (st, ev0)) {d : List Byte} {rep : Reply} {st1 : St} {ev1 : List Ev}
    (hreq : step c st (.recv d rep) = some (st1, ev1)) {i : Nat} {h : RpcHeader} {er : Bool} {msg : List Byte}
    (hm : Ev.request i h er msg ∈ ev1) (hk : rep.kill = false) {s1 : Sess} (hs : Serves st1 h.actUuid i s1)
    (hl : s1.outLen = 80 + rep.body.length) (hsmall : rep.body.length < c.room) :
    ∃ p, fresh i ev1 = [p] ∧ p.length = 80 + rep.body.length ∧ bodyOf p = rep.body ∧ (hdrOf p).packetType = 2 ∧
      (hdrOf p).actUuid = h.actUuid ∧ (hdrOf p).fragment = false := by
  obtain ⟨_, _, e, hi⟩ := run_ok hc (inv_init c m) pre
  rw [hpre] at e
  cases e
  obtain ⟨p, hp1, hp2, hp3, _, hp5⟩ := first_packet hc hi hreq hm hk hs hl
  obtain ⟨h1, h2, h3, h4, h5, _⟩ := hp5 hsmall
  exact ⟨p, hp1, h1, h2, h3, h4, h5⟩

/-- When the response finds room: for an unfragmented request to the IO device interface, if it fits in the
session buffer and in what the client allows (with the 20 bytes that the code adds), and the sum
does not exceed 32 bits. -/
theorem C29_fits {c : Cfg} (hc : CfgOk c) {st st1 : St} (hi : Inv c st) {h : RpcHeader} {nd : Ndr} {x : List Byte} {rep : Reply}
    (hp : Plain c h (encNdr h.isBe nd ++ x)) (hif : h.ifUuid = uuidPnio)
    (hfree : ∃ s ∈ st.sess, s.inUse = false ∨ s.uuid = h.actUuid) (hk : rep.kill = false)
    (hfit : 80 + rep.body.length ≤ c.cap) (hmax : 80 + rep.body.length ≤ 100 + nd.argsMax.toNat)
    (hnw : 100 + nd.argsMax.toNat < 2 ^ 32) {ev : List Ev}
    (hs : step c st (.recv (encRpcHeader h ++ (encNdr h.isBe nd ++ x)) rep) = some (st1, ev)) :
    ∃ i s1, Ev.request i h false (encNdr h.isBe nd ++ x) ∈ ev ∧ Serves st1 h.actUuid i s1 ∧ s1.outLen = 80 + rep.body.length := by
  obtain ⟨i, s, t, r, h1, h2, h3, h4, h5, h6, h7, h8, h9, h10, h11⟩ := plain_recv hc hi hp hfree hs
  obtain ⟨t', e, e1, ha⟩ := request_ok hc (i := i) h4 h5 (err := false) (rep := rep) h3
  rw [h8] at e1
  cases e1
  have hlim := plain_limit (c := c) (f := st.frame) (n := nd) (x := x) hp.wf hif
  rw [← h7, Nat.mod_eq_of_lt hnw] at hlim
  have hol := request_len h4 hlim (by rw [h3.out.len]; omega) hp.known (by omega) h8
  refine ⟨i, t, ?_, serves_after h10 h11 (ha.same.inUse.trans h2) (ha.same.uuid.trans h1) (by rw [ha.kill, if_pos hp.known, hk]) h9, hol⟩
  rw [ha.evs, if_pos hp.known, h6]
  exact List.mem_append_left _ (List.mem_singleton.mpr rfl)

/-- The datagrams of `C29_fragments` are marked as last where they should be, if the length of the response
is not a multiple of the room in a datagram: the final one and no other.  (Missing from the full property:
the multiples, see `C29_fails_multiple`.) -/
theorem C29_last_partial {c : Cfg} (hc : CfgOk c) {u : Uuid} {B : List Byte} (hB : ¬ c.room ∣ B.length) {k : Nat} {p : List Byte}
    (hp : Pkt c u B k p) (hk : k < c.frags B) : (hdrOf p).lastFragment = true ↔ k + 1 = c.frags B := by
  rw [hp.last, decide_eq_true_iff]
  have h1 := frags_lt hc (B := B) (k := k)
  have hne : (k + 1) * c.room ≠ B.length := fun h => hB ⟨k + 1, by rw [← h, Nat.mul_comm]⟩
  omega

/-- **Negative result.**  If the length of the response body is a multiple of the room in a datagram, no fragment
is ever marked as last, whatever is acknowledged. -/
theorem C29_fails_multiple {c : Cfg} (hc : CfgOk c) {m : Nat} {pre : List Op} {st : St} {ev0 : List Ev}
    (hpre : run c (St.init c m) pre = some (st, ev0)) {d : List Byte} {rep : Reply} {st1 : St} {ev1 : List Ev}
    (hreq : step c st (.recv d rep) = some (st1, ev1)) {i : Nat} {h : RpcHeader} {er : Bool} {msg : List Byte}
    (hm : Ev.request i h er msg ∈ ev1) (hk : rep.kill = false) {s1 : Sess} (hs : Serves st1 h.actUuid i s1)
    (hl : s1.outLen = 80 + rep.body.length) {q : Nat} (hq : rep.body.length = (q + 1) * c.room) {n : Nat} {ops : List Op}
    (hf : Fetch c h.actUuid n ops) {st2 : St} {ev2 : List Ev} (hr : run c st1 ops = some (st2, ev2)) :
    ∀ p ∈ fresh i (ev1 ++ ev2), (hdrOf p).lastFragment = false := by
  have hudp := hc.udp
  have hroom : c.room = c.maxUdp - 80 := rfl
  have hbig : c.room ≤ rep.body.length := by
    rw [hq, Nat.succ_mul]; omega
  obtain ⟨st2', ev2', hr', g1, g2, _⟩ := C29_fragments hc hpre hreq hm hk hs hl hbig hf
  rw [hr] at hr'
  cases hr'
  intro p hp
  obtain ⟨k, hklt, hkp⟩ := List.getElem_of_mem hp
  have hpk := g2 k p (by rw [← hkp]; exact List.getElem?_eq_getElem hklt)
  rw [hpk.last, decide_eq_false_iff_not]
  have hkf : k < c.frags rep.body := by omega
  have hcount : c.frags rep.body = q + 1 := by
    unfold Cfg.frags
    rw [hq, Nat.add_sub_assoc (by omega), Nat.add_comm, Nat.add_mul_div_right _ _ (by omega), Nat.div_eq_of_lt (by omega)]
    omega
  rw [hq]
  have : (k + 1) * c.room ≤ (q + 1) * c.room := Nat.mul_le_mul_right _ (by omega)
  omega

/-- **Negative result.**  If the handler asks for the end of the session (as it does after a read request without
a connection), the session is released right after the first fragment; the response is gone and the
acknowledge of the first fragment is not followed by a second one. -/
theorem C29_fails_released {c : Cfg} (hc : CfgOk c) {st : St} (hi : Inv c st) {d : List Byte} {rep : Reply} {st1 : St} {ev1 : List Ev}
    (hreq : step c st (.recv d rep) = some (st1, ev1)) {i : Nat} {h : RpcHeader} {er : Bool} {msg : List Byte}
    (hm : Ev.request i h er msg ∈ ev1) (hk : rep.kill = true) {a : List Byte} {rep' : Reply} (ha : IsAck c h.actUuid a) {st2 : St}
    {ev2 : List Ev} (hack : step c st1 (.recv a rep') = some (st2, ev2)) :
    st1.sess[i]? = some (Sess.zero c) ∧ fresh i ev2 = [] := by
  obtain ⟨_, _, e, hi1, _⟩ := step_ok hc hi (.recv d rep)
  rw [hreq] at e
  cases e
  have hz : st1.sess[i]? = some (Sess.zero c) := by
    by_cases h0 : d.length = 0 ∨ d.length > c.frameSize
    · unfold step at hreq
      dsimp only at hreq
      rw [if_pos h0] at hreq
      cases hreq
      cases hm
    obtain ⟨_, hw, hrec⟩ := recv_cases hc hi (by omega) (by omega) hreq
    cases hrec with
    | lost hf' hss he => subst he; cases hm
    | handled j isNew' s0 t t2 r r' er' hf' hr hpar hcol hrd hok hdis hset =>
      have hsok : SOk c { t with timer := false } := ⟨hok.2.inBuf, hok.2.inLen, ⟨hok.2.out.len, hok.2.out.outLen, hok.2.out.phase⟩⟩
      obtain ⟨e0, e1, e2, e3, e4, e5, e6, e7⟩ := dispatch_request hc hw hrd hsok hdis hm
      subst e0
      unfold dispatch at hdis
      rw [if_neg (by omega), if_pos e5, if_neg (by rw [e6]; decide), if_pos e6] at hdis
      obtain ⟨t1, ev1, e, ha⟩ := request_ok hc (i := i) hw hrd (err := er') (rep := rep) hsok
      rw [e] at hdis
      cases hdis
      have hkl := ha.kill
      rw [if_pos e7, hk] at hkl
      obtain ⟨hlt, _⟩ := findSess_ok hi.sess hf'
      rw [hset]
      simp [hlt, finish, hkl]
  refine ⟨hz, ?_⟩
  obtain ⟨_, hw, hrec⟩ := recv_cases hc hi1 ha.pos ha.size hack
  cases hrec with
  | lost hf' hss he => subst he; rfl
  | handled j isNew' s0 t t2 r r' er' hf' hr hpar hcol hrd hok hdis hset =>
    have hbd := ha.body
    have hsok : SOk c { t with timer := false } := ⟨hok.2.inBuf, hok.2.inLen, ⟨hok.2.out.len, hok.2.out.outLen, hok.2.out.phase⟩⟩
    by_cases hji : j = i
    · subst hji
      obtain ⟨hlt, _, hin, hcase⟩ := findSess_ok hi1.sess hf'
      rcases hcase with ⟨_, hg, _⟩ | ⟨_, hs0, _⟩
      · rw [hz] at hg
        cases hg
        cases hin
      · subst hs0
        unfold collect at hcol
        rw [if_neg (by omega), if_pos ha.frag] at hcol
        cases hcol
        unfold dispatch at hdis
        rw [if_neg (by omega), if_pos (Or.inl ha.frag), if_neg (by rw [ha.type]; decide), if_neg (by rw [ha.type]; decide),
          if_pos ha.type] at hdis
        rw [fragAck_done hc hsok.out (Nat.zero_le _)] at hdis
        cases hdis
        rfl
    · obtain ⟨_, _, e2, _, _, hown⟩ := dispatch_ok hc (i := j) (isNew := isNew') hw hrd (err := er') (rep := rep') hsok
      rw [hdis] at e2
      cases e2
      exact fresh_other hji hown

/-! Non-vacuity: a response of 25 bytes in fragments of 10 bytes; one of 20 bytes; one where the session is
released. -/

def ndrT : Ndr := ⟨1000, 0, 1000, 0, 0⟩
def cfgU : Cfg := ⟨200, 90, 20, 100, 2⟩
theorem cfgU_ok : CfgOk cfgU := ⟨by decide, by decide, by decide, by decide, by decide⟩

def bodyT (n : Nat) : List Byte := (List.range n).map (BitVec.ofNat 8)

/-- A request whose response has `n` bytes. -/
def askT (n : Nat) (kill : Bool) (nd : Ndr) : Op :=
  .recv (encRpcHeader (hdrT 0 false false 0 5 20) ++ (encNdr false nd ++ [])) ⟨bodyT n, kill, nilUuid⟩
def ackT (nmb : Nat) : Op := dgT 9 false false nmb 5 []

example : Plain cfgU (hdrT 0 false false 0 5 20) (encNdr false ndrT ++ []) :=
  ⟨hdrT_wf 0 (by decide) _ _ _ _ _, rfl, rfl, Or.inl rfl, by decide, by simp [encNdr_length, cfgU]⟩

example : Fetch cfgU uuidT 2 [ackT 0, .expire 0, ackT 1] := by
  have h : ∀ n, IsAck cfgU uuidT (encRpcHeader (hdrT 9 false false n 5 0) ++ []) := by
    intro n
    have hw := hdrT_wf 9 (by decide) false false n 5 0
    have hl := encRpcHeader_length hw
    refine ⟨?_, ?_, ?_, ?_, ?_, ?_⟩
    · rw [List.append_nil, hl]; decide
    · rw [List.append_nil, hl]; decide
    all_goals
      rw [hdrOf_enc hw]
      first | rfl | exact Nat.zero_le _
  exact .ack (h 0) (.timeout (.ack (h 1) .done))

/-- Number, last flag and body of what is sent for the first time. -/
def view (i : Nat) (ev : List Ev) : List (Nat × Bool × List Byte) :=
  (fresh i ev).map fun p => ((hdrOf p).fragmentNmb.toNat, (hdrOf p).lastFragment, bodyOf p)

example : (run cfgU (St.init cfgU 2) [askT 25 false ndrT, ackT 0, .expire 0, ackT 1, ackT 2]).map (fun x => view 0 x.2) =
    some [(0, false, bodyT 10), (1, false, (bodyT 20).drop 10), (2, true, (bodyT 25).drop 20)] := by decide +kernel

example : (run cfgU (St.init cfgU 2) [askT 20 false ndrT, ackT 0, ackT 1]).map (fun x => view 0 x.2) =
    some [(0, false, bodyT 10), (1, false, (bodyT 20).drop 10)] := by decide +kernel

example : (run cfgU (St.init cfgU 2) [askT 25 true ndrT, ackT 0, ackT 1]).map (fun x => view 0 x.2) =
    some [(0, false, bodyT 10)] := by decide +kernel

/-- **Negative result.**  The size that the client allows is added in 32 bits: a client that allows
4294967295 bytes gets an empty response instead of 25 bytes. -/
theorem C29_fails_limit : (run cfgU (St.init cfgU 2) [askT 25 false ⟨0xFFFFFFFF, 0, 0, 0, 0⟩]).map (fun x => view 0 x.2) =
    some [(0, false, [])] := by decide +kernel

end Verif.Rpc
