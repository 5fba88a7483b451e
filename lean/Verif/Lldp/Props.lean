import Verif.Lldp.Expiry
/-! Properties C77 to C81: LLDP frames and what is known of the neighbours. -/
set_option linter.unusedSimpArgs false
set_option linter.unusedVariables false

namespace Verif.Lldp

open Verif.Wire

/-! ## C77 -/

/-- C77 (first part): reading any frame ends, and stays inside the frame and inside the arrays for the names; the arrays
keep their sizes. -/
theorem C77_any_frame (z : Nat) (hz : 1 ≤ z) (buf : List Byte) (hl : buf.length ≤ 64000) :
    ∃ res, parse z buf = some res ∧ ∀ q, res = some q →
      q.chassis.str.length = 241 ∧ q.port.str.length = 256 ∧ q.desc.str.length = z ∧ q.mgmt.value.length = 31 ∧
      q.status.length = 4 ∧ q.mac.length = 6 := by
  obtain ⟨res, h1, h2⟩ := parse_total z hz buf hl
  exact ⟨res, h1, fun q hq => ⟨(h2 q hq).chassis, (h2 q hq).port, (h2 q hq).desc, (h2 q hq).mgmt, (h2 q hq).status,
    (h2 q hq).mac⟩⟩

/-- C77 (second part), with what is missing: lengths stored are lengths inside the arrays, names end with a zero.  Missing:
frames with two names of the same kind of which one is too long (see C77_fails_length), and fields whose inner lengths
disagree with their own. -/
theorem C77_lengths_partial (z : Nat) (hz : 1 ≤ z) (buf : List Byte) (hl : buf.length ≤ 64000) (l : List Tlv)
    (hf : Framed l buf) (hreg : ∀ x ∈ l, Regular x) (h1 : oneName 1 241 l) (h2 : oneName 2 256 l) (q : Peer)
    (hq : parse z buf = some (some q)) :
    (q.chassis.valid = true → q.chassis.len < q.chassis.str.length ∧ q.chassis.str[q.chassis.len]? = some 0) ∧
    (q.port.valid = true → q.port.len < q.port.str.length ∧ q.port.str[q.port.len]? = some 0) ∧
    (q.desc.valid = true → q.desc.len < q.desc.str.length ∧ q.desc.str[q.desc.len]? = some 0) ∧
    (q.mgmt.valid = true → q.mgmt.len ≤ q.mgmt.value.length) := by
  rcases parse_framed hz hl hf hreg h1 h2 with ⟨q', k1, _, kw, kt⟩ | k
  · rw [hq] at k1
    obtain rfl : q = q' := Option.some.inj (Option.some.inj k1)
    rw [kw.chassis, kw.port, kw.desc, kw.mgmt]
    exact ⟨kt.chassis, kt.port, kt.desc, fun h => by rw [kt.mgmt h]; omega⟩
  · rw [hq] at k; exact nomatch k.1

theorem at_start {buf : List Byte} (hl : buf.length ≤ 64000) : At (atStart buf) buf :=
  ⟨rfl, rfl, rfl, hl, by simp [atStart], slice_all buf⟩

/-- C77 fails: after a good chassis name a second one that is too long is accepted; the record then is marked as valid
with a length that is not inside its array. -/
theorem C77_fails_length (z : Nat) (a b : List Byte) (ka kb : Byte) (ha : a.length ≤ 240) (hb : 241 ≤ b.length)
    (hb' : b.length ≤ 510) :
    ∃ q, parse z (encTlv (1, ka :: a) ++ (encTlv (1, kb :: b) ++ endMark 0)) = some (some q) ∧ q.chassis.valid = true ∧
      q.chassis.str.length = 241 ∧ q.chassis.len = b.length := by
  obtain ⟨buf, hbuf⟩ : ∃ buf, buf = encTlv (1, ka :: a) ++ (encTlv (1, kb :: b) ++ endMark 0) := ⟨_, rfl⟩
  rw [← hbuf]
  have hlen : buf.length ≤ 64000 := by
    rw [hbuf]; simp [encTlv, endMark, enc16_length]; omega
  have h0 := at_start hlen
  have e : encTlv (1, ka :: a) ++ (encTlv (1, kb :: b) ++ endMark 0) =
      enc16 true (BitVec.ofNat 16 (1 * 512 + (ka :: a).length)) ++ ((ka :: a) ++
        (enc16 true (BitVec.ofNat 16 (1 * 512 + (kb :: b).length)) ++ ((kb :: b) ++ endMark 0))) := by
    simp only [encTlv, List.append_assoc]
  have h0' : At (atStart buf) (enc16 true (BitVec.ofNat 16 (1 * 512 + (ka :: a).length)) ++ ((ka :: a) ++
        (enc16 true (BitVec.ofNat 16 (1 * 512 + (kb :: b).length)) ++ ((kb :: b) ++ endMark 0)))) := by
    rw [← e, ← hbuf]; exact h0
  obtain ⟨a1, a2⟩ := h0'.split
  obtain ⟨a3, a4⟩ := a2.split
  obtain ⟨a5, a6⟩ := a4.split
  obtain ⟨a7, a8⟩ := a6.split
  have g1 := takes_getTlv (t := 1) (by omega) (show (ka :: a).length < 512 by simp; omega) _ a1
  have g3 := takes_getTlv (t := 1) (by omega) (show (kb :: b).length < 512 by simp; omega) _ a5
  have f : ∀ (v : List Byte) (p : Peer), p.chassis.str.length = 241 → v.length < 512 →
      Takes (getField z 1 v.length p) v { p with chassis := newId 241 v p.chassis } := by
    intro v p hp hv
    unfold getField
    rw [if_pos rfl]
    exact Takes.bind_nil (takes_getId hp (by omega) hv) (Takes.pure _)
  have hs1 := newId_str (v := ka :: a) (wf_empty z).chassis (by omega)
  have g2 := f (ka :: a) (Peer.empty z) (wf_empty z).chassis (by simp; omega) _ a3
  have g4 := f (kb :: b) { Peer.empty z with chassis := newId 241 (ka :: a) (Peer.empty z).chassis } hs1 (by simp; omega) _ a7
  have g5 := takes_getTlv (t := 0) (n := 0) (by omega) (by omega) _ a8
  refine ⟨{ Peer.empty z with chassis := newId 241 (kb :: b) (newId 241 (ka :: a) (Peer.empty z).chassis) }, ?_, ?_,
    newId_str hs1 (by omega), ?_⟩
  · unfold parse
    rw [parseP_loop, show manyFields = 65534 + 1 + 1 + 1 from rfl, loop_step (by omega) g1 g2, loop_step (by omega) g3 g4,
      loop_end g5]
    rfl
  · show (newId 241 (kb :: b) (newId 241 (ka :: a) (Peer.empty z).chassis)).valid = true
    have h1 : (newId 241 (ka :: a) (Peer.empty z).chassis).valid = true := by
      unfold newId
      rw [if_neg (by simp), if_neg (by simp; omega)]
    unfold newId at h1 ⊢
    rw [if_neg (by simp), if_pos (by simp; omega)]
    exact h1
  · show (newId 241 (kb :: b) (newId 241 (ka :: a) (Peer.empty z).chassis)).len = b.length
    unfold newId
    rw [if_neg (by simp), if_pos (by simp; omega)]
    rfl

/-- C77_lengths_partial and C77_fails_length apply to real frames: a frame of the device itself. -/
def exampleOwn : Own where
  legacy := true
  station := [100, 101, 118]
  sysDesc := [105, 111]
  portName := [112, 111, 114, 116, 45, 48, 48, 49]
  portMac := [2, 0, 0, 0, 0, 2]
  deviceMac := [2, 0, 0, 0, 0, 1]
  link := ⟨true, true, 0x0c00, 16, true⟩
  ip := 0xc0a80001
  ifNumber := 1

theorem exampleOwn_proper : Proper exampleOwn :=
  ⟨by decide, by decide, by decide, by decide, by decide, rfl, rfl⟩

/-! ## C78 -/

/-- C78: a frame that the device sends (14 bytes Ethernet head, then the fields) is accepted by a neighbour with the same
software, which then knows the device by its names, addresses and link state: station name (or the address of the device as
text if it has none) and port name are those of the sender. -/
theorem C78_understood (z : Nat) (hz : 1 ≤ z) (o : Own) (h : Proper o) (frame : List Byte) (hf : 600 ≤ frame.length)
    (e : Env) (p : Port) :
    ∃ w p', construct o ⟨frame, frame.length, 0⟩ = some w ∧ recv z e p ((w.buf.take w.pos).drop 14) = some p' ∧
      view p'.peer = ownView o ∧
      peerStation p'.peer = (if o.station = [] then macString o.deviceMac else o.station) ∧
      peerPortName p'.peer = o.portName := by
  obtain ⟨w, q, h1, h2, h3, h4, h5⟩ := round_trip hz h ⟨frame, frame.length, 0⟩ (Nat.le_refl _) rfl hf
  have hp : (updatePeer e p q).peer = q := by
    unfold updatePeer
    simp only
    split
    · rename_i hq
      exact hq.symm
    · rfl
  refine ⟨w, updatePeer e p q, h1, by simp [recv, h2], ?_, ?_, ?_⟩
  · rw [hp]; exact h3
  · rw [hp]; exact h4
  · rw [hp]; exact h5

/-- C78 applies. -/
example : ∃ w p', construct exampleOwn ⟨List.replicate 1500 0, 1500, 0⟩ = some w ∧
    recv 60 ⟨0, 1000, true⟩ (Port.init 60) ((w.buf.take w.pos).drop 14) = some p' ∧
    peerStation p'.peer = [100, 101, 118] ∧ peerPortName p'.peer = [112, 111, 114, 116, 45, 48, 48, 49] := by
  obtain ⟨w, p', h1, h2, h3, h4, h5⟩ := C78_understood 60 (by omega) exampleOwn exampleOwn_proper (List.replicate 1500 0)
    (by rw [List.length_replicate]; omega) ⟨0, 1000, true⟩ (Port.init 60)
  rw [List.length_replicate] at h1
  exact ⟨w, p', h1, h2, h4, h5⟩

/-! ## C79 -/

/-- C79 (every frame has a structure): a frame is a list of fields followed by the end mark, or it is cut off. -/
theorem C79_structure (buf : List Byte) : ∃ l, (∀ x ∈ l, 0 < x.1 ∧ x.1 < 128 ∧ x.2.length < 512) ∧
    (Framed l buf ∨ ∃ t, CutOff l buf t) := framed_or_cut buf

/-- C79, with what is missing: what is known after a frame is what its fields say, taken in order, each with its own length;
a frame with a field of wrong length is refused.  Missing: frames with an inconsistent management address
(see C79_fails_management) or an organisation field of less than four bytes. -/
theorem C79_fields_partial (z : Nat) (hz : 1 ≤ z) (buf : List Byte) (hl : buf.length ≤ 64000) (l : List Tlv)
    (hf : Framed l buf) (hreg : ∀ x ∈ l, Regular x) (h1 : oneName 1 241 l) (h2 : oneName 2 256 l) :
    (parse z buf).map (Option.map view) = some (saysAll z l View.empty) := by
  rcases parse_framed hz hl hf hreg h1 h2 with ⟨q, k1, k2, _⟩ | ⟨k1, k2⟩
  · rw [k1, k2]; rfl
  · rw [k1, k2]; rfl

/-- C79 for frames that are cut off (inside or before any field but a management address): they are refused. -/
theorem C79_cut_partial (z : Nat) (hz : 1 ≤ z) (buf : List Byte) (hl : buf.length ≤ 64000) (l : List Tlv) (t : Nat)
    (hf : CutOff l buf t) (ht : t ≠ 8) (hreg : ∀ x ∈ l, Regular x) (h1 : oneName 1 241 l) (h2 : oneName 2 256 l) :
    parse z buf = some none := parse_cut hz hl hf ht hreg h1 h2

theorem getMgmt_length {n m : Nat} {r r1 : Rd} {l : Byte} (h : getByte r = some (l, r1)) (h1 : 2 ≤ l.toNat)
    (h2 : l.toNat ≤ 32) : getMgmt n r = getMgmt m r := by
  unfold getMgmt
  simp only [P.bind_def, h, Option.bind_some]
  rw [if_neg (by omega), if_neg (by omega)]

/-- C79 fails: a management address whose object identifier is announced but not there swallows the field that follows.
Here the chassis name of the neighbour is not seen. -/
theorem C79_fails_management (z : Nat) (hz : 1 ≤ z) (ip ifn : List Byte) (hip : ip.length = 4) (hifn : ifn.length = 4)
    (kind : Byte) (name : List Byte) (hn : name.length ≤ 200) :
    let x : Tlv := (1, kind :: name)
    let m : Tlv := (8, [5, 1] ++ ip ++ [2] ++ ifn ++ [BitVec.ofNat 8 (encTlv x).length])
    ∃ q, parse z (encAll [m, x] ++ endMark 0) = some (some q) ∧ (view q).chassis = none ∧
      ∃ w, saysAll z [m, x] View.empty = some w ∧ w.chassis = some (kind, name) := by
  intro x m
  have hxl : (encTlv x).length = name.length + 3 := by simp [encTlv, x, enc16_length]; omega
  have hml : m.2.length = 12 := by simp [m, hip, hifn]
  obtain ⟨i0, i1, i2, i3, rfl⟩ : ∃ a b c d, ip = [a, b, c, d] := by
    match ip, hip with
    | [a, b, c, d], _ => exact ⟨a, b, c, d, rfl⟩
  obtain ⟨f0, f1, f2, f3, rfl⟩ : ∃ a b c d, ifn = [a, b, c, d] := by
    match ifn, hifn with
    | [a, b, c, d], _ => exact ⟨a, b, c, d, rfl⟩
  obtain ⟨v, hv⟩ : ∃ v, v = m.2 ++ encTlv x := ⟨_, rfl⟩
  have hvl : v.length = 12 + (name.length + 3) := by rw [hv, List.length_append, hml, hxl]
  have hv0 : v.getD 0 0 = 5 := by rw [hv]; rfl
  have hfit : fits v := by
    refine ⟨by omega, fun _ _ => ?_⟩
    rw [hv0]
    have e11 : v.getD (5 + 6) 0 = BitVec.ofNat 8 (encTlv x).length := by rw [hv]; rfl
    have e5 : (5 : Byte).toNat = 5 := rfl
    rw [e5, e11, BitVec.toNat_ofNat, hxl]
    omega
  obtain ⟨mg, m1, m2, m3, m4⟩ := takes_getMgmt hfit (by omega)
  obtain ⟨buf, hbuf⟩ : ∃ buf, buf = encAll [m, x] ++ endMark 0 := ⟨_, rfl⟩
  rw [← hbuf]
  have e : encAll [m, x] ++ endMark 0 = enc16 true (BitVec.ofNat 16 (8 * 512 + 12)) ++ (v ++ endMark 0) := by
    rw [hv]
    have : encTlv m = enc16 true (BitVec.ofNat 16 (8 * 512 + 12)) ++ m.2 := tlv_eq hml
    simp only [encAll, List.flatMap_cons, List.flatMap_nil, this, List.append_assoc, List.append_nil]
  have hlen : buf.length ≤ 64000 := by
    rw [hbuf, e]; simp only [List.length_append, enc16_length, hvl, endMark]; omega
  have h0 := at_start hlen
  have h0' : At (atStart buf) (enc16 true (BitVec.ofNat 16 (8 * 512 + 12)) ++ (v ++ endMark 0)) := by
    rw [← e, ← hbuf]; exact h0
  obtain ⟨a1, a2⟩ := h0'.split
  obtain ⟨a3, a4⟩ := a2.split
  have g1 := takes_getTlv (t := 8) (n := 12) (by omega) (by omega) _ a1
  have gm := m1 _ a3
  have hb : ∃ r1, getByte { atStart buf with pos := (atStart buf).pos + (enc16 true (BitVec.ofNat 16 (8 * 512 + 12))).length } =
      some (5, r1) := by
    have a3' : At { atStart buf with pos := (atStart buf).pos + (enc16 true (BitVec.ofNat 16 (8 * 512 + 12))).length }
        ([(5 : Byte)] ++ v.drop 1) := by
      have : [(5 : Byte)] ++ v.drop 1 = v := by rw [← hv0]; exact drop_one (i := 0) (by omega)
      rw [this]; exact a3
    exact ⟨_, Takes.of (parses_getByte true 5) _ a3'.split.1⟩
  obtain ⟨r1, hb⟩ := hb
  rw [getMgmt_length (m := 12) hb (by decide) (by decide)] at gm
  have g2 : getField z 8 12 (Peer.empty z) { atStart buf with pos := (atStart buf).pos +
      (enc16 true (BitVec.ofNat 16 (8 * 512 + 12))).length } = some ((if mg.isV4 then { Peer.empty z with mgmt := mg } else
        Peer.empty z), { atStart buf with pos := (atStart buf).pos +
      (enc16 true (BitVec.ofNat 16 (8 * 512 + 12))).length + v.length }) := by
    unfold getField
    rw [if_neg (by omega), if_neg (by omega), if_neg (by omega), if_neg (by omega), if_pos rfl]
    simp only [P.bind_def, gm, Option.bind_some]
    rfl
  have g5 := takes_getTlv (t := 0) (n := 0) (by omega) (by omega) _ (by simpa [endMark] using a4)
  refine ⟨if mg.isV4 then { Peer.empty z with mgmt := mg } else Peer.empty z, ?_, ?_, ?_⟩
  · unfold parse
    rw [parseP_loop, show manyFields = 65535 + 1 + 1 from rfl, loop_step (by omega) g1 g2, loop_end g5]
    rfl
  · split <;> rfl
  · have s1 : ∀ w : View, Lldp.says z m w = some { w with mgmt := some ([i0, i1, i2, i3], 2, num [f0, f1, f2, f3]) } := fun w => rfl
    have s2 : ∀ w : View, Lldp.says z x w = some { w with chassis := some (kind, name) } := by
      intro w
      show some (ite _ _ _) = _
      rw [if_neg (by simp only [x, List.length_cons]; omega)]
      rfl
    simp only [saysAll, s1, s2, Option.bind_some]
    exact ⟨_, rfl, rfl⟩

/-- C79 applies to the frame of a neighbour. -/
example : (parse 60 (encAll (ownTlvs exampleOwn) ++ (endMark 0 ++ []))).map (Option.map view) =
    some (saysAll 60 (ownTlvs exampleOwn) View.empty) :=
  C79_fields_partial 60 (by omega) _ (by decide) _ ⟨0, [], by omega, rfl⟩
    (regular_own exampleOwn (by decide) (by decide) rfl) (oneName_own _ 1 _ (.inl rfl)) (oneName_own _ 2 _ (.inr rfl))

/-! ## C80 -/

/-- C80, with what is missing: over every history of frames, scheduler runs and link states, what the device answers about
its neighbour is what the last accepted frame said, until its time to live is over or the link went down; then nothing is
known.  Missing: times to live above 60 seconds and a scheduler without a free timer, for which the time is not watched
(`Known.step`; see C80_fails_long). -/
theorem C80_last_frame_partial (z : Nat) (hz : 1 ≤ z) (tick : U32) (es : List Ev)
    (hl : ∀ now armed data, .frame now armed data ∈ es → data.length ≤ 64000) :
    ∃ p, run z tick (Port.init z) es = some p ∧
      seen p = (Known.start.run z tick (accepts z) es).seen ∧
      (p.received = true → (Known.start.run z tick (accepts z) es).last ≠ none) ∧
      (p.received = false → seen p = Seen.none) := by
  obtain ⟨p, h1, h2⟩ := sim_run z hz tick es _ _ (sim_start z) hl
  exact ⟨p, h1, h2.seen, h2.heard, fun h => (h2.gone h).symm⟩

/-- C80 (the time): it is shorter than the time to live by less than one period of the stack and never longer. -/
theorem C80_time (tick : U32) (h0 : 0 < tick.toNat) (h1 : tick.toNat ≤ 500000) (secs : Nat) (hs : 1 ≤ secs) (hs' : secs ≤ 60) :
    secs * 1000000 < holdTime tick secs + tick.toNat ∧ holdTime tick secs ≤ secs * 1000000 := by
  unfold holdTime
  obtain ⟨k, _, _, _, _, h⟩ := Scheduler.C03_delay_rounding (BitVec.ofNat 32 (secs * 1000000)) tick h0 (by omega)
  have e1 : (BitVec.ofNat 32 (secs * 1000000)).toNat = secs * 1000000 := by rw [BitVec.toNat_ofNat]; omega
  rw [e1, if_neg (by omega)] at h
  have := h (by omega)
  omega

/-- C80 (forgotten): after an accepted frame with a time to live of at most 60 seconds, with no other accepted frame, once the
scheduler has run when the time is over nothing is known any more, whatever else happened. -/
theorem C80_forgotten_partial (z : Nat) (hz : 1 ≤ z) (tick : U32) (before mid : List Ev) (t now : Nat) (data : List Byte) (w : View)
    (hl : ∀ s armed data', .frame s armed data' ∈ before ++ (.frame t true data :: mid ++ [.tick now]) → data'.length ≤ 64000)
    (hw : accepts z data = some w) (httl : w.ttl ≤ 60) (hq : Quiet z mid) (hnow : t + holdTime tick w.ttl ≤ now) :
    ∃ p, run z tick (Port.init z) (before ++ (.frame t true data :: mid ++ [.tick now])) = some p ∧ seen p = Seen.none := by
  obtain ⟨p, h1, h2, _⟩ := C80_last_frame_partial z hz tick _ hl
  refine ⟨p, h1, ?_⟩
  rw [h2, known_run_append, List.cons_append, Known.run, known_run_append]
  obtain ⟨k, hk⟩ : ∃ k, k = Known.start.run z tick (accepts z) before := ⟨_, rfl⟩
  rw [← hk]
  have hs : k.step z tick (accepts z) (.frame t true data) = ⟨some w, some (t + holdTime tick w.ttl), k.up⟩ := by
    simp only [Known.step, hw]
    rw [if_pos ⟨httl, trivial⟩]
  rw [hs]
  rcases known_quiet (w := w) (d := some (t + holdTime tick w.ttl)) (tick := tick)
    (k := ⟨some w, some (t + holdTime tick w.ttl), k.up⟩) hq (.inr ⟨rfl, rfl⟩) with h | h
  · simp only [Known.run, Known.step, h.2]
    simp only [Known.seen, h.1]
  · simp only [Known.run, Known.step, h.2]
    rw [if_pos hnow]
    rfl

/-- C80 (kept): until then, as long as the link is not found down, the neighbour stays known. -/
theorem C80_kept (z : Nat) (hz : 1 ≤ z) (tick : U32) (before mid : List Ev) (t : Nat) (armed : Bool) (data : List Byte) (w : View)
    (hl : ∀ now armed' data', .frame now armed' data' ∈ before ++ .frame t armed data :: mid → data'.length ≤ 64000)
    (hw : accepts z data = some w) (hq : Quiet z mid) (hlink : .link false ∉ mid)
    (hearly : ∀ now, .tick now ∈ mid → now < t + holdTime tick w.ttl) :
    ∃ p, run z tick (Port.init z) (before ++ .frame t armed data :: mid) = some p ∧ seen p = Seen.of w := by
  obtain ⟨p, h1, h2, _⟩ := C80_last_frame_partial z hz tick _ hl
  refine ⟨p, h1, ?_⟩
  rw [h2, known_run_append, Known.run]
  obtain ⟨k, hk⟩ : ∃ k, k = Known.start.run z tick (accepts z) before := ⟨_, rfl⟩
  rw [← hk]
  have hb0 : ∀ now t', .tick now ∈ mid → (k.step z tick (accepts z) (.frame t armed data)).until? = some t' → now < t' := by
    intro now t' hm ht'
    simp only [Known.step, hw] at ht'
    split at ht'
    · obtain rfl := Option.some.inj ht'
      exact hearly now hm
    · exact nomatch ht'
  have hb := known_before (z := z) (tick := tick) (w := w) (es := mid)
    (d := (k.step z tick (accepts z) (.frame t armed data)).until?) (k := k.step z tick (accepts z) (.frame t armed data)) hq
    ⟨hb0, hlink⟩ (by simp only [Known.step, hw]) rfl
  simp only [Known.seen, hb.1]

/-- C80 fails for a time to live above 60 seconds, and if no timer is free: then the neighbour is known for ever, however
late the scheduler runs. -/
theorem C80_fails_long (z : Nat) (hz : 1 ≤ z) (tick : U32) (before : List Ev) (t : Nat) (armed : Bool) (data : List Byte) (w : View)
    (hl : ∀ now armed' data', .frame now armed' data' ∈ before ++ [.frame t armed data] → data'.length ≤ 64000)
    (hw : accepts z data = some w) (hlong : 60 < w.ttl ∨ armed = false) (times : List Nat) :
    ∃ p, run z tick (Port.init z) (before ++ .frame t armed data :: times.map .tick) = some p ∧ seen p = Seen.of w := by
  have hno : ∀ now armed' data', .frame now armed' data' ∉ times.map Ev.tick := by
    intro now armed' data' hm
    obtain ⟨x, _, hx⟩ := List.mem_map.1 hm
    cases hx
  obtain ⟨p, h1, h2, _⟩ := C80_last_frame_partial z hz tick (before ++ .frame t armed data :: times.map .tick) (by
    intro now armed' data' hm
    refine hl now armed' data' ?_
    simp only [List.mem_append, List.mem_cons] at hm ⊢
    rcases hm with hm | hm | hm
    · exact .inl hm
    · exact .inr (.inl hm)
    · exact absurd hm (hno _ _ _))
  refine ⟨p, h1, ?_⟩
  rw [h2, known_run_append, Known.run]
  obtain ⟨k, hk⟩ : ∃ k, k = Known.start.run z tick (accepts z) before := ⟨_, rfl⟩
  rw [← hk]
  have hs : k.step z tick (accepts z) (.frame t armed data) = ⟨some w, none, k.up⟩ := by
    simp only [Known.step, hw]
    rw [if_neg (by
      rintro ⟨h1, h2⟩
      rcases hlong with h | h
      · omega
      · rw [h] at h2; exact nomatch h2)]
  rw [hs]
  have hno' : Ev.link false ∉ times.map Ev.tick := by
    intro hm
    obtain ⟨x, _, hx⟩ := List.mem_map.1 hm
    cases hx
  have hb := known_before (z := z) (tick := tick) (w := w) (es := times.map .tick) (d := none) (k := ⟨some w, none, k.up⟩)
    (fun now armed' data' hm => absurd hm (hno _ _ _)) ⟨fun _ _ _ h => (nomatch h), hno'⟩ rfl rfl
  simp only [Known.seen, hb.1]

/-- C80 applies: the device's own frame is accepted, with 20 seconds; a frame with a time to live of 120 seconds is accepted too. -/
example : (∃ w, accepts 60 (encAll (ownTlvs exampleOwn) ++ (endMark 0 ++ [])) = some w ∧ w.ttl = 20) ∧
    ∃ w, accepts 60 (encAll [(1, [7, 97]), (2, [7, 98]), (3, [0, 120])] ++ (endMark 0 ++ [])) = some w ∧ w.ttl = 120 := by
  have key : ∀ (l : List Tlv) (w : View), (encAll l ++ (endMark 0 ++ [])).length ≤ 64000 → (∀ x ∈ l, Regular x) → oneName 1 241 l →
      oneName 2 256 l → saysAll 60 l View.empty = some w → accepts 60 (encAll l ++ (endMark 0 ++ [])) = some w := by
    intro l w hlen hreg h1 h2 hs
    have := C79_fields_partial 60 (by omega) _ hlen l ⟨0, [], by omega, rfl⟩ hreg h1 h2
    rw [hs] at this
    unfold accepts
    cases hp : parse 60 (encAll l ++ (endMark 0 ++ [])) with
    | none => rw [hp] at this; cases this
    | some r =>
      rw [hp] at this
      cases r with
      | none => cases this
      | some q => exact Option.some.inj this
  refine ⟨⟨ownView exampleOwn, key _ _ (by decide) (regular_own exampleOwn (by decide) (by decide) rfl)
    (oneName_own _ 1 _ (.inl rfl)) (oneName_own _ 2 _ (.inr rfl)) (saysAll_own 60 _ (by decide) (by decide) rfl), rfl⟩,
    ⟨{ View.empty with chassis := some (7, [97]), port := some (7, [98]), ttl := 120 }, key _ _ (by decide) ?_ (.inl (by decide))
      (.inl (by decide)) rfl, rfl⟩⟩
  intro x hx
  simp only [List.mem_cons, List.not_mem_nil, or_false] at hx
  rcases hx with rfl | rfl | rfl
  all_goals exact ⟨by simp, by simp, by simp, by simp, by simp⟩

/-! ## C81 -/

/-- The port has heard the frame of a device with the properties `o` and still holds it. -/
def Heard (z : Nat) (p : Port) (o : Own) : Prop :=
  p.received = true ∧ view p.peer = ownView o ∧ Tidy z p.peer ∧ Proper o

/-- The alias that a device can be found by: port name of the neighbour, a dot, station name of the neighbour. -/
def aliasOf (o : Own) : List Byte := o.portName ++ [46] ++ (if o.station = [] then macString o.deviceMac else o.station)

theorem heard_port {z : Nat} {p : Port} {o : Own} (h : Heard z p o) : cstr p.peer.port.str = ownPort o := by
  obtain ⟨_, hv, ht, hp⟩ := h
  have hpv : viewId p.peer.port = some (7, ownPort o) := congrArg View.port hv
  obtain ⟨p1, p2, p3⟩ := viewId_some hpv
  refine cstr_of p3 (ht.port p1).2 ?_
  rw [ownPort_eq hp]
  intro x hx
  split at hx
  · exact (hp.port0 x hx).1
  · simp only [List.mem_append, List.mem_cons, List.not_mem_nil, or_false] at hx
    rcases hx with (hx | rfl) | hx
    · exact (hp.port0 x hx).1
    · decide
    · exact knownAs_no_zero hp x hx

theorem alias_heard {z : Nat} {p : Port} {o : Own} (h : Heard z p o) (hs : o.legacy = true → o.station ≠ []) :
    genAlias p.peer.port.str p.peer.chassis.str 256 = some (aliasOf o) := by
  have hport := heard_port h
  obtain ⟨_, hv, ht, hp⟩ := h
  have hpl := hp.port
  have hk := knownAs_length hp
  unfold genAlias
  rw [hport, ownPort_eq hp]
  cases hl : o.legacy with
  | false =>
    simp only [Bool.false_eq_true, if_false]
    rw [if_pos (by simp), if_neg (by simp; omega)]
    rfl
  | true =>
    simp only [if_true]
    rw [if_neg (fun k => (hp.port0 _ k).2 rfl)]
    have hcv : viewId p.peer.chassis = some ((ownChassis o).1, (ownChassis o).2) := congrArg View.chassis hv
    obtain ⟨c1, c2, c3⟩ := viewId_some hcv
    have hst := hs hl
    have hsl := hp.station
    have hne : o.station.length ≠ 0 := by simpa using hst
    unfold ownChassis at c3
    rw [hl, if_pos rfl, if_neg (by omega)] at c3
    have c3 : p.peer.chassis.str.take p.peer.chassis.len = o.station := c3
    rw [cstr_of c3 (ht.chassis c1).2 hp.station0, if_neg (by omega)]
    unfold aliasOf
    rw [if_neg hst]

/-- C81, with what is missing: a name is an alias of the device exactly if one of its ports holds the frame of a neighbour of
that port name and station name.  Missing: neighbours in legacy mode without a station name (see C81_fails_mac). -/
theorem C81_alias_partial (z : Nat) (ports : List Port) (name : List Byte) (hn : ∀ x ∈ name, x ≠ 0)
    (hh : ∀ p ∈ ports, p.received = true → ∃ o, Heard z p o ∧ (o.legacy = true → o.station ≠ [])) :
    isAlias ports name = true ↔ ∃ p ∈ ports, ∃ o, Heard z p o ∧ name = aliasOf o := by
  have hcn : cstr name = name := by
    unfold cstr
    have := takeWhile_all (p := fun x : Byte => x ≠ 0) (d := name) (r := []) (fun x hx => by simpa using hn x hx) (by simp)
    rwa [List.append_nil] at this
  unfold isAlias
  rw [List.any_eq_true]
  constructor
  · rintro ⟨p, hp, hm⟩
    simp only [Bool.and_eq_true, decide_eq_true_eq] at hm
    obtain ⟨o, ho, hs⟩ := hh p hp hm.1
    refine ⟨p, hp, o, ho, ?_⟩
    rw [alias_heard ho hs, hcn] at hm
    exact (Option.some.inj hm.2).symm
  · rintro ⟨p, hp, o, ho, rfl⟩
    refine ⟨p, hp, ?_⟩
    obtain ⟨o', ho', hs'⟩ := hh p hp ho.1
    have e : aliasOf o = aliasOf o' := by
      have n1 := peer_names (z := z) ho.2.2.2 ho.2.1 ho.2.2.1
      have n2 := peer_names (z := z) ho'.2.2.2 ho'.2.1 ho'.2.2.1
      unfold aliasOf
      show o.portName ++ [46] ++ knownAs o = o'.portName ++ [46] ++ knownAs o'
      rw [← n1.1, ← n1.2, ← n2.1, ← n2.2]
    simp only [Bool.and_eq_true, decide_eq_true_eq]
    exact ⟨ho.1, by rw [alias_heard ho' hs', hcn, e]⟩

/-- C81 fails for a neighbour in legacy mode without a station name: the bytes of its address are taken for a text.  The
device is not found by the alias of the rule, although asked for the name of the station it gives the address as text. -/
theorem C81_fails_mac (z : Nat) (p : Port) (o : Own) (h : Heard z p o) (hl : o.legacy = true) (hs : o.station = []) :
    peerStation p.peer = macString o.deviceMac ∧ peerPortName p.peer = o.portName ∧
      isAlias [p] (aliasOf o) = false := by
  have hport := heard_port h
  obtain ⟨hr, hv, ht, hp⟩ := h
  have n1 := peer_names (z := z) hp hv ht
  refine ⟨by rw [n1.1]; unfold knownAs; rw [if_pos hs], n1.2, ?_⟩
  have hcv : viewId p.peer.chassis = some ((ownChassis o).1, (ownChassis o).2) := congrArg View.chassis hv
  obtain ⟨c1, c2, c3⟩ := viewId_some hcv
  unfold ownChassis at c3
  rw [hl, if_pos rfl, if_pos (by left; simp [hs])] at c3
  have c3 : p.peer.chassis.str.take p.peer.chassis.len = o.deviceMac := c3
  have hz := (ht.chassis c1).2
  have hlen : (cstr p.peer.chassis.str).length ≤ 6 := by
    have hcl := (ht.chassis c1).1
    have hl6 : p.peer.chassis.len ≤ 6 := by
      have := congrArg List.length c3
      rw [List.length_take, hp.mac] at this
      have hsl : p.peer.chassis.len < p.peer.chassis.str.length := (List.getElem?_eq_some_iff.1 hz).1
      omega
    refine Decidable.byContradiction fun hlt => ?_
    have hpre : cstr p.peer.chassis.str <+: p.peer.chassis.str := List.takeWhile_prefix _
    have hi : p.peer.chassis.len < (cstr p.peer.chassis.str).length := by omega
    have hmem : (cstr p.peer.chassis.str)[p.peer.chassis.len]? = some 0 := by
      rw [List.getElem?_eq_getElem hi, hpre.getElem hi]
      rw [← List.getElem?_eq_getElem (by exact (List.getElem?_eq_some_iff.1 hz).1)]
      exact hz
    have := List.mem_of_getElem? hmem
    have := List.all_takeWhile (l := p.peer.chassis.str) (p := fun x : Byte => x ≠ 0)
    rw [List.all_eq_true] at this
    exact absurd (this 0 (by assumption)) (by decide)
  have hne : genAlias p.peer.port.str p.peer.chassis.str 256 ≠ some (cstr (aliasOf o)) := by
    have ha : cstr (aliasOf o) = aliasOf o := by
      unfold cstr
      have := takeWhile_all (p := fun x : Byte => x ≠ 0) (d := aliasOf o) (r := []) (fun x hx => by
        have : x ≠ 0 := by
          simp only [aliasOf, List.mem_append, List.mem_cons, List.not_mem_nil, or_false] at hx
          rcases hx with (hx | rfl) | hx
          · exact (hp.port0 x hx).1
          · decide
          · exact knownAs_no_zero hp x hx
        simpa using this) (by simp)
      rwa [List.append_nil] at this
    rw [ha]
    unfold genAlias
    rw [hport, ownPort_eq hp, hl]
    simp only [if_true]
    rw [if_neg (fun k => (hp.port0 _ k).2 rfl)]
    split
    · simp
    · intro hk
      have := congrArg List.length (Option.some.inj hk)
      simp only [aliasOf, if_pos hs, List.length_append, macString_length] at this
      simp at this
      omega
  simp only [isAlias, List.any_cons, List.any_nil, hr, Bool.true_and, Bool.or_false, decide_eq_false_iff_not]
  exact hne

/-- C81 applies: every proper frame leads to a port that has heard it, in legacy mode with or without a name. -/
theorem C81_heard (z : Nat) (hz : 1 ≤ z) (o : Own) (h : Proper o) (e : Env) (p : Port) (hp : p.received = true ∨ p.peer = Peer.empty z) :
    ∃ p', recv z e p (encAll (ownTlvs o) ++ (endMark 0 ++ [])) = some p' ∧ Heard z p' o := by
  have hch := ownChassis_length h
  have hk := knownAs_length h
  have hpl := h.port
  have hpo : (ownPort o).length ≤ 254 := by
    rw [ownPort_eq h]
    split
    · omega
    · simp; omega
  have hmac := h.mac
  have hal : (encAll (ownTlvs o) ++ (endMark 0 ++ [])).length ≤ 64000 := by
    simp only [encAll, ownTlvs, List.flatMap_cons, List.flatMap_nil, encTlv, List.length_append, List.length_cons,
      List.length_nil, enc16_length, enc32_length, hmac, endMark]
    omega
  rcases parse_framed hz hal ⟨0, [], by omega, rfl⟩ (regular_own o hch (by omega) h.mac) (oneName_own o 1 _ (.inl rfl))
    (oneName_own o 2 _ (.inr rfl)) with k | k
  · obtain ⟨q, k1, k2, k3, k4⟩ := k
    rw [saysAll_own z o hch (by omega) h.mac] at k2
    have hv := (Option.some.inj k2).symm
    refine ⟨updatePeer e p q, by unfold recv; rw [k1]; rfl, ?_⟩
    unfold updatePeer
    simp only
    by_cases hq : q = (restartTimer e p q.ttl.toNat).peer
    · rw [if_pos hq]
      have hq' : q = p.peer := hq
      rcases hp with hp | hp
      · exact ⟨hp, by show view p.peer = _; rw [← hq']; exact hv, by show Tidy z p.peer; rw [← hq']; exact k4, h⟩
      · exfalso
        have : (view q).ttl = 20 := by rw [hv]; rfl
        rw [hq', hp] at this
        exact absurd this (by show ¬(0 : Nat) = 20; omega)
    · rw [if_neg hq]
      exact ⟨rfl, hv, k4, h⟩
  · rw [saysAll_own z o hch (by omega) h.mac] at k
    exact nomatch k.2

end Verif.Lldp
