import Verif.Snmp.Model
import Verif.Lldp.Props
/-! C123, C124: what SNMP is told about the link, and about the neighbour on a port. -/
set_option linter.unusedVariables false
set_option linter.unusedSimpArgs false

namespace Verif.Snmp
open Verif.Wire Verif.Lldp

/-! ## C123: capabilities -/

/-- Named bit `k` of a value of type BITS in two octets: the first bit is the highest one of the first octet (RFC 1906,
chapter 8). -/
def named (k : Nat) (c0 c1 : Byte) : Bool := (if k < 8 then c0 else c1).getLsbD (7 - k % 8)

/-- The number of a capability in the MAU MIB (RFC 4836, `IANAifMauAutoNegCapBits`) and its bit in
`PNAL_ETH_AUTONEG_CAP_…` (src/pnal.h:61-69): unknown or other, 10BASE-T, 10BASE-T full duplex, 100BASE-TX, 100BASE-TX full
duplex, 1000BASE-X, 1000BASE-X full duplex, 1000BASE-T, 1000BASE-T full duplex. -/
def capabilities : List (Nat × Nat) :=
  [(0, 15), (1, 14), (2, 13), (4, 11), (5, 10), (12, 3), (13, 2), (14, 1), (15, 0)]

theorem reversed_all : ∀ n < 256, ∀ i < 8, (reversed (BitVec.ofNat 8 n)).getLsbD i = (BitVec.ofNat 8 n).getLsbD (7 - i) := by
  decide +kernel

theorem reversed_bit (b : Byte) {i : Nat} (hi : i < 8) : (reversed b).getLsbD i = b.getLsbD (7 - i) := by
  have h := reversed_all b.toNat b.isLt i hi
  rwa [BitVec.ofNat_toNat, BitVec.setWidth_eq] at h

theorem low_bit (c : U16) {i : Nat} (hi : i < 8) : ((c &&& 0xff).setWidth 8).getLsbD i = c.getLsbD i := by
  rw [BitVec.getLsbD_setWidth, BitVec.getLsbD_and]
  have : ∀ i < 8, (0xff : U16).getLsbD i = true := by decide
  rw [this i hi]
  simp [hi]

theorem high_bit (c : U16) {i : Nat} (hi : i < 8) : (((c >>> 8) &&& 0xff).setWidth 8).getLsbD i = c.getLsbD (i + 8) := by
  rw [BitVec.getLsbD_setWidth, BitVec.getLsbD_and, BitVec.getLsbD_ushiftRight]
  have : ∀ i < 8, (0xff : U16).getLsbD i = true := by decide
  rw [this i hi]
  simp [hi, Nat.add_comm]

/-- C123 (bits): the bits of the 16 bit value become the named bits in order, the lowest one first; nothing is lost and
nothing is added. -/
theorem C123_bits (l : Link) {k : Nat} (hk : k < 16) :
    named k (encLink l).cap0 (encLink l).cap1 = l.caps.getLsbD k := by
  unfold named encLink
  dsimp only
  by_cases c : k < 8
  · rw [if_pos c, reversed_bit _ (by omega), Nat.mod_eq_of_lt c, low_bit _ (by omega)]
    congr 1
    omega
  · rw [if_neg c, reversed_bit _ (by omega), high_bit _ (by omega)]
    congr 1
    omega

/-- C123 (the rest of the answer), with what is missing: truth values are 1 and 2, the type of the MAU is unchanged, two
links with the same answer are the same.  Missing: that a capability is shown under its own number (C123_fails_order). -/
theorem C123_link_partial (l l' : Link) :
    ((encLink l).supported = 1 ↔ l.autoSupported = true) ∧ ((encLink l).supported = 2 ↔ l.autoSupported = false) ∧
    ((encLink l).enabled = 1 ↔ l.autoEnabled = true) ∧ ((encLink l).enabled = 2 ↔ l.autoEnabled = false) ∧
    (encLink l).mau = l.mau ∧
    (encLink l = encLink l' → l.autoSupported = l'.autoSupported ∧ l.autoEnabled = l'.autoEnabled ∧ l.caps = l'.caps ∧
      l.mau = l'.mau) := by
  refine ⟨?_, ?_, ?_, ?_, rfl, ?_⟩
  · unfold encLink; cases l.autoSupported <;> simp
  · unfold encLink; cases l.autoSupported <;> simp
  · unfold encLink; cases l.autoEnabled <;> simp
  · unfold encLink; cases l.autoEnabled <;> simp
  · intro h
    refine ⟨?_, ?_, ?_, congrArg LinkAnswer.mau h⟩
    · have := congrArg LinkAnswer.supported h
      revert this
      unfold encLink
      cases l.autoSupported <;> cases l'.autoSupported <;> simp
    · have := congrArg LinkAnswer.enabled h
      revert this
      unfold encLink
      cases l.autoEnabled <;> cases l'.autoEnabled <;> simp
    · apply BitVec.eq_of_getLsbD_eq
      intro i hi
      rw [← C123_bits l hi, ← C123_bits l' hi, h]

/-- C123 fails: every capability is shown under the number of another one, mirrored in the 16 numbers: a link that can do
the capability with number `k` and nothing else is shown to be able to do number `15 - k`, and not number `k`. -/
theorem C123_fails_order {k b : Nat} (h : (k, b) ∈ capabilities) (l : Link) (hl : l.caps = 1#16 <<< b) :
    named k (encLink l).cap0 (encLink l).cap1 = false ∧ named (15 - k) (encLink l).cap0 (encLink l).cap1 = true := by
  have hb : ∀ x ∈ capabilities, x.1 < 16 ∧ x.2 = 15 - x.1 ∧ (1#16 <<< x.2).getLsbD x.1 = false ∧
    (1#16 <<< x.2).getLsbD (15 - x.1) = true := by decide
  obtain ⟨h1, h2, h3, h4⟩ := hb (k, b) h
  rw [C123_bits l h1, C123_bits l (by omega), hl]
  exact ⟨h3, h4⟩

/-- C123 fails (seen on the network): the octets told to SNMP are not those in the LLDP frame of the same link; they are
these with all bits in the opposite order. -/
theorem C123_fails_frame (l : Link) {k : Nat} (hk : k < 16) : ∃ x y, enc16 true l.caps = [x, y] ∧
    named k (encLink l).cap0 (encLink l).cap1 = named (15 - k) x y := by
  refine ⟨_, _, rfl, ?_⟩
  rw [C123_bits l hk]
  unfold named
  by_cases c : k < 8
  · rw [if_neg (by omega)]
    have e : 7 - (15 - k) % 8 = k := by omega
    rw [e, BitVec.getLsbD_ofNat, show (256 : Nat) = 2 ^ 8 from rfl, Nat.testBit_mod_two_pow, BitVec.testBit_toNat]
    simp [c]
  · rw [if_pos (by omega)]
    have e : 7 - (15 - k) % 8 = k - 8 := by omega
    rw [e, BitVec.getLsbD_ofNat, show (256 : Nat) = 2 ^ 8 from rfl, Nat.testBit_div_two_pow, BitVec.testBit_toNat]
    have e2 : k - 8 < 8 := by omega
    have e3 : 8 + (k - 8) = k ∧ k - 8 + 8 = k := by omega
    simp [e2, e3.1, e3.2]

example : (5, 10) ∈ capabilities ∧ (⟨true, true, 0x0400, 16, true⟩ : Link).caps = 1#16 <<< 10 := by decide

/-! ## The address that is kept -/

/-- What holds of every result. -/
def Post {α} (p : P α) (Q : α → Prop) : Prop := ∀ r a r', p r = some (a, r') → Q a

theorem Post.pure {α} {Q : α → Prop} {a : α} (h : Q a) : Post (Pure.pure a : P α) Q := by
  intro r b r' e
  cases e
  exact h

theorem Post.bind {α β} {p : P α} {f : α → P β} {Q : β → Prop} (h : ∀ a, Post (f a) Q) : Post (p >>= f) Q := by
  intro r b r' e
  rw [P.bind_def] at e
  cases e1 : p r with
  | none => rw [e1] at e; cases e
  | some x => rw [e1] at e; exact h _ _ _ _ e

/-- An address that is marked as valid is an IPv4 address. -/
def V4 (p : Peer) : Prop := p.mgmt.valid = true → p.mgmt.subtype = 1 ∧ p.mgmt.len = 4

theorem post_orgSpec (n : Nat) {p : Peer} (h : V4 p) : Post (getOrgSpec n p) V4 := by
  unfold getOrgSpec
  refine Post.bind fun x => ?_
  split
  · split
    · exact Post.bind fun _ => Post.pure h
    split
    · exact Post.bind fun _ => Post.pure h
    split
    · exact Post.bind fun _ => Post.pure h
    · exact Post.bind fun _ => Post.pure h
  split
  · split
    · exact Post.bind fun _ => Post.pure h
    · exact Post.bind fun _ => Post.pure h
  · exact Post.bind fun _ => Post.pure h

theorem post_field (z t n : Nat) {p : Peer} (h : V4 p) : Post (getField z t n p) V4 := by
  unfold getField
  split
  · exact Post.bind fun _ => Post.pure h
  split
  · exact Post.bind fun _ => Post.pure h
  split
  · exact Post.bind fun _ => Post.pure h
  split
  · exact Post.bind fun _ => Post.pure h
  split
  · refine Post.bind fun x => Post.pure ?_
    split
    · rename_i c
      intro _
      simp only [Mgmt.isV4, Bool.and_eq_true, decide_eq_true_eq] at c
      exact ⟨c.1.2, c.2⟩
    · exact h
  split
  · exact post_orgSpec n h
  · exact Post.bind fun _ => Post.pure h

theorem post_fields (z : Nat) : ∀ (fuel : Nat) (tn : Nat × Nat) {p : Peer}, V4 p → Post (fields z fuel tn p) V4 := by
  intro fuel
  induction fuel with
  | zero => intro tn p h r a r' e; cases e
  | succ k ih =>
    intro tn p h
    unfold fields
    split
    · exact Post.pure h
    · intro r a r' e
      rw [P.bind_def] at e
      cases e1 : getField z tn.1 tn.2 p r with
      | none => rw [e1] at e; cases e
      | some x =>
        rw [e1] at e
        have hx := post_field z tn.1 tn.2 h r x.1 x.2 e1
        have e : (getTlv >>= fun tn' => fields z k tn' x.1) x.2 = some (a, r') := e
        exact Post.bind (fun tn' => ih tn' hx) _ _ _ e

theorem parse_v4 {z : Nat} {buf : List Byte} {q : Peer} (h : parse z buf = some (some q)) : V4 q := by
  unfold parse at h
  cases e : parseP z (atStart buf) with
  | none => rw [e] at h; cases h
  | some x =>
    rw [e] at h
    simp only [Option.map_some, Option.some.injEq] at h
    split at h
    · cases h
      unfold parseP at e
      exact Post.bind (fun tn => post_fields z manyFields tn (fun hv => Bool.noConfusion hv)) _ x.1 x.2 e
    · cases h

structure Kept (p : Port) : Prop where
  v4 : V4 p.peer
  size : p.peer.mgmt.value.length = 31

theorem kept_invalidate {p : Port} (h : Kept p) : Kept (invalidate p) := ⟨(nomatch ·), h.size⟩

theorem kept_step {z : Nat} (hz : 1 ≤ z) {tick : U32} {p p' : Port} (h : Kept p) {e : Ev}
    (hl : ∀ now armed data, e = .frame now armed data → data.length ≤ 64000) (he : Lldp.step z tick p e = some p') : Kept p' := by
  cases e with
  | frame now armed data =>
    obtain ⟨res, hp, hq⟩ := C77_any_frame z hz data (hl now armed data rfl)
    have he : recv z ⟨now, tick, armed⟩ p data = some p' := he
    unfold recv at he
    rw [hp] at he
    cases res with
    | none => cases he; exact h
    | some q =>
      cases he
      show Kept (updatePeer _ p q)
      unfold updatePeer
      dsimp only
      split
      · exact ⟨h.v4, h.size⟩
      · exact ⟨parse_v4 hp, (hq q rfl).2.2.2.1⟩
  | tick now =>
    cases he
    show Kept (tickRx now p)
    unfold tickRx
    split
    · split
      · exact ⟨(nomatch ·), h.size⟩
      · exact h
    · exact h
  | link up =>
    cases he
    show Kept (monitorLink up p)
    unfold monitorLink
    split
    · exact ⟨(nomatch ·), h.size⟩
    · exact ⟨h.v4, h.size⟩

theorem kept_run {z : Nat} (hz : 1 ≤ z) {tick : U32} : ∀ (es : List Ev) {p p' : Port}, Kept p →
    (∀ now armed data, .frame now armed data ∈ es → data.length ≤ 64000) → Lldp.run z tick p es = some p' → Kept p' := by
  intro es
  induction es with
  | nil => intro p p' h _ e; cases e; exact h
  | cons e es ih =>
    intro p p' h hl e1
    unfold Lldp.run at e1
    cases e2 : Lldp.step z tick p e with
    | none => rw [e2] at e1; cases e1
    | some p1 =>
      rw [e2] at e1
      exact ih (kept_step hz h (fun now armed data he => hl now armed data (by simp [he])) e2)
        (fun now armed data he => hl now armed data (by simp [he])) e1

theorem kept_init (z : Nat) : Kept (Port.init z) := ⟨(nomatch ·), List.length_replicate⟩

/-! ## C124 -/

/-- An IPv4 address as an index of SNMP: the length and the octets, in the array `out`. -/
def addrAnswer (out : AddrAnswer) (addr : List Byte) : AddrAnswer := ⟨[4] ++ addr ++ out.value.drop 5, 1, 5⟩

theorem encAddr_v4 {out : AddrAnswer} (ho : out.value.length = 32) {m : Mgmt} (hs : m.value.length = 31)
    (h : m.subtype = 1 ∧ m.len = 4) : encAddr out m = some (addrAnswer out (m.value.take 4)) := by
  obtain ⟨a, rest, ea⟩ : ∃ a rest, out.value = a :: rest := by
    cases e : out.value with
    | nil => rw [e] at ho; cases ho
    | cons a rest => exact ⟨a, rest, rfl⟩
  have hr : rest.length = 31 := by rw [ea] at ho; simpa using ho
  have ht : (m.value.take 4).length = 4 := by simp; omega
  unfold encAddr addrAnswer
  rw [h.1, h.2, ea]
  have e1 : writeAt (a :: rest) 0 [BitVec.ofNat 8 4] = some (4#8 :: rest) := by
    unfold writeAt
    rw [if_pos (by simp)]
    rfl
  have e2 : slice m.value 0 4 = some (m.value.take 4) := by
    unfold slice
    rw [if_pos (by omega)]
    rfl
  have e3 : writeAt (4#8 :: rest) 1 (m.value.take 4) = some ([4#8] ++ m.value.take 4 ++ rest.drop 4) := by
    unfold writeAt
    rw [if_pos (by simp; omega)]
    simp only [ht]
    rfl
  rw [e1, Option.bind_some, e2, Option.bind_some, e3]
  rfl

/-- C124: over every history of frames, scheduler runs and link states, SNMP is told about the neighbour on a port what
the frame says that is valid at the time (`Known`), field by field; for a field that is not known the answer is -1 and
nothing is filled in.  Nothing is written outside the arrays. -/
theorem C124_neighbour (z : Nat) (hz : 1 ≤ z) (tick : U32) (es : List Ev)
    (hl : ∀ now armed data, .frame now armed data ∈ es → data.length ≤ 64000) (addr : AddrAnswer)
    (ha : addr.value.length = 32) (index : Byte × U32) (delay : DelayAnswer) (link : LinkAnswer) :
    ∃ p, Lldp.run z tick (Port.init z) es = some p ∧
      let k := (Known.start.run z tick (accepts z) es).seen
      (match k.chassis with
        | none => (peerChassis p).1 = false
        | some (kind, name) => (peerChassis p).1 = true ∧ (peerChassis p).2.subtype = kind ∧
          (peerChassis p).2.str.take (peerChassis p).2.len = name) ∧
      (match k.port with
        | none => (peerPort p).1 = false
        | some (kind, name) => (peerPort p).1 = true ∧ (peerPort p).2.subtype = kind ∧
          (peerPort p).2.str.take (peerPort p).2.len = name) ∧
      (match k.desc with
        | none => (peerDesc p).1 = false
        | some d => (peerDesc p).1 = true ∧ (peerDesc p).2.str.take (peerDesc p).2.len = d) ∧
      (match k.mgmt with
        | none => peerAddr addr p = some (false, addr) ∧ peerIndex index p = (false, index)
        | some (a, kind, number) => a.length = 4 ∧ peerAddr addr p = some (true, addrAnswer addr a) ∧
          peerIndex index p = (true, kind, BitVec.ofNat 32 number)) ∧
      (match k.delay with
        | none => peerDelay delay p = (false, delay)
        | some (rx, _, tx, _, cable) =>
          peerDelay delay p = (true, ⟨BitVec.ofNat 32 tx, BitVec.ofNat 32 rx, BitVec.ofNat 32 cable⟩)) ∧
      (match k.link with
        | none => peerLink link p = (false, link)
        | some (s, e, caps, mau) =>
          peerLink link p = (true, encLink ⟨s, e, BitVec.ofNat 16 caps, BitVec.ofNat 16 mau, true⟩)) := by
  obtain ⟨p, e, hs, -, -⟩ := C80_last_frame_partial z hz tick es hl
  have hk := kept_run hz es (kept_init z) hl e
  refine ⟨p, e, ?_⟩
  rw [← hs]
  unfold seen Seen.of view
  dsimp only
  refine ⟨?_, ?_, ?_, ?_, ?_, ?_⟩
  · unfold viewId peerChassis
    cases hv : p.peer.chassis.valid
    · rfl
    · exact ⟨rfl, rfl, rfl⟩
  · unfold viewId peerPort
    cases hv : p.peer.port.valid
    · rfl
    · exact ⟨rfl, rfl, rfl⟩
  · unfold peerDesc
    cases hv : p.peer.desc.valid
    · rfl
    · exact ⟨rfl, rfl⟩
  · unfold peerAddr peerIndex
    cases hv : p.peer.mgmt.valid
    · exact ⟨rfl, rfl⟩
    · have h4 := hk.v4 hv
      have hsz := hk.size
      simp only [if_true]
      rw [h4.2]
      refine ⟨by rw [List.length_take, hsz]; rfl, ?_, ?_⟩
      · rw [encAddr_v4 ha hsz h4]
        rfl
      · rw [BitVec.ofNat_toNat, BitVec.setWidth_eq]
  · unfold peerDelay
    cases hv : p.peer.delay.valid
    · rfl
    · simp [encDelay]
  · unfold peerLink
    cases hv : p.peer.link.valid
    · rfl
    · simp [encLink]

/-- C124 (the device itself): the address that is told is the own one, most significant byte first. -/
theorem C124_own (addr : AddrAnswer) (ha : addr.value.length = 32) (o : Own) :
    ownAddr addr o = some (addrAnswer addr (enc32 true o.ip)) := by
  unfold ownAddr
  have hl : (enc32 true o.ip).length = 4 := enc32_length _ _
  rw [encAddr_v4 ha (by show (enc32 true o.ip ++ List.replicate 27 (0 : Byte)).length = 31; simp [hl]) ⟨rfl, rfl⟩]
  show some (addrAnswer addr ((enc32 true o.ip ++ List.replicate 27 (0 : Byte)).take 4)) = _
  rw [List.take_left' hl]

/-- A neighbour that was heard: the address is told. -/
example (tick : U32) : ∃ p, Lldp.run 60 tick (Port.init 60)
      [.frame 0 true (encAll (ownTlvs exampleOwn) ++ (endMark 0 ++ []))] = some p :=
  (C124_neighbour 60 (by omega) tick _ (by
    intro now armed data h
    simp only [List.mem_cons, List.not_mem_nil, or_false, Ev.frame.injEq] at h
    rw [h.2.2]
    decide) ⟨List.replicate 32 0, 0, 0⟩ rfl (0, 0) ⟨0, 0, 0⟩ ⟨0, 0, 0, 0, 0⟩).imp fun p h => h.1

end Verif.Snmp
