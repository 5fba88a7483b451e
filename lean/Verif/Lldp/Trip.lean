import Verif.Lldp.Frame
/-! A frame that the device sends is understood by a neighbour with the same software. -/
set_option linter.unusedSimpArgs false
set_option linter.unusedVariables false

namespace Verif.Lldp

open Verif.Wire

/-- The fields the device sends. -/
def ownTlvs (o : Own) : List Tlv :=
  [(1, (ownChassis o).1 :: (ownChassis o).2), (2, 7 :: ownPort o), (3, enc16 true 20),
   (127, [0x00, 0x0e, 0xcf, 2, 0, 0, 0, 0]), (127, [0x00, 0x0e, 0xcf, 5] ++ o.deviceMac),
   (127, [0x00, 0x12, 0x0f, 1, (if o.link.autoSupported then 1 else 0) ||| (if o.link.autoEnabled then 2 else 0)] ++
     (enc16 true o.link.caps ++ enc16 true o.link.mau)),
   (8, [5, 1] ++ enc32 true o.ip ++ [2] ++ enc32 true o.ifNumber ++ [0])]

/-- The head of the Ethernet frame. -/
def ethHead (o : Own) : List Byte := [0x01, 0x80, 0xc2, 0x00, 0x00, 0x0e] ++ o.portMac ++ enc16 true 0x88cc

theorem writes_putTlv {t n : Nat} (hn : n < 256) : Writes (putTlv t n) (enc16 true (BitVec.ofNat 16 (t * 512 + n))) := by
  unfold putTlv
  rw [Nat.mod_eq_of_lt hn]
  exact writes_putU16 true _

theorem wcast {w : W} {x y : List Byte} (h : Writes w x) (e : x = y) : Writes w y := e ▸ h

theorem tlv_eq {t n : Nat} {v : List Byte} (h : v.length = n) :
    encTlv (t, v) = enc16 true (BitVec.ofNat 16 (t * 512 + n)) ++ v := by
  unfold encTlv
  rw [h]

theorem writes_putId {t : Nat} {b : Byte} {s : List Byte} (hs : s.length < 255) :
    Writes (putId t b s) (encTlv (t, b :: s)) := by
  unfold putId
  refine wcast (((writes_putTlv (by omega)).seq (writes_putByte b)).seq (writes_putMem s)) ?_
  simp [encTlv, Nat.add_comm]

theorem writes_putOrg {a b c : Byte} {n : Nat} (hn : n < 250) :
    Writes (putOrg [a, b, c] n) (enc16 true (BitVec.ofNat 16 (127 * 512 + (n + 3))) ++ [a, b, c]) := by
  unfold putOrg
  exact wcast ((((writes_putTlv (by omega)).seq (writes_putByte a)).seq (writes_putByte b)).seq (writes_putByte c)) (by simp)

theorem writes_raw (d : List Byte) :
    Writes (fun w => (writeAt w.buf w.pos d).map fun b => { w with buf := b, pos := w.pos + d.length }) d := by
  intro x hc hp
  refine ⟨_, writeAt_eq_some (by omega), ?_⟩
  show Option.map _ (writeAt x.buf x.pos d) = _
  rw [writeAt_eq_some (by omega)]
  rfl

theorem w0 (o : Own) : Writes (putEth o.portMac) (ethHead o) :=
  ((writes_putMem _).seq (writes_putMem _)).seq (writes_putU16 true _)

theorem w1 (o : Own) (h1 : (ownChassis o).2.length ≤ 240) : Writes (putId 1 (ownChassis o).1 (ownChassis o).2) (encTlv (1, (ownChassis o).1 :: (ownChassis o).2)) :=
  writes_putId (by omega)

theorem w2 (o : Own) (h2 : (ownPort o).length ≤ 254) : Writes (putId 2 7 (ownPort o)) (encTlv (2, 7 :: ownPort o)) := writes_putId (by omega)

theorem w3 (o : Own) : Writes putTtl (encTlv (3, enc16 true 20)) :=
  wcast ((writes_putTlv (by omega)).seq (writes_putU16 true 20)) (by simp [encTlv, enc16_length])

theorem w4 (o : Own) : Writes putStatus (encTlv (127, [0x00, 0x0e, 0xcf, 2, 0, 0, 0, 0])) := by
  unfold putStatus
  refine wcast ((((writes_putOrg (by omega)).seq (writes_putByte 2)).seq (writes_putU16 true 0)).seq
    (writes_putU16 true 0)) ?_
  simp [encTlv, enc16]

theorem w5 (o : Own) (h3 : o.deviceMac.length = 6) : Writes (putMac o.deviceMac) (encTlv (127, [0x00, 0x0e, 0xcf, 5] ++ o.deviceMac)) := by
  unfold putMac
  refine wcast (((writes_putOrg (by omega)).seq (writes_putByte 5)).seq (writes_raw o.deviceMac)) ?_
  rw [tlv_eq (n := 7 + 3) (by rw [List.length_append, h3]; rfl)]
  simp only [List.append_assoc, List.cons_append, List.nil_append]

theorem w6 (o : Own) : Writes (putLink o.link) (encTlv (127, [0x00, 0x12, 0x0f, 1,
      (if o.link.autoSupported then 1 else 0) ||| (if o.link.autoEnabled then 2 else 0)] ++
      (enc16 true o.link.caps ++ enc16 true o.link.mau))) := by
  unfold putLink
  refine wcast (((((writes_putOrg (by omega)).seq (writes_putByte 1)).seq (writes_putByte _)).seq (writes_putU16 true _)).seq
    (writes_putU16 true _)) ?_
  rw [tlv_eq (n := 6 + 3) (by rw [List.length_append, List.length_append, enc16_length, enc16_length]; rfl)]
  simp only [List.append_assoc, List.cons_append, List.nil_append]

theorem w7 (o : Own) : Writes (putMgmt (ownMgmt o)) (encTlv (8, [5, 1] ++ enc32 true o.ip ++ [2] ++ enc32 true o.ifNumber ++ [0])) := by
  unfold putMgmt
  refine wcast (((((((writes_putTlv (by omega)).seq (writes_putByte _)).seq (writes_putByte _)).seq (writes_putMem _)).seq
    (writes_putByte _)).seq (writes_putU32 true _)).seq (writes_putByte 0)) ?_
  have e : (ownMgmt o).value.take (ownMgmt o).len = enc32 true o.ip := by
    show (enc32 true o.ip ++ List.replicate 27 0).take 4 = _
    rw [List.take_append_of_le_length (by simp [enc32_length]), List.take_of_length_le (by simp [enc32_length])]
  rw [e]
  simp [encTlv, enc32_length, ownMgmt]

theorem w8 (o : Own) : Writes (putTlv 0 0) (endMark 0) := wcast (writes_putTlv (by omega)) (by simp [endMark])

/-- What is written. -/
theorem writes_construct (o : Own) (h1 : (ownChassis o).2.length ≤ 240) (h2 : (ownPort o).length ≤ 254)
    (h3 : o.deviceMac.length = 6) : Writes (construct o) (ethHead o ++ encAll (ownTlvs o) ++ endMark 0) := by
  unfold construct
  refine wcast (((((((((w0 o).seq (w1 o h1)).seq (w2 o h2)).seq (w3 o)).seq (w4 o)).seq (w5 o h3)).seq (w6 o)).seq (w7 o)).seq (w8 o)) ?_
  simp only [encAll, ownTlvs, List.flatMap_cons, List.flatMap_nil, List.append_assoc, List.append_nil, List.cons_append]

theorem num_enc16 (v : U16) : num (enc16 true v) = v.toNat := by
  have := v.isLt
  show num [BitVec.ofNat 8 (v.toNat / 256), BitVec.ofNat 8 (v.toNat % 256)] = _
  simp only [num, List.foldl_cons, List.foldl_nil, BitVec.toNat_ofNat]
  omega

theorem num_enc32 (v : U32) : num (enc32 true v) = v.toNat := by
  have := v.isLt
  show num [BitVec.ofNat 8 (v.toNat / 16777216), BitVec.ofNat 8 (v.toNat / 65536 % 256),
    BitVec.ofNat 8 (v.toNat / 256 % 256), BitVec.ofNat 8 (v.toNat % 256)] = _
  simp only [num, List.foldl_cons, List.foldl_nil, BitVec.toNat_ofNat]
  omega

theorem enc16_eq (v : U16) : ∃ a b, enc16 true v = [a, b] := ⟨_, _, rfl⟩
theorem enc32_eq (v : U32) : ∃ a b c d, enc32 true v = [a, b, c, d] := ⟨_, _, _, _, rfl⟩

/-- What the device tells its neighbours. -/
def ownView (o : Own) : View where
  chassis := some (ownChassis o)
  port := some (7, ownPort o)
  ttl := 20
  desc := none
  mgmt := some (enc32 true o.ip, 2, o.ifNumber.toNat)
  delay := none
  status := [0, 0, 0, 0]
  mac := o.deviceMac
  link := some (o.link.autoSupported, o.link.autoEnabled, o.link.caps.toNat, o.link.mau.toNat)

theorem saysAll_own (z : Nat) (o : Own) (h1 : (ownChassis o).2.length ≤ 240) (h2 : (ownPort o).length ≤ 255)
    (h3 : o.deviceMac.length = 6) : saysAll z (ownTlvs o) View.empty = some (ownView o) := by
  unfold ownTlvs
  have s1 : ∀ w : View, says z (1, (ownChassis o).1 :: (ownChassis o).2) w = some { w with chassis := some (ownChassis o) } := by
    intro w
    show some (ite _ _ _) = _
    rw [if_neg (by simp only [List.length_cons]; omega)]
    rfl
  have s2 : ∀ w : View, says z (2, 7 :: ownPort o) w = some { w with port := some (7, ownPort o) } := by
    intro w
    show some (ite _ _ _) = _
    rw [if_neg (by simp only [List.length_cons]; omega)]
    rfl
  have s3 : ∀ w : View, says z (3, enc16 true 20) w = some { w with ttl := 20 } := by
    intro w
    show (if (enc16 true 20).length = 2 then _ else none) = _
    rw [if_pos (enc16_length _ _)]
    rfl
  have s4 : ∀ w : View, says z (127, [0x00, 0x0e, 0xcf, 2, 0, 0, 0, 0]) w = some { w with status := [0, 0, 0, 0] } := by
    intro w
    rfl
  have s5 : ∀ w : View, says z (127, [0x00, 0x0e, 0xcf, 5] ++ o.deviceMac) w = some { w with mac := o.deviceMac } := by
    intro w
    obtain ⟨a, b, c, d, e, f, hm⟩ : ∃ a b c d e f, o.deviceMac = [a, b, c, d, e, f] := by
      match o.deviceMac, h3 with
      | [a, b, c, d, e, f], _ => exact ⟨a, b, c, d, e, f, rfl⟩
    rw [hm]
    rfl
  have s6 : ∀ w : View, says z (127, [0x00, 0x12, 0x0f, 1,
      (if o.link.autoSupported then 1 else 0) ||| (if o.link.autoEnabled then 2 else 0)] ++
      (enc16 true o.link.caps ++ enc16 true o.link.mau)) w =
      some { w with link := some (o.link.autoSupported, o.link.autoEnabled, o.link.caps.toNat, o.link.mau.toNat) } := by
    intro w
    have n1 := num_enc16 o.link.caps
    have n2 := num_enc16 o.link.mau
    obtain ⟨a, b, e1⟩ := enc16_eq o.link.caps
    obtain ⟨c, d, e2⟩ := enc16_eq o.link.mau
    rw [e1] at n1 ⊢
    rw [e2] at n2 ⊢
    rw [← n1, ← n2]
    cases o.link.autoSupported <;> cases o.link.autoEnabled <;> simp [says, saysOrg, part]
  have s7 : ∀ w : View, says z (8, [5, 1] ++ enc32 true o.ip ++ [2] ++ enc32 true o.ifNumber ++ [0]) w =
      some { w with mgmt := some (enc32 true o.ip, 2, o.ifNumber.toNat) } := by
    intro w
    have n1 := num_enc32 o.ifNumber
    obtain ⟨a, b, c, d, e1⟩ := enc32_eq o.ip
    obtain ⟨a', b', c', d', e2⟩ := enc32_eq o.ifNumber
    rw [e2] at n1 ⊢
    rw [e1, ← n1]
    rfl
  simp only [saysAll, s1, s2, s3, s4, s5, s6, s7, Option.bind_some]
  rfl

theorem regular_own (o : Own) (h1 : (ownChassis o).2.length ≤ 240) (h2 : (ownPort o).length ≤ 255)
    (h3 : o.deviceMac.length = 6) : ∀ x ∈ ownTlvs o, Regular x := by
  intro x hx
  simp only [ownTlvs, List.mem_cons, List.not_mem_nil, or_false] at hx
  rcases hx with rfl | rfl | rfl | rfl | rfl | rfl | rfl
  · exact ⟨by simp, by simp, by simp; omega, by simp, by simp⟩
  · exact ⟨by simp, by simp, by simp; omega, by simp, by simp⟩
  · exact ⟨by simp, by simp, by simp [enc16_length], by simp, by simp⟩
  · exact ⟨by simp, by simp, by simp, by simp, by simp⟩
  · exact ⟨by simp, by simp, by simp [h3], by simp, by simp⟩
  · exact ⟨by simp, by simp, by simp [enc16_length], by simp, by simp⟩
  · refine ⟨by simp, by simp, by simp [enc32_length], ?_, by simp⟩
    intro _
    obtain ⟨a, b, c, d, e1⟩ := enc32_eq o.ip
    obtain ⟨a', b', c', d', e2⟩ := enc32_eq o.ifNumber
    rw [e1, e2]
    exact ⟨by simp, fun _ _ => ⟨by show 5 + 7 ≤ 12; omega, rfl⟩⟩

theorem oneName_own (o : Own) (t size : Nat) (ht : t = 1 ∨ t = 2) : oneName t size (ownTlvs o) := by
  left
  rcases ht with rfl | rfl
  · simp [ownTlvs]
  · simp [ownTlvs]

/-! ## Names -/

theorem takeWhile_all {α} {p : α → Bool} {d r : List α} (hd : ∀ x ∈ d, p x = true) (hr : ∀ x, r.head? = some x → p x = false) :
    (d ++ r).takeWhile p = d := by
  induction d with
  | nil =>
    cases r with
    | nil => rfl
    | cons x r => rw [List.nil_append, List.takeWhile_cons_of_neg (by simp [hr x rfl])]
  | cons x d ih =>
    rw [List.cons_append, List.takeWhile_cons_of_pos (hd x (by simp)), ih fun y hy => hd y (by simp [hy])]

theorem dropWhile_all {α} {p : α → Bool} {d r : List α} (hd : ∀ x ∈ d, p x = true) (hr : ∀ x, r.head? = some x → p x = false) :
    (d ++ r).dropWhile p = r := by
  induction d with
  | nil =>
    cases r with
    | nil => rfl
    | cons x r => rw [List.nil_append, List.dropWhile_cons_of_neg (by simp [hr x rfl])]
  | cons x d ih =>
    rw [List.cons_append, List.dropWhile_cons_of_pos (hd x (by simp)), ih fun y hy => hd y (by simp [hy])]

theorem cstr_of {s d : List Byte} {n : Nat} (h1 : s.take n = d) (h2 : s[n]? = some 0) (h3 : ∀ x ∈ d, x ≠ 0) : cstr s = d := by
  have hn : n < s.length := (List.getElem?_eq_some_iff.1 h2).1
  have e : s = d ++ s.drop n := by rw [← h1, List.take_append_drop]
  unfold cstr
  rw [e]
  refine takeWhile_all (fun x hx => by simpa using h3 x hx) ?_
  intro x hx
  rw [List.head?_drop, h2] at hx
  cases hx
  rfl

theorem hex_ne : ∀ n, n < 16 → hex n ≠ 0 ∧ hex n ≠ 46 := by decide

theorem macString_no_zero (m : List Byte) : ∀ x ∈ macString m, x ≠ 0 := by
  intro x hx
  have h2 : ∀ b : Byte, ∀ y ∈ hex2 b, y ≠ 0 := by
    intro b y hy
    have := b.isLt
    simp only [hex2, List.mem_cons, List.not_mem_nil, or_false] at hy
    rcases hy with rfl | rfl
    · exact (hex_ne _ (by omega)).1
    · exact (hex_ne _ (by omega)).1
  simp only [macString, List.mem_append, List.mem_cons, List.not_mem_nil, or_false] at hx
  have dash : (45 : Byte) ≠ 0 := by decide
  rcases hx with (((((((((hx | hx) | hx) | hx) | hx) | hx) | hx) | hx) | hx) | hx) | hx
  all_goals first | exact h2 _ x hx | exact hx ▸ dash

theorem macString_length (m : List Byte) : (macString m).length = 17 := by simp [macString, hex2]

/-- The name by which neighbours know the device: the station name, or its address if it has none. -/
def knownAs (o : Own) : List Byte := if o.station = [] then macString o.deviceMac else o.station

/-- Names as they can be set: no zero, the station name at most 240 bytes, the port name at most 13 bytes without a dot (it is `port-001`). -/
structure Proper (o : Own) : Prop where
  station : o.station.length ≤ 240
  station0 : ∀ x ∈ o.station, x ≠ 0
  sysDesc : o.sysDesc.length ≤ 240
  port : o.portName.length ≤ 13
  port0 : ∀ x ∈ o.portName, x ≠ 0 ∧ x ≠ 46
  mac : o.deviceMac.length = 6
  portMac : o.portMac.length = 6

theorem knownAs_length {o : Own} (h : Proper o) : (knownAs o).length ≤ 240 := by
  unfold knownAs
  split
  · rw [macString_length]; omega
  · exact h.station

theorem knownAs_no_zero {o : Own} (h : Proper o) : ∀ x ∈ knownAs o, x ≠ 0 := by
  unfold knownAs
  split
  · exact macString_no_zero _
  · exact h.station0

theorem ownPort_eq {o : Own} (h : Proper o) : ownPort o = if o.legacy then o.portName else o.portName ++ [46] ++ knownAs o := by
  have := h.port
  have hk := knownAs_length h
  unfold ownPort
  split
  · exact List.take_of_length_le (by omega)
  · have e : (if o.station.length = 0 then macString o.deviceMac else o.station) = knownAs o := by
      unfold knownAs
      by_cases hs : o.station = []
      · rw [if_pos hs, if_pos (by simp [hs])]
      · rw [if_neg hs, if_neg (by simpa using hs)]
    rw [e]
    exact List.take_of_length_le (by simp; omega)

theorem ownChassis_length {o : Own} (h : Proper o) : (ownChassis o).2.length ≤ 240 := by
  have := h.station
  have := h.sysDesc
  have := h.mac
  unfold ownChassis
  repeat' split
  · show o.deviceMac.length ≤ 240; omega
  · show o.station.length ≤ 240; omega
  · show o.sysDesc.length ≤ 240; omega

theorem viewId_some {x : Id} {a : Byte} {d : List Byte} (h : viewId x = some (a, d)) :
    x.valid = true ∧ x.subtype = a ∧ x.str.take x.len = d := by
  unfold viewId at h
  split at h
  · rename_i hv
    obtain ⟨h1, h2⟩ := Prod.mk.inj (Option.some.inj h)
    exact ⟨hv, h1, h2⟩
  · cases h

theorem peer_names {z : Nat} {o : Own} {q : Peer} (h : Proper o) (hv : view q = ownView o) (ht : Tidy z q) :
    peerStation q = knownAs o ∧ peerPortName q = o.portName := by
  have hp : viewId q.port = some (7, ownPort o) := congrArg View.port hv
  have hc : viewId q.chassis = some ((ownChassis o).1, (ownChassis o).2) := congrArg View.chassis hv
  obtain ⟨p1, p2, p3⟩ := viewId_some hp
  obtain ⟨c1, c2, c3⟩ := viewId_some hc
  have tp := ht.port p1
  have tc := ht.chassis c1
  have np : ∀ x ∈ ownPort o, x ≠ 0 := by
    rw [ownPort_eq h]
    intro x hx
    split at hx
    · exact (h.port0 x hx).1
    · simp only [List.mem_append, List.mem_cons, List.not_mem_nil, or_false] at hx
      rcases hx with (hx | rfl) | hx
      · exact (h.port0 x hx).1
      · decide
      · exact knownAs_no_zero h x hx
  have sp : cstr q.port.str = ownPort o := cstr_of p3 tp.2 np
  constructor
  · unfold peerStation
    rw [sp, ownPort_eq h]
    cases hl : o.legacy with
    | false =>
      simp only [Bool.false_eq_true, if_false]
      rw [if_pos ⟨p1, by simp⟩]
      rw [List.append_assoc, dropWhile_all (fun x hx => by simpa using (h.port0 x hx).2) (by simp)]
      have := knownAs_length h
      show (knownAs o).take _ = _
      exact List.take_of_length_le (by omega)
    | true =>
      simp only [if_true]
      rw [if_neg (fun k => (h.port0 _ k.2).2 rfl), if_pos c1]
      unfold ownChassis at c2 c3
      rw [hl, if_pos rfl] at c2 c3
      unfold knownAs
      by_cases hs : o.station = []
      · rw [if_pos (by left; simp [hs])] at c2 c3
        rw [if_neg (by rw [c2]; simp), if_pos hs]
        have hm := h.mac
        have hlen : q.chassis.len = 6 ∨ (6 ≤ q.chassis.len) := by
          right
          have : (q.chassis.str.take q.chassis.len).length = 6 := by rw [c3]; exact hm
          simp at this; omega
        have hle : 6 ≤ q.chassis.len := by omega
        have get : ∀ i, i < 6 → q.chassis.str.getD i 0 = o.deviceMac.getD i 0 := by
          intro i hi
          have c3' : List.take q.chassis.len q.chassis.str = o.deviceMac := c3
          rw [← c3']
          simp only [List.getD_eq_getElem?_getD, List.getElem?_take]
          rw [if_pos (by omega)]
        unfold macString
        rw [get 0 (by omega), get 1 (by omega), get 2 (by omega), get 3 (by omega), get 4 (by omega), get 5 (by omega)]
      · have hsl := h.station
        have hne : o.station.length ≠ 0 := by simpa using hs
        rw [if_neg (by omega)] at c2 c3
        rw [if_pos (by rw [c2]; simp), if_neg hs, cstr_of c3 tc.2 h.station0]
        exact List.take_of_length_le hsl
  · unfold peerPortName
    rw [if_pos p1, p3, ownPort_eq h]
    have hpl := h.port
    have e : (if o.legacy then o.portName else o.portName ++ [46] ++ knownAs o) =
        o.portName ++ (if o.legacy then [] else [46] ++ knownAs o) := by
      split <;> simp
    rw [e, takeWhile_all (fun x hx => by simpa using h.port0 x hx) (by
      intro x hx
      split at hx
      · cases hx
      · cases hx; rfl)]
    exact List.take_of_length_le (by omega)

/-- What the device sends, a neighbour understands. -/
theorem round_trip {z : Nat} (hz : 1 ≤ z) {o : Own} (h : Proper o) (x : Wr) (hc : x.cap ≤ x.buf.length) (h0 : x.pos = 0)
    (hcap : 600 ≤ x.cap) :
    ∃ w q, construct o x = some w ∧ parse z ((w.buf.take w.pos).drop 14) = some (some q) ∧ view q = ownView o ∧
      peerStation q = knownAs o ∧ peerPortName q = o.portName := by
  have hch := ownChassis_length h
  have hk := knownAs_length h
  have hpl := h.port
  have hpo : (ownPort o).length ≤ 254 := by
    rw [ownPort_eq h]
    split
    · omega
    · simp; omega
  have hw := writes_construct o hch hpo h.mac
  have hmac := h.mac
  have hel : (ethHead o).length = 14 := by simp [ethHead, h.portMac, enc16_length]
  have hal : (encAll (ownTlvs o)).length ≤ 560 := by
    simp only [encAll, ownTlvs, List.flatMap_cons, List.flatMap_nil, encTlv, List.length_append, List.length_cons,
      List.length_nil, enc16_length, enc32_length, hmac]
    omega
  have hml : (endMark 0).length = 2 := rfl
  obtain ⟨b, hb, e⟩ := hw x hc (by simp only [List.length_append, hel, hml]; omega)
  obtain ⟨data, hd⟩ : ∃ data, data = encAll (ownTlvs o) ++ endMark 0 := ⟨_, rfl⟩
  have hdl : data.length ≤ 562 := by rw [hd, List.length_append, hml]; omega
  have hcut : ((b.take (x.pos + (ethHead o ++ encAll (ownTlvs o) ++ endMark 0).length)).drop 14) = data := by
    rw [h0] at hb
    have := slice_writeAt_same hb
    unfold slice at this
    split at this
    · have := Option.some.inj this
      rw [List.drop_zero] at this
      rw [h0, Nat.zero_add, this, List.append_assoc, ← hd, List.drop_append, hel, List.drop_eq_nil_of_le (by omega)]
      simp
    · cases this
  have hfr : Framed (ownTlvs o) data := ⟨0, [], by omega, by rw [hd, List.append_nil]⟩
  rcases parse_framed hz (by omega) hfr (regular_own o hch (by omega) h.mac) (oneName_own o 1 _ (.inl rfl))
    (oneName_own o 2 _ (.inr rfl)) with k | k
  · obtain ⟨q, k1, k2, k3, k4⟩ := k
    rw [saysAll_own z o hch (by omega) h.mac] at k2
    have hv := (Option.some.inj k2).symm
    exact ⟨_, q, e, by rw [hcut]; exact k1, hv, peer_names h hv k4⟩
  · rw [saysAll_own z o hch (by omega) h.mac] at k
    cases k.2

end Verif.Lldp
