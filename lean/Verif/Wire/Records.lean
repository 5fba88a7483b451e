import Verif.Wire.Codec
/-! Bit fields, and the records that are both written and read. -/
set_option linter.unusedSimpArgs false
set_option linter.unusedVariables false

namespace Verif.Wire

/-! ## Bit fields -/

theorem mask_toNat {l : Nat} (h : l < 32) : ((1#32 <<< l) - 1#32).toNat = 2 ^ l - 1 := by
  have h1 : 2 ^ l < 2 ^ 32 := Nat.pow_lt_pow_right (by omega) h
  have h2 : 0 < 2 ^ l := Nat.two_pow_pos l
  have e : (1#32 <<< l).toNat = 2 ^ l := by
    simp [BitVec.toNat_shiftLeft, Nat.shiftLeft_eq, Nat.mod_eq_of_lt h1]
  have h3 : (2 : Nat) ^ 32 = 4294967296 := by decide
  rw [BitVec.toNat_sub, e]
  simp only [BitVec.toNat_ofNat]
  omega

theorem getLsbD_mask {l i : Nat} (h : l < 32) : ((1#32 <<< l) - 1#32).getLsbD i = decide (i < l) := by
  rw [← BitVec.testBit_toNat, mask_toNat h, Nat.testBit_two_pow_sub_one]

/-- Value of an extracted field. -/
theorem getBits_toNat (b : U32) {p l : Nat} (h : p + l ≤ 32) : (getBits b p l).toNat = bitsOf b.toNat p l := by
  unfold getBits bitsOf
  split
  · subst_vars; simp [Nat.mod_one]
  · rw [if_neg (by omega)]
    split
    · rename_i hc
      obtain ⟨rfl, rfl⟩ := hc
      have := b.isLt
      rw [Nat.pow_zero, Nat.div_one, Nat.mod_eq_of_lt this]
    · rename_i h1 h2
      by_cases hl : l = 32
      · exact absurd ⟨by omega, hl⟩ h2
      · rw [BitVec.toNat_and, mask_toNat (by omega), Nat.and_two_pow_sub_one_eq_mod, BitVec.toNat_ushiftRight,
          Nat.shiftRight_eq_div_pow]

theorem getBits_outside (b : U32) {p l : Nat} (h : 32 < p + l) (hl : 0 < l) : getBits b p l = 0 := by
  unfold getBits
  rw [if_neg (by omega), if_pos (by omega)]

theorem getLsbD_getBits (b : U32) {p l i : Nat} (h : p + l ≤ 32) :
    (getBits b p l).getLsbD i = (decide (i < l) && b.getLsbD (p + i)) := by
  rw [← BitVec.testBit_toNat, getBits_toNat b h, bitsOf, Nat.testBit_mod_two_pow, Nat.testBit_div_two_pow,
    BitVec.testBit_toNat, Nat.add_comm]

theorem getLsbD_putBits (v b : U32) {l p i : Nat} (hl : l < 32) (h : p + l ≤ 32) :
    (putBits v l p b).getLsbD i = (b.getLsbD i || (decide (p ≤ i ∧ i < p + l) && v.getLsbD (i - p))) := by
  unfold putBits
  rw [BitVec.getLsbD_or, BitVec.getLsbD_shiftLeft, BitVec.getLsbD_and, getLsbD_mask hl]
  by_cases h1 : i < 32
  · by_cases h2 : i < p
    · simp [h1, h2]; omega
    · by_cases h3 : i - p < l
      · have : p ≤ i ∧ i < p + l := by omega
        simp [h1, h2, h3, this]
      · have : ¬ (p ≤ i ∧ i < p + l) := by omega
        simp [h1, h2, h3, this]
  · have : ¬ (p ≤ i ∧ i < p + l) := by omega
    simp [h1, this]

/-- A field put into bits that are clear is read back. -/
theorem getBits_putBits (v b : U32) {l p : Nat} (hl : l < 32) (h : p + l ≤ 32) (hb : bitsOf b.toNat p l = 0) :
    getBits (putBits v l p b) p l = getBits v 0 l := by
  apply BitVec.eq_of_getLsbD_eq
  intro i hi
  rw [getLsbD_getBits _ h, getLsbD_getBits _ (by omega), getLsbD_putBits _ _ hl h]
  by_cases hil : i < l
  · have hz : b.getLsbD (p + i) = false := by
      have : (getBits b p l).getLsbD i = false := by
        have e : getBits b p l = 0 := by
          apply BitVec.eq_of_toNat_eq
          rw [getBits_toNat b h, hb]; rfl
        rw [e]; simp
      rw [getLsbD_getBits b h] at this
      simpa [hil] using this
    have hr : p ≤ p + i ∧ p + i < p + l := by omega
    simp [hil, hz, hr]
  · simp [hil]

/-- A field that is put leaves the other fields alone. -/
theorem getBits_putBits_other (v b : U32) {l p l' p' : Nat} (hl : l < 32) (h : p + l ≤ 32) (h' : p' + l' ≤ 32)
    (hd : p' + l' ≤ p ∨ p + l ≤ p') : getBits (putBits v l p b) p' l' = getBits b p' l' := by
  apply BitVec.eq_of_getLsbD_eq
  intro i hi
  rw [getLsbD_getBits _ h', getLsbD_getBits _ h', getLsbD_putBits _ _ hl h]
  by_cases hil : i < l'
  · have hr : ¬ (p ≤ p' + i ∧ p' + i < p + l) := by omega
    simp [hil, hr]
  · simp [hil]

theorem flag_iff (b : U32) {p : Nat} (h : p < 32) : flag b p = true ↔ bitsOf b.toNat p 1 = 1 := by
  unfold flag
  have e := getBits_toNat b (p := p) (l := 1) (by omega)
  have h2 : bitsOf b.toNat p 1 < 2 := by unfold bitsOf; omega
  constructor
  · intro hf
    have : getBits b p 1 ≠ 0 := by simpa using hf
    have : (getBits b p 1).toNat ≠ 0 := fun hh => this (BitVec.eq_of_toNat_eq (by simpa using hh))
    omega
  · intro hf
    rw [hf] at e
    have : getBits b p 1 ≠ 0 := by intro hh; rw [hh] at e; simp at e
    simpa using this

/-! ## Records -/

/-- Body of a control block. -/
def encControl (be : Bool) (c : Control) : List Byte :=
  enc16 be 0 ++ encUuid be c.uuid ++ enc16 be c.sessionKey ++ enc16 be c.alarmSeq ++ enc16 be c.command ++
    enc16 be c.props

theorem parses_getControl {be : Bool} {c : Control} (h : c.uuid.d4.length = 8) :
    Parses be getControl (encControl be c) c := by
  unfold getControl encControl
  simp only [List.append_assoc]
  refine ParsesTo.bind (parses_getU16 _ _) ?_
  refine ParsesTo.bind (parses_getUuid h) ?_
  refine ParsesTo.bind (parses_getU16 _ _) ?_
  refine ParsesTo.bind (parses_getU16 _ _) ?_
  refine ParsesTo.bind (parses_getU16 _ _) ?_
  refine ParsesTo.bind_nil (parses_getU16 _ _) ?_
  exact ParsesTo.pure _ _

theorem encUuid_length {be : Bool} {u : Uuid} (h : u.d4.length = 8) : (encUuid be u).length = 16 := by
  simp [encUuid, enc16_length, enc32_length, h]

theorem encControl_length {be : Bool} {c : Control} (h : c.uuid.d4.length = 8) : (encControl be c).length = 26 := by
  simp [encControl, enc16_length, encUuid_length h]

theorem writes_putControl {be : Bool} {t : U16} {c : Control} (h : c.uuid.d4.length = 8) :
    Writes (putControl be t c) (encBlockHeader be ⟨t, 28, 1, 0⟩ ++ encControl be c) := by
  have hb : Writes (putByte 0 ;; putByte 0 ;; putUuid be c.uuid ;; putU16 be c.sessionKey ;; putU16 be c.alarmSeq ;;
      putU16 be c.command ;; putU16 be c.props) (encControl be c) := by
    unfold encControl
    have h0 : Writes (putByte 0 ;; putByte 0) (enc16 be 0) := by
      have : enc16 be 0 = [0] ++ [0] := by cases be <;> rfl
      rw [this]
      exact Writes.seq (writes_putByte _) (writes_putByte _)
    exact Writes.seq (Writes.seq (Writes.seq (Writes.seq (Writes.seq h0 (writes_putUuid _ _)) (writes_putU16 _ _))
      (writes_putU16 _ _)) (writes_putU16 _ _)) (writes_putU16 _ _)
  have := writes_putBlock (be := be) (t := t) hb (by rw [encControl_length h]; omega)
  rw [encControl_length h] at this
  exact this

theorem writes_putRecordRead {be : Bool} {t : U16} {d : List Byte} (h : d.length + 2 < 65536) :
    Writes (putRecordRead be t d) (encBlockHeader be ⟨t, BitVec.ofNat 16 (d.length + 2), 1, 0⟩ ++ d) :=
  writes_putBlock (writes_putMem d) h

/-- The byte of flags of an RPC header. -/
def encFlags (h : RpcHeader) : Nat :=
  h.lastFragment.toNat * 2 + h.fragment.toNat * 4 + h.noFack.toNat * 8 + h.maybe.toNat * 16 +
    h.idempotent.toNat * 32 + h.broadcast.toNat * 64

/-- An RPC header (80 bytes) as it is sent: bits of the first flag byte, second flag byte zero. -/
def encRpcHeader (h : RpcHeader) : List Byte :=
  [h.version, h.packetType, BitVec.ofNat 8 (encFlags h), 0, (if h.isBe then 0x00 else 0x10), h.floatRepr, h.reserved,
    h.serialHigh] ++
  encUuid h.isBe h.objUuid ++ encUuid h.isBe h.ifUuid ++ encUuid h.isBe h.actUuid ++
  enc32 h.isBe h.bootTime ++ enc32 h.isBe h.ifVersion ++ enc32 h.isBe h.seqNmb ++
  enc16 h.isBe h.opnum ++ enc16 h.isBe h.ifHint ++ enc16 h.isBe h.actHint ++ enc16 h.isBe h.lengthOfBody ++
  enc16 h.isBe h.fragmentNmb ++ [h.auth, h.serialLow]

/-- The fields that the wire format carries: packet type of five bits, no cancel flag, no float
representation. -/
def RpcHeader.Wf (h : RpcHeader) : Prop :=
  h.packetType.toNat < 32 ∧ h.cancelPending = false ∧ h.floatRepr = 0 ∧ h.objUuid.d4.length = 8 ∧
  h.ifUuid.d4.length = 8 ∧ h.actUuid.d4.length = 8

theorem encRpcHeader_length {h : RpcHeader} (hw : h.Wf) : (encRpcHeader h).length = 80 := by
  obtain ⟨_, _, _, h1, h2, h3⟩ := hw
  simp [encRpcHeader, enc16_length, enc32_length, encUuid_length h1, encUuid_length h2, encUuid_length h3]

theorem flags_byte (h : RpcHeader) :
    ((putBits (bit h.broadcast) 1 6 (putBits (bit h.idempotent) 1 5 (putBits (bit h.maybe) 1 4
      (putBits (bit h.noFack) 1 3 (putBits (bit h.fragment) 1 2 (putBits (bit h.lastFragment) 1 1 0)))))).setWidth 8
        : Byte) = BitVec.ofNat 8 (encFlags h) := by
  unfold encFlags bit
  cases h.lastFragment <;> cases h.fragment <;> cases h.noFack <;> cases h.maybe <;> cases h.idempotent <;>
    cases h.broadcast <;> rfl

theorem repr_byte (b : Bool) : ((putBits (bit (!b)) 4 4 0).setWidth 8 : Byte) = if b then 0x00 else 0x10 := by
  cases b <;> rfl

theorem writes_putRpcHeader (h : RpcHeader) : Writes (putRpcHeader h) (encRpcHeader h) := by
  unfold putRpcHeader encRpcHeader
  dsimp only
  rw [flags_byte, repr_byte]
  have e1 : [h.version, h.packetType, BitVec.ofNat 8 (encFlags h), 0, (if h.isBe then 0x00 else 0x10 : Byte),
      h.floatRepr, h.reserved, h.serialHigh] = [h.version] ++ [h.packetType] ++ [BitVec.ofNat 8 (encFlags h)] ++ [0] ++
        [(if h.isBe then 0x00 else 0x10 : Byte)] ++ [h.floatRepr] ++ [h.reserved] ++ [h.serialHigh] := rfl
  rw [e1, show [h.auth, h.serialLow] = [h.auth] ++ [h.serialLow] from rfl]
  rw [← List.append_assoc _ [h.auth] [h.serialLow]]
  iterate 20 refine Writes.seq ?_ (by
    first | exact writes_putByte _ | exact writes_putU16 _ _ | exact writes_putU32 _ _ | exact writes_putUuid _ _)
  exact writes_putByte _

theorem flag_enc (h : RpcHeader) : flag ((BitVec.ofNat 8 (encFlags h)).setWidth 32) 1 = h.lastFragment ∧
    flag ((BitVec.ofNat 8 (encFlags h)).setWidth 32) 2 = h.fragment ∧
    flag ((BitVec.ofNat 8 (encFlags h)).setWidth 32) 3 = h.noFack ∧
    flag ((BitVec.ofNat 8 (encFlags h)).setWidth 32) 4 = h.maybe ∧
    flag ((BitVec.ofNat 8 (encFlags h)).setWidth 32) 5 = h.idempotent ∧
    flag ((BitVec.ofNat 8 (encFlags h)).setWidth 32) 6 = h.broadcast := by
  unfold encFlags
  cases h.lastFragment <;> cases h.fragment <;> cases h.noFack <;> cases h.maybe <;> cases h.idempotent <;>
    cases h.broadcast <;> exact ⟨rfl, rfl, rfl, rfl, rfl, rfl⟩

theorem and_1f {b : Byte} (h : b.toNat < 32) : b &&& 0x1f = b := by
  apply BitVec.eq_of_toNat_eq
  rw [BitVec.toNat_and]
  have : (0x1f : Byte).toNat = 2 ^ 5 - 1 := rfl
  rw [this, Nat.and_two_pow_sub_one_eq_mod]
  omega

/-- The byte order of the reader before the header does not matter; afterwards it is the one named in the
header. -/
theorem parses_getRpcHeader {h : RpcHeader} (hw : h.Wf) (be : Bool) :
    ParsesTo be h.isBe getRpcHeader (encRpcHeader h) h := by
  obtain ⟨h1, h2, h3, h4, h5, h6⟩ := hw
  unfold getRpcHeader encRpcHeader
  simp only [List.append_assoc, List.cons_append, List.nil_append]
  refine ParsesTo.bind (x := [_]) (parses_getByte _ _) ?_
  refine ParsesTo.bind (x := [_]) (parses_getByte _ _) ?_
  refine ParsesTo.bind (x := [_]) (parses_getByte _ _) ?_
  refine ParsesTo.bind (x := [_]) (parses_getByte _ _) ?_
  refine ParsesTo.bind (x := [_]) (parses_getByte _ _) ?_
  have hbe : (getBits ((if h.isBe then 0x00 else 0x10 : Byte).setWidth 32) 4 4 == 0) = h.isBe := by
    cases h.isBe <;> rfl
  rw [hbe]
  refine ParsesTo.bind (x := []) (parses_setBe _ _) ?_
  refine ParsesTo.bind (x := [_]) (parses_getByte _ _) ?_
  refine ParsesTo.bind (x := [_]) (parses_getByte _ _) ?_
  refine ParsesTo.bind (x := [_]) (parses_getByte _ _) ?_
  refine ParsesTo.bind (parses_getUuid h4) ?_
  refine ParsesTo.bind (parses_getUuid h5) ?_
  refine ParsesTo.bind (parses_getUuid h6) ?_
  refine ParsesTo.bind (parses_getU32 _ _) ?_
  refine ParsesTo.bind (parses_getU32 _ _) ?_
  refine ParsesTo.bind (parses_getU32 _ _) ?_
  refine ParsesTo.bind (parses_getU16 _ _) ?_
  refine ParsesTo.bind (parses_getU16 _ _) ?_
  refine ParsesTo.bind (parses_getU16 _ _) ?_
  refine ParsesTo.bind (parses_getU16 _ _) ?_
  refine ParsesTo.bind (parses_getU16 _ _) ?_
  refine ParsesTo.bind (x := [_]) (parses_getByte _ _) ?_
  refine ParsesTo.bind_nil (x := [_]) (parses_getByte _ _) ?_
  obtain ⟨f1, f2, f3, f4, f5, f6⟩ := flag_enc h
  rw [f1, f2, f3, f4, f5, f6, and_1f h1]
  have hc : flag ((0 : Byte).setWidth 32) 1 = h.cancelPending := by rw [h2]; rfl
  rw [hc]
  obtain ⟨v, pt, a1, a2, a3, a4, a5, a6, cp, ib, fr, rs, sh, u1, u2, u3, bt, iv, sn, op, ih, ah, lb, fn, au, sl⟩ := h
  simp only at h3
  subst h3
  exact ParsesTo.pure _ _

/-- The fixed part of an alarm frame. -/
def encAlarmFixed (be : Bool) (a : AlarmFixed) : List Byte :=
  enc16 be a.dst ++ enc16 be a.src ++ [BitVec.ofNat 8 (a.type.toNat + 16 * a.version.toNat)] ++
    [BitVec.ofNat 8 (a.window.toNat + 16 * a.tack.toNat)] ++ enc16 be a.sendSeq ++ enc16 be a.ackSeq

def AlarmFixed.Wf (a : AlarmFixed) : Prop :=
  a.type.toNat < 16 ∧ a.version.toNat < 16 ∧ a.window.toNat < 16 ∧ a.tack.toNat < 2

theorem putBits_two {a b : U32} {l : Nat} (ha : a.toNat < 16) (hl : 0 < l ∧ l ≤ 4) (hb : b.toNat < 2 ^ l) :
    ((putBits b l 4 (putBits a 4 0 0)).setWidth 8 : Byte) = BitVec.ofNat 8 (a.toNat + 16 * b.toNat) := by
  have hb16 : b.toNat < 16 := by
    have : 2 ^ l ≤ 2 ^ 4 := Nat.pow_le_pow_right (by omega) hl.2
    omega
  apply BitVec.eq_of_toNat_eq
  unfold putBits
  simp only [BitVec.toNat_setWidth, BitVec.toNat_or, BitVec.toNat_shiftLeft, BitVec.toNat_and]
  rw [mask_toNat (show l < 32 by omega), mask_toNat (show 4 < 32 by omega), Nat.and_two_pow_sub_one_eq_mod,
    Nat.and_two_pow_sub_one_eq_mod, Nat.mod_eq_of_lt hb]
  simp only [BitVec.toNat_ofNat, Nat.shiftLeft_eq]
  rw [show (0 : U32).toNat = 0 from rfl, Nat.zero_or]
  have e1 : a.toNat % 2 ^ 4 * 2 ^ 0 % 2 ^ 32 = a.toNat := by omega
  have e2 : b.toNat * 2 ^ 4 % 2 ^ 32 = 2 ^ 4 * b.toNat := by omega
  rw [e1, e2, Nat.or_comm, ← Nat.two_pow_add_eq_or_of_lt (by omega : a.toNat < 2 ^ 4)]
  congr 1
  omega

theorem writes_putAlarmFixed {be : Bool} {a : AlarmFixed} (hw : a.Wf) :
    Writes (putAlarmFixed be a) (encAlarmFixed be a) := by
  obtain ⟨h1, h2, h3, h4⟩ := hw
  unfold putAlarmFixed encAlarmFixed
  rw [putBits_two h1 (by omega) h2, putBits_two h3 (by omega) (by simpa using h4)]
  iterate 5 refine Writes.seq ?_ (by first | exact writes_putByte _ | exact writes_putU16 _ _)
  exact writes_putU16 _ _

theorem getBits_eq {v w : U32} {p l : Nat} (h : p + l ≤ 32) (e : bitsOf v.toNat p l = w.toNat) :
    getBits v p l = w := by
  apply BitVec.eq_of_toNat_eq
  rw [getBits_toNat v h, e]

theorem parses_getAlarmFixed {be : Bool} {a : AlarmFixed} (hw : a.Wf) :
    Parses be getAlarmFixed (encAlarmFixed be a) a := by
  obtain ⟨h1, h2, h3, h4⟩ := hw
  unfold getAlarmFixed encAlarmFixed
  simp only [List.append_assoc]
  refine ParsesTo.bind (parses_getU16 _ _) ?_
  refine ParsesTo.bind (parses_getU16 _ _) ?_
  refine ParsesTo.bind (parses_getByte _ _) ?_
  refine ParsesTo.bind (parses_getByte _ _) ?_
  refine ParsesTo.bind (parses_getU16 _ _) ?_
  refine ParsesTo.bind_nil (parses_getU16 _ _) ?_
  have key : ∀ n : Nat, n < 256 → ((BitVec.ofNat 8 n : Byte).setWidth 32 : U32).toNat = n := by
    intro n hn
    simp
    omega
  rw [getBits_eq (w := a.type) (by omega) (by rw [key _ (by omega)]; unfold bitsOf; omega),
    getBits_eq (w := a.version) (by omega) (by rw [key _ (by omega)]; unfold bitsOf; omega),
    getBits_eq (w := a.window) (by omega) (by rw [key _ (by omega)]; unfold bitsOf; omega),
    getBits_eq (w := a.tack) (by omega) (by rw [key _ (by omega)]; unfold bitsOf; omega)]
  exact ParsesTo.pure _ _

/-- A status: four bytes, most significant first in big-endian order. -/
def encStatus (s : Status) : List Byte := [s.code, s.decode, s.code1, s.code2]

theorem writes_putStatus (be : Bool) (s : Status) :
    Writes (putStatus be s) (if be then encStatus s else (encStatus s).reverse) := by
  unfold putStatus
  have hv : (0x01000000#32 * s.code.setWidth 32 + 0x10000#32 * s.decode.setWidth 32 +
      0x100#32 * s.code1.setWidth 32 + s.code2.setWidth 32).toNat =
        s.code.toNat * 16777216 + s.decode.toNat * 65536 + s.code1.toNat * 256 + s.code2.toNat := by
    have h1 := s.code.isLt; have h2 := s.decode.isLt; have h3 := s.code1.isLt; have h4 := s.code2.isLt
    simp [BitVec.toNat_add, BitVec.toNat_mul, BitVec.toNat_setWidth]
    omega
  have h := writes_putU32 be (0x01000000#32 * s.code.setWidth 32 + 0x10000#32 * s.decode.setWidth 32 +
      0x100#32 * s.code1.setWidth 32 + s.code2.setWidth 32)
  unfold enc32 at h
  rw [hv] at h
  have h1 := s.code.isLt; have h2 := s.decode.isLt; have h3 := s.code1.isLt; have h4 := s.code2.isLt
  have key : ∀ (n : Nat) (b : Byte), n = b.toNat → BitVec.ofNat 8 n = b := by
    intro n b e; subst e; apply BitVec.eq_of_toNat_eq; simp
  rw [key _ s.code (by omega), key _ s.decode (by omega), key _ s.code1 (by omega), key _ s.code2 (by omega)] at h
  exact h

theorem parses_getStatus (be : Bool) (s : Status) : Parses be getStatus (encStatus s) s := by
  unfold getStatus encStatus
  refine ParsesTo.bind (x := [_]) (y := [_, _, _]) (parses_getByte _ _) ?_
  refine ParsesTo.bind (x := [_]) (y := [_, _]) (parses_getByte _ _) ?_
  refine ParsesTo.bind (x := [_]) (y := [_]) (parses_getByte _ _) ?_
  refine ParsesTo.bind_nil (x := [_]) (parses_getByte _ _) ?_
  exact ParsesTo.pure _ _

end Verif.Wire
