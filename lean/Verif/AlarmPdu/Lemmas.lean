import Verif.AlarmPdu.Spec
import Verif.Records.Lemmas
import Verif.DiagRead.Props
import Verif.ConnRsp.Props

/-! What the writers of alarm frames put. -/
set_option linter.unusedVariables false
set_option linter.unusedSimpArgs false

namespace Verif.AlarmPdu
open Verif.Diag hiding St
open Verif.Device hiding St
open Verif.Wire hiding ExpApi ExpMod ExpSub
open Verif.Records
open Verif.DiagRead (n16 n32 skip putItem headOf Plugged encEntry putStd encProps encProps_eq)

/-! ## Bit fields -/

theorem putBits_toNat {v b : U32} {l p : Nat} (hl : l < 32) (hp : p + l ≤ 32) (hb : b.toNat < 2 ^ p) :
    (putBits v l p b).toNat = b.toNat + 2 ^ p * (v.toNat % 2 ^ l) := by
  unfold putBits
  simp only [BitVec.toNat_or, BitVec.toNat_shiftLeft, BitVec.toNat_and]
  rw [mask_toNat hl, Nat.and_two_pow_sub_one_eq_mod, Nat.shiftLeft_eq]
  have hv : v.toNat % 2 ^ l < 2 ^ l := Nat.mod_lt _ (Nat.two_pow_pos l)
  have h2 : v.toNat % 2 ^ l * 2 ^ p < 2 ^ 32 := by
    calc v.toNat % 2 ^ l * 2 ^ p < 2 ^ l * 2 ^ p := Nat.mul_lt_mul_of_pos_right hv (Nat.two_pow_pos p)
      _ = 2 ^ (p + l) := by rw [Nat.pow_add, Nat.mul_comm]
      _ ≤ 2 ^ 32 := Nat.pow_le_pow_right (by omega) hp
  rw [Nat.mod_eq_of_lt h2, Nat.mul_comm (v.toNat % 2 ^ l), Nat.or_comm, ← Nat.two_pow_add_eq_or_of_lt hb, Nat.add_comm]

theorem bit_toNat (b : Bool) : (Wire.bit b).toNat = b.toNat := by cases b <;> rfl

theorem bool_mod (b : Bool) : b.toNat % 2 ^ 1 = b.toNat := by cases b <;> rfl
theorem bool_lt (b : Bool) : b.toNat < 2 := by cases b <;> decide

theorem specifier_eq (seq : Nat) (s : ASpec) : specifier seq s =
    BitVec.ofNat 16 (seq % 2048 + 2048 * s.channel.toNat + 4096 * s.manufacturer.toNat + 8192 * s.submodule.toNat +
      32768 * s.ar.toNat) := by
  have c1 := bool_lt s.channel
  have c2 := bool_lt s.manufacturer
  have c3 := bool_lt s.submodule
  have c4 := bool_lt s.ar
  have e0 : (putBits (BitVec.ofNat 32 seq) 11 0 0).toNat = seq % 2048 := by
    rw [putBits_toNat (by omega) (by omega) (by decide)]
    simp only [BitVec.toNat_ofNat]
    rw [show (0 : U32).toNat = 0 from rfl]
    omega
  have e1 : (putBits (Wire.bit s.channel) 1 11 (putBits (BitVec.ofNat 32 seq) 11 0 0)).toNat =
      seq % 2048 + 2048 * s.channel.toNat := by
    rw [putBits_toNat (by omega) (by omega) (by omega), e0, bit_toNat, bool_mod]
  have e2 : (putBits (Wire.bit s.manufacturer) 1 12 (putBits (Wire.bit s.channel) 1 11 (putBits (BitVec.ofNat 32 seq) 11 0 0))).toNat =
      seq % 2048 + 2048 * s.channel.toNat + 4096 * s.manufacturer.toNat := by
    rw [putBits_toNat (by omega) (by omega) (by omega), e1, bit_toNat, bool_mod]
  have e3 : (putBits (Wire.bit s.submodule) 1 13 (putBits (Wire.bit s.manufacturer) 1 12 (putBits (Wire.bit s.channel) 1 11
      (putBits (BitVec.ofNat 32 seq) 11 0 0)))).toNat =
      seq % 2048 + 2048 * s.channel.toNat + 4096 * s.manufacturer.toNat + 8192 * s.submodule.toNat := by
    rw [putBits_toNat (by omega) (by omega) (by omega), e2, bit_toNat, bool_mod]
  apply BitVec.eq_of_toNat_eq
  unfold specifier
  rw [BitVec.toNat_setWidth, putBits_toNat (by omega) (by omega) (by omega), e3, bit_toNat, bool_mod, BitVec.toNat_ofNat]

/-! ## Writers -/

theorem puts_specifier (seq : Nat) (s : ASpec) : Puts (putU16 true (specifier seq s)) (encSpecifier seq s) := by
  rw [specifier_eq]
  exact puts_u16 _

theorem puts_lenPrefix {body : W} {bs : List Byte} (hb : Puts body bs) : Puts (lenPrefix body) (num16 bs.length ++ bs) := by
  intro m x hc h6 _ hr
  rw [List.length_append, num16_length] at hr
  obtain ⟨b1, w1, e1⟩ := Puts.seq (puts_u16 0) hb x.pos x hc h6 rfl (by rw [List.length_append, enc16_length]; omega)
  rw [List.length_append, enc16_length] at e1
  have hl1 := writeAt_length w1
  have hv : (BitVec.ofNat 16 (x.pos + (2 + bs.length)) - BitVec.ofNat 16 (x.pos + 2) : U16) = BitVec.ofNat 16 bs.length := by
    apply BitVec.eq_of_toNat_eq
    simp [BitVec.toNat_sub]
    omega
  obtain ⟨b2, w2, e2⟩ := writes_putU16 true (BitVec.ofNat 16 bs.length) ⟨b1, x.cap, x.pos⟩ (by simp only; omega)
    (by rw [enc16_length]; simp only; omega)
  refine ⟨b2, ?_, ?_⟩
  · have := writeAt_patch (a := []) (o := enc16 true 0) (n := enc16 true (BitVec.ofNat 16 bs.length)) (c := bs) (l := x.buf)
      (x := b1) (off := x.pos) (by rw [← w1]; simp) (by simp [enc16_length])
    simp only [List.length_nil, Nat.add_zero, List.nil_append] at this
    rw [← w2, this]
    rfl
  · unfold lenPrefix
    rw [e1]
    simp only [Option.bind_some, hv]
    rw [e2]
    simp only [Option.map_some, List.length_append, num16_length]

theorem puts_maint (m : U32) : Puts (putMaint m) (num16 0x8100 ++ encBlock 0x0F00 0 ([0, 0] ++ enc32 true m)) := by
  unfold putMaint
  exact Puts.seq (puts_n16 _) (puts_block (Puts.seq (Puts.cast (Puts.seq (puts_byte 0) (puts_byte 0)) rfl) (puts_u32 m)))

theorem puts_std (s : Std) : Puts (putStd s)
    (enc16 true (BitVec.ofNat 16 s.chan.ch) ++ enc16 true (encProps s) ++ enc16 true (BitVec.ofNat 16 s.chan.err)) := by
  unfold putStd
  rw [encProps_eq]
  exact Puts.seq (Puts.seq (puts_n16 _) (puts_u16 _)) (puts_n16 _)

theorem puts_item {it : Item} {x : Std} (hu : it.usi = 0x8000 ∨ it.usi = 0x8002 ∨ it.usi = 0x8003) (hx : it.fmt = .std x) :
    Puts (putItem it) (encEntry (it.usi, .std x)) := by
  unfold putItem
  rw [hx]
  rcases hu with e | e | e
  · rw [if_pos e, e]
    simp only [encEntry, if_true, List.append_nil]
    rw [if_neg (by decide), List.append_nil]
    exact puts_std x
  · rw [if_neg (by omega), if_pos e, e]
    simp only [encEntry]
    rw [if_neg (by decide), if_neg (by decide), List.append_nil, ← List.append_assoc]
    exact Puts.seq (Puts.seq (puts_std x) (puts_n16 _)) (puts_n32 _)
  · rw [if_neg (by omega), if_neg (by omega), if_pos e, e]
    simp only [encEntry]
    rw [if_neg (by decide), if_pos trivial, ← List.append_assoc]
    exact Puts.seq (Puts.seq (Puts.seq (puts_std x) (puts_n16 _)) (puts_n32 _)) (puts_n32 _)

theorem puts_status (s : Status) : Puts (putStatus true s) [s.code, s.decode, s.code1, s.code2] := by
  have h := writes_putStatus true s
  exact puts_of h

theorem puts_notification {high : Bool} {a : Alarm} {y : Says} {seq : Nat} {s : ASpec} {m : U32} (hh : y.high = high)
    (h1 : a.type = y.type) (h2 : a.api = y.api) (h3 : a.slot = y.slot) (h4 : a.subslot = y.subslot) (h5 : a.modIdent = y.modIdent)
    (h6 : a.subIdent = y.subIdent) (hp : Puts (putPayload m a) (y.user m)) :
    Puts (putNotification (if high then 1 else 2) a seq s m) (encNotification y seq s m) := by
  unfold putNotification encNotification
  rw [hh, h1, h2, h3, h4, h5, h6]
  exact puts_block (Puts.seq (Puts.seq (Puts.seq (Puts.seq (Puts.seq (Puts.seq (Puts.seq (puts_n16 _) (puts_n32 _)) (puts_n16 _)) (puts_n16 _))
    (puts_n32 _)) (puts_n32 _)) (puts_specifier _ _)) hp)

theorem puts_ack (high : Bool) (a : Arg) (s : Status) :
    Puts (putAck (if high then 0x8001 else 0x8002) a.type a.api a.slot a.subslot a.seq a.spec s) (encAck high a s) := by
  unfold putAck encAck
  exact puts_block (Puts.seq (Puts.seq (Puts.seq (Puts.seq (Puts.seq (puts_n16 _) (puts_n32 _)) (puts_n16 _)) (puts_n16 _))
    (puts_specifier _ _)) (puts_status s))

theorem fixed_wf (x : Apmx) : x.fixed.Wf := by
  unfold Apmx.fixed AlarmFixed.Wf
  exact ⟨(by decide : (1 : U32).toNat < 16), (by decide : (1 : U32).toNat < 16), (by decide : (1 : U32).toNat < 16),
    (by decide : (1 : U32).toNat < 2)⟩

theorem puts_frame {x : Apmx} {body : W} {bs : List Byte} (hb : Puts body bs) :
    Puts (putFrame x x.fixed body) (encFrame x bs) := by
  unfold putFrame
  have h := Puts.seq (Puts.seq (Puts.seq (Puts.seq (Puts.seq (Puts.seq (Puts.seq (puts_mem x.da) (puts_mem x.mac)) (puts_n16 0x8100))
    (puts_n16 (x.vlanPrio % 8 * 2 ^ 13))) (puts_n16 0x8892)) (puts_n16 x.frameId)) (puts_of (writes_putAlarmFixed (be := true) (fixed_wf x))))
    (puts_lenPrefix hb)
  refine Puts.cast h ?_
  unfold encFrame encRta
  have e1 : num16 0x8100 = [0x81, 0x00] := rfl
  have e2 : num16 (x.vlanPrio % 8 * 2 ^ 13) = if x.high then [0xC0, 0x00] else [0xA0, 0x00] := by
    unfold Apmx.vlanPrio; cases x.high <;> rfl
  have e3 : num16 0x8892 = [0x88, 0x92] := rfl
  have e4 : num16 x.frameId = if x.high then [0xFC, 0x01] else [0xFE, 0x01] := by
    unfold Apmx.frameId; cases x.high <;> rfl
  have e5 : encAlarmFixed true x.fixed = enc16 true x.dstRef ++ enc16 true x.srcRef ++ [0x11, 0x11] ++ enc16 true x.sendSeq ++
      enc16 true x.ackSeq := by
    unfold encAlarmFixed Apmx.fixed
    simp only [List.append_assoc]
    rfl
  rw [e1, e2, e3, e4, e5]
  simp only [List.append_assoc]

theorem writeAt_take {l x : List Byte} {bs : List Byte} (h : writeAt l 0 bs = some x) : x.take bs.length = bs := by
  unfold writeAt at h
  split at h
  · have h := Option.some.inj h
    subst h
    simp
  · cases h

theorem bytesOf_puts {p : W} {bs : List Byte} (h : Puts p bs) (hl : bs.length ≤ 1500) : bytesOf p = some bs := by
  obtain ⟨b, h1, h2⟩ := h 0 newBuf
    (show 1500 ≤ (List.replicate 1500 (0 : Byte)).length by rw [List.length_replicate])
    (show 1500 < 65536 by decide) rfl (show 0 + bs.length ≤ 1500 by omega)
  unfold bytesOf
  rw [h2]
  simp only [Option.map_some]
  have : newBuf.pos = 0 := rfl
  rw [this, Nat.zero_add]
  exact congrArg some (writeAt_take h1)

theorem encRta_length (a b c d : U16) (v : List Byte) : (encRta a b c d v).length = v.length + 12 := by
  simp [encRta, enc16_length, num16_length]; omega

theorem encFrame_length {x : Apmx} (hx : x.Wf) (v : List Byte) : (encFrame x v).length = v.length + 32 := by
  unfold encFrame
  have : ∀ a b : List Byte, (if x.high then a else b).length = if x.high then a.length else b.length := by
    intro a b; split <;> rfl
  simp only [List.length_append, encRta_length, hx.1, hx.2, this, List.length_cons, List.length_nil]
  cases x.high <;> simp <;> omega

theorem encSpecifier_length (n : Nat) (s : ASpec) : (encSpecifier n s).length = 2 := num16_length _

theorem encNotification_length (y : Says) (seq : Nat) (s : ASpec) (m : U32) :
    (encNotification y seq s m).length = 26 + (y.user m).length := by
  unfold encNotification
  rw [Records.encBlock_length]
  simp only [List.length_append, num16_length, num32_length, encSpecifier_length]
  omega

end Verif.AlarmPdu
