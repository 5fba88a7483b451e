import Verif.AlarmPdu.Summary
import Mathlib.Logic.Function.Iterate

/-! Received alarm frames, acknowledgements (C108 - C111). -/
set_option linter.unusedVariables false
set_option linter.unusedSimpArgs false

namespace Verif.AlarmPdu
open Verif.Wire hiding ExpApi ExpMod ExpSub encBlock encBlock_length
open Verif.Records

/-- An alarm protocol unit whose length field is `n`, whatever its contents. -/
def encRtaLen (dst src send ack : U16) (n : Nat) (var : List Byte) : List Byte :=
  enc16 true dst ++ enc16 true src ++ [0x11, 0x11] ++ enc16 true send ++ enc16 true ack ++ num16 n ++ var

theorem encRta_eq (dst src send ack : U16) (var : List Byte) :
    encRta dst src send ack var = encRtaLen dst src send ack var.length var := rfl

theorem slice_mid {pre x post : List Byte} : slice (pre ++ x ++ post) pre.length x.length = some x := by
  rw [slice_eq_some (by simp)]
  congr 1
  rw [List.append_assoc, List.drop_left, List.take_left]

theorem slice_pre {buf x y : List Byte} {off : Nat} (h : slice buf off (x ++ y).length = some (x ++ y)) :
    slice buf off x.length = some x := (slice_append h).1

theorem slice_post {buf x y : List Byte} {off : Nat} (h : slice buf off (x ++ y).length = some (x ++ y)) :
    slice buf (off + x.length) y.length = some y := (slice_append h).2

theorem slice_le {buf x : List Byte} {off : Nat} (h : slice buf off x.length = some x) : off + x.length ≤ buf.length := by
  unfold slice at h
  split at h
  · assumption
  · cases h

theorem num16_eq (n : Nat) : num16 n = enc16 true (BitVec.ofNat 16 n) := rfl
theorem num32_eq (n : Nat) : num32 n = enc32 true (BitVec.ofNat 32 n) := rfl

/-- A reader of a received frame. -/
def rd (buf : List Byte) (pos : Nat) : Rd := ⟨buf, false, buf.length, true, .ok, pos⟩

theorem run_of_parses {α : Type} {p : P α} {x buf : List Byte} {a : α} {pos : Nat} (h : Parses true p x a)
    (hs : slice buf pos x.length = some x) : p (rd buf pos) = some (a, rd buf (pos + x.length)) :=
  h (rd buf pos) rfl rfl rfl (slice_le hs) hs

theorem parses_data (dst src send ack : U16) (n : Nat) :
    Parses true parseFrame (enc16 true dst ++ enc16 true src ++ [0x11, 0x11] ++ enc16 true send ++ enc16 true ack ++ num16 n)
      (.data ⟨dst, src, 1, 1, 1, 1, send, ack⟩ (BitVec.ofNat 16 n)) := by
  unfold parseFrame
  refine ParsesTo.bind (x := enc16 true dst ++ enc16 true src ++ [0x11, 0x11] ++ enc16 true send ++ enc16 true ack) (y := num16 n)
    (be1 := true) (a := ⟨dst, src, 1, 1, 1, 1, send, ack⟩) ?_ ?_
  · exact parses_getAlarmFixed (a := ⟨dst, src, 1, 1, 1, 1, send, ack⟩) (by simp [AlarmFixed.Wf])
  · refine ParsesTo.bind_nil (parses_getU16 _ _) ?_
    simp only [if_true]
    rw [if_neg (by decide), if_neg (by decide)]
    exact ParsesTo.pure _ _

/-- A received DATA frame leads to the indication its contents call for. -/
theorem receive_data {high : Bool} {pre var pad : List Byte} {dst src send ack : U16} {n k : Nat} (hk : k + 2 = pre.length) :
    receive high k (pre ++ encRtaLen dst src send ack n var ++ pad) =
      (dataInd high (BitVec.ofNat 16 n) (rd (pre ++ encRtaLen dst src send ack n var ++ pad) (pre.length + 12))).map fun y => some y.1 := by
  generalize hb : pre ++ encRtaLen dst src send ack n var ++ pad = buf
  have hs : slice buf pre.length (encRtaLen dst src send ack n var).length = some (encRtaLen dst src send ack n var) := by
    rw [← hb]; exact slice_mid
  unfold encRtaLen at hs
  have h := run_of_parses (parses_data dst src send ack n) (slice_pre hs)
  unfold receive
  rw [hk]
  have h : parseFrame ⟨buf, false, buf.length, true, .ok, pre.length⟩ = _ := h
  rw [h]
  simp only [Option.bind_some]
  have : (enc16 true dst ++ enc16 true src ++ [0x11, 0x11] ++ enc16 true send ++ enc16 true ack ++ num16 n).length = 12 := by
    simp [enc16_length, num16_length]
  rw [this]

theorem var_slice {pre var pad : List Byte} {dst src send ack : U16} {n : Nat} :
    slice (pre ++ encRtaLen dst src send ack n var ++ pad) (pre.length + 12) var.length = some var := by
  have hs : slice (pre ++ encRtaLen dst src send ack n var ++ pad) pre.length (encRtaLen dst src send ack n var).length =
    some (encRtaLen dst src send ack n var) := slice_mid
  generalize hb : pre ++ encRtaLen dst src send ack n var ++ pad = buf at hs
  unfold encRtaLen at hs
  have h := slice_post hs
  have : (enc16 true dst ++ enc16 true src ++ [0x11, 0x11] ++ enc16 true send ++ enc16 true ack ++ num16 n).length = 12 := by
    simp [enc16_length, num16_length]
  rwa [this] at h

/-! ## Parsers of the contents -/

def flagNat (b : Bool) : U32 := if b then 1 else 0

theorem wide (n : Nat) (h : n < 65536) : ((BitVec.ofNat 16 n : U16).setWidth 32 : U32).toNat = n := by
  rw [BitVec.toNat_setWidth, BitVec.toNat_ofNat]
  omega

theorem flagNat_toNat (b : Bool) : (flagNat b).toNat = b.toNat := by cases b <;> rfl

theorem spec_bits (seq a b c d : Nat) (hseq : seq < 2048) (ha : a < 2) (hb : b < 2) (hc : c < 2) (hd : d < 2) :
    bitsOf (seq + 2048 * a + 4096 * b + 8192 * c + 32768 * d) 0 11 = seq ∧
    bitsOf (seq + 2048 * a + 4096 * b + 8192 * c + 32768 * d) 11 1 = a ∧
    bitsOf (seq + 2048 * a + 4096 * b + 8192 * c + 32768 * d) 12 1 = b ∧
    bitsOf (seq + 2048 * a + 4096 * b + 8192 * c + 32768 * d) 13 1 = c ∧
    bitsOf (seq + 2048 * a + 4096 * b + 8192 * c + 32768 * d) 15 1 = d := by
  unfold bitsOf
  refine ⟨?_, ?_, ?_, ?_, ?_⟩ <;> omega

theorem parses_alarmData {type api slot sub m sm seq : Nat} {s : ASpec} (hseq : seq < 2048) :
    Parses true getAlarmData
      (num16 type ++ num32 api ++ num16 slot ++ num16 sub ++ num32 m ++ num32 sm ++ encSpecifier seq s)
      ⟨BitVec.ofNat 16 type, BitVec.ofNat 32 api, BitVec.ofNat 16 slot, BitVec.ofNat 16 sub, BitVec.ofNat 32 m, BitVec.ofNat 32 sm,
        BitVec.ofNat 32 seq, flagNat s.channel, flagNat s.manufacturer, flagNat s.submodule, flagNat s.ar⟩ := by
  unfold getAlarmData encSpecifier
  simp only [List.append_assoc]
  refine ParsesTo.bind (parses_getU16 _ _) ?_
  refine ParsesTo.bind (parses_getU32 _ _) ?_
  refine ParsesTo.bind (parses_getU16 _ _) ?_
  refine ParsesTo.bind (parses_getU16 _ _) ?_
  refine ParsesTo.bind (parses_getU32 _ _) ?_
  refine ParsesTo.bind (parses_getU32 _ _) ?_
  refine ParsesTo.bind_nil (parses_getU16 _ _) ?_
  rw [Nat.mod_eq_of_lt hseq]
  obtain ⟨h1, h2, h3, h4, h5⟩ := spec_bits seq s.channel.toNat s.manufacturer.toNat s.submodule.toNat s.ar.toNat hseq
    (Bool.toNat_lt _) (Bool.toNat_lt _) (Bool.toNat_lt _) (Bool.toNat_lt _)
  have l1 := Bool.toNat_lt s.channel
  have l2 := Bool.toNat_lt s.manufacturer
  have l3 := Bool.toNat_lt s.submodule
  have l4 := Bool.toNat_lt s.ar
  generalize hn : seq + 2048 * s.channel.toNat + 4096 * s.manufacturer.toNat + 8192 * s.submodule.toNat + 32768 * s.ar.toNat = n at *
  have w := wide n (by omega)
  generalize BitVec.setWidth 32 (BitVec.ofNat 16 n) = v at w
  rw [getBits_eq (w := BitVec.ofNat 32 seq) (by omega) (by rw [w, h1, BitVec.toNat_ofNat]; omega),
    getBits_eq (w := flagNat s.channel) (by omega) (by rw [w, h2, flagNat_toNat]),
    getBits_eq (w := flagNat s.manufacturer) (by omega) (by rw [w, h3, flagNat_toNat]),
    getBits_eq (w := flagNat s.submodule) (by omega) (by rw [w, h4, flagNat_toNat]),
    getBits_eq (w := flagNat s.ar) (by omega) (by rw [w, h5, flagNat_toNat])]
  exact ParsesTo.pure _ _

theorem flag_ne (b : Bool) : (flagNat b != 0) = b := by cases b <;> rfl

/-- What a controller's alarm has to say. -/
structure Told where
  type : Nat
  api : Nat
  slot : Nat
  subslot : Nat
  modIdent : Nat
  subIdent : Nat
  seq : Nat
  spec : ASpec

/-- Values fit the fields of the frame. -/
def Told.Wf (t : Told) : Prop :=
  t.type < 65536 ∧ t.api < 2 ^ 32 ∧ t.slot < 65536 ∧ t.subslot < 65536 ∧ t.seq < 2048

/-- The notification, with any identifier and data behind its fields. -/
def Told.enc (t : Told) (high : Bool) (user : List Byte) : List Byte :=
  encNotification ⟨high, t.type, t.api, t.slot, t.subslot, t.modIdent, t.subIdent, fun _ => user⟩ t.seq t.spec 0

/-- What the application has to be told. -/
def Told.arg (t : Told) : Arg := ⟨t.api, t.slot, t.subslot, t.type, t.seq, t.spec⟩

theorem argOf_told {t : Told} (h : t.Wf) :
    argOf ⟨BitVec.ofNat 16 t.type, BitVec.ofNat 32 t.api, BitVec.ofNat 16 t.slot, BitVec.ofNat 16 t.subslot, BitVec.ofNat 32 t.modIdent,
      BitVec.ofNat 32 t.subIdent, BitVec.ofNat 32 t.seq, flagNat t.spec.channel, flagNat t.spec.manufacturer, flagNat t.spec.submodule,
      flagNat t.spec.ar⟩ = t.arg := by
  obtain ⟨h1, h2, h3, h4, h5⟩ := h
  unfold argOf Told.arg
  simp only [flag_ne, BitVec.toNat_ofNat]
  rw [Nat.mod_eq_of_lt h1, Nat.mod_eq_of_lt h2, Nat.mod_eq_of_lt h3, Nat.mod_eq_of_lt h4, Nat.mod_eq_of_lt (show t.seq < 2 ^ 32 by omega)]

/-- Parsing of a notification that is in the frame from `pos`, followed by two bytes `u`. -/
theorem dataInd_notification {high : Bool} {t : Told} {n u pos : Nat} {len : U16} {buf : List Byte} (hw : t.Wf)
    (h : slice buf pos 28 = some (encBlockHeader true ⟨if high then 1 else 2, len, 1, 0⟩ ++
      (num16 t.type ++ num32 t.api ++ num16 t.slot ++ num16 t.subslot ++ num32 t.modIdent ++ num32 t.subIdent ++ encSpecifier t.seq t.spec) ++
      num16 u)) :
    dataInd high (BitVec.ofNat 16 n) (rd buf pos) =
      some (.alarm t.arg (BitVec.ofNat 16 u) (BitVec.ofNat 16 n - 28#16) (pos + 28), rd buf (pos + 28)) := by
  have h1 := parses_getBlockHeader true ⟨if high then 1 else 2, len, 1, 0⟩
  have h2 := parses_alarmData (type := t.type) (api := t.api) (slot := t.slot) (sub := t.subslot) (m := t.modIdent) (sm := t.subIdent)
    (s := t.spec) hw.2.2.2.2
  have h3 : Parses true getU16 (num16 u) (BitVec.ofNat 16 u) := parses_getU16 _ _
  generalize ha : encBlockHeader true ⟨if high then 1 else 2, len, 1, 0⟩ = a at h h1
  generalize hb : num16 t.type ++ num32 t.api ++ num16 t.slot ++ num16 t.subslot ++ num32 t.modIdent ++ num32 t.subIdent ++
    encSpecifier t.seq t.spec = b at h h2
  have la : a.length = 6 := by rw [← ha, lh]
  have lb : b.length = 20 := by rw [← hb]; simp [num32_length, num16_length, encSpecifier_length]
  have lab : (a ++ b ++ num16 u).length = 28 := by simp [la, lb, num16_length]
  rw [← lab] at h
  have e3 := run_of_parses h3 (slice_post h)
  have h' := slice_pre h
  have e1 := run_of_parses h1 (slice_pre h')
  have e2 := run_of_parses h2 (slice_post h')
  rw [List.length_append, la, lb, num16_length] at e3
  rw [la] at e1 e2
  rw [lb] at e2
  unfold dataInd
  simp only [P.bind_def, reader, Option.bind_some, e1]
  have c1 : (if high then (1 : U16) else 2) ≠ (if high then 0x8001 else 0x8002) := by cases high <;> decide
  rw [if_neg c1, if_pos trivial]
  simp only [P.bind_def, e2, Option.bind_some, Nat.add_assoc]
  simp only [Nat.add_assoc] at e3
  simp only [e3, reader, Option.bind_some]
  rw [argOf_told hw]
  have hsub : (rd buf (pos + (6 + (20 + 2)))).pos - (rd buf pos).pos = 28 := by simp only [rd]; omega
  rw [hsub]
  rfl

/-- The notification: a header, the fields, and what follows. -/
theorem enc_split (t : Told) (high : Bool) (user : List Byte) :
    t.enc high user = encBlockHeader true ⟨if high then 1 else 2, BitVec.ofNat 16 (user.length + 22), 1, 0⟩ ++
      (num16 t.type ++ num32 t.api ++ num16 t.slot ++ num16 t.subslot ++ num32 t.modIdent ++ num32 t.subIdent ++ encSpecifier t.seq t.spec) ++
      user := by
  unfold Told.enc encNotification
  rw [encBlock_eq]
  simp only [List.append_assoc]
  congr 3

theorem enc_length (t : Told) (high : Bool) (user : List Byte) : (t.enc high user).length = user.length + 26 := by
  unfold Told.enc
  rw [encNotification_length]
  simp only
  omega

/-- The general case: the bytes behind the fields of the notification start with two bytes `u`, which may be its own or those
behind it. -/
theorem receive_notification {high : Bool} {pre user pad rest : List Byte} {dst src send ack : U16} {t : Told} {n u k : Nat}
    (hk : k + 2 = pre.length) (hw : t.Wf) (hu : user ++ pad = num16 u ++ rest) :
    receive high k (pre ++ encRtaLen dst src send ack n (t.enc high user) ++ pad) =
        some (some (.alarm t.arg (BitVec.ofNat 16 u) (BitVec.ofNat 16 n - 28#16) (pre.length + 40))) ∧
      slice (pre ++ encRtaLen dst src send ack n (t.enc high user) ++ pad) (pre.length + 40) rest.length = some rest := by
  rw [receive_data hk]
  have e : pre ++ encRtaLen dst src send ack n (t.enc high user) ++ pad =
      pre ++ encRtaLen dst src send ack n (t.enc high user ++ pad) ++ [] := by
    unfold encRtaLen
    simp only [List.append_assoc, List.append_nil]
  have hs := var_slice (pre := pre) (pad := []) (var := t.enc high user ++ pad) (dst := dst) (src := src) (send := send) (ack := ack) (n := n)
  rw [← e] at hs
  generalize pre ++ encRtaLen dst src send ack n (t.enc high user) ++ pad = buf at hs ⊢
  have e2 : t.enc high user ++ pad = (encBlockHeader true ⟨if high then 1 else 2, BitVec.ofNat 16 (user.length + 22), 1, 0⟩ ++
      (num16 t.type ++ num32 t.api ++ num16 t.slot ++ num16 t.subslot ++ num32 t.modIdent ++ num32 t.subIdent ++ encSpecifier t.seq t.spec) ++
      num16 u) ++ rest := by
    rw [enc_split, List.append_assoc, hu, ← List.append_assoc]
  rw [e2] at hs
  have hp := slice_pre hs
  have hq := slice_post hs
  have hlen : (encBlockHeader true ⟨if high then 1 else 2, BitVec.ofNat 16 (user.length + 22), 1, 0⟩ ++
      (num16 t.type ++ num32 t.api ++ num16 t.slot ++ num16 t.subslot ++ num32 t.modIdent ++ num32 t.subIdent ++ encSpecifier t.seq t.spec) ++
      num16 u).length = 28 := by
    simp [lh, num32_length, num16_length, encSpecifier_length]
  rw [hlen] at hp hq
  rw [dataInd_notification hw hp]
  exact ⟨rfl, hq⟩

/-! ## C109 -/

/--
**C109** (partial).  A frame with an alarm notification of a controller, with an identifier and data, wherever it starts in
the buffer and whatever follows it: the application is told exactly its fields, its identifier, the length of the data, and
the place in the frame where the data are.

Missing: `C109_without_identifier_wrong`, `C109_length_not_checked`.
-/
theorem C109_received_alarm_told_partial {high : Bool} {pre data pad : List Byte} {dst src send ack : U16} {t : Told} {u k : Nat}
    (hk : k + 2 = pre.length) (hw : t.Wf) (hu : u < 65536) (hd : data.length + 28 < 65536) :
    ∃ pos usi len, receive high k (pre ++ encRta dst src send ack (t.enc high (num16 u ++ data)) ++ pad) =
        some (some (.alarm t.arg usi len pos)) ∧ usi.toNat = u ∧ len.toNat = data.length ∧
      slice (pre ++ encRta dst src send ack (t.enc high (num16 u ++ data)) ++ pad) pos data.length = some data := by
  rw [encRta_eq]
  obtain ⟨h1, h2⟩ := receive_notification (high := high) (pre := pre) (user := num16 u ++ data) (pad := pad) (dst := dst) (src := src)
    (send := send) (ack := ack) (n := (t.enc high (num16 u ++ data)).length) (rest := data ++ pad) (u := u) hk hw (by rw [List.append_assoc])
  refine ⟨_, _, _, h1, ?_, ?_, slice_pre h2⟩
  · rw [BitVec.toNat_ofNat]; omega
  · rw [enc_length, List.length_append, num16_length, BitVec.toNat_sub, BitVec.toNat_ofNat, BitVec.toNat_ofNat]
    omega

/--
**C109** is false for notifications without identifier and data in frames that have at least two bytes behind the
notification, such as padding to the minimum length: the application is told these two bytes as the identifier, and 65534
bytes of data.
-/
theorem C109_without_identifier_wrong {high : Bool} {pre pad : List Byte} {dst src send ack : U16} {t : Told} {u k : Nat}
    (hk : k + 2 = pre.length) (hw : t.Wf) :
    receive high k (pre ++ encRta dst src send ack (t.enc high []) ++ (num16 u ++ pad)) =
        some (some (.alarm t.arg (BitVec.ofNat 16 u) 65534#16 (pre.length + 40))) := by
  rw [encRta_eq]
  have := (receive_notification (high := high) (pre := pre) (user := []) (pad := num16 u ++ pad) (dst := dst) (src := src)
    (send := send) (ack := ack) (n := (t.enc high []).length) (rest := pad) (u := u) hk hw (by rw [List.nil_append])).1
  rw [this, enc_length]
  rfl

/--
**C109** is false for frames whose length field is wrong: for every number there is a frame without any data for which the
application is told this number as the length of the data, and a place behind the end of the frame.
-/
theorem C109_length_not_checked {high : Bool} {pre : List Byte} {dst src send ack : U16} {t : Told} {u k : Nat} (len : U16)
    (hk : k + 2 = pre.length) (hw : t.Wf) :
    ∃ n, receive high k (pre ++ encRtaLen dst src send ack n (t.enc high (num16 u))) =
        some (some (.alarm t.arg (BitVec.ofNat 16 u) len (pre ++ encRtaLen dst src send ack n (t.enc high (num16 u))).length)) := by
  refine ⟨(len + 28#16).toNat, ?_⟩
  have := (receive_notification (high := high) (pre := pre) (user := num16 u) (pad := []) (dst := dst) (src := src)
    (send := send) (ack := ack) (n := (len + 28#16).toNat) (rest := []) (u := u) hk hw rfl).1
  rw [List.append_nil] at this
  rw [this, BitVec.ofNat_toNat, BitVec.setWidth_eq, BitVec.add_sub_cancel]
  congr 3
  unfold encRtaLen
  simp only [List.length_append, enc16_length, num16_length, enc_length, List.length_cons, List.length_nil]

/-! ## C108 -/

/--
**C108** is false: for every acknowledgement of a controller the application is told the alarm type and the upper half of the
API number, and nothing of the status.
-/
theorem C108_status_wrong {high : Bool} {pre pad : List Byte} {dst src send ack : U16} {a : Arg} {s : Status} {k : Nat}
    (hk : k + 2 = pre.length) (h1 : a.type < 65536) (h2 : a.api < 2 ^ 32) :
    receive high k (pre ++ encRta dst src send ack (encAck high a s) ++ pad) =
      some (some (.status ⟨BitVec.ofNat 8 (a.type / 256), BitVec.ofNat 8 (a.type % 256), BitVec.ofNat 8 (a.api / 2 ^ 24),
        BitVec.ofNat 8 (a.api / 2 ^ 16 % 256)⟩)) := by
  rw [encRta_eq, receive_data hk]
  have hs := var_slice (pre := pre) (pad := pad) (var := encAck high a s) (dst := dst) (src := src) (send := send) (ack := ack)
    (n := (encAck high a s).length)
  generalize pre ++ encRtaLen dst src send ack (encAck high a s).length (encAck high a s) ++ pad = buf at hs ⊢
  generalize (encAck high a s).length = n
  have e : encAck high a s = (encBlockHeader true ⟨if high then 0x8001 else 0x8002, BitVec.ofNat 16 18, 1, 0⟩ ++
      encStatus ⟨BitVec.ofNat 8 (a.type / 256), BitVec.ofNat 8 (a.type % 256), BitVec.ofNat 8 (a.api / 2 ^ 24),
        BitVec.ofNat 8 (a.api / 2 ^ 16 % 256)⟩) ++
      ([BitVec.ofNat 8 (a.api / 256 % 256), BitVec.ofNat 8 (a.api % 256)] ++ num16 a.slot ++ num16 a.subslot ++ encSpecifier a.seq a.spec ++
      [s.code, s.decode, s.code1, s.code2]) := by
    unfold encAck
    rw [encBlock_eq]
    have hl : (num16 a.type ++ num32 a.api ++ num16 a.slot ++ num16 a.subslot ++ encSpecifier a.seq a.spec ++
      [s.code, s.decode, s.code1, s.code2]).length + 2 = 18 := by
      simp [num16_length, num32_length, encSpecifier_length]
    rw [hl]
    have hx : num16 a.type ++ num32 a.api = encStatus ⟨BitVec.ofNat 8 (a.type / 256), BitVec.ofNat 8 (a.type % 256), BitVec.ofNat 8 (a.api / 2 ^ 24),
        BitVec.ofNat 8 (a.api / 2 ^ 16 % 256)⟩ ++ [BitVec.ofNat 8 (a.api / 256 % 256), BitVec.ofNat 8 (a.api % 256)] := by
      unfold num16 num32 enc16 enc32 encStatus
      simp only [BitVec.toNat_ofNat, Nat.mod_eq_of_lt h1, Nat.mod_eq_of_lt h2]
      rfl
    rw [hx]
    simp only [List.append_assoc]
  rw [e] at hs
  have hp := slice_pre hs
  have e1 := run_of_parses (parses_getBlockHeader true _) (slice_pre hp)
  have e2 := run_of_parses (parses_getStatus true _) (slice_post hp)
  unfold dataInd
  simp only [P.bind_def, reader, Option.bind_some, e1]
  rw [if_pos trivial]
  simp only [P.bind_def, e2, Option.bind_some]
  rfl

/-- **C108**: acknowledgements that differ in nothing but the status are told alike; and an acknowledgement of any alarm type of
the protocol (below 256) with an error status is told with error code 0. -/
theorem C108_status_lost {high : Bool} {pre pad : List Byte} {dst src send ack : U16} {a : Arg} {k : Nat}
    (hk : k + 2 = pre.length) (h1 : a.type < 256) (h2 : a.api < 2 ^ 32) :
    ∃ t, t.code = 0 ∧ ∀ s, receive high k (pre ++ encRta dst src send ack (encAck high a s) ++ pad) = some (some (.status t)) := by
  refine ⟨_, ?_, fun s => C108_status_wrong hk (by omega) h2⟩
  simp only
  rw [Nat.div_eq_of_lt h1]
  rfl

/-! Which frames lead to a status. -/

/-- If the parser ends without error, it has started without and advanced `n` bytes. -/
def Takes {α : Type} (n : Nat) (p : P α) : Prop :=
  ∀ r a r', p r = some (a, r') → r'.err = .ok → r.err = .ok ∧ r' = { r with pos := r.pos + n }

theorem takes_pure {α : Type} (a : α) : Takes 0 (pure a : P α) := by
  intro r b r' h he
  cases h
  exact ⟨he, rfl⟩

theorem Takes.bind {α β : Type} {m n : Nat} {p : P α} {f : α → P β} (hp : Takes m p) (hf : ∀ a, Takes n (f a)) : Takes (m + n) (p >>= f) := by
  intro r b r' h he
  rw [P.bind_def] at h
  cases h1 : p r with
  | none => rw [h1] at h; cases h
  | some x =>
    obtain ⟨a, r1⟩ := x
    rw [h1] at h
    simp only [Option.bind_some] at h
    obtain ⟨e1, e2⟩ := hf a r1 b r' h he
    obtain ⟨e3, e4⟩ := hp r a r1 h1 e1
    refine ⟨e3, ?_⟩
    rw [e2, e4]
    simp [Nat.add_assoc]

theorem takes_getByte : Takes 1 getByte := by
  intro r b r' h he
  unfold getByte at h
  split at h
  · cases h
    rename_i hn
    exact absurd he hn
  rename_i hn
  split at h
  · cases h; cases he
  split at h
  · cases h; cases he
  cases hb : r.buf[r.pos]? with
  | none => rw [hb] at h; cases h
  | some x =>
    rw [hb] at h
    cases h
    exact ⟨he, rfl⟩

theorem takes_ok (f : P U16) (h : Takes 2 f) : Takes 2 (do if ← isOk then f else pure 0) := by
  intro r b r' hr he
  rw [P.bind_def] at hr
  simp only [isOk, Option.bind_some] at hr
  cases ho : r.err with
  | ok =>
    simp only [ho, beq_self_eq_true, if_true] at hr
    have := h r b r' hr he
    rw [ho] at this
    exact this
  | _ =>
    rw [ho] at hr
    cases hr
    rw [ho] at he
    cases he

theorem takes_getU16 : Takes 2 getU16 := by
  unfold getU16
  apply takes_ok
  intro r b r' hr he
  rw [P.bind_def] at hr
  simp only [isBe, Option.bind_some] at hr
  split at hr
  · exact ((takes_getByte).bind fun a => (takes_getByte).bind fun b => takes_pure _) r b r' hr he
  · exact ((takes_getByte).bind fun a => (takes_getByte).bind fun b => takes_pure _) r b r' hr he

theorem takes_getAlarmFixed : Takes 10 getAlarmFixed := by
  unfold getAlarmFixed
  exact takes_getU16.bind fun _ => takes_getU16.bind fun _ => takes_getByte.bind fun _ => takes_getByte.bind fun _ =>
    takes_getU16.bind fun _ => takes_getU16.bind fun _ => takes_pure _

/-- The parser changes nothing but position and error. -/
def Keeps {α : Type} (p : P α) : Prop :=
  ∀ r a r', p r = some (a, r') → r'.buf = r.buf ∧ r'.null = r.null ∧ r'.len = r.len ∧ r'.be = r.be

theorem keeps_pure {α : Type} (a : α) : Keeps (pure a : P α) := by
  intro r b r' h
  cases h
  exact ⟨rfl, rfl, rfl, rfl⟩

theorem Keeps.bind {α β : Type} {p : P α} {f : α → P β} (hp : Keeps p) (hf : ∀ a, Keeps (f a)) : Keeps (p >>= f) := by
  intro r b r' h
  rw [P.bind_def] at h
  cases h1 : p r with
  | none => rw [h1] at h; cases h
  | some x =>
    obtain ⟨a, r1⟩ := x
    rw [h1] at h
    simp only [Option.bind_some] at h
    obtain ⟨e1, e2, e3, e4⟩ := hf a r1 b r' h
    obtain ⟨e5, e6, e7, e8⟩ := hp r a r1 h1
    exact ⟨e1.trans e5, e2.trans e6, e3.trans e7, e4.trans e8⟩

theorem keeps_getByte : Keeps getByte := by
  intro r b r' h
  unfold getByte at h
  split at h
  · cases h; exact ⟨rfl, rfl, rfl, rfl⟩
  split at h
  · cases h; exact ⟨rfl, rfl, rfl, rfl⟩
  split at h
  · cases h; exact ⟨rfl, rfl, rfl, rfl⟩
  cases hb : r.buf[r.pos]? with
  | none => rw [hb] at h; cases h
  | some x => rw [hb] at h; cases h; exact ⟨rfl, rfl, rfl, rfl⟩

theorem keeps_ite {α : Type} {c : Prop} [Decidable c] {p q : P α} (hp : Keeps p) (hq : Keeps q) : Keeps (if c then p else q) := by
  split
  · exact hp
  · exact hq

theorem keeps_isOk : Keeps isOk := by
  intro r b r' h
  cases h; exact ⟨rfl, rfl, rfl, rfl⟩

theorem keeps_isBe : Keeps isBe := by
  intro r b r' h
  cases h; exact ⟨rfl, rfl, rfl, rfl⟩

theorem keeps_getU16 : Keeps getU16 := by
  unfold getU16
  refine keeps_isOk.bind fun _ => keeps_ite ?_ (keeps_pure _)
  refine keeps_isBe.bind fun _ => keeps_ite ?_ ?_
  all_goals exact keeps_getByte.bind fun _ => keeps_getByte.bind fun _ => keeps_pure _

theorem keeps_getAlarmFixed : Keeps getAlarmFixed := by
  unfold getAlarmFixed
  exact keeps_getU16.bind fun _ => keeps_getU16.bind fun _ => keeps_getByte.bind fun _ => keeps_getByte.bind fun _ =>
    keeps_getU16.bind fun _ => keeps_getU16.bind fun _ => keeps_pure _

theorem getByte_rd {buf : List Byte} {p : Nat} {b : Byte} (h : buf[p]? = some b) : getByte (rd buf p) = some (b, rd buf (p + 1)) := by
  obtain ⟨hl, _⟩ := List.getElem?_eq_some_iff.1 h
  unfold getByte rd
  simp only [ne_eq, not_true, if_false]
  rw [if_neg (by omega), if_neg (by decide), h]
  rfl

theorem getU16_ok (buf : List Byte) (n p : Nat) (null : Bool) :
    getU16 ⟨buf, null, n, true, .ok, p⟩ = (getByte ⟨buf, null, n, true, .ok, p⟩).bind fun x =>
      (getByte x.2).bind fun y => some ((x.1.setWidth 16 <<< 8) + y.1.setWidth 16, y.2) := rfl

theorem getU16_rd {buf : List Byte} {p : Nat} {a b : Byte} (h : buf[p]? = some a) (h' : buf[p + 1]? = some b) :
    getU16 (rd buf p) = some ((a.setWidth 16 <<< 8) + b.setWidth 16, rd buf (p + 2)) := by
  have e1 := getByte_rd h
  have e2 := getByte_rd h'
  unfold rd at e1 e2 ⊢
  rw [getU16_ok, e1]
  simp only [Option.bind_some]
  rw [e2]
  rfl

/-- A number whose lower byte is not 0 has been read without error. -/
theorem getU16_inv {buf : List Byte} {p : Nat} {r : Rd} {v : U16} {r' : Rd} (hb : r.buf = buf) (hn : r.null = false) (hl : r.len = buf.length)
    (hbe : r.be = true) (hp : r.pos = p) (h : getU16 r = some (v, r')) (hv : v.toNat % 256 ≠ 0) :
    r.err = .ok ∧ ∃ a b, buf[p]? = some a ∧ buf[p + 1]? = some b ∧ v = (a.setWidth 16 <<< 8) + b.setWidth 16 := by
  obtain ⟨rb, rn, rl, rbe, re, rp⟩ := r
  simp only at hb hn hl hbe hp
  subst hb hn hl hbe hp
  cases he : re with
  | ok =>
    subst he
    refine ⟨rfl, ?_⟩
    by_cases hlt : rp + 1 < rb.length
    · obtain ⟨a, ha⟩ : ∃ a, rb[rp]? = some a := ⟨_, List.getElem?_eq_getElem (by omega)⟩
      obtain ⟨b, hb⟩ : ∃ b, rb[rp + 1]? = some b := ⟨_, List.getElem?_eq_getElem hlt⟩
      have := getU16_rd ha hb
      unfold rd at this
      rw [this] at h
      cases h
      exact ⟨a, b, ha, hb, rfl⟩
    · exfalso
      rw [getU16_ok] at h
      by_cases h0 : rp < rb.length
      · obtain ⟨a, ha⟩ : ∃ a, rb[rp]? = some a := ⟨_, List.getElem?_eq_getElem h0⟩
        have hg := getByte_rd ha
        unfold rd at hg
        rw [hg] at h
        simp only [Option.bind_some] at h
        have hg2 : getByte (⟨rb, false, rb.length, true, .ok, rp + 1⟩ : Rd) = some (0, ⟨rb, false, rb.length, true, .endOfInput, rp + 1⟩) := by
          unfold getByte
          simp only [ne_eq, not_true, if_false]
          rw [if_pos (by omega)]
        rw [hg2] at h
        simp only [Option.bind_some] at h
        cases h
        apply hv
        simp only [BitVec.toNat_add, BitVec.toNat_shiftLeft, BitVec.toNat_setWidth, Nat.shiftLeft_eq]
        have : (0 : Byte).toNat = 0 := rfl
        rw [this]
        omega
      · have hg : getByte (⟨rb, false, rb.length, true, .ok, rp⟩ : Rd) = some (0, ⟨rb, false, rb.length, true, .endOfInput, rp⟩) := by
          unfold getByte
          simp only [ne_eq, not_true, if_false]
          rw [if_pos (by omega)]
        have hg2 : getByte (⟨rb, false, rb.length, true, .endOfInput, rp⟩ : Rd) = some (0, ⟨rb, false, rb.length, true, .endOfInput, rp⟩) := by
          unfold getByte
          rw [if_pos (by simp)]
        rw [hg] at h
        simp only [Option.bind_some] at h
        rw [hg2] at h
        cases h
        exact hv rfl
  | _ =>
    exfalso
    subst he
    unfold getU16 at h
    rw [P.bind_def] at h
    cases h
    exact hv rfl

theorem byte_11 : ∀ b : Byte, getBits (b.setWidth 32) 0 4 = 1 → getBits (b.setWidth 32) 4 4 = 1 → b = 0x11 := by decide +kernel

theorem word_type (a b : Byte) (t : U16) (h : t = (a.setWidth 16 <<< 8) + b.setWidth 16) :
    a.toNat = t.toNat / 256 ∧ b.toNat = t.toNat % 256 := by
  have h1 := a.isLt
  have h2 := b.isLt
  subst h
  simp only [BitVec.toNat_add, BitVec.toNat_shiftLeft, BitVec.toNat_setWidth, Nat.shiftLeft_eq]
  omega

/--
**C108** (partial).  A status is told to the application only for frames of type DATA and version 1 whose contents are an
acknowledgement of the priority of the queue.

Missing: the status told is that of the acknowledgement (`C108_status_wrong`).
-/
theorem C108_status_only_for_acknowledgements_partial {high : Bool} {k : Nat} {buf : List Byte} {s : Status}
    (h : receive high k buf = some (some (.status s))) :
    buf[k + 6]? = some 0x11 ∧ buf[k + 14]? = some 0x80 ∧ buf[k + 15]? = some (if high then 1 else 2) := by
  unfold receive at h
  cases hp : parseFrame ⟨buf, false, buf.length, true, .ok, k + 2⟩ with
  | none => rw [hp] at h; cases h
  | some x =>
    obtain ⟨fr, r1⟩ := x
    rw [hp] at h
    simp only [Option.bind_some] at h
    unfold parseFrame at hp
    rw [P.bind_def] at hp
    cases hf : getAlarmFixed ⟨buf, false, buf.length, true, .ok, k + 2⟩ with
    | none => rw [hf] at hp; cases hp
    | some y =>
      obtain ⟨f, rf⟩ := y
      rw [hf] at hp
      simp only [Option.bind_some] at hp
      rw [P.bind_def] at hp
      cases hn : getU16 rf with
      | none => rw [hn] at hp; cases hp
      | some z =>
        obtain ⟨n, rn⟩ := z
        rw [hn] at hp
        simp only [Option.bind_some] at hp
        -- only a DATA frame goes on
        have hd : f.version = 1 ∧ f.type = 1 ∧ fr = .data f n ∧ r1 = rn := by
          by_cases hv : f.version = 1
          · rw [if_pos hv] at hp
            by_cases h3 : f.type = 3
            · rw [if_pos h3] at hp
              split at hp <;> (cases hp; cases h)
            rw [if_neg h3] at hp
            by_cases h2 : f.type = 2
            · rw [if_pos h2] at hp
              cases hp; cases h
            rw [if_neg h2] at hp
            by_cases h1 : f.type = 1
            · rw [if_pos h1] at hp
              cases hp
              exact ⟨hv, h1, rfl, rfl⟩
            rw [if_neg h1] at hp
            by_cases h4 : f.type = 4
            · rw [if_pos h4] at hp
              split at hp
              · rw [P.bind_def] at hp
                cases hs : getStatus rn with
                | none => rw [hs] at hp; cases hp
                | some w =>
                  rw [hs] at hp
                  cases hp; cases h
              · cases hp; cases h
            rw [if_neg h4] at hp
            cases hp; cases h
          · rw [if_neg hv] at hp
            cases hp; cases h
        obtain ⟨hv, ht, rfl, rfl⟩ := hd
        simp only at h
        unfold dataInd at h
        rw [P.bind_def] at h
        simp only [reader, Option.bind_some] at h
        rw [P.bind_def] at h
        cases hh : getBlockHeader r1 with
        | none => rw [hh] at h; cases h
        | some w =>
          obtain ⟨hd, r2⟩ := w
          rw [hh] at h
          simp only [Option.bind_some] at h
          have hty : hd.type = (if high then 0x8001 else 0x8002) := by
            apply Classical.byContradiction
            intro hne
            rw [if_neg hne] at h
            by_cases hne2 : hd.type = (if high then 1 else 2)
            · rw [if_pos hne2] at h
              rw [P.bind_def] at h
              cases h5 : getAlarmData r2 with
              | none => rw [h5] at h; cases h
              | some w2 =>
                rw [h5] at h
                simp only [Option.bind_some] at h
                rw [P.bind_def] at h
                cases h6 : getU16 w2.2 with
                | none => rw [h6] at h; cases h
                | some w3 =>
                  rw [h6] at h
                  simp only [Option.bind_some] at h
                  rw [P.bind_def] at h
                  simp only [reader, Option.bind_some] at h
                  split at h <;> cases h
            · rw [if_neg hne2] at h
              cases h
          -- the block type
          unfold getBlockHeader at hh
          rw [P.bind_def] at hh
          cases h7 : getU16 r1 with
          | none => rw [h7] at hh; cases hh
          | some w4 =>
            obtain ⟨t, r3⟩ := w4
            rw [h7] at hh
            simp only [Option.bind_some] at hh
            have htt : hd.type = t := by
              rw [P.bind_def] at hh
              cases h8 : getU16 r3 with
              | none => rw [h8] at hh; cases hh
              | some w5 =>
                rw [h8] at hh
                simp only [Option.bind_some] at hh
                rw [P.bind_def] at hh
                cases h9 : getByte w5.2 with
                | none => rw [h9] at hh; cases hh
                | some w6 =>
                  rw [h9] at hh
                  simp only [Option.bind_some] at hh
                  rw [P.bind_def] at hh
                  cases h10 : getByte w6.2 with
                  | none => rw [h10] at hh; cases hh
                  | some w7 =>
                    rw [h10] at hh
                    cases hh
                    rfl
            obtain ⟨k1, k2, k3, k4⟩ := keeps_getAlarmFixed _ _ _ hf
            obtain ⟨k5, k6, k7, k8⟩ := keeps_getU16 _ _ _ hn
            have hlow : t.toNat % 256 ≠ 0 := by
              rw [← htt, hty]
              cases high <;> decide
            obtain ⟨herr, a, b, ha, hb, hab⟩ := getU16_inv (buf := buf) (p := r1.pos) (by rw [k5, k1]) (by rw [k6, k2]) (by rw [k7, k3])
              (by rw [k8, k4]) rfl h7 hlow
            obtain ⟨hferr, e1⟩ := takes_getU16 _ _ _ hn herr
            obtain ⟨_, e2⟩ := takes_getAlarmFixed _ _ _ hf hferr
            have hpos : r1.pos = k + 14 := by rw [e1, e2]
            rw [hpos] at ha hb
            obtain ⟨w1, w2⟩ := word_type a b t hab
            rw [← htt, hty] at w1 w2
            have hlen : k + 15 < buf.length := (List.getElem?_eq_some_iff.1 hb).1
            have get : ∀ i, i ≤ 15 → ∃ x, buf[k + i]? = some x := fun i hi => ⟨_, List.getElem?_eq_getElem (by omega)⟩
            obtain ⟨b2, g2⟩ := get 2 (by omega)
            obtain ⟨b3, g3⟩ := get 3 (by omega)
            obtain ⟨b4, g4⟩ := get 4 (by omega)
            obtain ⟨b5, g5⟩ := get 5 (by omega)
            obtain ⟨b6, g6⟩ := get 6 (by omega)
            obtain ⟨b7, g7⟩ := get 7 (by omega)
            obtain ⟨b8, g8⟩ := get 8 (by omega)
            obtain ⟨b9, g9⟩ := get 9 (by omega)
            obtain ⟨b10, g10⟩ := get 10 (by omega)
            obtain ⟨b11, g11⟩ := get 11 (by omega)
            have hfix : getAlarmFixed (rd buf (k + 2)) = some (f, rf) := hf
            unfold getAlarmFixed at hfix
            rw [P.bind_def, getU16_rd g2 g3] at hfix
            simp only [Option.bind_some] at hfix
            rw [P.bind_def, getU16_rd g4 g5] at hfix
            simp only [Option.bind_some] at hfix
            rw [P.bind_def, getByte_rd g6] at hfix
            simp only [Option.bind_some] at hfix
            rw [P.bind_def, getByte_rd g7] at hfix
            simp only [Option.bind_some] at hfix
            rw [P.bind_def, getU16_rd g8 g9] at hfix
            simp only [Option.bind_some] at hfix
            rw [P.bind_def, getU16_rd g10 g11] at hfix
            cases hfix
            refine ⟨by rw [g6, byte_11 b6 ht hv], ?_, ?_⟩
            · rw [ha]
              congr 1
              apply BitVec.eq_of_toNat_eq
              rw [w1]
              cases high <;> rfl
            · rw [hb]
              congr 1
              apply BitVec.eq_of_toNat_eq
              rw [w2]
              cases high <;> rfl

/-! ## C110, C112 -/

/--
**C110**.  For every table of endpoints and every frame long enough to have the alarm protocol's first field: the frame goes
to connection `i` exactly if this field is the number of an active endpoint that belongs to connection `i`, and to the queue
of high priority exactly if the frame ID is that of high priority alarms.  The table is never left.
-/
theorem C110_frame_goes_to_named_connection {eps : List Endpoint} {frameId : U16} {k : Nat} {buf : List Byte} {a b : Byte}
    (ha : buf[k + 2]? = some a) (hb : buf[k + 3]? = some b) :
    ∃ r, dispatch eps frameId k buf = some r ∧ ∀ i high, r = some (i, high) ↔
      (∃ e, a.toNat * 256 + b.toNat = e + 1 ∧ eps[e]? = some ⟨true, some i⟩) ∧ (high = true ↔ frameId = 0xFC01) := by
  have hx : (BitVec.toNat ((a.setWidth 16 <<< 8) + b.setWidth 16 : U16)) = a.toNat * 256 + b.toNat := by
    have h1 := a.isLt
    have h2 := b.isLt
    simp only [BitVec.toNat_add, BitVec.toNat_shiftLeft, BitVec.toNat_setWidth, Nat.shiftLeft_eq]
    omega
  have hg : getU16 ⟨buf, false, buf.length, true, .ok, k + 2⟩ = _ := getU16_rd ha hb
  unfold dispatch
  rw [hg]
  simp only [Option.bind_some]
  rw [hx]
  generalize a.toNat * 256 + b.toNat = v
  split
  · rename_i hv
    have hlt : v - 1 < eps.length := by omega
    rw [List.getElem?_eq_getElem hlt]
    refine ⟨_, rfl, ?_⟩
    intro i high
    have hone : (∃ e, v = e + 1 ∧ eps[e]? = some ⟨true, some i⟩) ↔ eps[v - 1] = ⟨true, some i⟩ := by
      constructor
      · rintro ⟨e, rfl, he⟩
        have := (List.getElem?_eq_some_iff.1 he).2
        simpa using this
      · intro h
        exact ⟨v - 1, by omega, by rw [List.getElem?_eq_getElem hlt, h]⟩
    rw [hone]
    generalize eps[v - 1] = ep
    obtain ⟨act, ar⟩ := ep
    cases act
    · simp
    · cases ar with
      | none => simp
      | some j =>
        simp only [if_true, Option.map_some, Option.some.injEq, Prod.mk.injEq, Endpoint.mk.injEq, true_and]
        constructor
        · rintro ⟨rfl, rfl⟩
          exact ⟨rfl, by simp⟩
        · rintro ⟨rfl, h⟩
          refine ⟨rfl, ?_⟩
          cases high <;> simp_all
  · rename_i hv
    refine ⟨none, rfl, ?_⟩
    intro i high
    constructor
    · intro h; cases h
    · rintro ⟨⟨e, rfl, he⟩, _⟩
      have := (List.getElem?_eq_some_iff.1 he).1
      omega

/-- **C110**: shorter frames go to nobody. -/
theorem C110_short_frames_ignored {eps : List Endpoint} {frameId : U16} {k : Nat} {buf : List Byte} (h : buf.length ≤ k + 2) :
    dispatch eps frameId k buf = some none := by
  have hg : getByte (⟨buf, false, buf.length, true, .ok, k + 2⟩ : Rd) = some (0, ⟨buf, false, buf.length, true, .endOfInput, k + 2⟩) := by
    unfold getByte
    simp only [ne_eq, not_true, if_false]
    rw [if_pos (by omega)]
  have hg2 : getByte (⟨buf, false, buf.length, true, .endOfInput, k + 2⟩ : Rd) = some (0, ⟨buf, false, buf.length, true, .endOfInput, k + 2⟩) := by
    unfold getByte
    rw [if_pos (by simp)]
  unfold dispatch
  rw [getU16_ok, hg]
  simp only [Option.bind_some]
  rw [hg2]
  rfl

/-- An error unit of the alarm protocol. -/
def encError (dst src send ack : U16) (s : Status) : List Byte :=
  enc16 true dst ++ enc16 true src ++ [0x14, 0x01] ++ enc16 true send ++ enc16 true ack ++ num16 4 ++ [s.code, s.decode, s.code1, s.code2]

theorem parses_error (dst src send ack : U16) (s : Status) : Parses true parseFrame (encError dst src send ack s) (.error s) := by
  unfold parseFrame encError
  rw [List.append_assoc]
  refine ParsesTo.bind (x := enc16 true dst ++ enc16 true src ++ [0x14, 0x01] ++ enc16 true send ++ enc16 true ack) (y := num16 4 ++ encStatus s)
    (be1 := true) (a := ⟨dst, src, 4, 1, 1, 0, send, ack⟩) ?_ ?_
  · exact parses_getAlarmFixed (a := ⟨dst, src, 4, 1, 1, 0, send, ack⟩) (by simp [AlarmFixed.Wf])
  · refine ParsesTo.bind (parses_getU16 _ _) ?_
    simp only [if_true]
    rw [if_neg (by decide), if_neg (by decide), if_neg (by decide), if_pos (by decide)]
    exact ParsesTo.bind_nil (parses_getStatus true s) (ParsesTo.pure _ _)

/--
**C112** is false: whatever is in front of the alarm protocol (with the address of the sender), and whatever reference the
sender gives for itself, an error unit that names an active endpoint is taken as one of the controller of this connection.
-/
theorem C112_sender_not_checked {eps : List Endpoint} {frameId : U16} {pre pad : List Byte} {src send ack : U16} {s : Status} {k e i : Nat}
    (hk : k + 2 = pre.length) (he : eps[e]? = some ⟨true, some i⟩) (hlt : e + 1 < 65536) :
    dispatch eps frameId k (pre ++ encError (BitVec.ofNat 16 (e + 1)) src send ack s ++ pad) = some (some (i, frameId == 0xFC01)) ∧
    ∃ r, parseFrame ⟨pre ++ encError (BitVec.ofNat 16 (e + 1)) src send ack s ++ pad, false,
        (pre ++ encError (BitVec.ofNat 16 (e + 1)) src send ack s ++ pad).length, true, .ok, k + 2⟩ = some (.error s, r) := by
  have hs : slice (pre ++ encError (BitVec.ofNat 16 (e + 1)) src send ack s ++ pad) pre.length
    (encError (BitVec.ofNat 16 (e + 1)) src send ack s).length = some (encError (BitVec.ofNat 16 (e + 1)) src send ack s) := slice_mid
  generalize pre ++ encError (BitVec.ofNat 16 (e + 1)) src send ack s ++ pad = buf at hs ⊢
  have hr := run_of_parses (parses_error _ _ _ _ _) hs
  rw [hk]
  refine ⟨?_, _, hr⟩
  unfold encError at hs
  simp only [List.append_assoc] at hs
  have h1 := run_of_parses (parses_getU16 true (BitVec.ofNat 16 (e + 1))) (slice_pre hs)
  have h1 : getU16 ⟨buf, false, buf.length, true, .ok, pre.length⟩ = _ := h1
  have hel := (List.getElem?_eq_some_iff.1 he).1
  unfold dispatch
  rw [hk, h1]
  simp only [Option.bind_some, BitVec.toNat_ofNat]
  rw [Nat.mod_eq_of_lt hlt, if_pos (by omega), Nat.add_sub_cancel, he]
  rfl

/--
**C112** (partial).  A frame is taken only if it names an active endpoint of a connection.

Missing: that it comes from the controller of this connection (`C112_sender_not_checked`).
-/
theorem C112_only_named_endpoint_partial {eps : List Endpoint} {frameId : U16} {k : Nat} {buf : List Byte} {i : Nat} {high : Bool}
    (h : dispatch eps frameId k buf = some (some (i, high))) :
    ∃ (e : Nat) (a : Byte), buf[k + 2]? = some a ∧ eps[e]? = some ⟨true, some i⟩ ∧
      (∀ b, buf[k + 3]? = some b → a.toNat * 256 + b.toNat = e + 1) := by
  cases ha : buf[k + 2]? with
  | none =>
    rw [C110_short_frames_ignored (List.getElem?_eq_none_iff.1 ha)] at h
    cases h
  | some a =>
    cases hb : buf[k + 3]? with
    | some b =>
      obtain ⟨r, h1, h2⟩ := C110_frame_goes_to_named_connection (eps := eps) (frameId := frameId) ha hb
      rw [h] at h1
      obtain ⟨⟨e, h3, h4⟩, _⟩ := (h2 i high).1 (Option.some.inj h1).symm
      exact ⟨e, a, rfl, h4, fun b' hb' => by cases hb'; exact h3⟩
    | none =>
      have hg := getByte_rd ha
      unfold rd at hg
      unfold dispatch at h
      rw [getU16_ok, hg] at h
      simp only [Option.bind_some] at h
      cases hg2 : getByte ⟨buf, false, buf.length, true, .ok, k + 2 + 1⟩ with
      | none => rw [hg2] at h; cases h
      | some y =>
        rw [hg2] at h
        simp only [Option.bind_some] at h
        generalize BitVec.toNat (BitVec.setWidth 16 a <<< 8 + BitVec.setWidth 16 y.1) = v at h
        split at h
        · cases hv : eps[v - 1]? with
          | none => rw [hv] at h; cases h
          | some x =>
            rw [hv] at h
            obtain ⟨act, ar⟩ := x
            cases act
            · cases h
            · cases ar with
              | none => cases h
              | some j =>
                cases h
                exact ⟨v - 1, a, rfl, hv, fun b hb => by cases hb⟩
        · cases h

/-! ## C111 -/

/--
**C111**.  For every alarm connection, every alarm the application was told of and every status it gives: the frame with the
acknowledgement is complete, and names type, place, sequence number and specifier of this alarm, and the status.
-/
theorem C111_acknowledgement_names_alarm (x : Apmx) (a : Arg) (s : Status) (hx : x.Wf) :
    ackFrame x a s = some (encFrame x (encAck x.high a s)) := by
  unfold ackFrame
  have hn : x.ack = if x.high then 0x8001 else 0x8002 := rfl
  rw [hn]
  refine bytesOf_puts (puts_frame (puts_ack x.high a s)) ?_
  rw [encFrame_length hx]
  unfold encAck
  rw [Records.encBlock_length]
  simp [num16_length, num32_length, encSpecifier_length]

/-- **C111**: together with C109: an alarm that a controller sends, which the application acknowledges with the arguments it was given,
is answered by a frame that repeats the fields of the notification. -/
theorem C111_answer_repeats_notification {high : Bool} {pre data pad : List Byte} {dst src send ack : U16} {t : Told} {u k : Nat}
    (x : Apmx) (s : Status) (hx : x.Wf) (hk : k + 2 = pre.length) (hw : t.Wf) (hu : u < 65536) (hd : data.length + 28 < 65536)
    (a : Arg) (usi len : U16) (pos : Nat)
    (h : receive high k (pre ++ encRta dst src send ack (t.enc high (num16 u ++ data)) ++ pad) = some (some (.alarm a usi len pos))) :
    ackFrame x a s = some (encFrame x (encAck x.high ⟨t.api, t.slot, t.subslot, t.type, t.seq, t.spec⟩ s)) := by
  obtain ⟨p, u', l', h1, _⟩ := C109_received_alarm_told_partial (pad := pad) (dst := dst) (src := src) (send := send) (ack := ack) (data := data)
    (high := high) hk hw hu hd
  rw [h1] at h
  cases h
  exact C111_acknowledgement_names_alarm x t.arg s hx

/-- **C111**: sequence numbers of notifications are counted modulo 2048, so the field for them tells any two of 2048 successive
notifications apart. -/
theorem C111_sequence_numbers (seq n : Nat) (hs : seq < 2048) : (nextSeq^[n]) seq = (seq + n) % 2048 := by
  induction n with
  | zero => simp [Nat.mod_eq_of_lt hs]
  | succ n ih =>
    rw [Function.iterate_succ_apply', ih]
    unfold nextSeq
    omega

end Verif.AlarmPdu
