import Verif.Epm.Spec
import Verif.Wire.Records

set_option linter.unusedSimpArgs false
set_option linter.unusedVariables false

namespace Verif.Epm
open Verif.Wire Verif.Epm.Spec

/-! ## The annotation -/

theorem digits_ne (k n : Nat) : digits (k + 1) n ≠ [] := by
  intro h
  have := congrArg List.length h
  simp [digits] at this

theorem digit_val (m : Nat) (h : m < 10) : (BitVec.ofNat 8 (48 + m)).toNat = 48 + m := by
  rw [BitVec.toNat_ofNat]; omega

theorem digits_mem (k : Nat) : ∀ n, ∀ b ∈ digits k n, 48 ≤ b.toNat ∧ b.toNat ≤ 57 := by
  induction k with
  | zero => intro n b hb; simp [digits] at hb
  | succ k ih =>
    intro n b hb
    unfold digits at hb
    rw [List.mem_append] at hb
    rcases hb with hb | hb
    · split at hb
      · simp at hb
      · exact ih _ _ hb
    · simp only [List.mem_singleton] at hb
      rw [hb, digit_val _ (by omega)]
      omega

theorem value_append (a : List Byte) (b : Byte) : value (a ++ [b]) = value a * 10 + (b.toNat - 48) := by
  simp [value, List.foldl_append]

theorem digits_value (k : Nat) : ∀ n, n < 10 ^ k → value (digits k n) = n := by
  induction k with
  | zero => intro n h; simp at h; subst h; rfl
  | succ k ih =>
    intro n h
    unfold digits
    rw [value_append, digit_val _ (by omega)]
    split
    · rename_i hn
      simp [value]
      omega
    · rw [ih (n / 10) (by rw [Nat.pow_succ] at h; omega)]
      omega

theorem digits_length (k : Nat) : ∀ n w, 1 ≤ w → n < 10 ^ w → (digits k n).length ≤ w := by
  induction k with
  | zero => intro n w _ _; simp [digits]
  | succ k ih =>
    intro n w hw h
    unfold digits
    rw [List.length_append, List.length_singleton]
    split
    · simpa using hw
    · rename_i hn
      match w, hw with
      | 1, _ => simp at h; omega
      | w + 2, _ =>
        have := ih (n / 10) (w + 1) (by omega) (by rw [Nat.pow_succ] at h; omega)
        omega

theorem digits_head (k : Nat) : ∀ n, (digits k n).head? = some 48 → n < 10 ^ k → (digits k n).length = 1 := by
  induction k with
  | zero => intro n h; simp [digits] at h
  | succ k ih =>
    intro n h hn
    unfold digits at h ⊢
    split
    · simp
    · rename_i h10
      exfalso
      rw [if_neg h10] at h
      match k with
      | 0 => simp at hn; omega
      | k + 1 =>
        have hk : n / 10 < 10 ^ (k + 1) := by rw [Nat.pow_succ] at hn; omega
        have hd : (digits (k + 1) (n / 10)).head? = some 48 := by
          have := digits_ne k (n / 10)
          cases hx : digits (k + 1) (n / 10) with
          | nil => exact absurd hx this
          | cons a l => rw [hx] at h; simpa using h
        have h1 := ih _ hd hk
        have hv := digits_value _ _ hk
        cases hx : digits (k + 1) (n / 10) with
        | nil => exact digits_ne _ _ hx
        | cons a l =>
          rw [hx] at h1 hd hv
          simp at h1 hd
          rw [h1, hd] at hv
          simp [value] at hv
          omega

theorem fmtNum_is {w n : Nat} (h : n < 10 ^ 10) : IsNumber (fmtNum w n) n :=
  ⟨_, _, rfl, digits_ne _ _, digits_mem _ _, digits_value _ _ h, fun hh => digits_head _ _ hh h⟩

theorem fmtNum_length {w n : Nat} (hw : 1 ≤ w) (h : n < 10 ^ w) : (fmtNum w n).length = w := by
  have := digits_length 10 n w hw h
  simp [fmtNum]
  omega

theorem fmtStr_length {w : Nat} {s : List Byte} (h : s.length ≤ w) : (fmtStr w s).length = w := by
  simp [fmtStr]; omega

theorem text_length {d : Dev} (h : DevOk d) : (text d).length = 63 := by
  have h1 := fmtStr_length h.name
  have h2 := fmtStr_length h.order
  have h3 := fmtNum_length (w := 5) (n := d.hwRev.toNat) (by omega) (by have := d.hwRev.isLt; omega)
  have h4 := fmtNum_length (w := 3) (n := d.swFun.toNat) (by omega) (by have := d.swFun.isLt; omega)
  have h5 := fmtNum_length (w := 3) (n := d.swFix.toNat) (by omega) (by have := d.swFix.isLt; omega)
  have h6 := fmtNum_length (w := 3) (n := d.swInt.toNat) (by omega) (by have := d.swInt.isLt; omega)
  simp only [text, List.length_append, List.length_singleton, h1, h2, h3, h4, h5, h6]

theorem annotation_eq {d : Dev} (h : DevOk d) : annotation d = text d ++ [0] := by
  rw [annotation, List.take_of_length_le (by rw [text_length h]; omega)]

theorem annotation_length {d : Dev} (h : DevOk d) : (annotation d).length = 64 := by
  rw [annotation_eq h, List.length_append, text_length h]; rfl

theorem isNote {d : Dev} (h : DevOk d) : IsNote d (annotation d) := by
  have h1 := d.hwRev.isLt
  have h2 := d.swFun.isLt
  have h3 := d.swFix.isLt
  have h4 := d.swInt.isLt
  refine ⟨_, _, _, _, _, _, annotation_eq h, fmtStr_length h.name, fmtStr_length h.order, ?_, ?_, ?_, ?_, ⟨_, rfl⟩, ⟨_, rfl⟩,
    fmtNum_is (by omega), fmtNum_is (by omega), fmtNum_is (by omega), fmtNum_is (by omega)⟩
  all_goals exact fmtNum_length (by omega) (by omega)

/-! ## The bytes -/

def encRpcUuid (u : RpcUuid) : List Byte :=
  enc32 false u.low ++ enc16 false u.mid ++ enc16 false u.hi ++ [u.clockHi] ++ [u.clockLow] ++ u.node

theorem writes_rpcUuid (u : RpcUuid) : Writes (putRpcUuid false u) (encRpcUuid u) :=
  Writes.seq (Writes.seq (Writes.seq (Writes.seq (Writes.seq (writes_putU32 _ _) (writes_putU16 _ _)) (writes_putU16 _ _))
    (writes_putByte _)) (writes_putByte _)) (writes_putMem _)

def encFloor (f : FloorUuid) : List Byte :=
  enc16 false 19 ++ [f.protocol] ++ encRpcUuid f.uuid ++ enc16 false f.major ++ enc16 false 2 ++ enc16 false f.minor

theorem writes_floor (f : FloorUuid) : Writes (putFloorUuid false f) (encFloor f) :=
  Writes.seq (Writes.seq (Writes.seq (Writes.seq (Writes.seq (writes_putU16 _ _) (writes_putByte _)) (writes_rpcUuid _))
    (writes_putU16 _ _)) (writes_putU16 _ _)) (writes_putU16 _ _)

def encFloor3 (t : Tower) : List Byte := enc16 false 1 ++ [t.protocol3] ++ enc16 false 2 ++ enc16 false t.minor3
def encFloor4 (t : Tower) : List Byte := enc16 false 1 ++ [t.protocol4] ++ enc16 false 2 ++ enc16 false t.port
def encFloor5 (t : Tower) : List Byte := enc16 false 1 ++ [t.protocol5] ++ enc16 false 4 ++ enc32 false t.ip

theorem writes_floor3 (t : Tower) : Writes (putFloor3 false t) (encFloor3 t) :=
  Writes.seq (Writes.seq (Writes.seq (writes_putU16 _ _) (writes_putByte _)) (writes_putU16 _ _)) (writes_putU16 _ _)
theorem writes_floor4 (t : Tower) : Writes (putFloor4 false t) (encFloor4 t) :=
  Writes.seq (Writes.seq (Writes.seq (writes_putU16 _ _) (writes_putByte _)) (writes_putU16 _ _)) (writes_putU16 _ _)
theorem writes_floor5 (t : Tower) : Writes (putFloor5 false t) (encFloor5 t) :=
  Writes.seq (Writes.seq (Writes.seq (writes_putU16 _ _) (writes_putByte _)) (writes_putU16 _ _)) (writes_putU32 _ _)

def encTower (d : Dev) (t : Tower) : List Byte :=
  enc32 false 3 ++ enc32 false 0 ++ enc32 false 64 ++ annotation d ++ enc32 false 75 ++ enc32 false 75 ++ enc16 false 5 ++
    encFloor t.floor1 ++ encFloor t.floor2 ++ encFloor3 t ++ encFloor4 t ++ encFloor5 t

theorem writes_tower (d : Dev) (t : Tower) : Writes (putTower false d t) (encTower d t) :=
  Writes.seq (Writes.seq (Writes.seq (Writes.seq (Writes.seq (Writes.seq (Writes.seq (Writes.seq (Writes.seq (Writes.seq (Writes.seq
    (writes_putU32 _ _) (writes_putU32 _ _)) (writes_putU32 _ _)) (writes_putMem _)) (writes_putU32 _ _)) (writes_putU32 _ _))
    (writes_putU16 _ _)) (writes_floor _)) (writes_floor _)) (writes_floor3 _)) (writes_floor4 _)) (writes_floor5 _)

theorem writes_id : Writes (fun w => some w) [] := by
  intro x h1 h2
  exact ⟨x.buf, writeAt_nil _ (by simp at h2; omega), rfl⟩

def encEntry (d : Dev) (r : Rsp) : List Byte :=
  enc32 false r.maxCount ++ enc32 false r.offset ++ enc32 false r.actual ++
    (if r.actual.toNat > 0 then encRpcUuid r.object ++ encTower d r.tower else [])

theorem writes_entry (d : Dev) (r : Rsp) : Writes (putEntry false d r) (encEntry d r) := by
  unfold putEntry encEntry
  refine Writes.seq (Writes.seq (Writes.seq (writes_putU32 _ _) (writes_putU32 _ _)) (writes_putU32 _ _)) ?_
  split
  · exact Writes.seq (writes_rpcUuid _) (writes_tower _ _)
  · exact writes_id

/-- What is put before the padding. -/
def encHead (d : Dev) (r : Rsp) : List Byte :=
  enc32 false r.entryHandle ++ encRpcUuid r.handle ++ enc32 false r.num ++ encEntry d r

theorem writes_head (d : Dev) (r : Rsp) :
    Writes (putHandle false r.entryHandle r.handle ;; putU32 false r.num ;; putEntry false d r) (encHead d r) :=
  Writes.seq (Writes.seq (Writes.seq (writes_putU32 _ _) (writes_rpcUuid _)) (writes_putU32 _ _)) (writes_entry _ _)

theorem align2 (start : Nat) (w : Wr) : putPaddingAlign start 2 w =
    if (w.pos - start) % 2 = 0 then some w
    else (putByte 0 w).bind fun x => if (x.pos - start) % 2 = 0 then some x else (putByte 0 x).bind fun _ => none := by
  unfold putPaddingAlign
  simp only [putPaddingAlign.go]

def pad2 (n : Nat) : List Byte := if n % 2 = 0 then [] else [0]

def encRsp (d : Dev) (r : Rsp) : List Byte := encHead d r ++ pad2 (encHead d r).length ++ enc32 false r.code

theorem writes_rsp (d : Dev) (r : Rsp) : Writes (putRsp false d r) (encRsp d r) := by
  intro x hc hr
  have hw : Writes (putHandle false r.entryHandle r.handle ;; putU32 false r.num ;; putEntry false d r ;;
      (if (encHead d r).length % 2 = 0 then (fun w => some w) else putByte 0) ;; putU32 false r.code) (encRsp d r) := by
    refine Writes.seq (Writes.seq (writes_head d r) ?_) (writes_putU32 _ _)
    unfold pad2
    split
    · exact writes_id
    · exact writes_putByte 0
  obtain ⟨b, hb, he⟩ := hw x hc hr
  refine ⟨b, hb, ?_⟩
  rw [← he]
  have hlen : (encRsp d r).length = (encHead d r).length + (pad2 (encHead d r).length).length + 4 := by
    simp [encRsp, enc32_length]; omega
  obtain ⟨b1, w1, e1⟩ := writes_head d r x hc (by omega)
  have hl1 := writeAt_length w1
  unfold putRsp W.seq
  unfold W.seq at e1
  simp only [e1, Option.bind_some]
  congr 1
  rw [align2]
  simp only [Nat.add_sub_cancel_left]
  split
  · rfl
  · rename_i hodd
    have hp : (pad2 (encHead d r).length).length = 1 := by simp [pad2, hodd]
    obtain ⟨b2, w2, e2⟩ := writes_putByte 0 { x with buf := b1, pos := x.pos + (encHead d r).length } (by simp only; omega)
      (by simp only [List.length_singleton]; omega)
    rw [e2]
    simp only [Option.bind_some, List.length_singleton]
    rw [if_pos (by omega)]

theorem enc32_swap (v : U32) : enc32 false (swap32 v) = enc32 true v := by
  simp only [enc32, Bool.false_eq_true, if_true, if_false, ← b32_0, ← b32_1, ← b32_2, ← b32_3]
  have h : ∀ (i : Nat), i < 8 → i = 0 ∨ i = 1 ∨ i = 2 ∨ i = 3 ∨ i = 4 ∨ i = 5 ∨ i = 6 ∨ i = 7 := by omega
  show [_, _, _, _] = [_, _, _, _]
  congr 1
  · apply BitVec.eq_of_getLsbD_eq
    intro i hi
    rcases h i hi with rfl | rfl | rfl | rfl | rfl | rfl | rfl | rfl <;> simp [swap32]
  congr 1
  · apply BitVec.eq_of_getLsbD_eq
    intro i hi
    rcases h i hi with rfl | rfl | rfl | rfl | rfl | rfl | rfl | rfl <;> simp [swap32]
  congr 1
  · apply BitVec.eq_of_getLsbD_eq
    intro i hi
    rcases h i hi with rfl | rfl | rfl | rfl | rfl | rfl | rfl | rfl <;> simp [swap32]
  congr 1
  · apply BitVec.eq_of_getLsbD_eq
    intro i hi
    rcases h i hi with rfl | rfl | rfl | rfl | rfl | rfl | rfl | rfl <;> simp [swap32]

theorem enc32_rev (v : U32) : enc32 false v = (enc32 true v).reverse := by
  simp [enc32]

theorem encRpcUuid_handle (ts : U32) (mac : List Byte) :
    enc32 false 0 ++ encRpcUuid (epmHandle ts mac) = handle ts.toNat mac := by
  have h1 : (ts &&& 0x00FF0000).setWidth 16 = (0 : U16) := by
    rw [BitVec.setWidth_and]
    simp
  have h2 : ((ts &&& 0xFF000000) ||| 0x1000).setWidth 16 = (0x1000 : U16) := by
    rw [BitVec.setWidth_or, BitVec.setWidth_and]
    simp
  have h3 : (ts &&& 0x0000FFFF).toNat = ts.toNat % 65536 := by
    rw [BitVec.toNat_and]
    exact Nat.and_two_pow_sub_one_eq_mod _ 16
  simp only [encRpcUuid, epmHandle, h1, h2, handle, List.append_assoc]
  simp only [enc32, enc16, Bool.false_eq_true, if_false, h3]
  have e1 : ts.toNat % 65536 % 256 = ts.toNat % 256 := by omega
  have e2 : ts.toNat % 65536 / 256 % 256 = ts.toNat / 256 % 256 := by omega
  have e3 : ts.toNat % 65536 / 65536 % 256 = 0 := by omega
  have e4 : ts.toNat % 65536 / 16777216 = 0 := by omega
  rw [e1, e2, e3, e4]
  rfl

theorem enc16_swap (v : U16) : enc16 false (swap16 v) = enc16 true v := by
  simp only [enc16, Bool.false_eq_true, if_true, if_false, ← hi16, ← lo16]
  have h : ∀ (i : Nat), i < 8 → i = 0 ∨ i = 1 ∨ i = 2 ∨ i = 3 ∨ i = 4 ∨ i = 5 ∨ i = 6 ∨ i = 7 := by omega
  show [_, _] = [_, _]
  congr 1
  · apply BitVec.eq_of_getLsbD_eq
    intro i hi
    rcases h i hi with rfl | rfl | rfl | rfl | rfl | rfl | rfl | rfl <;> simp [swap16]
  congr 1
  · apply BitVec.eq_of_getLsbD_eq
    intro i hi
    rcases h i hi with rfl | rfl | rfl | rfl | rfl | rfl | rfl | rfl <;> simp [swap16]

theorem enc16_rev (v : U16) : enc16 false v = (enc16 true v).reverse := by
  simp [enc16]

theorem enc_htons (b : Bool) (v : U16) : enc16 false (htons b v) = order b (enc16 true v) := by
  cases b
  · exact enc16_swap v
  · exact enc16_rev v

theorem enc_htonl (b : Bool) (v : U32) : enc32 false (htonl b v) = order b (enc32 true v) := by
  cases b
  · exact enc32_swap v
  · exact enc32_rev v

theorem order_length (b : Bool) (l : List Byte) : (order b l).length = l.length := by
  cases b <;> simp [order]

theorem floor_length {f : FloorUuid} (h : f.uuid.node.length = 6) : (encFloor f).length = 25 := by
  simp [encFloor, encRpcUuid, enc16_length, enc32_length, h]

theorem rsp_entry {d : Dev} (hd : DevOk d) {ts : U32} {o : RpcUuid} (ho : o.node.length = 6) (epm : Bool) (p : U16) :
    encRsp d ⟨0, epmHandle ts d.mac, 1, 1, 0, 1, o, tower d epm p, 0⟩ =
      entry d ts.toNat (encRpcUuid o) (encFloor (tower d epm p).floor1) (enc16 true p) (annotation d) := by
  have c0 : enc32 false 0 = [0, 0, 0, 0] := by decide
  have c1 : enc32 false 1 = [1, 0, 0, 0] := by decide
  have c3 : enc32 false 3 = [3, 0, 0, 0] := by decide
  have c64 : enc32 false 64 = [64, 0, 0, 0] := by decide
  have c75 : enc32 false 75 = [75, 0, 0, 0] := by decide
  have s5 : enc16 false 5 = [5, 0] := by decide
  have s1 : enc16 false 1 = [1, 0] := by decide
  have s2 : enc16 false 2 = [2, 0] := by decide
  have s4 : enc16 false 4 = [4, 0] := by decide
  have s0 : enc16 false 0 = [0, 0] := by decide
  have f2 : encFloor (tower d epm p).floor2 = floorNdr := by
    show encFloor ⟨0x0D, uuidNdr, 2, 0⟩ = floorNdr
    decide
  have hl : (encFloor (tower d epm p).floor1).length = 25 := floor_length (by cases epm <;> rfl)
  have hh : encHead d ⟨0, epmHandle ts d.mac, 1, 1, 0, 1, o, tower d epm p, 0⟩ =
      handle ts.toNat d.mac ++ [1, 0, 0, 0] ++ [1, 0, 0, 0] ++ [0, 0, 0, 0] ++ [1, 0, 0, 0] ++ encRpcUuid o ++
    [3, 0, 0, 0] ++ [0, 0, 0, 0] ++ [64, 0, 0, 0] ++ annotation d ++ [75, 0, 0, 0] ++ [75, 0, 0, 0] ++ [5, 0] ++
    encFloor (tower d epm p).floor1 ++
    floorNdr ++ [1, 0, 0x0A, 2, 0, 0, 0] ++ ([1, 0, 0x08, 2, 0] ++ order d.bigHost (enc16 true p)) ++
    ([1, 0, 0x09, 4, 0] ++ order d.bigHost (enc32 true d.ip)) := by
    have ha : (1 : U32).toNat > 0 := by decide
    simp only [encHead, encEntry, if_pos ha, encRpcUuid_handle, encTower, f2, c1, c3, c64, c75, s5, encFloor3, encFloor4, encFloor5,
      s1, s2, s4]
    rw [c0]
    show _ = _
    have h5 : (tower d epm p).ip = htonl d.bigHost d.ip := rfl
    have h4 : (tower d epm p).port = htons d.bigHost p := rfl
    have h3 : (tower d epm p).minor3 = 0 := rfl
    have p3 : (tower d epm p).protocol3 = 0x0A := rfl
    have p4 : (tower d epm p).protocol4 = 0x08 := rfl
    have p5 : (tower d epm p).protocol5 = 0x09 := rfl
    rw [h5, h4, h3, p3, p4, p5, enc_htons, enc_htonl, s0]
    simp only [List.append_assoc, List.cons_append, List.nil_append]
  have hn : (encHead d ⟨0, epmHandle ts d.mac, 1, 1, 0, 1, o, tower d epm p, 0⟩).length = 211 := by
    rw [hh]
    simp only [List.length_append, List.length_cons, List.length_nil, annotation_length hd, hl, order_length, enc16_length, enc32_length,
      handle, hd.mac, encRpcUuid, ho, floorNdr]
  have hp : pad2 211 = [0] := by decide
  unfold encRsp
  rw [hn, hh, hp]
  rw [c0]
  rfl

theorem body_mapper {d : Dev} (hd : DevOk d) (ts : U32) :
    encRsp d (addEpm d ts Rsp.none) = body d ts.toNat (annotation d) .mapper := by
  rw [show addEpm d ts Rsp.none = ⟨0, epmHandle ts d.mac, 1, 1, 0, 1, uuidNil, tower d true 0x8894, 0⟩ from rfl,
    rsp_entry hd (by rfl), show encRpcUuid uuidNil = List.replicate 16 0 from by decide,
    show encFloor (tower d true 0x8894).floor1 = floorMapper from by
      show encFloor ⟨0x0D, uuidEpm, 3, 0⟩ = floorMapper
      decide,
    show enc16 true 0x8894 = [0x88, 0x94] from by decide]
  rfl

theorem body_device {d : Dev} (hd : DevOk d) (ts : U32) :
    encRsp d (addPnio d ts Rsp.none) = body d ts.toNat (annotation d) .device := by
  rw [show addPnio d ts Rsp.none = ⟨0, epmHandle ts d.mac, 1, 1, 0, 1,
    { uuidInstance with node := [0x00, 0x01, d.deviceHi, d.deviceLo, d.vendorHi, d.vendorLo] }, tower d false 0xC003, 0⟩ from rfl,
    rsp_entry hd (by rfl),
    show encRpcUuid { uuidInstance with node := [0x00, 0x01, d.deviceHi, d.deviceLo, d.vendorHi, d.vendorLo] } = objectDevice d from by
      show enc32 false 0xDEA00000 ++ enc16 false 0x6C97 ++ enc16 false 0x11D1 ++ [0x82] ++ [0x71] ++ _ = _
      rw [show enc32 false 0xDEA00000 = [0x00, 0x00, 0xA0, 0xDE] from by decide, show enc16 false 0x6C97 = [0x97, 0x6C] from by decide,
        show enc16 false 0x11D1 = [0xD1, 0x11] from by decide]
      rfl,
    show encFloor (tower d false 0xC003).floor1 = floorDevice from by
      show encFloor ⟨0x0D, uuidDevice, 1, 0⟩ = floorDevice
      decide,
    show enc16 true 0xC003 = [0xC0, 0x03] from by decide]
  rfl

theorem body_finished (d : Dev) (ts : Nat) : encRsp d Rsp.none = body d ts (annotation d) .finished := by
  have hh : encHead d Rsp.none = List.replicate 20 0 ++ [0, 0, 0, 0] ++ [1, 0, 0, 0] ++ [0, 0, 0, 0] ++ [0, 0, 0, 0] := by
    unfold encHead encEntry
    rw [if_neg (by decide)]
    decide
  unfold encRsp
  rw [hh]
  show _ = List.replicate 20 0 ++ [0, 0, 0, 0] ++ [1, 0, 0, 0] ++ [0, 0, 0, 0] ++ [0, 0, 0, 0] ++ [0xD6, 0xA0, 0xC9, 0x16]
  decide

/-- The answer of each kind. -/
def rspOf (d : Dev) (ts : U32) : Kind → Rsp
  | .mapper => addEpm d ts Rsp.none
  | .device => addPnio d ts Rsp.none
  | .finished => Rsp.none

theorem writes_rspOf {d : Dev} (hd : DevOk d) (ts : U32) (k : Kind) :
    Writes (putRsp false d (rspOf d ts k)) (body d ts.toNat (annotation d) k) := by
  have := writes_rsp d (rspOf d ts k)
  cases k
  · rw [← body_mapper hd]; exact this
  · rw [← body_device hd]; exact this
  · rw [← body_finished d ts.toNat]; exact this

/-! ## Requests -/

theorem parses_handle {h : Handle} (hn : h.node.length = 6) : Parses false getHandle (encHandle h) h := by
  unfold getHandle encHandle
  simp only [List.append_assoc]
  refine ParsesTo.bind (parses_getU32 _ _) ?_
  refine ParsesTo.bind (parses_getU32 _ _) ?_
  refine ParsesTo.bind (parses_getU16 _ _) ?_
  refine ParsesTo.bind (parses_getU16 _ _) ?_
  refine ParsesTo.bind (x := [h.clockHi]) (y := [h.clockLow] ++ h.node) (parses_getByte _ _) ?_
  refine ParsesTo.bind (parses_getByte _ _) ?_
  refine ParsesTo.bind (x := h.node) (y := []) (parses_getArr hn) ?_ |> fun q => by simpa using q
  exact ParsesTo.pure _ _

theorem parses_lookup {q : Lookup} (h1 : q.objUuid.d4.length = 8) (h2 : q.ifUuid.d4.length = 8) (h3 : q.handle.node.length = 6) :
    Parses false getLookup (encLookup q) q := by
  unfold getLookup encLookup
  simp only [List.append_assoc]
  refine ParsesTo.bind (parses_getU32 _ _) ?_
  refine ParsesTo.bind (parses_getU32 _ _) ?_
  refine ParsesTo.bind (parses_getUuid h1) ?_
  refine ParsesTo.bind (parses_getU32 _ _) ?_
  refine ParsesTo.bind (parses_getUuid h2) ?_
  refine ParsesTo.bind (parses_getU16 _ _) ?_
  refine ParsesTo.bind (parses_getU16 _ _) ?_
  refine ParsesTo.bind (parses_getU32 _ _) ?_
  refine ParsesTo.bind (parses_handle h3) ?_
  refine ParsesTo.bind_nil (parses_getU32 _ _) ?_
  exact ParsesTo.pure _ _

theorem carries_parse {body : List Byte} {q : Lookup} (h : Carries body q) :
    ∃ r, getLookup ⟨body, false, body.length, false, .ok, 0⟩ = some (q, r) := by
  obtain ⟨h1, h2, h3, rest, rfl⟩ := h
  refine ⟨_, parses_lookup h1 h2 h3 _ rfl rfl rfl ?_ ?_⟩
  · simp
  · rw [slice_eq_some (by simp)]
    simp

theorem parse_total (body : List Byte) : ∃ q r, getLookup ⟨body, false, body.length, false, .ok, 0⟩ = some (q, r) := by
  obtain ⟨q, r, h, _⟩ := safe_getLookup ⟨body, false, body.length, false, .ok, 0⟩ (fun _ => Nat.le_refl _)
  exact ⟨q, r, h⟩

end Verif.Epm
