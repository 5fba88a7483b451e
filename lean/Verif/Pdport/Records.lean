import Verif.Pdport.Check
import Verif.Wire.Records
import Verif.Wire.Inverse
/-! Records of the ports written and read back: C83. -/
set_option linter.unusedSimpArgs false
set_option linter.unusedVariables false

namespace Verif.Pdport

open Verif.Wire

/-! ## The records -/

/-- PDPortDataCheck after its block header: two bytes, slot, subslot, then CheckPeers (with any length and version in its header):
number of peers, and for the first the length of the port name, port name, length of the station name, station name; the rest is
not looked at. -/
def checkBody (pad : Byte × Byte) (slot subslot len : U16) (ver : Byte × Byte) (peers : Byte) (w : Wanted) (rest : List Byte) : List Byte :=
  [pad.1, pad.2] ++ enc16 true slot ++ enc16 true subslot ++ encBlockHeader true ⟨0x020a, len, ver.1, ver.2⟩ ++ [peers] ++
    [BitVec.ofNat 8 w.port.length] ++ w.port ++ [BitVec.ofNat 8 w.station.length] ++ w.station ++ rest

/-- PDPortDataAdjust after its block header: two bytes, slot, subslot, then PeerToPeerBoundary: two bytes, the three marks in 32 bits
(the other bits are not looked at), the properties. -/
def adjustBody (pad : Byte × Byte) (slot subslot len : U16) (ver : Byte × Byte) (pad2 : Byte × Byte) (bits : U32) (props : U16)
    (rest : List Byte) : List Byte :=
  [pad.1, pad.2] ++ enc16 true slot ++ enc16 true subslot ++ encBlockHeader true ⟨0x0224, len, ver.1, ver.2⟩ ++
    [pad2.1, pad2.2] ++ enc32 true bits ++ enc16 true props ++ rest

/-- The marks in the 32 bits. -/
def Boundary.of (bits : U32) (props : U16) : Boundary := ⟨bits.getLsbD 0, bits.getLsbD 1, bits.getLsbD 2, props⟩

/-! ## Reading a written record -/

theorem run_parse {α} {p : P α} {bs rest : List Byte} {a : α} (h : Parses true p bs a) :
    p (atData (bs ++ rest)) = some (a, ⟨bs ++ rest, false, (bs ++ rest).length, true, .ok, bs.length⟩) := by
  have := h (atData (bs ++ rest)) rfl rfl rfl (by simp [atData]) (by
    simp [atData, slice])
  rw [this]
  simp [atData]

theorem run_parse_at {α} {p : P α} {pre bs rest : List Byte} {a : α} (h : Parses true p bs a) :
    p ⟨pre ++ bs ++ rest, false, (pre ++ bs ++ rest).length, true, .ok, pre.length⟩ =
      some (a, ⟨pre ++ bs ++ rest, false, (pre ++ bs ++ rest).length, true, .ok, pre.length + bs.length⟩) := by
  have := h ⟨pre ++ bs ++ rest, false, (pre ++ bs ++ rest).length, true, .ok, pre.length⟩ rfl rfl rfl (by simp) (by
    simp [slice, List.append_assoc])
  rw [this]

theorem parses_getPortData (a b : Byte) (slot subslot : U16) (h : BlockHeader) :
    Parses true getPortData ([a, b] ++ enc16 true slot ++ enc16 true subslot ++ encBlockHeader true h) (slot, subslot, h) := by
  unfold getPortData
  simp only [List.append_assoc]
  refine ParsesTo.bind (parses_getMem true [a, b]) ?_
  refine ParsesTo.bind (parses_getU16 _ _) ?_
  refine ParsesTo.bind (parses_getU16 _ _) ?_
  exact ParsesTo.bind_nil (parses_getBlockHeader _ _) (ParsesTo.pure _ _)

theorem parses_getName {cap : Nat} {d : List Byte} (h : d.length < cap) : Parses true (getName cap d.length) d d := by
  unfold getName
  refine ParsesTo.bind_nil (parses_getMem true d) ?_
  rw [if_neg (by omega)]
  exact ParsesTo.pure _ _

theorem parses_getCheckPeer {w : Wanted} (h1 : w.port.length ≤ 255) (h2 : w.station.length ≤ 240) :
    Parses true (getCheckPeer 256 241)
      ([BitVec.ofNat 8 w.port.length] ++ w.port ++ [BitVec.ofNat 8 w.station.length] ++ w.station) (w.port, w.station) := by
  unfold getCheckPeer
  simp only [List.append_assoc]
  refine ParsesTo.bind (parses_getByte _ _) ?_
  have e1 : (BitVec.ofNat 8 w.port.length : Byte).toNat = w.port.length := by simp; omega
  have e2 : (BitVec.ofNat 8 w.station.length : Byte).toNat = w.station.length := by simp; omega
  rw [e1]
  refine ParsesTo.bind (parses_getName (by omega)) ?_
  refine ParsesTo.bind (parses_getByte _ _) ?_
  rw [e2]
  exact ParsesTo.bind_nil (parses_getName (by omega)) (ParsesTo.pure _ _)

theorem parses_getCheckPeers {peers : Byte} {w : Wanted} (h0 : 1 ≤ peers.toNat) (h1 : w.port.length ≤ 255) (h2 : w.station.length ≤ 240) :
    Parses true (getCheckPeers 256 241 1)
      ([peers] ++ ([BitVec.ofNat 8 w.port.length] ++ w.port ++ [BitVec.ofNat 8 w.station.length] ++ w.station)) [(w.port, w.station)] := by
  unfold getCheckPeers
  refine ParsesTo.bind (parses_getByte _ _) ?_
  have e : (if peers.toNat > 1 then 1 else peers.toNat) = 1 := by split <;> omega
  simp only [e]
  have := parses_rep (be := true) (p := getCheckPeer 256 241)
    (enc := fun x => [BitVec.ofNat 8 x.1.length] ++ x.1 ++ [BitVec.ofNat 8 x.2.length] ++ x.2) [(w.port, w.station)] (by
      intro a ha
      simp only [List.mem_singleton] at ha
      subst ha
      exact parses_getCheckPeer h1 h2)
  simpa using this

theorem parses_getBoundary (a b : Byte) (bits : U32) (props : U16) :
    Parses true getBoundary ([a, b] ++ enc32 true bits ++ enc16 true props) (flag bits 0, flag bits 1, flag bits 2, props) := by
  unfold getBoundary
  simp only [List.append_assoc]
  refine ParsesTo.bind (parses_getMem true [a, b]) ?_
  refine ParsesTo.bind (parses_getU32 _ _) ?_
  exact ParsesTo.bind_nil (parses_getU16 _ _) (ParsesTo.pure _ _)

theorem portData_length (a b : Byte) (slot subslot : U16) (h : BlockHeader) :
    ([a, b] ++ enc16 true slot ++ enc16 true subslot ++ encBlockHeader true h).length = 12 := by
  simp [encBlockHeader, enc16_length]

theorem parseCheck_body {pad : Byte × Byte} {slot subslot len : U16} {ver : Byte × Byte} {peers : Byte} {w : Wanted} {rest : List Byte}
    (h0 : 1 ≤ peers.toNat) (h1 : w.port.length ≤ 255) (h2 : w.station.length ≤ 240) :
    parseCheck (checkBody pad slot subslot len ver peers w rest) = some (some w) := by
  obtain ⟨pre, hpre⟩ : ∃ pre, pre = [pad.1, pad.2] ++ enc16 true slot ++ enc16 true subslot ++ encBlockHeader true ⟨0x020a, len, ver.1, ver.2⟩ := ⟨_, rfl⟩
  obtain ⟨mid, hmid⟩ : ∃ mid, mid = [peers] ++ ([BitVec.ofNat 8 w.port.length] ++ w.port ++ [BitVec.ofNat 8 w.station.length] ++ w.station) := ⟨_, rfl⟩
  have e : checkBody pad slot subslot len ver peers w rest = pre ++ mid ++ rest := by
    rw [hpre, hmid]; simp [checkBody, List.append_assoc]
  have k1 := run_parse (rest := mid ++ rest) (parses_getPortData pad.1 pad.2 slot subslot ⟨0x020a, len, ver.1, ver.2⟩)
  rw [← hpre, ← List.append_assoc] at k1
  have k2 := run_parse_at (pre := pre) (rest := rest) (parses_getCheckPeers h0 h1 h2)
  rw [← hmid] at k2
  unfold parseCheck
  rw [e, k1, Option.bind_some, if_pos rfl, k2]
  rfl

theorem flag_bit (t : U32) (i : Nat) (hi : i < 3) : flag t i = t.getLsbD i := by
  rw [Bool.eq_iff_iff, flag_iff t (by omega), BitVec.getLsbD, Nat.testBit_eq_decide_div_mod_eq]
  simp [bitsOf]

theorem parseAdjust_body {pad : Byte × Byte} {slot subslot len : U16} {ver pad2 : Byte × Byte} {bits : U32} {props : U16} {rest : List Byte} :
    parseAdjust (adjustBody pad slot subslot len ver pad2 bits props rest) = some (some (Boundary.of bits props)) := by
  obtain ⟨pre, hpre⟩ : ∃ pre, pre = [pad.1, pad.2] ++ enc16 true slot ++ enc16 true subslot ++ encBlockHeader true ⟨0x0224, len, ver.1, ver.2⟩ := ⟨_, rfl⟩
  obtain ⟨mid, hmid⟩ : ∃ mid, mid = [pad2.1, pad2.2] ++ enc32 true bits ++ enc16 true props := ⟨_, rfl⟩
  have e : adjustBody pad slot subslot len ver pad2 bits props rest = pre ++ mid ++ rest := by
    rw [hpre, hmid]; simp [adjustBody, List.append_assoc]
  have k1 := run_parse (rest := mid ++ rest) (parses_getPortData pad.1 pad.2 slot subslot ⟨0x0224, len, ver.1, ver.2⟩)
  rw [← hpre, ← List.append_assoc] at k1
  have k2 := run_parse_at (pre := pre) (rest := rest) (parses_getBoundary pad2.1 pad2.2 bits props)
  rw [← hmid] at k2
  unfold parseAdjust
  rw [e, k1, Option.bind_some, if_pos rfl, k2]
  simp only [Option.map_some, if_true, flag_bit _ _ (by omega : 0 < 3), flag_bit _ _ (by omega : 1 < 3), flag_bit _ _ (by omega : 2 < 3)]
  rfl

/-! ## What an accepted record is -/

theorem inv_getName {cap n : Nat} : Inv true (getName cap n) (fun d bs => d = bs ∧ bs.length = n ∧ n < cap) := by
  unfold getName
  refine (Inv.bind (F := fun d e bs => bs = [] ∧ e = d.getD [] ∧ n < cap) (inv_getMem true n) fun d => ?_).mono ?_
  · split
    · exact inv_outside _
    · exact (Inv.pure _).mono (fun a bs h => ⟨h.2, h.1, by omega⟩)
  · rintro d bs ⟨a, x, y, rfl, ⟨rfl, h⟩, rfl, rfl, h'⟩
    simp only [List.append_nil, Option.getD_some, true_and]
    exact ⟨h, h'⟩

theorem ofNat_toNat8 (b : Byte) (n : Nat) (h : n = b.toNat) : b = BitVec.ofNat 8 n := by
  subst h; apply BitVec.eq_of_toNat_eq; simp

theorem inv_getCheckPeer : Inv true (getCheckPeer 256 241) (fun q bs => q.1.length ≤ 255 ∧ q.2.length ≤ 240 ∧
    bs = [BitVec.ofNat 8 q.1.length] ++ q.1 ++ [BitVec.ofNat 8 q.2.length] ++ q.2) := by
  unfold getCheckPeer
  refine (Inv.bind (inv_getByte true) fun n => Inv.bind inv_getName fun a => Inv.bind (inv_getByte true) fun m =>
    Inv.bind inv_getName fun b => Inv.pure _).mono ?_
  rintro q bs ⟨n, _, _, rfl, rfl, a, _, _, rfl, ⟨rfl, h1, h1'⟩, m, _, _, rfl, rfl, b, _, _, rfl, ⟨rfl, h2, h2'⟩, rfl, rfl⟩
  refine ⟨by simp only; omega, by simp only; omega, ?_⟩
  simp only
  rw [← ofNat_toNat8 n _ h1, ← ofNat_toNat8 m _ h2]
  simp

theorem inv_getCheckPeers : Inv true (getCheckPeers 256 241 1) (fun l bs => ∀ q, l.head? = some q → ∃ peers : Byte, 1 ≤ peers.toNat ∧
    q.1.length ≤ 255 ∧ q.2.length ≤ 240 ∧ bs = [peers] ++ ([BitVec.ofNat 8 q.1.length] ++ q.1 ++ [BitVec.ofNat 8 q.2.length] ++ q.2)) := by
  unfold getCheckPeers
  refine (Inv.bind (F := fun n l bs => ∀ q, l.head? = some q → 1 ≤ n.toNat ∧ q.1.length ≤ 255 ∧ q.2.length ≤ 240 ∧
    bs = [BitVec.ofNat 8 q.1.length] ++ q.1 ++ [BitVec.ofNat 8 q.2.length] ++ q.2) (inv_getByte true) fun n => ?_).mono ?_
  · by_cases h0 : n.toNat = 0
    · have e : (if n.toNat > 1 then 1 else n.toNat) = 0 := by rw [if_neg (by omega)]; exact h0
      simp only [e]
      refine (Inv.pure _).mono ?_
      rintro l bs ⟨rfl, rfl⟩ q hq
      cases hq
    · have e : (if n.toNat > 1 then 1 else n.toNat) = 1 := by split <;> omega
      simp only [e]
      unfold rep
      refine (Inv.bind inv_getCheckPeer fun a => Inv.bind (Inv.pure _) fun l => Inv.pure _).mono ?_
      rintro l bs ⟨a, _, _, rfl, ⟨k1, k2, rfl⟩, l', _, _, rfl, ⟨rfl, rfl⟩, rfl, rfl⟩ q hq
      cases hq
      exact ⟨by omega, k1, k2, by simp⟩
  · rintro l bs ⟨n, _, _, rfl, rfl, h⟩ q hq
    obtain ⟨k1, k2, k3, k4⟩ := h q hq
    exact ⟨n, k1, k2, k3, by rw [k4]⟩

theorem inv_getPortData : Inv true getPortData (fun x bs => ∃ a b, bs = [a, b] ++ enc16 true x.1 ++ enc16 true x.2.1 ++ encBlockHeader true x.2.2) := by
  unfold getPortData
  refine (Inv.bind (inv_getMem true 2) fun d => Inv.bind (inv_getU16 true) fun a => Inv.bind (inv_getU16 true) fun b =>
    Inv.bind (inv_getBlockHeader true) fun h => Inv.pure _).mono ?_
  rintro x bs ⟨d, u, _, rfl, ⟨rfl, hl⟩, a, _, _, rfl, rfl, b, _, _, rfl, rfl, h, _, _, rfl, rfl, rfl, rfl⟩
  match u, hl with
  | [p, q], _ => exact ⟨p, q, by simp⟩

theorem inv_getBoundary : Inv true getBoundary (fun x bs => ∃ a b bits, x = (flag bits 0, flag bits 1, flag bits 2, x.2.2.2) ∧
    bs = [a, b] ++ enc32 true bits ++ enc16 true x.2.2.2) := by
  unfold getBoundary
  refine (Inv.bind (inv_getMem true 2) fun d => Inv.bind inv_getU32 fun a => Inv.bind (inv_getU16 true) fun b => Inv.pure _).mono ?_
  rintro x bs ⟨d, u, _, rfl, ⟨rfl, hl⟩, a, _, _, rfl, rfl, b, _, _, rfl, rfl, rfl, rfl⟩
  match u, hl with
  | [p, q], _ => exact ⟨p, q, a, rfl, by simp⟩

/-- Two readers one after the other on the data of a record. -/
theorem inv_data {α β} {p : P α} {q : P β} {E : α → List Byte → Prop} {F : β → List Byte → Prop} (hp : Inv true p E) (hq : Inv true q F)
    {d : List Byte} {a : α} {r1 : Rd} {b : β} {r2 : Rd} (h1 : p (atData d) = some (a, r1)) (h2 : q r1 = some (b, r2)) (he : r2.err = .ok) :
    ∃ x y rest, d = x ++ y ++ rest ∧ E a x ∧ F b y := by
  have := (Inv.bind hp fun a => Inv.bind hq fun b => Inv.pure (be := true) (a, b)).2 (atData d) (a, b) r2 rfl rfl (Nat.zero_le _) (Nat.zero_le _) (by
    show (p (atData d)).bind _ = _
    rw [h1]
    show (q r1).bind _ = _
    rw [h2]
    rfl) he
  obtain ⟨bs, _, k2, k3, a', x, _, rfl, hx, b', y, _, rfl, hy, hab, rfl⟩ := this
  cases hab
  refine ⟨x, y, d.drop (x ++ y).length, ?_, hx, hy⟩
  have k : slice d 0 (x ++ (y ++ [])).length = some (x ++ (y ++ [])) := k2
  rw [List.append_nil] at k
  unfold slice at k
  split at k
  · have := Option.some.inj k
    rw [List.drop_zero] at this
    conv => lhs; rw [← List.take_append_drop (x ++ y).length d]
    rw [this]
  · cases k

theorem parseCheck_inv {d : List Byte} {w : Wanted} (h : parseCheck d = some (some w)) :
    ∃ pad slot subslot len ver peers rest, d = checkBody pad slot subslot len ver peers w rest ∧ 1 ≤ peers.toNat ∧
      w.port.length ≤ 255 ∧ w.station.length ≤ 240 := by
  unfold parseCheck at h
  cases h1 : getPortData (atData d) with
  | none => rw [h1] at h; cases h
  | some x =>
    rw [h1, Option.bind_some] at h
    split at h
    · rename_i ht
      cases h2 : getCheckPeers 256 241 1 x.2 with
      | none => rw [h2] at h; cases h
      | some y =>
        rw [h2, Option.map_some] at h
        have h := Option.some.inj h
        split at h
        · rename_i hok
          cases hh : y.1.head? with
          | none => rw [hh] at h; cases h
          | some q =>
            rw [hh, Option.map_some] at h
            have h := (Option.some.inj h).symm
            obtain ⟨u, v, rest, rfl, ⟨a, b, rfl⟩, hv⟩ := inv_data inv_getPortData inv_getCheckPeers h1 h2 hok
            obtain ⟨peers, k1, k2, k3, rfl⟩ := hv q hh
            subst h
            refine ⟨(a, b), x.1.1, x.1.2.1, x.1.2.2.length, (x.1.2.2.verHigh, x.1.2.2.verLow), peers, rest, ?_, k1, k2, k3⟩
            have e : x.1.2.2 = ⟨0x020a, x.1.2.2.length, x.1.2.2.verHigh, x.1.2.2.verLow⟩ := by rw [← ht]
            unfold checkBody
            rw [e]
            simp only [List.append_assoc]
        · cases h
    · cases h

theorem parseAdjust_inv {d : List Byte} {b : Boundary} (h : parseAdjust d = some (some b)) :
    ∃ pad slot subslot len ver pad2 bits rest, d = adjustBody pad slot subslot len ver pad2 bits b.props rest ∧ b = Boundary.of bits b.props := by
  unfold parseAdjust at h
  cases h1 : getPortData (atData d) with
  | none => rw [h1] at h; cases h
  | some x =>
    rw [h1, Option.bind_some] at h
    split at h
    · rename_i ht
      cases h2 : getBoundary x.2 with
      | none => rw [h2] at h; cases h
      | some y =>
        rw [h2, Option.map_some] at h
        have h := Option.some.inj h
        split at h
        · rename_i hok
          have h := (Option.some.inj h).symm
          obtain ⟨u, v, rest, rfl, ⟨a, c, rfl⟩, a', c', bits, hy, rfl⟩ := inv_data inv_getPortData inv_getBoundary h1 h2 hok
          subst h
          refine ⟨(a, c), x.1.1, x.1.2.1, x.1.2.2.length, (x.1.2.2.verHigh, x.1.2.2.verLow), (a', c'), bits, rest, ?_, ?_⟩
          · have e : x.1.2.2 = ⟨0x0224, x.1.2.2.length, x.1.2.2.verHigh, x.1.2.2.verLow⟩ := by rw [← ht]
            unfold adjustBody
            rw [e]
            simp only [List.append_assoc]
          · rw [hy]
            simp only [Boundary.of, flag_bit _ _ (by omega : 0 < 3), flag_bit _ _ (by omega : 1 < 3), flag_bit _ _ (by omega : 2 < 3)]
        · cases h
    · cases h

/-! ## Writing the answer -/

theorem seq_assoc (a b c : W) (x : Wr) : (a ;; (b ;; c)) x = ((a ;; b) ;; c) x := by
  simp only [W.seq]
  cases a x <;> rfl

theorem align_go (start align : Nat) : ∀ (k fuel : Nat) (w : Wr), k < fuel → w.pos + k ≤ w.cap → w.cap ≤ w.buf.length →
    (∀ j, j < k → (w.pos + j - start) % align ≠ 0) → (w.pos + k - start) % align = 0 →
    putPaddingAlign.go start align fuel w = putPadding k w := by
  intro k
  induction k with
  | zero =>
    intro fuel w hf _ _ _ h0
    obtain ⟨f, rfl⟩ : ∃ f, fuel = f + 1 := ⟨fuel - 1, by omega⟩
    unfold putPaddingAlign.go
    rw [if_pos (by simpa using h0)]
    rfl
  | succ k ih =>
    intro fuel w hf hc hb hj h0
    obtain ⟨f, rfl⟩ : ∃ f, fuel = f + 1 := ⟨fuel - 1, by omega⟩
    unfold putPaddingAlign.go
    rw [if_neg (by simpa using hj 0 (by omega))]
    obtain ⟨b, hw, he⟩ := writes_putByte 0 w hb (by simp; omega)
    have hl := writeAt_length hw
    show _ = (putByte 0 ;; putPadding k) w
    simp only [W.seq, he, Option.bind_some]
    refine ih f _ (by omega) (by simp; omega) (by show w.cap ≤ b.length; omega) ?_ ?_
    · intro j hjk
      have := hj (j + 1) (by omega)
      show (w.pos + 1 + j - start) % align ≠ 0
      rwa [show w.pos + 1 + j = w.pos + (j + 1) by omega]
    · show (w.pos + 1 + k - start) % align = 0
      rwa [show w.pos + 1 + k = w.pos + (k + 1) by omega]

/-- Bytes up to a multiple of four. -/
def padTo4 (n : Nat) : Nat := (4 - n % 4) % 4

theorem align4 (start : Nat) (w : Wr) (hs : start ≤ w.pos) (hc : w.pos + padTo4 (w.pos - start) ≤ w.cap) (hb : w.cap ≤ w.buf.length) :
    putPaddingAlign start 4 w = putPadding (padTo4 (w.pos - start)) w := by
  unfold padTo4 at *
  refine align_go start 4 _ 4 w (by omega) hc hb (fun j hj => by omega) (by omega)

/-- A block whose body ends with padding up to a multiple of four bytes, counted from the start of the block. -/
theorem writes_padded {t : U16} {body : W} {bs : List Byte} (hb : Writes body bs) (hl : bs.length + 5 < 65536) :
    Writes (fun w => putBlock true t (body ;; putPaddingAlign w.pos 4) w)
      (encBlockHeader true ⟨t, BitVec.ofNat 16 (bs.length + padTo4 (6 + bs.length) + 2), 1, 0⟩ ++
        (bs ++ List.replicate (padTo4 (6 + bs.length)) 0)) := by
  intro x hc hp
  have hk : padTo4 (6 + bs.length) < 4 := by unfold padTo4; omega
  have lh : ∀ h, (encBlockHeader true h).length = 6 := by
    intro h; simp [encBlockHeader, enc16_length]
  simp only [List.length_append, lh, List.length_replicate] at hp
  have hw := writes_putBlock (be := true) (t := t) (Writes.seq hb (writes_putPadding (padTo4 (6 + bs.length)))) (by simp; omega)
  obtain ⟨b, h1, h2⟩ := hw x hc (by simp only [List.length_append, lh, List.length_replicate]; omega)
  have e : (putBlockHeader true t 0 1 0 ;; (body ;; putPaddingAlign x.pos 4)) x =
      (putBlockHeader true t 0 1 0 ;; (body ;; putPadding (padTo4 (6 + bs.length)))) x := by
    rw [seq_assoc, seq_assoc]
    obtain ⟨b1, g1, g2⟩ := Writes.seq (writes_putBlockHeader true t 0 1 0) hb x hc (by
      rw [List.length_append, lh]; omega)
    have gl := writeAt_length g1
    simp only [W.seq] at g2 ⊢
    rw [g2]
    simp only [Option.bind_some, List.length_append, lh]
    have := align4 x.pos { x with buf := b1, pos := x.pos + (6 + bs.length) } (by simp) (by
      simp only [Nat.add_sub_cancel_left]; omega) (by show x.cap ≤ b1.length; omega)
    simpa only [Nat.add_sub_cancel_left] using this
  refine ⟨b, ?_, ?_⟩
  · rw [← h1]
    simp only [List.length_append, List.length_replicate]
  · show putBlock true t (body ;; putPaddingAlign x.pos 4) x = _
    unfold putBlock at h2 ⊢
    rw [e, h2]
    simp only [List.length_append, lh, List.length_replicate]

/-- The body of the answer for a check, as the code writes it. -/
def checkAnswerBody (slot subslot : U16) (w : Wanted) : List Byte :=
  checkBody (0, 0) slot subslot (BitVec.ofNat 16 (5 + w.port.length + w.station.length) + 2) (1, 0) 1 w []

theorem writes_putCheck {slot subslot : U16} {w : Wanted} (h1 : w.port.length ≤ 255) (h2 : w.station.length ≤ 240) :
    Writes (putCheck slot subslot w)
      (encBlockHeader true ⟨0x0200, BitVec.ofNat 16 ((checkAnswerBody slot subslot w).length + padTo4 (6 + (checkAnswerBody slot subslot w).length) + 2), 1, 0⟩ ++
        (checkAnswerBody slot subslot w ++ List.replicate (padTo4 (6 + (checkAnswerBody slot subslot w).length)) 0)) := by
  unfold putCheck
  refine writes_padded ?_ ?_
  · refine Lldp.wcast (Writes.seq (Writes.seq (Writes.seq (Writes.seq (Writes.seq (Writes.seq (Writes.seq (Writes.seq
      (writes_putPadding 2) (writes_putU16 _ _)) (writes_putU16 _ _)) (writes_putBlockHeader _ _ _ _ _)) (writes_putByte _))
      (writes_putByte _)) (writes_putMem _)) (writes_putByte _)) (writes_putMem _)) ?_
    simp [checkAnswerBody, checkBody, List.append_assoc, List.replicate]
  · simp [checkAnswerBody, checkBody, encBlockHeader, enc16_length]; omega

theorem writes_putAdjust (subslot : U16) (b : Boundary) :
    Writes (putAdjust subslot b)
      (encBlockHeader true ⟨0x0202, 24, 1, 0⟩ ++ adjustBody (0, 0) 0 subslot 12 (1, 0) (0, 0) (boundaryBits b) b.props [0, 0]) := by
  unfold putAdjust putBoundary
  refine Lldp.wcast (writes_putBlock (Writes.seq (Writes.seq (Writes.seq (writes_putPadding 2) (writes_putU16 _ _)) (writes_putU16 _ _))
    (writes_putBlock (Writes.seq (Writes.seq (Writes.seq (writes_putPadding 2) (writes_putU32 _ _)) (writes_putU16 _ _)) (writes_putPadding 2)) ?_)) ?_) ?_
  · simp [enc16_length, enc32_length]
  · simp [enc16_length, enc32_length, encBlockHeader]
  · simp [enc16_length, enc32_length, encBlockHeader, adjustBody, List.append_assoc, List.replicate]

theorem writes_putIntf (standard : Bool) :
    Writes (putIntf standard) (encBlockHeader true ⟨0x0250, 8, 1, 0⟩ ++ ([0, 0] ++ enc32 true (bit standard))) := by
  unfold putIntf
  refine Lldp.wcast (writes_padded (Writes.seq (writes_putPadding 2) (writes_putU32 _ _)) (by simp [enc32_length])) ?_
  have : putBits (bit standard) 1 0 0 = bit standard := by cases standard <;> decide
  rw [this]
  simp [enc32_length, padTo4, List.replicate]

/-! ## The peer check always ends -/

theorem strncmp_total : ∀ (n : Nat) (a b : List Byte), n ≤ a.length → n ≤ b.length → ∃ r, strncmpEq a b n = some r := by
  intro n
  induction n with
  | zero => intro a b _ _; cases a <;> cases b <;> exact ⟨_, rfl⟩
  | succ n ih =>
    intro a b ha hb
    cases a with
    | nil => simp at ha
    | cons x a =>
      cases b with
      | nil => simp at hb
      | cons y b =>
        unfold strncmpEq
        split
        · exact ⟨_, rfl⟩
        · split
          · exact ⟨_, rfl⟩
          · exact ih a b (by simpa using ha) (by simpa using hb)

theorem station_length (q : Lldp.Peer) : (Lldp.peerStation q).length ≤ 240 := by
  unfold Lldp.peerStation
  split
  · simp only [List.length_take]; omega
  · split
    · split
      · simp only [List.length_take]; omega
      · rw [Lldp.macString_length]; omega
    · simp

theorem arr_length (size : Nat) (s : List Byte) : size ≤ (arr size s).length := by
  simp only [arr, List.length_append, List.length_replicate]; omega

theorem runCheck_total {e : Env} {p : Port} {w : Wanted} (hc : p.check = some w) (hl : w.port.length ≤ 255)
    (hp : p.net.peer.port.str.length = 256) : ∃ p', runCheck e p = some p' := by
  have hn := (checkNoPeer_same e p).1.net
  have h1 : ∃ p1, checkPort e w (checkNoPeer e p) = some p1 := by
    unfold checkPort
    split
    · obtain ⟨r, hr⟩ := strncmp_total w.port.length (checkNoPeer e p).net.peer.port.str (arr 256 w.port) (by rw [hn, hp]; omega)
        (by have := arr_length 256 w.port; omega)
      rw [hr]
      exact ⟨_, rfl⟩
    · exact ⟨_, rfl⟩
  obtain ⟨p1, h1⟩ := h1
  unfold runCheck
  rw [hc]
  simp only [h1, Option.bind_some]
  unfold checkStation
  simp only
  split
  · obtain ⟨r, hr⟩ := strncmp_total (Lldp.peerStation p1.net.peer).length (arr 241 (Lldp.peerStation p1.net.peer)) (arr 241 w.station)
      (by have := arr_length 241 (Lldp.peerStation p1.net.peer); have := station_length p1.net.peer; omega)
      (by have := arr_length 241 w.station; have := station_length p1.net.peer; omega)
    rw [hr]
    exact ⟨_, rfl⟩
  · exact ⟨_, rfl⟩

/-! ## C83 -/

/-- The bytes that a call has put into the answer. -/
def answer (x x' : Wr) : List Byte := (x'.buf.take x'.pos).drop x.pos

theorem answer_of {w : W} {bs : List Byte} (h : Writes w bs) (x : Wr) (hc : x.cap ≤ x.buf.length) (hp : x.pos + bs.length ≤ x.cap) :
    ∃ x', w x = some x' ∧ answer x x' = bs ∧ x'.pos = x.pos + bs.length := by
  obtain ⟨b, h1, h2⟩ := h x hc hp
  refine ⟨_, h2, ?_, rfl⟩
  have hl := writeAt_length h1
  unfold answer
  apply List.ext_getElem?
  intro i
  simp only [List.getElem?_drop, List.getElem?_take]
  rw [writeAt_get h1]
  split
  · rw [if_pos (by omega), Nat.add_sub_cancel_left]
  · rw [List.getElem?_eq_none (by omega)]

theorem port_slot {n port : Nat} {s : U16} (hn : n ≤ 0x7000) (h1 : 1 ≤ port) (h2 : port ≤ n) (h : portSubslot n port = some s) :
    subslotPort n s = port := ((C86_subslots n hn port s).1 h1 h2).1 h

/-- C83, with what is missing: a check that is written for a port is accepted, is in force, and is what reading it gives, on this
port only.  Missing: the length in the inner header of the answer (see C83_fails_length), reading the checks of all ports at
once (see C83_fails_all), requests for another slot (see C83_fails_slot), station names of more than 240 bytes (see C69). -/
theorem C83_check_partial (e : Env) (d : Dev) (port : Nat) (s : U16) (hn : d.ports.length ≤ 0x7000) (h1 : 1 ≤ port) (h2 : port ≤ d.ports.length)
    (hs : portSubslot d.ports.length port = some s) (hpeer : ∀ p ∈ d.ports, p.net.peer.port.str.length = 256)
    (w : Wanted) (hwp : w.port.length ≤ 255) (hws : w.station.length ≤ 240)
    (pad : Byte × Byte) (slot subslot len : U16) (ver : Byte × Byte) (peers : Byte) (rest : List Byte) (hpe : 1 ≤ peers.toNat) :
    ∃ d', write e 0 s .check (checkBody pad slot subslot len ver peers w rest) d = some (true, d') ∧
      (∀ j, j ≠ port - 1 → d'.ports[j]? = d.ports[j]?) ∧
      ∀ (fuel : Nat) (x : Wr), x.cap ≤ x.buf.length → x.pos + 24 + w.port.length + w.station.length ≤ x.cap →
        ∃ x' len' z, read fuel 0 s .check d' x = some (true, x') ∧ z < 4 ∧
          answer x x' = encBlockHeader true ⟨0x0200, BitVec.ofNat 16 (17 + w.port.length + w.station.length + z), 1, 0⟩ ++
            checkBody (0, 0) 0 s len' (1, 0) 1 w (List.replicate z 0) := by
  have hsp := port_slot hn h1 h2 hs
  have hlt : port - 1 < d.ports.length := by omega
  have hget : d.ports[port - 1]? = some d.ports[port - 1] := List.getElem?_eq_getElem hlt
  obtain ⟨p', hp'⟩ := runCheck_total (e := e) (p := { d.ports[port - 1] with check := some w }) rfl hwp
    (hpeer d.ports[port - 1] (List.getElem_mem hlt))
  have hc' : p'.check = some w := (runCheck_same hp').1.check
  refine ⟨{ d with ports := d.ports.set (port - 1) p', saving := true }, ?_, ?_, ?_⟩
  · unfold write
    simp only [hsp]
    rw [if_pos (by omega), parseCheck_body hpe hwp hws]
    simp only [Option.bind_some, hget, hp', Option.map_some]
  · intro j hj
    exact List.getElem?_set_ne (fun k => hj k.symm)
  · intro fuel x hc hx
    have hlen : (checkAnswerBody 0 s w).length = 15 + w.port.length + w.station.length := by
      simp [checkAnswerBody, checkBody, encBlockHeader, enc16_length]; omega
    have hk : padTo4 (6 + (checkAnswerBody 0 s w).length) < 4 := by unfold padTo4; omega
    have lh : ∀ h, (encBlockHeader true h).length = 6 := by
      intro h; simp [encBlockHeader, enc16_length]
    obtain ⟨x', k1, k2, k3⟩ := answer_of (writes_putCheck (slot := 0) (subslot := s) hwp hws) x hc (by
      simp only [List.length_append, lh, List.length_replicate]; omega)
    refine ⟨x', BitVec.ofNat 16 (5 + w.port.length + w.station.length) + 2, padTo4 (6 + (checkAnswerBody 0 s w).length), ?_, hk, ?_⟩
    rotate_left
    · rw [k2, hlen, show 15 + w.port.length + w.station.length + padTo4 (6 + (15 + w.port.length + w.station.length)) + 2 =
        17 + w.port.length + w.station.length + padTo4 (6 + (15 + w.port.length + w.station.length)) by omega]
      congr 1
      · unfold checkAnswerBody checkBody
        rw [List.append_nil]
    · unfold read
      simp only [List.length_set, hsp, if_true]
      rw [if_pos (by omega), List.getElem?_set_self hlt]
      simp only [Option.bind_some, hc', k1, Option.map_some]

/-- C83: an adjustment that is written for a port is accepted, is in force, and is what reading it gives, on this port only. -/
theorem C83_adjust_partial (e : Env) (d : Dev) (port : Nat) (s : U16) (hn : d.ports.length ≤ 0x7000) (h1 : 1 ≤ port) (h2 : port ≤ d.ports.length)
    (hs : portSubslot d.ports.length port = some s) (bits : U32) (props : U16)
    (pad : Byte × Byte) (slot subslot len : U16) (ver pad2 : Byte × Byte) (rest : List Byte) :
    ∃ d', write e 0 s .adjust (adjustBody pad slot subslot len ver pad2 bits props rest) d = some (true, d') ∧
      (∀ j, j ≠ port - 1 → d'.ports[j]? = d.ports[j]?) ∧
      ∀ (fuel : Nat) (x : Wr), x.cap ≤ x.buf.length → x.pos + 28 ≤ x.cap →
        ∃ x' bits', read fuel 0 s .adjust d' x = some (true, x') ∧
          answer x x' = encBlockHeader true ⟨0x0202, 24, 1, 0⟩ ++ adjustBody (0, 0) 0 s 12 (1, 0) (0, 0) bits' props [0, 0] ∧
          (∀ i, bits'.getLsbD i = (decide (i < 3) && bits.getLsbD i)) := by
  have hsp := port_slot hn h1 h2 hs
  have hlt : port - 1 < d.ports.length := by omega
  have hget : d.ports[port - 1]? = some d.ports[port - 1] := List.getElem?_eq_getElem hlt
  refine ⟨{ d with ports := d.ports.set (port - 1) (sendAs e (Boundary.of bits props) { d.ports[port - 1] with adjust := some (Boundary.of bits props) }), saving := true }, ?_, ?_, ?_⟩
  · unfold write
    simp only [hsp]
    rw [if_pos (by omega), parseAdjust_body]
    simp only [Option.bind_some, hget, Option.map_some]
  · intro j hj
    exact List.getElem?_set_ne (fun k => hj k.symm)
  · intro fuel x hc hx
    obtain ⟨x', k1, k2, k3⟩ := answer_of (writes_putAdjust s (Boundary.of bits props)) x hc (by
      simp [adjustBody, encBlockHeader, enc16_length, enc32_length]; omega)
    have ha : (sendAs e (Boundary.of bits props) { d.ports[port - 1] with adjust := some (Boundary.of bits props) }).adjust =
        some (Boundary.of bits props) := by
      unfold sendAs; split <;> rfl
    refine ⟨x', boundaryBits (Boundary.of bits props), ?_, k2, ?_⟩
    · unfold read
      simp only [List.length_set, hsp]
      rw [if_pos ⟨trivial, by omega⟩, List.getElem?_set_self hlt]
      simp only [Option.bind_some, ha, k1, Option.map_some]
    · intro i
      unfold boundaryBits Boundary.of
      have key : ∀ a b c : Bool, ∀ i, (putBits (bit c) 1 2 (putBits (bit b) 1 1 (putBits (bit a) 1 0 0))).getLsbD i =
          (decide (i < 3) && (if i = 0 then a else if i = 1 then b else c)) := by
        intro a b c i
        by_cases hi : i < 32
        · revert i
          revert a b c
          decide
        · rw [BitVec.getLsbD_of_ge _ _ (by omega)]
          simp; omega
      simp only
      rw [key]
      by_cases hi : i < 3
      · have : i = 0 ∨ i = 1 ∨ i = 2 := by omega
        rcases this with rfl | rfl | rfl <;> simp
      · simp [hi]

/-- C83: the naming mode that is written for the interface is what reading it gives. -/
theorem C83_interface_partial (e : Env) (d : Dev) (a b : Byte) (bits : U32) (rest : List Byte) :
    ∃ d', write e 0 0x8000 .intf ([a, b] ++ enc32 true bits ++ rest) d = some (true, d') ∧ d'.standard = bits.getLsbD 0 ∧
      ∀ (fuel : Nat) (x : Wr), x.cap ≤ x.buf.length → x.pos + 12 ≤ x.cap →
        ∃ x', read fuel 0 0x8000 .intf d' x = some (true, x') ∧
          answer x x' = encBlockHeader true ⟨0x0250, 8, 1, 0⟩ ++ ([0, 0] ++ enc32 true (if bits.getLsbD 0 then 1 else 0)) := by
  have h0 : subslotPort d.ports.length 0x8000 = 0 := by
    unfold subslotPort isValid
    simp
  have hg : getIntfAdjust (atData ([a, b] ++ enc32 true bits ++ rest)) =
      some (bits.getLsbD 0, ⟨[a, b] ++ enc32 true bits ++ rest, false, ([a, b] ++ enc32 true bits ++ rest).length, true, .ok, ([a, b] ++ enc32 true bits).length⟩) := by
    refine run_parse ?_
    unfold getIntfAdjust
    refine ParsesTo.bind (parses_getMem true [a, b]) ?_
    refine ParsesTo.bind_nil (parses_getU32 _ _) ?_
    rw [flag_bit _ _ (by omega)]
    exact ParsesTo.pure _ _
  have hall : ∀ d : Dev, d.forAll (fun p => some (restartTx e p)) = some { d with ports := d.ports.map (restartTx e) } :=
    fun d => C86_loops d _ _ fun p _ => rfl
  refine ⟨{ d with standard := bits.getLsbD 0, modeActive := true, ports := d.ports.map (restartTx e) }, ?_, rfl, ?_⟩
  · unfold write
    simp only [h0]
    rw [if_neg (by omega), hg]
    simp only [Option.bind_some, hall, Option.map_some]
  · intro fuel x hc hx
    obtain ⟨x', k1, k2, k3⟩ := answer_of (writes_putIntf (bits.getLsbD 0)) x hc (by
      simp [encBlockHeader, enc16_length, enc32_length]; omega)
    refine ⟨x', ?_, k2⟩
    unfold read
    simp only [and_self, if_true, k1, Option.map_some]

/-- C83 (nothing else is accepted): a check record that is accepted has the form that C83_check_partial reads back, so a record
that is cut off or of another kind is refused. -/
theorem C83_check_accepted (e : Env) (slot subslot : U16) (data : List Byte) (d d' : Dev) (h : write e slot subslot .check data d = some (true, d')) :
    ∃ pad slot' subslot' len ver peers w rest, data = checkBody pad slot' subslot' len ver peers w rest ∧ 1 ≤ peers.toNat ∧
      w.port.length ≤ 255 ∧ w.station.length ≤ 240 ∧
      ∃ port p, subslotPort d.ports.length subslot = port + 1 ∧ d'.ports[port]? = some p ∧ p.check = some w := by
  unfold write at h
  simp only at h
  split at h
  · rename_i hpos
    cases hc : parseCheck data with
    | none => rw [hc] at h; cases h
    | some c =>
      rw [hc, Option.bind_some] at h
      cases c with
      | none => cases h
      | some w =>
        simp only at h
        cases hg : d.ports[subslotPort d.ports.length subslot - 1]? with
        | none => rw [hg] at h; cases h
        | some p =>
          rw [hg, Option.bind_some] at h
          cases hr : runCheck e { p with check := some w } with
          | none => rw [hr] at h; cases h
          | some p' =>
            rw [hr, Option.map_some] at h
            cases h
            obtain ⟨pad, slot', subslot', len, ver, peers, rest, k1, k2, k3, k4⟩ := parseCheck_inv hc
            refine ⟨pad, slot', subslot', len, ver, peers, w, rest, k1, k2, k3, k4, subslotPort d.ports.length subslot - 1, p', by omega, ?_, ?_⟩
            · exact List.getElem?_set_self (List.getElem?_eq_some_iff.1 hg).1
            · exact (runCheck_same hr).1.check
  · cases h

/-- C83 (nothing else is accepted), for adjustments. -/
theorem C83_adjust_accepted (e : Env) (slot subslot : U16) (data : List Byte) (d d' : Dev) (h : write e slot subslot .adjust data d = some (true, d')) :
    ∃ pad slot' subslot' len ver pad2 bits props rest, data = adjustBody pad slot' subslot' len ver pad2 bits props rest ∧
      ∃ port p, subslotPort d.ports.length subslot = port + 1 ∧ d'.ports[port]? = some p ∧
        p.adjust = some ⟨bits.getLsbD 0, bits.getLsbD 1, bits.getLsbD 2, props⟩ := by
  unfold write at h
  simp only at h
  split at h
  · rename_i hpos
    cases hc : parseAdjust data with
    | none => rw [hc] at h; cases h
    | some c =>
      rw [hc, Option.bind_some] at h
      cases c with
      | none => cases h
      | some b =>
        simp only at h
        cases hg : d.ports[subslotPort d.ports.length subslot - 1]? with
        | none => rw [hg] at h; cases h
        | some p =>
          rw [hg, Option.map_some] at h
          cases h
          obtain ⟨pad, slot', subslot', len, ver, pad2, bits, rest, k1, k2⟩ := parseAdjust_inv hc
          refine ⟨pad, slot', subslot', len, ver, pad2, bits, b.props, rest, k1, subslotPort d.ports.length subslot - 1, _, by omega,
            List.getElem?_set_self (List.getElem?_eq_some_iff.1 hg).1, ?_⟩
          have : (sendAs e b { p with adjust := some b }).adjust = some b := by unfold sendAs; split <;> rfl
          rw [this]
          exact congrArg some k2
  · cases h

/-- C83: a write that is refused changes nothing. -/
theorem C83_refused (e : Env) (slot subslot : U16) (i : Index) (data : List Byte) (d d' : Dev)
    (h : write e slot subslot i data d = some (false, d')) : d' = d := by
  unfold write at h
  simp only at h
  split at h
  · cases i with
    | check =>
      simp only at h
      cases hc : parseCheck data with
      | none => rw [hc] at h; cases h
      | some c =>
        rw [hc, Option.bind_some] at h
        cases c with
        | none => cases h; rfl
        | some c =>
          simp only at h
          cases hq : d.ports[subslotPort d.ports.length subslot - 1]? with
          | none => rw [hq] at h; cases h
          | some q =>
            rw [hq, Option.bind_some] at h
            cases hr : runCheck e { q with check := some c } with
            | none => rw [hr] at h; cases h
            | some q' => rw [hr] at h; cases h
    | adjust =>
      simp only at h
      cases hc : parseAdjust data with
      | none => rw [hc] at h; cases h
      | some c =>
        rw [hc, Option.bind_some] at h
        cases c with
        | none => cases h; rfl
        | some c =>
          simp only at h
          cases hq : d.ports[subslotPort d.ports.length subslot - 1]? with
          | none => rw [hq] at h; cases h
          | some q => rw [hq] at h; cases h
    | intf => cases h; rfl
    | other => cases h; rfl
  · cases i with
    | intf =>
      simp only at h
      cases hg : getIntfAdjust (atData data) with
      | none => rw [hg] at h; cases h
      | some m =>
        rw [hg, Option.bind_some] at h
        cases hf : ({ d with standard := m.1, modeActive := true } : Dev).forAll (fun p => some (restartTx e p)) with
        | none => rw [hf] at h; cases h
        | some d1 => rw [hf] at h; cases h
    | check => cases h; rfl
    | adjust => cases h; rfl
    | other => cases h; rfl

/-- C83 fails: reading the checks of all ports (slot 0, subslot 0) never ends. -/
theorem C83_fails_all (d : Dev) (hp : d.ports ≠ []) (hn : d.ports.length ≤ 0x7000) (fuel : Nat) (x : Wr) : read fuel 0 0 .check d x = none := by
  have key : ∀ (fuel : Nat) (x : Wr), readAllChecks d 0 0 fuel 1 x = none := by
    intro fuel
    induction fuel with
    | zero => intro x; rfl
    | succ fuel ih =>
      intro x
      unfold readAllChecks
      rw [if_neg (by omega)]
      cases hd : d.ports[1 - 1]? with
      | none => rfl
      | some p =>
        rw [Option.bind_some]
        cases p.check with
        | none => exact ih x
        | some c =>
          simp only
          cases putCheck 0 0 c x with
          | none => rfl
          | some y => exact ih y
  have hl : 0 < d.ports.length := List.length_pos_iff.2 hp
  have h0 : subslotPort d.ports.length 0 = 0 := by
    unfold subslotPort isValid
    simp
  have h1 : (Iter.init d.ports.length).getNext.1 = 1 := by
    unfold Iter.init Iter.getNext
    simp only
    split
    · rfl
    · rw [if_neg (by omega)]
  unfold read
  simp only [if_true, h0, h1, key, ne_eq, not_true_eq_false, if_false, Option.map_none]

/-- C83 fails: the slot of a write is not looked at; a record for a submodule of any other slot, with the number of a port as subslot,
changes the port. -/
theorem C83_fails_slot (e : Env) (slot s : U16) (i : Index) (data : List Byte) (d : Dev) :
    write e slot s i data d = write e 0 s i data d := rfl

/-- C83 fails: the length in the header of CheckPeers in the answer is two more than the bytes that follow it. -/
theorem C83_fails_length (s : U16) (w : Wanted) (h1 : w.port.length ≤ 255) (h2 : w.station.length ≤ 240) (x : Wr) (hc : x.cap ≤ x.buf.length)
    (hx : x.pos + 24 + w.port.length + w.station.length ≤ x.cap) :
    ∃ x' l z, putCheck 0 s w x = some x' ∧
      answer x x' = l ++ encBlockHeader true ⟨0x020a, BitVec.ofNat 16 (7 + w.port.length + w.station.length), 1, 0⟩ ++
        ([1, BitVec.ofNat 8 w.port.length] ++ w.port ++ [BitVec.ofNat 8 w.station.length] ++ w.station) ++ List.replicate z 0 ∧
      ([1, 0] ++ ([1, BitVec.ofNat 8 w.port.length] ++ w.port ++ [BitVec.ofNat 8 w.station.length] ++ w.station) : List Byte).length =
        5 + w.port.length + w.station.length := by
  have lh : ∀ h, (encBlockHeader true h).length = 6 := by
    intro h; simp [encBlockHeader, enc16_length]
  have hlen : (checkAnswerBody 0 s w).length = 15 + w.port.length + w.station.length := by
    simp [checkAnswerBody, checkBody, encBlockHeader, enc16_length]; omega
  have hk : padTo4 (6 + (checkAnswerBody 0 s w).length) < 4 := by unfold padTo4; omega
  obtain ⟨x', k1, k2, k3⟩ := answer_of (writes_putCheck (slot := 0) (subslot := s) h1 h2) x hc (by
    simp only [List.length_append, lh, List.length_replicate]; omega)
  refine ⟨x', encBlockHeader true ⟨0x0200, BitVec.ofNat 16 ((checkAnswerBody 0 s w).length + padTo4 (6 + (checkAnswerBody 0 s w).length) + 2), 1, 0⟩ ++
    ([0, 0] ++ enc16 true 0 ++ enc16 true s), padTo4 (6 + (checkAnswerBody 0 s w).length), k1, ?_, by simp; omega⟩
  rw [k2]
  have e : (BitVec.ofNat 16 (5 + w.port.length + w.station.length) + 2 : U16) = BitVec.ofNat 16 (7 + w.port.length + w.station.length) := by
    apply BitVec.eq_of_toNat_eq
    simp; omega
  generalize padTo4 (6 + (checkAnswerBody 0 s w).length) = m
  unfold checkAnswerBody checkBody
  rw [e]
  simp [List.append_assoc]

/-- C83 fails: a record for the interface that cannot be read, for example an empty one, is accepted and sets the legacy mode. -/
theorem C83_fails_interface (e : Env) (d : Dev) :
    ∃ d', write e 0 0x8000 .intf [] d = some (true, d') ∧ d'.standard = false ∧ d'.modeActive = true := by
  have h0 : subslotPort d.ports.length 0x8000 = 0 := by
    unfold subslotPort isValid
    simp
  have hg : (getIntfAdjust (atData [])).map (·.1) = some false := by decide +kernel
  have hall : ∀ d : Dev, d.forAll (fun p => some (restartTx e p)) = some { d with ports := d.ports.map (restartTx e) } :=
    fun d => C86_loops d _ _ fun p _ => rfl
  cases hm : getIntfAdjust (atData []) with
  | none => rw [hm] at hg; cases hg
  | some m =>
    rw [hm, Option.map_some] at hg
    refine ⟨{ d with standard := m.1, modeActive := true, ports := d.ports.map (restartTx e) }, ?_, Option.some.inj hg, rfl⟩
    unfold write
    simp only [h0]
    rw [if_neg (by omega), hm]
    simp only [Option.bind_some, hall, Option.map_some]

/-- The arrays of the peer have their size at all times, as C83_check_partial needs it. -/
theorem peers_wf (z : Nat) (hz : 1 ≤ z) (d0 d : Dev) (e0 : Env) (es : List (Env × Ev)) (hr : run z d0 ((e0, .restart) :: es) = some d)
    (hf : ∀ x ∈ es, ∀ port data, x.2 = .frame port data → data.length ≤ 64000) : ∀ p ∈ d.ports, Lldp.Wf z p.net.peer := by
  intro p hp
  obtain ⟨i, hi⟩ := List.getElem?_of_mem hp
  obtain ⟨h1, h2⟩ := run_one hr
  obtain ⟨o0, ho0⟩ := one_back h1 hi
  obtain ⟨o', ho', hrun⟩ := h2 i o0 ho0
  have : o'.port = p := by
    have := (port_of_one ho').1
    rw [hi] at this; cases this; rfl
  subst this
  have hload : ∀ e f, Lldp.Wf z (load e z f).net.peer := by
    intro e f
    have hs : ∀ q : Port, (restartTx e q).net = q.net := by
      intro q; unfold restartTx sendAs; split
      · split <;> rfl
      · rfl
    unfold load
    cases f with
    | none => exact Lldp.wf_empty z
    | some s =>
      simp only
      rw [hs]
      split <;> exact Lldp.wf_empty z
  have hinv : ∀ {p : Lldp.Peer}, Lldp.Wf z p → ∀ q : Lldp.Port, q.peer = p → Lldp.Wf z (Lldp.invalidate q).peer := by
    intro p h q hq
    subst hq
    exact ⟨h.chassis, h.port, h.desc, h.mgmt, h.status, h.mac⟩
  have htx : ∀ e (q : Port), (tickTx e q).net = q.net := by
    intro e q
    unfold tickTx
    split
    · split <;> rfl
    · rfl
  have hre : ∀ e (q : Port), (restartTx e q).net = q.net := by
    intro e q; unfold restartTx sendAs; split
    · split <;> rfl
    · rfl
  cases hrun with
  | cons s1 s2 =>
    refine s2.induct (ok := fun x => ∀ port data, x.2 = .frame port data → data.length ≤ 64000) (P := fun o => Lldp.Wf z o.port.net.peer)
      ?_ hf ?_
    · intro x o o' hx h hs
      obtain ⟨e, ev⟩ := x
      cases hs with
      | frame hr =>
        obtain ⟨res, hp, hw⟩ := Lldp.parse_total z hz _ (hx _ _ rfl)
        unfold Lldp.recv at hr
        rw [hp, Option.map_some] at hr
        cases res with
        | none => cases hr; exact h
        | some q =>
          cases hr
          simp only [Lldp.updatePeer]
          split
          · exact h
          · exact hw q rfl
      | frameOther => exact h
      | link =>
        simp only [Lldp.monitorLink]
        split
        · exact hinv h _ rfl
        · exact h
      | linkOther => exact h
      | periodic hp =>
        have hn : ∀ q p, periodic e q = some p → p.net.peer = q.net.peer := by
          intro q p hq
          unfold periodic at hq
          split at hq
          · rw [(runCheck_same hq).1.net]
          · cases hq; rfl
        show Lldp.Wf z (_ : Port).net.peer
        rw [hn _ _ hp, htx]
        simp only [Lldp.tickRx]
        split
        · split
          · exact hinv h _ rfl
          · exact h
        · exact h
      | @write slot subslot k data p _ hw =>
        unfold Port.written at hw
        cases k with
        | check =>
          simp only at hw
          cases hc : parseCheck data with
          | none => rw [hc] at hw; cases hw
          | some c =>
            rw [hc, Option.bind_some] at hw
            cases c with
            | none => cases hw
            | some c =>
              simp only at hw
              cases hr : runCheck e { o.port with check := some c } with
              | none => rw [hr] at hw; cases hw
              | some q =>
                rw [hr, Option.map_some] at hw
                cases hw
                show Lldp.Wf z p.net.peer
                rw [(runCheck_same hr).1.net]
                exact h
        | adjust =>
          simp only at hw
          cases hc : parseAdjust data with
          | none => rw [hc] at hw; cases hw
          | some c =>
            rw [hc, Option.map_some] at hw
            cases c with
            | none => cases hw
            | some c =>
              cases hw
              show Lldp.Wf z (sendAs e c { o.port with adjust := some c }).net.peer
              unfold sendAs
              split <;> exact h
        | intf => cases hw
        | other => cases hw
      | writeRefused => exact h
      | writeIntf => show Lldp.Wf z (restartTx _ _).net.peer; rw [hre]; exact h
      | writeOther => exact h
      | connect => exact h
      | connected => show Lldp.Wf z (restartTx _ _).net.peer; rw [hre]; exact h
      | dcp => show Lldp.Wf z (restartTx _ _).net.peer; rw [hre]; exact h
      | factoryReset => exact h
      | saveOff => exact h
      | save => exact h
      | restart => exact hload _ _
    · cases s1
      exact hload _ _

/-- C83 applies: a device with two ports, a check for the second. -/
example : ∃ d', write ⟨0, 1000, true, true⟩ 0 0x8002 .check
      (checkBody (0, 0) 0 0x8002 14 (1, 0) 1 ⟨[112, 111, 114, 116, 45, 48, 48, 49], [100, 101, 118]⟩ []) 
      ⟨[load ⟨0, 1000, true, true⟩ 60 none, load ⟨0, 1000, true, true⟩ 60 none], true, false, [], false⟩ = some (true, d') := by
  obtain ⟨d', h, _⟩ := C83_check_partial ⟨0, 1000, true, true⟩ ⟨[load ⟨0, 1000, true, true⟩ 60 none, load ⟨0, 1000, true, true⟩ 60 none], true, false, [], false⟩
    2 0x8002 (by simp) (by omega) (by simp) (by decide) (by
      intro p hp
      simp only [List.mem_cons, List.not_mem_nil, or_false, or_self] at hp
      subst hp
      exact (Lldp.wf_empty 60).port) ⟨[112, 111, 114, 116, 45, 48, 48, 49], [100, 101, 118]⟩ (by simp) (by simp) (0, 0) 0 0x8002 14 (1, 0) 1 [] (by simp)
  exact ⟨d', h⟩

end Verif.Pdport
