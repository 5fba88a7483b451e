import Verif.Read.Spec
import Verif.Wire.Inverse
import Verif.Ident.Lemmas

/-! Lemmas for the read service. -/
set_option linter.unusedSimpArgs false
set_option linter.unusedVariables false

namespace Verif.Read
open Verif.Wire hiding ExpApi ExpMod ExpSub
open Verif.DiagRead (Holds Emits Emits.seq emits_of)

/-! ## Request -/

theorem parses_getReadReq {q : ReadReq} {p2 p8 : List Byte} (h1 : q.uuid.d4.length = 8) (h2 : q.target.d4.length = 8)
    (h3 : p2.length = 2) (h4 : p8.length = 8) :
    Parses true getReadReq (enc16 true q.seqNmb ++ (encUuid true q.uuid ++ (enc32 true q.api ++ (enc16 true q.slot ++
      (enc16 true q.subslot ++ (p2 ++ (enc16 true q.index ++ (enc32 true q.length ++ (encUuid true q.target ++ p8))))))))) q := by
  have hr : ∀ (n : Nat) (p : List Byte), p.length = n → Parses true (rep n getByte) p p := by
    intro n p hp
    have := parses_rep (be := true) (p := getByte) (enc := fun b => [b]) p (fun b _ => parses_getByte true b)
    rw [hp] at this
    simpa using this
  unfold getReadReq
  refine ParsesTo.bind (parses_getU16 true _) ?_
  refine ParsesTo.bind (parses_getUuid h1) ?_
  refine ParsesTo.bind (parses_getU32 true _) ?_
  refine ParsesTo.bind (parses_getU16 true _) ?_
  refine ParsesTo.bind (parses_getU16 true _) ?_
  refine ParsesTo.bind (hr 2 p2 h3) ?_
  refine ParsesTo.bind (parses_getU16 true _) ?_
  refine ParsesTo.bind (parses_getU32 true _) ?_
  refine ParsesTo.bind (parses_getUuid h2) ?_
  refine ParsesTo.bind_nil (hr 8 p8 h4) ?_
  exact ParsesTo.pure true _

theorem inv_rep (n : Nat) : Inv true (rep n getByte) (fun l bs => l = bs ∧ bs.length = n) := by
  induction n with
  | zero =>
    refine (Inv.pure []).mono ?_
    rintro a bs ⟨rfl, rfl⟩
    exact ⟨rfl, rfl⟩
  | succ n ih =>
    unfold rep
    refine (Inv.bind (inv_getByte true) fun a => Inv.bind ih fun l => Inv.pure (a :: l)).mono ?_
    rintro b bs ⟨a, x, y, rfl, rfl, l, x2, y2, rfl, ⟨rfl, hl⟩, rfl, rfl⟩
    exact ⟨by simp, by simp; omega⟩

theorem inv_getArr (n : Nat) : Inv true (getArr n) (fun d bs => d = bs ∧ bs.length = n) := by
  unfold getArr
  refine (Inv.bind (inv_getMem true n) fun d => Inv.pure _).mono ?_
  rintro b bs ⟨a, x, y, rfl, ⟨rfl, hl⟩, rfl, rfl⟩
  exact ⟨by simp, by simpa using hl⟩

theorem inv_getUuid : Inv true getUuid (fun u bs => bs = encUuid true u ∧ u.d4.length = 8) := by
  unfold getUuid
  refine (Inv.bind inv_getU32 fun a => Inv.bind (inv_getU16 true) fun b => Inv.bind (inv_getU16 true) fun c =>
    Inv.bind (inv_getArr 8) fun d => Inv.pure _).mono ?_
  rintro u bs ⟨a, x, y, rfl, rfl, b, x2, y2, rfl, rfl, c, x3, y3, rfl, rfl, d, x4, y4, rfl, ⟨rfl, hd⟩, rfl, rfl⟩
  exact ⟨by simp [encUuid], hd⟩

theorem inv_getReadReq : Inv true getReadReq (fun q bs => ∃ p2 p8 : List Byte, q.uuid.d4.length = 8 ∧
    q.target.d4.length = 8 ∧ p2.length = 2 ∧ p8.length = 8 ∧ bs = enc16 true q.seqNmb ++ (encUuid true q.uuid ++
      (enc32 true q.api ++ (enc16 true q.slot ++
      (enc16 true q.subslot ++ (p2 ++ (enc16 true q.index ++ (enc32 true q.length ++ (encUuid true q.target ++ p8)))))))) ) := by
  unfold getReadReq
  refine (Inv.bind (inv_getU16 true) fun a => Inv.bind inv_getUuid fun b => Inv.bind inv_getU32 fun c =>
    Inv.bind (inv_getU16 true) fun d => Inv.bind (inv_getU16 true) fun f => Inv.bind (inv_rep 2) fun g =>
    Inv.bind (inv_getU16 true) fun i => Inv.bind inv_getU32 fun j => Inv.bind inv_getUuid fun k =>
    Inv.bind (inv_rep 8) fun l => Inv.pure _).mono ?_
  rintro u bs ⟨a, x, y, rfl, rfl, b, x2, y2, rfl, ⟨rfl, hb⟩, c, x3, y3, rfl, rfl, d, x4, y4, rfl, rfl, f, x5, y5, rfl, rfl,
    g, x6, y6, rfl, ⟨rfl, hg⟩, i, x7, y7, rfl, rfl, j, x8, y8, rfl, rfl, k, x9, y9, rfl, ⟨rfl, hk⟩,
    l, x10, y10, rfl, ⟨rfl, hl⟩, rfl, rfl⟩
  exact ⟨_, _, hb, hk, hg, hl, by simp⟩

theorem encUuid_length {u : Uuid} (h : u.d4.length = 8) : (encUuid true u).length = 16 := by
  simp [encUuid, enc16_length, enc32_length, h]

theorem encHdr_length (h : BlockHeader) : (encBlockHeader true h).length = 6 := by
  simp [encBlockHeader, enc16_length]

theorem encReq_length {h : BlockHeader} {q : ReadReq} {p2 p8 : List Byte} (h1 : q.uuid.d4.length = 8)
    (h2 : q.target.d4.length = 8) (h3 : p2.length = 2) (h4 : p8.length = 8) : (encReq h q p2 p8).length = 64 := by
  simp [encReq, encHdr_length, encUuid_length h1, encUuid_length h2, enc16_length, enc32_length, h3, h4]

/-- A request is understood. -/
theorem interpret_of {ndr : Ndr} {r : Rd} (hb : r.be = true) (he : r.err = .ok) (hn : r.null = false)
    (hl : r.len ≤ r.buf.length) (hp : r.pos ≤ r.len) {q : ReadReq} (h : Requests ndr r q) :
    ∃ r', interpret ndr r = some (.ok q, r') ∧ r'.be = true := by
  obtain ⟨bh, p2, p8, ht, hL, a1, a2, a3, a4, hs, hN⟩ := h
  have hlen := slice_length hs
  rw [encReq_length a1 a2 a3 a4] at hlen
  have hs' : slice r.buf r.pos (encReq bh q p2 p8).length = some (encReq bh q p2 p8) := by
    rw [encReq_length a1 a2 a3 a4, hlen]; exact hs
  have heq : encReq bh q p2 p8 = encBlockHeader true bh ++ (enc16 true q.seqNmb ++ (encUuid true q.uuid ++
    (enc32 true q.api ++ (enc16 true q.slot ++
    (enc16 true q.subslot ++ (p2 ++ (enc16 true q.index ++ (enc32 true q.length ++ (encUuid true q.target ++ p8))))))))) := by
    simp [encReq]
  rw [heq] at hs'
  obtain ⟨s1, s2⟩ := slice_append hs'
  have e1 := parses_getBlockHeader true bh r he hn hb (by rw [encHdr_length]; omega) s1
  rw [encHdr_length] at e1 s2
  have e2 := parses_getReadReq a1 a2 a3 a4 { r with pos := r.pos + 6, be := true } he hn rfl
    (by simp [encUuid_length a1, encUuid_length a2, enc16_length, enc32_length, a3, a4]; omega) s2
  unfold interpret
  rw [if_pos ⟨by omega, he⟩, e1]
  simp only [Option.bind_some]
  rw [if_pos ⟨by omega, he⟩, if_pos ht, e2]
  simp only [Option.map_some]
  rw [if_pos he, if_neg ?_, if_neg ?_]
  · exact ⟨_, rfl, rfl⟩
  · simp [encUuid_length a1, encUuid_length a2, enc16_length, enc32_length, a3, a4]; omega
  · simp [encUuid_length a1, encUuid_length a2, enc16_length, enc32_length, a3, a4]; omega

/-- A request is understood if and only if it is one. -/
theorem interpret_iff {ndr : Ndr} {r : Rd} (hb : r.be = true) (he : r.err = .ok) (hn : r.null = false)
    (hl : r.len ≤ r.buf.length) (hp : r.pos ≤ r.len) (q : ReadReq) :
    (∃ r', interpret ndr r = some (.ok q, r')) ↔ Requests ndr r q := by
  constructor
  · rintro ⟨r', h⟩
    unfold interpret at h
    split at h
    · cases hh : getBlockHeader r with
      | none => rw [hh] at h; cases h
      | some x =>
        obtain ⟨bh, r1⟩ := x
        rw [hh, Option.bind_some] at h
        simp only at h
        split at h
        · rename_i h1 h2
          split at h
          · rename_i ht
            cases hg : getReadReq r1 with
            | none => rw [hg] at h; cases h
            | some y =>
              obtain ⟨q', r2⟩ := y
              rw [hg, Option.map_some] at h
              have h := Option.some.inj h
              simp only at h
              split at h
              · rename_i h3
                split at h
                · cases h
                split at h
                · cases h
                rename_i h4 h5
                cases h
                obtain ⟨bs, k1, k2, k3, k4⟩ := (inv_getBlockHeader true).2 r bh r1 hb he hp (by omega) hh h2.2
                subst k1
                subst k4
                have hle := slice_isSome.1 (by rw [k2]; rfl : (slice r.buf r.pos _).isSome = true)
                obtain ⟨cs, m1, m2, m3, m4⟩ := inv_getReadReq.2 { r with pos := r.pos + (encBlockHeader true bh).length } _ _ hb he k3
                  (by simp only; omega) hg h3
                obtain ⟨p2, p8, a1, a2, a3, a4, a5⟩ := m4
                have hr2 : r'.len = r.len ∧ r'.pos = r.pos + (encBlockHeader true bh).length + cs.length := by
                  rw [m1]; exact ⟨rfl, rfl⟩
                have hc : cs.length = 58 := by
                  rw [a5]
                  simp [encUuid_length a1, encUuid_length a2, enc16_length, enc32_length, a3, a4]
                have hbh := encHdr_length bh
                simp only [ne_eq, Decidable.not_not] at h4 h5
                have hfull := slice_append_of k2 m2
                rw [List.length_append, hbh, hc] at hfull
                refine ⟨bh, p2, p8, ht, ?_, a1, a2, a3, a4, ?_, ?_⟩
                · have := h2.1
                  simp only [hbh] at this
                  omega
                · have : r.len - r.pos = 6 + 58 := by omega
                  rw [this, hfull, a5]
                  simp [encReq]
                · omega
              · cases h
          · cases h
        · cases h
    · cases h
  · intro h
    obtain ⟨r', e, _⟩ := interpret_of hb he hn hl hp h
    exact ⟨r', e⟩

/-! ## Response -/

theorem within_of_emits {p : W} {bs : List Byte} (h : Emits p bs) {w : Wr} (hw : Ready w) :
    ∃ w', p w = some w' ∧ Within w w' ∧ (w.pos + bs.length ≤ w.cap → Appends w w' bs) := by
  obtain ⟨w', e, c, l, m, n, s, r⟩ := h w hw.1 hw.2.1 hw.2.2
  exact ⟨w', e, ⟨c, l, m, n, s⟩, fun hr => ⟨c, l, (r hr).1, (r hr).2, s⟩⟩

theorem makes_of_emits {p : W} {bs : List Byte} (h : Emits p bs) : Makes (fun w => (p w).map fun x => (true, x)) true bs := by
  intro w hw
  obtain ⟨w', e, h1, h2⟩ := within_of_emits h hw
  exact ⟨true, w', by simp only [e, Option.map_some], h1, fun hr => ⟨rfl, h2 hr⟩⟩

theorem within_refl {w : Wr} (h : Ready w) : Within w w := ⟨rfl, rfl, Nat.le_refl _, h.2.2, fun _ _ => rfl⟩

theorem appends_nil (w : Wr) : Appends w w [] := ⟨rfl, rfl, rfl, fun i hi => absurd hi (by simp), fun _ _ => rfl⟩

theorem Within.ready {w w' : Wr} (hw : Ready w) (h : Within w w') : Ready w' := by
  obtain ⟨a, b, c, d, _⟩ := h
  obtain ⟨x, y, z⟩ := hw
  exact ⟨by omega, by omega, by omega⟩

theorem Within.trans {a b c : Wr} (h : Within a b) (k : Within b c) : Within a c := by
  obtain ⟨h1, h2, h3, h4, h5⟩ := h
  obtain ⟨k1, k2, k3, k4, k5⟩ := k
  refine ⟨by omega, by omega, by omega, by omega, ?_⟩
  intro i hi
  rw [k5 i (by omega), h5 i hi]

theorem Appends.trans {a b c : Wr} {x y : List Byte} (hb : b.pos ≤ b.cap) (h : Appends a b x) (k : Appends b c y) : Appends a c (x ++ y) := by
  obtain ⟨h1, h2, h3, h4, h5⟩ := h
  obtain ⟨k1, k2, k3, k4, k5⟩ := k
  refine ⟨by omega, by omega, by rw [List.length_append]; omega, ?_, ?_⟩
  · intro i hi
    rw [List.length_append] at hi
    by_cases c : i < x.length
    · rw [List.getElem?_append_left c, ← h4 i c, k5 _ (by omega)]
    · rw [List.getElem?_append_right (by omega), ← k4 _ (by omega)]
      congr 1; omega
  · intro i hi
    rw [k5 i (by omega), h5 i hi]

/-- A value put over an earlier one. -/
theorem put_over {p : W} {bs : List Byte} (hw : Writes p bs) (hs : WSafe p) {w : Wr} (h : w.cap ≤ w.buf.length) :
    ∃ w', p w = some w' ∧ w'.cap = w.cap ∧ w'.buf.length = w.buf.length ∧
      (∀ i, i < w.pos ∨ w.pos + bs.length ≤ i ∨ w.cap ≤ i → w'.buf[i]? = w.buf[i]?) ∧
      (w.pos + bs.length ≤ w.cap → Holds w'.buf w.pos bs) := by
  by_cases c : w.pos + bs.length ≤ w.cap
  · obtain ⟨b, hb, e⟩ := hw w h c
    refine ⟨_, e, rfl, by simp [writeAt_length hb], ?_, ?_⟩
    · intro i hi
      show b[i]? = _
      rw [writeAt_get hb, if_neg (by omega)]
    · intro _ i hi
      show b[w.pos + i]? = _
      rw [writeAt_get hb, if_pos (by omega), Nat.add_sub_cancel_left]
  · obtain ⟨w', e, h1, h2, h3, h4, h5⟩ := hs w h
    refine ⟨w', e, h1, h2, ?_, fun hr => absurd hr c⟩
    intro i hi
    apply h5
    omega

/-- A part of what was appended is replaced. -/
theorem patch {p : W} {pre old new post : List Byte} (hw : Writes p new) (hs : WSafe p) (hl : new.length = old.length)
    {w0 w : Wr} {k : Nat} (hr : Ready w0) (hwi : Within w0 w) (hk : w0.pos ≤ k) :
    ∃ w', p { w with pos := k } = some w' ∧ Within w0 { w' with pos := w.pos } ∧
      (Appends w0 w (pre ++ old ++ post) → k = w0.pos + pre.length → Appends w0 { w' with pos := w.pos } (pre ++ new ++ post)) := by
  obtain ⟨c1, c2, c3, c4, c5⟩ := hwi
  obtain ⟨w', e, a1, a2, a3, a4⟩ := put_over (w := { w with pos := k }) hw hs (by simp only; have := hr.1; omega)
  simp only at a1 a2 a3 a4
  refine ⟨w', e, ⟨by simp only; omega, by simp only; omega, c3, c4, ?_⟩, ?_⟩
  · intro i hi
    show w'.buf[i]? = _
    rw [a3 i (by omega), c5 i hi]
  · rintro ⟨d1, d2, d3, d4, d5⟩ rfl
    have hlen : (pre ++ new ++ post).length = (pre ++ old ++ post).length := by simp [hl]
    refine ⟨by simp only; omega, by simp only; omega, by simp only; omega, ?_, ?_⟩
    · intro i hi
      show w'.buf[w0.pos + i]? = _
      rw [hlen] at hi
      have hd := d4 i hi
      simp only [List.length_append] at hi d3
      by_cases c : i < pre.length
      · rw [a3 _ (by omega), hd, List.append_assoc, List.append_assoc, List.getElem?_append_left c, List.getElem?_append_left c]
      · by_cases c' : i < pre.length + new.length
        · have := a4 (by omega) (i - pre.length) (by omega)
          rw [List.append_assoc, List.getElem?_append_right (by omega), List.getElem?_append_left (by omega), ← this]
          congr 1; omega
        · rw [a3 _ (by omega), hd, List.getElem?_append_right (by simp; omega), List.getElem?_append_right (by simp; omega)]
          congr 1; simp; omega
    · intro i hi
      show w'.buf[i]? = _
      rw [a3 i (by omega), d5 i hi]

theorem writes_putStatus (s : Status) : Writes (putStatus true s) (encStatus s) := by
  have h : encStatus s = enc32 true (0x01000000#32 * s.code.setWidth 32 + 0x10000#32 * s.decode.setWidth 32 +
    0x100#32 * s.code1.setWidth 32 + s.code2.setWidth 32) := by
    have h1 := s.code.isLt
    have h2 := s.decode.isLt
    have h3 := s.code1.isLt
    have h4 := s.code2.isLt
    have hv : (0x01000000#32 * s.code.setWidth 32 + 0x10000#32 * s.decode.setWidth 32 +
      0x100#32 * s.code1.setWidth 32 + s.code2.setWidth 32).toNat =
        0x01000000 * s.code.toNat + 0x10000 * s.decode.toNat + 0x100 * s.code1.toNat + s.code2.toNat := by
      simp [BitVec.toNat_add, BitVec.toNat_mul]
      omega
    unfold encStatus enc32
    rw [hv]
    simp only [if_true]
    refine List.cons_eq_cons.2 ⟨?_, List.cons_eq_cons.2 ⟨?_, List.cons_eq_cons.2 ⟨?_, List.cons_eq_cons.2 ⟨?_, rfl⟩⟩⟩⟩ <;>
      apply BitVec.eq_of_toNat_eq <;> simp only [BitVec.toNat_ofNat] <;> omega
  rw [h]
  exact writes_putU32 true _

theorem wsafe_putStatus (s : Status) : WSafe (putStatus true s) := wsafe_putU32 true _

attribute [local irreducible] putU16 putU32 enc16 enc32 putBlockHeader encBlockHeader putStatus putUuid encUuid putPadding putNdr putByte

theorem writes_putNdr (n : Ndr) : Writes (putNdr true n)
    (enc32 true n.argsLen ++ enc32 true n.maxCount ++ enc32 true n.offset ++ enc32 true n.actual) := by
  unfold putNdr
  exact Writes.seq (Writes.seq (Writes.seq (writes_putU32 _ _) (writes_putU32 _ _)) (writes_putU32 _ _)) (writes_putU32 _ _)

theorem wsafe_putNdr (n : Ndr) : WSafe (putNdr true n) := by
  unfold putNdr
  exact WSafe.seq (WSafe.seq (WSafe.seq (wsafe_putU32 _ _) (wsafe_putU32 _ _)) (wsafe_putU32 _ _)) (wsafe_putU32 _ _)

/-- Bytes of `putNames`. -/
def encNames (q : ReadReq) : List Byte :=
  enc16 true q.seqNmb ++ encUuid true q.uuid ++ enc32 true q.api ++ enc16 true q.slot ++ enc16 true q.subslot ++ [0] ++ [0] ++
    enc16 true q.index

def encTail (a b : U16) : List Byte := enc16 true a ++ enc16 true b ++ List.replicate 20 0

theorem encHead_eq (q : ReadReq) (n : Nat) (a b : U16) : encHead q n a b =
    (encBlockHeader true ⟨0x8009, 60, 1, 0⟩ ++ encNames q) ++ enc32 true (BitVec.ofNat 32 n) ++ encTail a b := by
  simp [encHead, encNames, encTail]

theorem emits_putNames (q : ReadReq) : Emits (putNames q) (encNames q) := by
  refine emits_of ?_ ?_
  · unfold putNames encNames
    exact Writes.seq (Writes.seq (Writes.seq (Writes.seq (Writes.seq (Writes.seq (Writes.seq (writes_putU16 _ _)
      (writes_putUuid _ _)) (writes_putU32 _ _)) (writes_putU16 _ _)) (writes_putU16 _ _)) (writes_putByte _)) (writes_putByte _))
      (writes_putU16 _ _)
  · unfold putNames
    exact WSafe.seq (WSafe.seq (WSafe.seq (WSafe.seq (WSafe.seq (WSafe.seq (WSafe.seq (wsafe_putU16 _ _)
      (wsafe_putUuid _ _)) (wsafe_putU32 _ _)) (wsafe_putU16 _ _)) (wsafe_putU16 _ _)) (wsafe_putByte _)) (wsafe_putByte _))
      (wsafe_putU16 _ _)

theorem emits_putRest (a b : U16) : Emits (putRest a b) (enc32 true 0 ++ encTail a b) := by
  unfold encTail
  rw [← List.append_assoc, ← List.append_assoc]
  refine emits_of ?_ ?_
  · unfold putRest
    exact Writes.seq (Writes.seq (Writes.seq (writes_putU32 _ _) (writes_putU16 _ _)) (writes_putU16 _ _)) (writes_putPadding 20)
  · unfold putRest
    exact WSafe.seq (WSafe.seq (WSafe.seq (wsafe_putU32 _ _) (wsafe_putU16 _ _)) (wsafe_putU16 _ _)) (wsafe_putPadding 20)

theorem encNames_length {q : ReadReq} (h : q.uuid.d4.length = 8) : (encNames q).length = 30 := by
  simp [encNames, encUuid_length h, enc16_length, enc32_length]

theorem encTail_length (a b : U16) : (encTail a b).length = 24 := by simp [encTail, enc16_length]

theorem encHead_length {q : ReadReq} (h : q.uuid.d4.length = 8) (n : Nat) (a b : U16) : (encHead q n a b).length = 64 := by
  rw [encHead_eq]
  simp [encHdr_length, encNames_length h, encTail_length, enc32_length]

theorem posBlock_spec {t : U16} {vl : Byte} {nm rs : W} {ns ts : List Byte} (hn : Emits nm ns) (ht : Emits rs ts) {w : Wr}
    (hw : Ready w) :
    ∃ w1 lp, posBlock t 1 vl nm rs w = some (w1, lp) ∧ Within w w1 ∧ w.pos ≤ lp ∧ lp ≤ w1.pos ∧
      (w.pos + 6 + ns.length + ts.length ≤ w.cap → Appends w w1 (Ident.encBlock t vl (ns ++ ts)) ∧
        lp = w.pos + 6 + ns.length) := by
  obtain ⟨wb, eb, hb1, hb2⟩ := within_of_emits (Ident.emits_fixed (t := t) (vl := vl) (Emits.seq hn ht)) hw
  obtain ⟨w1, e1, h1, r1⟩ := within_of_emits (Ident.emits_header t 1 vl) hw
  obtain ⟨w2, e2, h2, r2⟩ := within_of_emits hn (h1.ready hw)
  obtain ⟨w3, e3, h3, r3⟩ := within_of_emits ht (h2.ready (h1.ready hw))
  have hE : posBlock t 1 vl nm rs w = (Ident.block t 1 vl (nm ;; rs) w).map (fun x => (x, w2.pos)) := by
    unfold posBlock Ident.block
    rw [e1]
    simp only [W.seq, e2, e3, Option.bind_some]
    generalize putU16 true _ _ = x
    cases x <;> rfl
  have hp3 : wb.pos = w3.pos := by
    unfold Ident.block at eb
    rw [e1] at eb
    simp only [W.seq, e2, e3, Option.bind_some] at eb
    generalize putU16 true _ _ = x at eb
    cases x with
    | none => cases eb
    | some x => cases eb; rfl
  rw [hE, eb]
  have lh : (encBlockHeader true ⟨t, 2, 1, vl⟩ ++ []).length = 6 := by simp [encHdr_length]
  refine ⟨wb, w2.pos, rfl, hb1, ?_, ?_, ?_⟩
  · have := h1.2.2.1; have := h2.2.2.1; omega
  · have := h3.2.2.1; omega
  · intro hr
    refine ⟨hb2 ?_, ?_⟩
    · unfold Ident.encBlock
      rw [List.length_append, encHdr_length, List.length_append]; omega
    · have k1 := r1 (by rw [lh]; omega)
      have l1 := k1.2.2.1
      rw [lh] at l1
      have k2 := r2 (by have := h1.1; omega)
      have l2 := k2.2.2.1
      omega

theorem encBlock_head {q : ReadReq} (hq : q.uuid.d4.length = 8) (a b : U16) :
    Ident.encBlock 0x8009 0 (encNames q ++ (enc32 true 0 ++ encTail a b)) = encHead q 0 a b := by
  rw [encHead_eq]
  unfold Ident.encBlock
  have : (encNames q ++ (enc32 true 0 ++ encTail a b)).length = 58 := by
    simp only [List.length_append, encNames_length hq, encTail_length, enc32_length]
  rw [this]
  simp only [List.append_assoc]
  rfl

theorem readResult_spec {q : ReadReq} (hq : q.uuid.d4.length = 8) (a b : U16) {w : Wr} (hw : Ready w) :
    ∃ w1 lp, putReadResult q a b w = some (w1, lp) ∧ Within w w1 ∧ w.pos ≤ lp ∧ lp ≤ w1.pos ∧
      (w.pos + 64 ≤ w.cap → Appends w w1 (encHead q 0 a b) ∧ lp = w.pos + 36) := by
  obtain ⟨w1, lp, e, h, h1, h2, r⟩ := posBlock_spec (t := 0x8009) (vl := 0) (emits_putNames q) (emits_putRest a b) hw
  refine ⟨w1, lp, e, h, h1, h2, ?_⟩
  intro hr
  rw [encBlock_head hq, encNames_length hq, List.length_append, encTail_length, enc32_length] at r
  exact r (by omega)

variable {A : Type}

theorem cmrdr_spec {e : Env A} {ar : Option A} {q : ReadReq} (hq : q.uuid.d4.length = 8) {res res1 : Result} {w : Wr} (hw : Ready w)
    {d bs : List Byte} {calls : List (Call A)} {ok : Bool} (hf : fspmRead e ar q (w.cap - w.pos) res = some (d, res1, calls))
    (hm : ∀ x, Ready x → x.cap = w.cap → (w.pos + 64 ≤ w.cap → x.pos = w.pos + 64) → ∃ ok' x', putRecord e ar q d x = some (ok', x') ∧
      Within x x' ∧ (x.pos + bs.length ≤ x.cap → ok' = ok ∧ Appends x x' bs)) :
    ∃ w' res', cmrdr e ar q res w = some (w', res', calls) ∧ Within w w' ∧
      (w.pos + 64 + bs.length ≤ w.cap → res' = (if ok then res1 else setError invalidIndex res1) ∧
        Appends w w' (encHead q bs.length res1.add1 res1.add2 ++ bs)) := by
  obtain ⟨w1, lp, e1, h1, hl1, hl2, r1⟩ := readResult_spec hq res1.add1 res1.add2 hw
  obtain ⟨ok', w2, e2, h2, r2⟩ := hm w1 (h1.ready hw) h1.1 (by
    intro hr
    have := (r1 hr).1.2.2.1
    rw [encHead_length hq] at this
    exact this)
  have h12 := h1.trans h2
  obtain ⟨w3, e3, h3, r3⟩ := patch (pre := encBlockHeader true ⟨0x8009, 60, 1, 0⟩ ++ encNames q) (old := enc32 true 0)
    (post := encTail res1.add1 res1.add2 ++ bs) (writes_putU32 true (BitVec.ofNat 32 (w2.pos - w1.pos))) (wsafe_putU32 true _)
    (by simp [enc32_length]) hw h12 hl1
  refine ⟨{ w3 with pos := w2.pos }, if ok' then res1 else setError invalidIndex res1, ?_, h3, ?_⟩
  · unfold cmrdr
    rw [hf]
    simp only [Option.bind_some, e1, e2, e3, Option.map_some]
  · intro hr
    obtain ⟨k1, k2⟩ := r1 (by omega)
    have hp1 := k1.2.2.1
    rw [encHead_length hq] at hp1
    obtain ⟨m1, m2⟩ := r2 (by have := h1.1; omega)
    have hp2 := m2.2.2.1
    refine ⟨by rw [m1], ?_⟩
    have happ := k1.trans (by have := h1.2.2.2.1; have := h1.1; omega) m2
    have e0 : encHead q 0 res1.add1 res1.add2 ++ bs = encBlockHeader true ⟨0x8009, 60, 1, 0⟩ ++ encNames q ++ enc32 true 0 ++
        (encTail res1.add1 res1.add2 ++ bs) := by
      rw [encHead_eq]; simp
    rw [e0] at happ
    have := r3 happ (by rw [k2, List.length_append, encHdr_length, encNames_length hq])
    have e4 : encHead q bs.length res1.add1 res1.add2 ++ bs = encBlockHeader true ⟨0x8009, 60, 1, 0⟩ ++ encNames q ++
        enc32 true (BitVec.ofNat 32 (w2.pos - w1.pos)) ++ (encTail res1.add1 res1.add2 ++ bs) := by
      rw [encHead_eq]
      have : w2.pos - w1.pos = bs.length := by omega
      rw [this]; simp
    rw [e4]
    exact this

theorem carryOut_spec {e : Env A} {ar : Option A} {q : ReadReq} (hq : q.uuid.d4.length = 8) {ndr : Ndr} {res res1 : Result} {w : Wr}
    (hw : Ready w) {d bs : List Byte} {calls : List (Call A)} {ok : Bool}
    (hf : ∀ n, n ≤ w.cap - w.pos → (w.pos + 20 ≤ w.cap → n = w.cap - w.pos - 20) → fspmRead e ar q n res = some (d, res1, calls))
    (hm : ∀ x, Ready x → x.cap = w.cap → (w.pos + 84 ≤ w.cap → x.pos = w.pos + 84) → ∃ ok' x', putRecord e ar q d x = some (ok', x') ∧
      Within x x' ∧ (x.pos + bs.length ≤ x.cap → ok' = ok ∧ Appends x x' bs)) :
    ∃ w' res', carryOut e true ndr ar q res w = some (w', res', calls) ∧ Within w w' ∧
      (w.pos + 84 + bs.length ≤ w.cap → res' = (if ok then res1 else setError invalidIndex res1) ∧
        Appends w w' (encAnswer ndr q (if ok then res1 else setError invalidIndex res1) bs)) := by
  obtain ⟨w1, e1, h1, r1⟩ := within_of_emits (emits_of (writes_putStatus res.status) (wsafe_putStatus _)) hw
  obtain ⟨w2, e2, h2, r2⟩ := within_of_emits (emits_of (writes_putNdr ndr) (wsafe_putNdr _)) (h1.ready hw)
  have h02 := h1.trans h2
  have ls : ∀ s, (encStatus s).length = 4 := fun s => rfl
  have ln : ∀ n : Ndr, (enc32 true n.argsLen ++ enc32 true n.maxCount ++ enc32 true n.offset ++ enc32 true n.actual).length = 16 := by
    intro n; simp [enc32_length]
  have hpos : w.pos + 20 ≤ w.cap → w2.pos = w.pos + 20 := by
    intro hr
    have a := (r1 (by rw [ls]; omega)).2.2.1
    rw [ls] at a
    have b := (r2 (by rw [ln]; have := h1.1; omega)).2.2.1
    rw [ln] at b
    omega
  obtain ⟨w3, res', e3, h3, r3⟩ := cmrdr_spec hq (res := res) (h02.ready hw) (hf (w2.cap - w2.pos)
    (by have := h02.1; have := h02.2.2.1; omega) (by intro hr; have := hpos hr; have := h02.1; omega))
    (fun x hx hc hp => hm x hx (by rw [hc, h02.1]) (fun hr => by
      have a := h02.1
      have b := hpos (by omega)
      rw [hp (by omega), b]))
  have h03 := h02.trans h3
  obtain ⟨w4, e4, h4, r4⟩ := patch (pre := []) (old := encStatus res.status)
    (post := enc32 true ndr.argsLen ++ enc32 true ndr.maxCount ++ enc32 true ndr.offset ++ enc32 true ndr.actual ++
      (encHead q bs.length res1.add1 res1.add2 ++ bs)) (writes_putStatus res'.status) (wsafe_putStatus _) rfl hw h03 (Nat.le_refl _)
  obtain ⟨w5, e5, h5, r5⟩ := patch (pre := encStatus res'.status)
    (old := enc32 true ndr.argsLen ++ enc32 true ndr.maxCount ++ enc32 true ndr.offset ++ enc32 true ndr.actual)
    (post := encHead q bs.length res1.add1 res1.add2 ++ bs)
    (writes_putNdr { ndr with argsLen := BitVec.ofNat 32 (w3.pos - w2.pos), actual := BitVec.ofNat 32 (w3.pos - w2.pos) })
    (wsafe_putNdr _) (by rw [ln, ln]) hw h4 (k := w1.pos) h1.2.2.1
  refine ⟨{ w5 with pos := w3.pos }, res', ?_, h5, ?_⟩
  · unfold carryOut
    rw [e1, Option.bind_some, e2, Option.bind_some, e3, Option.bind_some]
    simp only [e4, Option.bind_some]
    simp only at e5
    rw [e5]
    rfl
  · intro hr
    have c2 := h02.1
    have hp2 := hpos (by omega)
    obtain ⟨k1, k2⟩ := r3 (by omega)
    refine ⟨k1, ?_⟩
    have a1 := r1 (by rw [ls]; omega)
    have p1 := a1.2.2.1
    rw [ls] at p1
    have a2 := r2 (by rw [ln]; have := h1.1; omega)
    have a02 := a1.trans (by have := h1.1; have := h1.2.2.2.1; omega) a2
    have a03 := a02.trans (by have := h02.2.2.2.1; omega) k2
    have b4 := r4 (by simpa using a03) (by simp)
    have b5 := r5 (by simpa using b4) (by rw [ls]; omega)
    have p3 := k2.2.2.1
    rw [List.length_append, encHead_length hq] at p3
    have hn : w3.pos - w2.pos = 64 + bs.length := by omega
    simp only [hn] at b5
    rw [← k1]
    have hadd : res'.add1 = res1.add1 ∧ res'.add2 = res1.add2 := by
      rw [k1]; cases ok <;> exact ⟨rfl, rfl⟩
    unfold encAnswer
    simp only [hadd.1, hadd.2]
    simpa using b5

theorem makes_putApp (d : List Byte) : Makes (putApp d) true d := by
  intro w hw
  unfold putApp
  by_cases c : w.pos + d.length ≤ w.cap
  · rw [if_pos c]
    obtain ⟨b, hb⟩ : ∃ b, writeAt w.buf w.pos d = some b := ⟨_, writeAt_eq_some (by have := hw.1; omega)⟩
    rw [hb, Option.map_some]
    have hlen := writeAt_length hb
    have hg : ∀ i, b[i]? = _ := fun i => writeAt_get hb i
    refine ⟨true, _, rfl, ⟨rfl, hlen, Nat.le_add_right _ _, c, ?_⟩, fun _ => ⟨rfl, rfl, hlen, rfl, ?_, ?_⟩⟩
    · intro i hi
      show b[i]? = _
      rw [hg, if_neg (by omega)]
    · intro i hi
      show b[w.pos + i]? = _
      rw [hg, if_pos (by omega)]
      congr 1; omega
    · intro i hi
      show b[i]? = _
      rw [hg, if_neg (by omega)]
  · rw [if_neg c]
    exact ⟨false, w, rfl, within_refl hw, fun h => absurd h c⟩

/-! ## The service -/

theorem interpret_some (ndr : Ndr) {r : Rd} (h : Fit r) : ∃ x r', interpret ndr r = some (x, r') := by
  unfold interpret
  split
  · obtain ⟨bh, r1, e1, k1⟩ := safe_getBlockHeader r (fun _ => h.2.2.2.1)
    rw [e1, Option.bind_some]
    simp only
    split
    · split
      · obtain ⟨q, r2, e2, _⟩ := safe_getReadReq r1 (by rw [k1.1, k1.2.2.1]; exact fun _ => h.2.2.2.1)
        rw [e2, Option.map_some]
        split
        · split
          · exact ⟨_, _, rfl⟩
          · split <;> exact ⟨_, _, rfl⟩
        · exact ⟨_, _, rfl⟩
      · exact ⟨_, _, rfl⟩
    · exact ⟨_, _, rfl⟩
  · exact ⟨_, _, rfl⟩

theorem readInd_carried {e : Env A} {implicit : Bool} {ndr : Ndr} {res : Result} {r : Rd} {w : Wr} {q : ReadReq} {ar : Option A}
    (hr : Fit r) (hq : Requests ndr r q) (hs : res.status.code = 0) (hc : CarriedOut e implicit q ar) :
    readInd e implicit ndr res r w = carryOut e true ndr ar q res w := by
  obtain ⟨r', e1, hb⟩ := interpret_of hr.1 hr.2.1 hr.2.2.1 hr.2.2.2.1 hr.2.2.2.2 hq
  unfold readInd
  rw [if_neg (by simp [hs]), e1, Option.bind_some]
  simp only [hb]
  obtain ⟨ha, hc⟩ := hc
  have h3 : ¬ (q.api ≠ 0 ∧ e.apiKnown q.api = false) := by
    rintro ⟨x, y⟩
    rcases ha with ha | ha
    · exact x ha
    · rw [ha] at y; cases y
  rcases hc with ⟨hi, hu, rfl⟩ | ⟨hi, hu, rfl⟩
  · subst hi
    rw [if_neg (by simp [hu]), if_neg (by simp), if_neg h3]
    congr 1
    cases e.find q.uuid <;> rfl
  · subst hi
    rw [if_neg (by simp), if_neg (by simp [hu]), if_neg h3]
    congr 1
    rw [hu]; rfl

end Verif.Read
