import Verif.Wire.Lemmas
/-! Encodings as byte lists, and the match of parsers and writers with them. -/
set_option linter.unusedSimpArgs false
set_option linter.unusedVariables false

namespace Verif.Wire

/-! ## Encodings (specification) -/

/-- The bytes of a 16-bit number in the given byte order. -/
def enc16 (be : Bool) (v : U16) : List Byte :=
  let l := [BitVec.ofNat 8 (v.toNat / 256), BitVec.ofNat 8 (v.toNat % 256)]
  if be then l else l.reverse

/-- The bytes of a 32-bit number in the given byte order. -/
def enc32 (be : Bool) (v : U32) : List Byte :=
  let l := [BitVec.ofNat 8 (v.toNat / 16777216), BitVec.ofNat 8 (v.toNat / 65536 % 256),
    BitVec.ofNat 8 (v.toNat / 256 % 256), BitVec.ofNat 8 (v.toNat % 256)]
  if be then l else l.reverse

/-- A UUID: three numbers in the byte order of the request and eight bytes. -/
def encUuid (be : Bool) (u : Uuid) : List Byte := enc32 be u.d1 ++ enc16 be u.d2 ++ enc16 be u.d3 ++ u.d4

/-- A block header. -/
def encBlockHeader (be : Bool) (h : BlockHeader) : List Byte :=
  enc16 be h.type ++ enc16 be h.length ++ [h.verHigh, h.verLow]

/-- Bits `p .. p + l - 1` of a number. -/
def bitsOf (v p l : Nat) : Nat := v / 2 ^ p % 2 ^ l

theorem enc16_length (be : Bool) (v : U16) : (enc16 be v).length = 2 := by
  cases be <;> rfl
theorem enc32_length (be : Bool) (v : U32) : (enc32 be v).length = 4 := by
  cases be <;> rfl

/-! ## Matching parsers -/

/-- `p` reads exactly the bytes `bs`, returns `a`, and changes the byte order from `be` to `be'`. -/
def ParsesTo {α} (be be' : Bool) (p : P α) (bs : List Byte) (a : α) : Prop :=
  ∀ r : Rd, r.err = .ok → r.null = false → r.be = be → r.pos + bs.length ≤ r.len →
    slice r.buf r.pos bs.length = some bs → p r = some (a, { r with pos := r.pos + bs.length, be := be' })

abbrev Parses {α} (be : Bool) (p : P α) (bs : List Byte) (a : α) : Prop := ParsesTo be be p bs a

theorem slice_append {α} {l x y : List α} {off : Nat} (h : slice l off (x ++ y).length = some (x ++ y)) :
    slice l off x.length = some x ∧ slice l (off + x.length) y.length = some y := by
  unfold slice at h
  split at h
  · rename_i hle
    have h := Option.some.inj h
    rw [List.length_append] at hle h
    have h1 := congrArg (List.take x.length) h
    have h2 := congrArg (List.drop x.length) h
    rw [List.take_take] at h1
    simp at h1
    rw [List.drop_take, List.drop_drop] at h2
    simp at h2
    rw [slice_eq_some (by omega), slice_eq_some (by omega)]
    exact ⟨by rw [h1], by rw [h2]⟩
  · cases h

theorem ParsesTo.pure {α} (be : Bool) (a : α) : ParsesTo be be (Pure.pure a : P α) [] a := by
  intro r _ _ hb _ _
  subst hb
  rfl

theorem ParsesTo.bind {α β} {be be1 be2 : Bool} {p : P α} {f : α → P β} {x y : List Byte} {a : α} {b : β}
    (hp : ParsesTo be be1 p x a) (hf : ParsesTo be1 be2 (f a) y b) : ParsesTo be be2 (p >>= f) (x ++ y) b := by
  intro r he hn hb hl hs
  obtain ⟨h1, h2⟩ := slice_append hs
  rw [List.length_append] at hl
  have e1 := hp r he hn hb (by omega) h1
  have e2 := hf { r with pos := r.pos + x.length, be := be1 } he hn rfl (by simp; omega) h2
  simp only [P.bind_def, e1, Option.bind_some, e2]
  simp [Nat.add_assoc]

/-- For parsers that end with a value computed from what was read. -/
theorem ParsesTo.bind_nil {α β} {be be1 be2 : Bool} {p : P α} {f : α → P β} {x : List Byte} {a : α} {b : β}
    (hp : ParsesTo be be1 p x a) (hf : ParsesTo be1 be2 (f a) [] b) : ParsesTo be be2 (p >>= f) x b := by
  have := ParsesTo.bind hp hf
  rwa [List.append_nil] at this

theorem parses_getByte (be : Bool) (b : Byte) : Parses be getByte [b] b := by
  intro r he hn hb hl hs
  simp at hl
  unfold getByte
  rw [if_neg (by simp [he]), if_neg (by omega), if_neg (by simp [hn])]
  have := slice_get hs 0
  simp at this
  rw [← this]
  subst hb
  rfl

theorem parses_getMem (be : Bool) (d : List Byte) : Parses be (getMem d.length) d (some d) := by
  intro r he hn hb hl hs
  unfold getMem
  rw [if_neg (by simp [he]), if_neg (by omega), if_neg (by simp [hn]), hs]
  subst hb
  rfl

theorem parses_getArr {be : Bool} {d : List Byte} {n : Nat} (h : d.length = n) : Parses be (getArr n) d d := by
  subst h
  unfold getArr
  exact ParsesTo.bind_nil (parses_getMem be d) (ParsesTo.pure be d)

theorem parses_isBe (be : Bool) : Parses be isBe [] be := by
  intro r _ _ hb _ _
  subst hb
  rfl

theorem parses_setBe (be be' : Bool) : ParsesTo be be' (setBe be') [] () := by
  intro r _ _ hb _ _
  rfl

theorem parses_isOk (be : Bool) : Parses be isOk [] true := by
  intro r he _ hb _ _
  subst hb
  cases r
  simp at he
  subst he
  rfl

theorem join16 (v : U16) : ((BitVec.ofNat 8 (v.toNat / 256)).setWidth 16 <<< 8) +
    (BitVec.ofNat 8 (v.toNat % 256)).setWidth 16 = v := by
  apply BitVec.eq_of_toNat_eq
  have := v.isLt
  simp [BitVec.toNat_add, BitVec.toNat_shiftLeft, BitVec.toNat_setWidth, Nat.shiftLeft_eq]
  omega

theorem join16' (v : U16) : (BitVec.ofNat 8 (v.toNat % 256)).setWidth 16 +
    ((BitVec.ofNat 8 (v.toNat / 256)).setWidth 16 <<< 8) = v := by
  rw [BitVec.add_comm]; exact join16 v

theorem join32 (v : U32) : ((BitVec.ofNat 8 (v.toNat / 16777216)).setWidth 32 <<< 24) +
    ((BitVec.ofNat 8 (v.toNat / 65536 % 256)).setWidth 32 <<< 16) +
    ((BitVec.ofNat 8 (v.toNat / 256 % 256)).setWidth 32 <<< 8) +
    (BitVec.ofNat 8 (v.toNat % 256)).setWidth 32 = v := by
  apply BitVec.eq_of_toNat_eq
  have := v.isLt
  simp [BitVec.toNat_add, BitVec.toNat_shiftLeft, BitVec.toNat_setWidth, Nat.shiftLeft_eq]
  omega

theorem join32' (v : U32) : (BitVec.ofNat 8 (v.toNat % 256)).setWidth 32 +
    ((BitVec.ofNat 8 (v.toNat / 256 % 256)).setWidth 32 <<< 8) +
    ((BitVec.ofNat 8 (v.toNat / 65536 % 256)).setWidth 32 <<< 16) +
    ((BitVec.ofNat 8 (v.toNat / 16777216)).setWidth 32 <<< 24) = v := by
  apply BitVec.eq_of_toNat_eq
  have := v.isLt
  simp [BitVec.toNat_add, BitVec.toNat_shiftLeft, BitVec.toNat_setWidth, Nat.shiftLeft_eq]
  omega

theorem parses_getU16 (be : Bool) (v : U16) : Parses be getU16 (enc16 be v) v := by
  unfold getU16
  refine ParsesTo.bind (x := []) (y := enc16 be v) (parses_isOk be) ?_
  rw [if_pos rfl]
  refine ParsesTo.bind (x := []) (y := enc16 be v) (parses_isBe be) ?_
  cases be with
  | true =>
    rw [if_pos rfl]
    refine ParsesTo.bind (x := [_]) (y := [_]) (parses_getByte _ _) ?_
    refine ParsesTo.bind_nil (x := [_]) (parses_getByte _ _) ?_
    rw [join16]
    exact ParsesTo.pure _ _
  | false =>
    rw [if_neg (by simp)]
    refine ParsesTo.bind (x := [_]) (y := [_]) (parses_getByte _ _) ?_
    refine ParsesTo.bind_nil (x := [_]) (parses_getByte _ _) ?_
    rw [join16']
    exact ParsesTo.pure _ _

theorem parses_getU32 (be : Bool) (v : U32) : Parses be getU32 (enc32 be v) v := by
  unfold getU32
  refine ParsesTo.bind (x := []) (y := enc32 be v) (parses_isBe be) ?_
  cases be with
  | true =>
    rw [if_pos rfl]
    refine ParsesTo.bind (x := [_]) (y := [_, _, _]) (parses_getByte _ _) ?_
    refine ParsesTo.bind (x := [_]) (y := [_, _]) (parses_getByte _ _) ?_
    refine ParsesTo.bind (x := [_]) (y := [_]) (parses_getByte _ _) ?_
    refine ParsesTo.bind_nil (x := [_]) (parses_getByte _ _) ?_
    rw [join32]
    exact ParsesTo.pure _ _
  | false =>
    rw [if_neg (by simp)]
    refine ParsesTo.bind (x := [_]) (y := [_, _, _]) (parses_getByte _ _) ?_
    refine ParsesTo.bind (x := [_]) (y := [_, _]) (parses_getByte _ _) ?_
    refine ParsesTo.bind (x := [_]) (y := [_]) (parses_getByte _ _) ?_
    refine ParsesTo.bind_nil (x := [_]) (parses_getByte _ _) ?_
    rw [join32']
    exact ParsesTo.pure _ _

theorem parses_rep {α} {be : Bool} {p : P α} {enc : α → List Byte} (l : List α)
    (h : ∀ a ∈ l, Parses be p (enc a) a) : Parses be (rep l.length p) (l.flatMap enc) l := by
  induction l with
  | nil => exact ParsesTo.pure be _
  | cons a t ih =>
    rw [List.flatMap_cons]
    refine ParsesTo.bind (h a (by simp)) ?_
    exact ParsesTo.bind_nil (ih fun b hb => h b (by simp [hb])) (ParsesTo.pure be _)

/-- Match the next primitive of the parser with the next part of the encoding. -/
macro "parse_step" : tactic => `(tactic| first
  | exact ParsesTo.pure _ _
  | refine ParsesTo.bind (parses_getU16 _ _) ?_
  | refine ParsesTo.bind (parses_getU32 _ _) ?_
  | refine ParsesTo.bind (x := [_]) (parses_getByte _ _) ?_
  | refine ParsesTo.bind (parses_getArr ?_) ?_
  | refine ParsesTo.bind_nil (parses_getU16 _ _) ?_
  | refine ParsesTo.bind_nil (parses_getU32 _ _) ?_
  | refine ParsesTo.bind_nil (x := [_]) (parses_getByte _ _) ?_
  | refine ParsesTo.bind_nil (parses_getArr ?_) ?_)

theorem parses_getUuid {be : Bool} {u : Uuid} (h : u.d4.length = 8) : Parses be getUuid (encUuid be u) u := by
  unfold getUuid encUuid
  simp only [List.append_assoc]
  refine ParsesTo.bind (parses_getU32 _ _) ?_
  refine ParsesTo.bind (parses_getU16 _ _) ?_
  refine ParsesTo.bind (parses_getU16 _ _) ?_
  refine ParsesTo.bind_nil (parses_getArr h) ?_
  exact ParsesTo.pure _ _

theorem parses_getBlockHeader (be : Bool) (h : BlockHeader) :
    Parses be getBlockHeader (encBlockHeader be h) h := by
  unfold getBlockHeader encBlockHeader
  simp only [List.append_assoc]
  refine ParsesTo.bind (parses_getU16 _ _) ?_
  refine ParsesTo.bind (parses_getU16 _ _) ?_
  refine ParsesTo.bind (x := [_]) (y := [_]) (parses_getByte _ _) ?_
  refine ParsesTo.bind_nil (x := [_]) (parses_getByte _ _) ?_
  exact ParsesTo.pure _ _

/-! ## Matching writers -/

/-- `w` writes exactly the bytes `bs` if there is room. -/
def Writes (w : W) (bs : List Byte) : Prop :=
  ∀ x : Wr, x.cap ≤ x.buf.length → x.pos + bs.length ≤ x.cap →
    ∃ b, writeAt x.buf x.pos bs = some b ∧ w x = some { x with buf := b, pos := x.pos + bs.length }

theorem writeAt_nil {α} (l : List α) {off : Nat} (h : off ≤ l.length) : writeAt l off [] = some l := by
  rw [writeAt_eq_some (by simpa using h)]
  simp

theorem writeAt_append {α} {l x : List α} {off : Nat} {d e : List α} (h : writeAt l off d = some x)
    (hl : off + d.length + e.length ≤ l.length) : writeAt x (off + d.length) e = writeAt l off (d ++ e) := by
  have hx := writeAt_length h
  have h1 : ∃ y, writeAt x (off + d.length) e = some y := ⟨_, writeAt_eq_some (by omega)⟩
  have h2 : ∃ y, writeAt l off (d ++ e) = some y := ⟨_, writeAt_eq_some (by simp; omega)⟩
  obtain ⟨y, hy⟩ := h1
  obtain ⟨z, hz⟩ := h2
  rw [hy, hz]
  congr 1
  apply List.ext_getElem?
  intro i
  rw [writeAt_get hy, writeAt_get hz, writeAt_get h]
  simp only [List.length_append]
  by_cases c1 : off ≤ i ∧ i < off + d.length
  · rw [if_neg (by omega), if_pos c1, if_pos (by omega), List.getElem?_append_left (by omega)]
  · by_cases c2 : off + d.length ≤ i ∧ i < off + d.length + e.length
    · rw [if_pos c2, if_pos (by omega), List.getElem?_append_right (by omega)]
      congr 1; omega
    · rw [if_neg c2, if_neg c1, if_neg (by omega)]

theorem Writes.seq {a b : W} {x y : List Byte} (ha : Writes a x) (hb : Writes b y) : Writes (a ;; b) (x ++ y) := by
  intro w hc hp
  rw [List.length_append] at hp
  obtain ⟨b1, w1, e1⟩ := ha w hc (by omega)
  have hl := writeAt_length w1
  obtain ⟨b2, w2, e2⟩ := hb { w with buf := b1, pos := w.pos + x.length } (by simpa [hl] using hc) (by simp; omega)
  refine ⟨b2, ?_, ?_⟩
  · rw [← writeAt_append w1 (by omega)]; exact w2
  · unfold W.seq
    rw [e1]
    simp only [Option.bind_some]
    rw [e2]
    simp [Nat.add_assoc]

theorem writes_putByte (v : Byte) : Writes (putByte v) [v] := by
  intro x hc hp
  simp at hp
  unfold putByte
  rw [if_neg (by omega)]
  have h := writeAt_eq_some (l := x.buf) (off := x.pos) (d := [v]) (by simp; omega)
  exact ⟨_, h, by rw [h]; rfl⟩

theorem writes_putMem (d : List Byte) : Writes (putMem d) d := by
  intro x hc hp
  unfold putMem
  rw [if_neg (by omega)]
  have h := writeAt_eq_some (l := x.buf) (off := x.pos) (d := d) (by omega)
  exact ⟨_, h, by rw [h]; rfl⟩

theorem hi16 (v : U16) : ((v >>> 8).setWidth 8 : Byte) = BitVec.ofNat 8 (v.toNat / 256) := by
  apply BitVec.eq_of_toNat_eq
  simp [Nat.shiftRight_eq_div_pow]
theorem lo16 (v : U16) : (v.setWidth 8 : Byte) = BitVec.ofNat 8 (v.toNat % 256) := by
  apply BitVec.eq_of_toNat_eq
  simp
theorem b32_3 (v : U32) : ((v >>> 24).setWidth 8 : Byte) = BitVec.ofNat 8 (v.toNat / 16777216) := by
  apply BitVec.eq_of_toNat_eq
  simp [Nat.shiftRight_eq_div_pow]
theorem b32_2 (v : U32) : ((v >>> 16).setWidth 8 : Byte) = BitVec.ofNat 8 (v.toNat / 65536 % 256) := by
  apply BitVec.eq_of_toNat_eq
  simp [Nat.shiftRight_eq_div_pow]
theorem b32_1 (v : U32) : ((v >>> 8).setWidth 8 : Byte) = BitVec.ofNat 8 (v.toNat / 256 % 256) := by
  apply BitVec.eq_of_toNat_eq
  simp [Nat.shiftRight_eq_div_pow]
theorem b32_0 (v : U32) : (v.setWidth 8 : Byte) = BitVec.ofNat 8 (v.toNat % 256) := by
  apply BitVec.eq_of_toNat_eq
  simp

theorem writes_putU16 (be : Bool) (v : U16) : Writes (putU16 be v) (enc16 be v) := by
  unfold putU16
  rw [hi16, lo16]
  cases be
  · exact Writes.seq (x := [_]) (y := [_]) (writes_putByte _) (writes_putByte _)
  · exact Writes.seq (x := [_]) (y := [_]) (writes_putByte _) (writes_putByte _)

theorem writes_putU32 (be : Bool) (v : U32) : Writes (putU32 be v) (enc32 be v) := by
  unfold putU32
  rw [b32_3, b32_2, b32_1, b32_0]
  have key : ∀ a b c d, Writes (putByte a ;; putByte b ;; putByte c ;; putByte d) [a, b, c, d] := fun a b c d =>
    Writes.seq (x := [a, b, c]) (y := [d])
      (Writes.seq (x := [a, b]) (y := [c]) (Writes.seq (x := [a]) (y := [b]) (writes_putByte _) (writes_putByte _))
        (writes_putByte _)) (writes_putByte _)
  cases be
  · exact key _ _ _ _
  · exact key _ _ _ _

theorem writes_putUuid (be : Bool) (u : Uuid) : Writes (putUuid be u) (encUuid be u) := by
  unfold putUuid encUuid
  exact Writes.seq (Writes.seq (Writes.seq (writes_putU32 _ _) (writes_putU16 _ _)) (writes_putU16 _ _))
    (writes_putMem _)

theorem writes_putPadding (n : Nat) : Writes (putPadding n) (List.replicate n 0) := by
  induction n with
  | zero =>
    intro x hc hp
    refine ⟨x.buf, writeAt_nil _ (by simp at hp; omega), ?_⟩
    simp [putPadding]
  | succ k ih =>
    rw [List.replicate_succ]
    exact Writes.seq (x := [0]) (writes_putByte 0) ih

theorem writes_putBlockHeader (be : Bool) (t l : U16) (vh vl : Byte) :
    Writes (putBlockHeader be t l vh vl) (encBlockHeader be ⟨t, l + 2, vh, vl⟩) := by
  unfold putBlockHeader encBlockHeader
  have e : l + 6 - 4 = l + 2 := by
    apply BitVec.eq_of_toNat_eq
    have := l.isLt
    simp [BitVec.toNat_add, BitVec.toNat_sub]
    omega
  rw [e]
  rw [show [vh, vl] = [vh] ++ [vl] from rfl, ← List.append_assoc]
  exact Writes.seq (Writes.seq (Writes.seq (writes_putU16 _ _) (writes_putU16 _ _)) (writes_putByte _))
    (writes_putByte _)

/-- A block: the length in the header counts the bytes that follow the length field. -/
theorem writes_putBlock {be : Bool} {t : U16} {body : W} {bs : List Byte} (hb : Writes body bs)
    (hl : bs.length + 2 < 65536) :
    Writes (putBlock be t body) (encBlockHeader be ⟨t, BitVec.ofNat 16 (bs.length + 2), 1, 0⟩ ++ bs) := by
  intro x hc hp
  have lh : ∀ h, (encBlockHeader be h).length = 6 := by
    intro h; simp [encBlockHeader, enc16_length]
  rw [List.length_append, lh] at hp
  have hw := Writes.seq (writes_putBlockHeader be t 0 1 0) hb
  obtain ⟨b1, w1, e1⟩ := hw x hc (by rw [List.length_append, lh]; omega)
  rw [List.length_append, lh] at e1
  have hl1 := writeAt_length w1
  obtain ⟨b2, w2, e2⟩ := writes_putU16 be (BitVec.ofNat 16 (x.pos + (6 + bs.length)) - BitVec.ofNat 16 (x.pos + 4))
    ⟨b1, x.cap, x.pos + 2⟩ (by simp; omega) (by rw [enc16_length]; simp; omega)
  have hv : (BitVec.ofNat 16 (x.pos + (6 + bs.length)) - BitVec.ofNat 16 (x.pos + 4) : U16) =
      BitVec.ofNat 16 (bs.length + 2) := by
    apply BitVec.eq_of_toNat_eq
    simp [BitVec.toNat_sub]
    omega
  rw [hv] at w2 e2
  refine ⟨b2, ?_, ?_⟩
  · have h3 : ∃ y, writeAt x.buf x.pos (encBlockHeader be ⟨t, BitVec.ofNat 16 (bs.length + 2), 1, 0⟩ ++ bs) = some y :=
      ⟨_, writeAt_eq_some (by rw [List.length_append, lh]; omega)⟩
    obtain ⟨y, hy⟩ := h3
    rw [hy]
    congr 1
    apply List.ext_getElem?
    intro i
    rw [writeAt_get hy, writeAt_get w2, writeAt_get w1]
    simp only [List.length_append, lh, enc16_length]
    by_cases c : x.pos ≤ i ∧ i < x.pos + (6 + bs.length)
    · rw [if_pos c, if_pos c]
      obtain ⟨k, rfl⟩ : ∃ k, i = x.pos + k := ⟨i - x.pos, by omega⟩
      rw [Nat.add_sub_cancel_left]
      by_cases c2 : x.pos + 2 ≤ x.pos + k ∧ x.pos + k < x.pos + 2 + 2
      · rw [if_pos c2]
        have : k = 2 ∨ k = 3 := by omega
        rcases this with rfl | rfl <;> cases be <;> simp [encBlockHeader, enc16]
      · rw [if_neg c2]
        by_cases c3 : k < 6
        · have : k = 0 ∨ k = 1 ∨ k = 4 ∨ k = 5 := by omega
          rcases this with rfl | rfl | rfl | rfl <;> cases be <;> simp [encBlockHeader, enc16]
        · rw [List.getElem?_append_right (by rw [lh]; omega), List.getElem?_append_right (by rw [lh]; omega), lh, lh]
    · rw [if_neg c, if_neg c, if_neg (by omega)]
  · unfold putBlock
    rw [e1]
    simp only [Option.bind_some, hv]
    rw [e2]
    simp [lh]

/-! ## Safety of writers -/

/-- A writer never changes the size of the buffer, changes only bytes between the old and the new position,
and never moves the position past the usable size. -/
def WSafe (p : W) : Prop :=
  ∀ w : Wr, w.cap ≤ w.buf.length → ∃ w', p w = some w' ∧ w'.cap = w.cap ∧ w'.buf.length = w.buf.length ∧
    w.pos ≤ w'.pos ∧ (w'.pos ≤ w.cap ∨ w'.pos = w.pos) ∧
    ∀ i, i < w.pos ∨ w'.pos ≤ i → w'.buf[i]? = w.buf[i]?

theorem WSafe.seq {a b : W} (ha : WSafe a) (hb : WSafe b) : WSafe (a ;; b) := by
  intro w h
  obtain ⟨w1, e1, c1, l1, m1, x1, s1⟩ := ha w h
  obtain ⟨w2, e2, c2, l2, m2, x2, s2⟩ := hb w1 (by omega)
  refine ⟨w2, by simp [W.seq, e1, e2], by omega, by omega, by omega, by omega, ?_⟩
  intro i hi
  rw [s2 i (by omega), s1 i (by omega)]

theorem wsafe_putMem (d : List Byte) : WSafe (putMem d) := by
  intro w h
  unfold putMem
  split
  · exact ⟨w, rfl, rfl, rfl, Nat.le_refl _, Or.inr rfl, fun _ _ => rfl⟩
  · have e := writeAt_eq_some (l := w.buf) (off := w.pos) (d := d) (by omega)
    rw [e]
    refine ⟨_, rfl, rfl, writeAt_length e, Nat.le_add_right _ _, Or.inl (by simp; omega), ?_⟩
    intro i hi
    dsimp only at hi
    rw [writeAt_get e, if_neg (by omega)]

theorem wsafe_putByte (v : Byte) : WSafe (putByte v) := wsafe_putMem [v]

theorem wsafe_putU16 (be : Bool) (v : U16) : WSafe (putU16 be v) := by
  unfold putU16
  split <;> exact WSafe.seq (wsafe_putByte _) (wsafe_putByte _)

theorem wsafe_putU32 (be : Bool) (v : U32) : WSafe (putU32 be v) := by
  unfold putU32
  split <;>
    exact WSafe.seq (WSafe.seq (WSafe.seq (wsafe_putByte _) (wsafe_putByte _)) (wsafe_putByte _)) (wsafe_putByte _)

theorem wsafe_putUuid (be : Bool) (u : Uuid) : WSafe (putUuid be u) :=
  WSafe.seq (WSafe.seq (WSafe.seq (wsafe_putU32 _ _) (wsafe_putU16 _ _)) (wsafe_putU16 _ _)) (wsafe_putMem _)

theorem wsafe_putBlockHeader (be : Bool) (t l : U16) (vh vl : Byte) : WSafe (putBlockHeader be t l vh vl) :=
  WSafe.seq (WSafe.seq (WSafe.seq (wsafe_putU16 _ _) (wsafe_putU16 _ _)) (wsafe_putByte _)) (wsafe_putByte _)

/-- A byte is put whenever there is room. -/
theorem putByte_pos {v : Byte} {w w' : Wr} (h : putByte v w = some w') :
    w'.cap = w.cap ∧ w'.pos = if w.pos < w.cap then w.pos + 1 else w.pos := by
  unfold putByte at h
  split at h
  · cases h; rw [if_neg (by omega)]; exact ⟨rfl, rfl⟩
  · simp only [Option.map_eq_some_iff] at h
    obtain ⟨b, _, rfl⟩ := h
    rw [if_pos (by omega)]
    exact ⟨rfl, rfl⟩

theorem putU16_pos {be : Bool} {v : U16} {w w' : Wr} (h : putU16 be v w = some w') :
    w'.cap = w.cap ∧ (w.pos ≤ w.cap → w'.pos = min (w.pos + 2) w.cap) ∧ (w.cap < w.pos → w'.pos = w.pos) := by
  unfold putU16 at h
  have key : ∀ x y, (putByte x ;; putByte y) w = some w' → w'.cap = w.cap ∧
      (w.pos ≤ w.cap → w'.pos = min (w.pos + 2) w.cap) ∧ (w.cap < w.pos → w'.pos = w.pos) := by
    intro x y h
    unfold W.seq at h
    simp only [Option.bind_eq_some_iff] at h
    obtain ⟨w1, h1, h2⟩ := h
    have p1 := putByte_pos h1
    have p2 := putByte_pos h2
    rw [p1.1] at p2
    obtain ⟨a1, a2⟩ := p1
    obtain ⟨b1, b2⟩ := p2
    split at a2 <;> split at b2 <;> omega
  split at h <;> exact key _ _ h

theorem putBlockHeader_pos {be : Bool} {t l : U16} {vh vl : Byte} {w w' : Wr}
    (h : putBlockHeader be t l vh vl w = some w') :
    w'.cap = w.cap ∧ (w.pos ≤ w.cap → w'.pos = min (w.pos + 6) w.cap) ∧ (w.cap < w.pos → w'.pos = w.pos) := by
  unfold putBlockHeader W.seq at h
  simp only [Option.bind_eq_some_iff] at h
  obtain ⟨w3, ⟨w2, ⟨w1, h1, h2⟩, h3⟩, h4⟩ := h
  have p1 := putU16_pos h1
  have p2 := putU16_pos h2
  have p3 := putByte_pos h3
  have p4 := putByte_pos h4
  obtain ⟨a1, a2⟩ := p3
  obtain ⟨b1, b2⟩ := p4
  split at a2 <;> split at b2 <;> omega

theorem wsafe_putBlock {be : Bool} {t : U16} {body : W} (hb : WSafe body) : WSafe (putBlock be t body) := by
  intro w h
  obtain ⟨w0, e0, c0, l0, m0, x0, s0⟩ := wsafe_putBlockHeader be t 0 1 0 w h
  obtain ⟨w1, e1, c1, l1, m1, x1, s1⟩ := hb w0 (by omega)
  have p0 := putBlockHeader_pos e0
  obtain ⟨w2, e2, c2, l2, m2, x2, s2⟩ := wsafe_putU16 be (BitVec.ofNat 16 w1.pos - BitVec.ofNat 16 (w.pos + 4))
    { w1 with pos := w.pos + 2 } (by simp; omega)
  have p2 := putU16_pos e2
  dsimp only at c2 l2 m2 x2 s2 p2
  refine ⟨{ w2 with pos := w1.pos }, ?_, by simp; omega, by simp; omega, by simp; omega, by simp; omega, ?_⟩
  · unfold putBlock W.seq
    rw [e0]
    simp only [Option.bind_some]
    rw [e1]
    simp only [Option.bind_some]
    rw [e2]
    rfl
  · intro i hi
    dsimp only at hi ⊢
    rw [s2 i (by omega), s1 i (by omega), s0 i (by omega)]

theorem wsafe_putPadding (n : Nat) : WSafe (putPadding n) := by
  induction n with
  | zero => intro w h; exact ⟨w, rfl, rfl, rfl, Nat.le_refl _, Or.inr rfl, fun _ _ => rfl⟩
  | succ k ih => exact WSafe.seq (wsafe_putByte 0) ih

end Verif.Wire
