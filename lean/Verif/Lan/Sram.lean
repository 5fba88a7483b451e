/-! SRAM of the LAN9662 switch as the driver reads and writes it.  A 32-bit value is represented by its four bytes in the order
in which the machine keeps them in memory (`pf_uio_reg_t`), so that `__builtin_bswap32` is reversal. -/

set_option linter.unusedSimpArgs false

namespace Verif.Lan

abbrev Byte := BitVec 8

/-- The bytes behind `base_mem`, by their place. -/
abbrev Mem := Nat → Byte

/-- HOST_CVT (src/drivers/lan9662/src/pf_sram_uio.c:38-42); `be` for machines with the most significant byte first. -/
def hostCvt (be : Bool) (w : List Byte) : List Byte := if be then w else w.reverse

/-- reg_check (src/drivers/lan9662/src/pf_sram_uio.c:245-258); the limit is PF_SRAM_MAX_ADDRESS. -/
def regCheck (addr : Nat) : Bool := !(0x1FFFF ≤ addr) && addr % 4 == 0

/-- reg_read (src/drivers/lan9662/src/pf_sram_uio.c:260-268). -/
def regRead (be : Bool) (m : Mem) (addr : Nat) : Option (List Byte) :=
  if regCheck addr then
    let k := addr / 4
    some (hostCvt be [m (4 * k), m (4 * k + 1), m (4 * k + 2), m (4 * k + 3)])
  else none

/-- reg_write (src/drivers/lan9662/src/pf_sram_uio.c:270-278). -/
def regWrite (be : Bool) (m : Mem) (addr : Nat) (val : List Byte) : Option Mem :=
  if regCheck addr then
    let k := addr / 4
    some fun x => if 4 * k ≤ x ∧ x < 4 * k + 4 then (hostCvt be val).getD (x - 4 * k) 0 else m x
  else none

/-- The `for` loop of pf_sram_write (src/drivers/lan9662/src/pf_sram_uio.c:280-313) over one word; `n` is `4 - i`, so that
`3 - i` is `n - 1`.  Returns the word and what is left of the data. -/
def fill : Nat → List Byte → List Byte → List Byte × List Byte
  | 0, w, data => (w, data)
  | n + 1, w, [] => fill n w []
  | n + 1, w, b :: data => fill n (w.set n b) data

/-- The `while` loop of pf_sram_write (src/drivers/lan9662/src/pf_sram_uio.c:280-313); the first argument bounds the rounds (`none`
when it is used up).  Returns memory and return value.  Simplified: `uio_reg_addr` is a number without wrap; it stays below 2^17. -/
def writeLoop (be : Bool) : Nat → Mem → Nat → Nat → List Byte → Option (Mem × Int)
  | _, m, _, _, [] => some (m, 0)
  | 0, _, _, _, _ :: _ => none
  | n + 1, m, addr, offset, data@(_ :: _) =>
    match regRead be m addr with
    | none => some (m, -1)
    | some w =>
      let (w', rest) := fill (4 - offset) w data
      match regWrite be m addr w' with
      | none => some (m, -1)
      | some m' => writeLoop be n m' (addr + 4) 0 rest

/-- pf_sram_write (src/drivers/lan9662/src/pf_sram_uio.c:280-313). -/
def sramWrite (be : Bool) (m : Mem) (address : BitVec 16) (data : List Byte) : Option (Mem × Int) :=
  let reg := (address &&& 0xFFFC).toNat
  writeLoop be data.length m reg (address.toNat - reg) data

/-- The `for` loop of pf_sram_read (src/drivers/lan9662/src/pf_sram_uio.c:315-343) over one word: the bytes taken and how many are still missing. -/
def take : Nat → List Byte → Nat → List Byte × Nat
  | 0, _, left => ([], left)
  | n + 1, w, 0 => take n w 0
  | n + 1, w, left + 1 =>
    let (l, left') := take n w left
    (w.getD n 0 :: l, left')

/-- The `while` loop of pf_sram_read (src/drivers/lan9662/src/pf_sram_uio.c:315-343).  Returns the bytes read and the return value. -/
def readLoop (be : Bool) (m : Mem) : Nat → Nat → Nat → Nat → Option (List Byte × Int)
  | _, _, _, 0 => some ([], 0)
  | 0, _, _, _ + 1 => none
  | n + 1, addr, offset, left + 1 =>
    match regRead be m addr with
    | none => some ([], -1)
    | some w =>
      let (l, left') := take (4 - offset) w (left + 1)
      (readLoop be m n (addr + 4) 0 left').map fun (l', r) => (l ++ l', r)

/-- pf_sram_read (src/drivers/lan9662/src/pf_sram_uio.c:315-343). -/
def sramRead (be : Bool) (m : Mem) (address : BitVec 16) (length : Nat) : Option (List Byte × Int) :=
  let reg := (address &&& 0xFFFC).toNat
  readLoop be m length reg (address.toNat - reg) length

/-! ## Specification -/

/-- The place of the byte with SRAM address `x`: the same number on machines with the least significant byte first, mirrored within the
word on the others. -/
def place (be : Bool) (x : Nat) : Nat := if be then 4 * (x / 4) + (3 - x % 4) else x

/-- `m'` is `m` with `data` from address `a` on. -/
def Stored (be : Bool) (m : Mem) (a : Nat) (data : List Byte) (m' : Mem) : Prop :=
  ∀ x, m' (place be x) = if a ≤ x ∧ x < a + data.length then data.getD (x - a) 0 else m (place be x)

/-! ## Proofs -/

theorem align (a : BitVec 16) : (a &&& 0xFFFC).toNat = 4 * (a.toNat / 4) := by
  have h1 : (a &&& (0xFFFC : BitVec 16)) = (a >>> 2) <<< 2 := by
    ext i hi
    simp only [BitVec.getElem_and, BitVec.getElem_shiftLeft, BitVec.getElem_ushiftRight]
    rcases i with _ | _ | _ | _ | _ | _ | _ | _ | _ | _ | _ | _ | _ | _ | _ | _ | i <;>
      first
      | omega
      | (simp [BitVec.getLsbD, BitVec.getElem_eq_testBit_toNat]; done)
      | (simp [BitVec.getLsbD, BitVec.getElem_eq_testBit_toNat]; intro _; decide)
  rw [h1]
  simp only [BitVec.toNat_shiftLeft, BitVec.toNat_ushiftRight, Nat.shiftLeft_eq, Nat.shiftRight_eq_div_pow]
  have := a.isLt
  omega

theorem fill_spec (w : List Byte) (hw : w.length = 4) : ∀ (n : Nat) (data : List Byte), n ≤ 4 →
    (fill n w data).1.length = 4 ∧ (fill n w data).2 = data.drop n ∧
      ∀ i, i < 4 → (fill n w data).1.getD i 0 = if i < n ∧ n - 1 - i < data.length then data.getD (n - 1 - i) 0 else w.getD i 0 := by
  intro n
  induction n generalizing w with
  | zero => intro data _; exact ⟨hw, rfl, fun i hi => by simp [fill]⟩
  | succ n ih =>
    intro data hn
    cases data with
    | nil =>
      obtain ⟨h1, h2, h3⟩ := ih w hw [] (by omega)
      exact ⟨h1, by rw [fill, h2]; simp, fun i hi => by rw [fill, h3 i hi]; simp⟩
    | cons b data =>
      obtain ⟨h1, h2, h3⟩ := ih (w.set n b) (by simpa using hw) data (by omega)
      refine ⟨h1, by rw [fill, h2]; simp, fun i hi => ?_⟩
      rw [fill, h3 i hi]
      by_cases c : i < n
      · have e : n + 1 - 1 - i = (n - 1 - i) + 1 := by omega
        rw [e]
        simp only [List.length_cons, List.getD_cons_succ]
        by_cases c2 : n - 1 - i < data.length
        · rw [if_pos ⟨c, c2⟩, if_pos ⟨by omega, by omega⟩]
        · rw [if_neg (fun h => c2 h.2), if_neg (fun h => c2 (by omega))]
          simp [List.getD_eq_getElem?_getD, List.getElem?_set, show n ≠ i by omega]
      · rw [if_neg (fun h => c h.1)]
        by_cases c2 : i = n
        · subst c2
          rw [if_pos ⟨by omega, by simp⟩]
          simp [List.getD_eq_getElem?_getD, List.getElem?_set, hw, hi]
        · rw [if_neg (fun h => absurd h.1 (by omega))]
          simp [List.getD_eq_getElem?_getD, List.getElem?_set, show n ≠ i by omega]

theorem regCheck_ok {k : Nat} (h : 4 * k < 0x1FFFF) : regCheck (4 * k) = true := by
  unfold regCheck
  rw [Bool.and_eq_true]
  exact ⟨by simp; omega, by simp⟩

/-- Byte `i` of a word as the driver counts them is the byte with address `4 * k + i`. -/
theorem word_getD (be : Bool) (m : Mem) (k i : Nat) (hi : i < 4) :
    (hostCvt be [m (4 * k), m (4 * k + 1), m (4 * k + 2), m (4 * k + 3)]).getD (3 - i) 0 = m (place be (4 * k + i)) := by
  have hp : place be (4 * k + i) = if be then 4 * k + (3 - i) else 4 * k + i := by
    unfold place
    have h1 : (4 * k + i) / 4 = k := by omega
    have h2 : (4 * k + i) % 4 = i := by omega
    rw [h1, h2]
  rw [hp]
  cases be <;> rcases i with _ | _ | _ | _ | i <;> first | omega | rfl

theorem place_lt (be : Bool) (k x : Nat) : (4 * k ≤ place be x ∧ place be x < 4 * k + 4) ↔ (4 * k ≤ x ∧ x < 4 * k + 4) := by
  unfold place
  cases be <;> simp only [if_true, if_false, Bool.false_eq_true] <;> omega

theorem hostCvt_length (be : Bool) (w : List Byte) : (hostCvt be w).length = w.length := by
  cases be <;> simp [hostCvt]

theorem put_getD (be : Bool) (w : List Byte) (hw : w.length = 4) (k i : Nat) (hi : i < 4) :
    (hostCvt be w).getD (place be (4 * k + i) - 4 * k) 0 = w.getD (3 - i) 0 := by
  match w, hw with
  | [a, b, c, d], _ =>
    have hp : place be (4 * k + i) - 4 * k = if be then 3 - i else i := by
      unfold place
      have h1 : (4 * k + i) / 4 = k := by omega
      have h2 : (4 * k + i) % 4 = i := by omega
      rw [h1, h2]
      cases be <;> simp
    rw [hp]
    cases be <;> rcases i with _ | _ | _ | _ | i <;> first | omega | rfl

/-- The loop from byte `off` of word `k` on. -/
theorem writeLoop_spec (be : Bool) : ∀ (n : Nat) (m : Mem) (k off : Nat) (data : List Byte), off < 4 → data.length ≤ n →
    (data ≠ [] → 4 * k + off + data.length ≤ 0x1FFFE) →
    ∃ m', writeLoop be n m (4 * k) off data = some (m', 0) ∧ Stored be m (4 * k + off) data m' := by
  intro n
  induction n with
  | zero =>
    intro m k off data _ h _
    have : data = [] := List.length_eq_zero_iff.mp (by omega)
    subst this
    exact ⟨m, by simp [writeLoop], fun x => by simp; omega⟩
  | succ n ih =>
    intro m k off data ho hn hb
    cases data with
    | nil => exact ⟨m, by simp [writeLoop], fun x => by simp; omega⟩
    | cons b bs =>
      simp only [List.length_cons] at hn hb
      have hb := hb (by simp)
      have hc := regCheck_ok (k := k) (by omega)
      have hk : 4 * k / 4 = k := by omega
      unfold writeLoop
      simp only [regRead, regWrite, hc, if_true, hk]
      obtain ⟨f1, f2, f3⟩ := fill_spec (hostCvt be [m (4 * k), m (4 * k + 1), m (4 * k + 2), m (4 * k + 3)])
        (by rw [hostCvt_length]; rfl) (4 - off) (b :: bs) (by omega)
      rw [f2]
      generalize hw : (fill (4 - off) (hostCvt be [m (4 * k), m (4 * k + 1), m (4 * k + 2), m (4 * k + 3)]) (b :: bs)).1 = w at *
      obtain ⟨m', e, hs⟩ := ih (fun x => if 4 * k ≤ x ∧ x < 4 * k + 4 then (hostCvt be w).getD (x - 4 * k) 0 else m x) (k + 1) 0
        ((b :: bs).drop (4 - off)) (by omega) (by simp; omega) (fun h => by simp at h ⊢; omega)
      rw [Nat.mul_add, Nat.mul_one] at e
      refine ⟨m', e, fun x => ?_⟩
      rw [hs x]
      simp only [List.length_drop, List.length_cons, place_lt]
      by_cases c1 : 4 * k ≤ x ∧ x < 4 * k + 4
      · rw [if_neg (by omega), if_pos c1]
        obtain ⟨i, rfl, hi⟩ : ∃ i, x = 4 * k + i ∧ i < 4 := ⟨x - 4 * k, by omega, by omega⟩
        rw [put_getD be w f1 k i hi, f3 (3 - i) (by omega), word_getD be m k i hi]
        simp only [List.length_cons]
        by_cases c2 : off ≤ i ∧ i - off < bs.length + 1
        · rw [if_pos (by omega), if_pos (by omega)]
          congr 1
          omega
        · rw [if_neg (by omega), if_neg (by omega)]
      · rw [if_neg (c := 4 * k ≤ x ∧ x < 4 * k + 4) c1]
        by_cases c2 : 4 * k + 4 ≤ x ∧ x < 4 * k + off + (bs.length + 1)
        · rw [if_pos (by omega), if_pos (by omega)]
          simp only [List.getD_eq_getElem?_getD, List.getElem?_drop]
          congr 2
          omega
        · rw [if_neg (by omega), if_neg (by omega)]

theorem take_spec (w : List Byte) : ∀ (n left : Nat),
    (take n w left).2 = left - n ∧ (take n w left).1.length = min n left ∧
      ∀ j, j < min n left → (take n w left).1.getD j 0 = w.getD (n - 1 - j) 0 := by
  intro n
  induction n with
  | zero => intro left; exact ⟨rfl, by simp [take], fun j hj => by omega⟩
  | succ n ih =>
    intro left
    cases left with
    | zero =>
      obtain ⟨h1, h2, h3⟩ := ih 0
      exact ⟨by rw [take, h1]; omega, by rw [take, h2]; omega, fun j hj => by omega⟩
    | succ left =>
      obtain ⟨h1, h2, h3⟩ := ih left
      refine ⟨by simp only [take]; rw [h1]; omega, by simp only [take, List.length_cons]; rw [h2]; omega, fun j hj => ?_⟩
      simp only [take]
      cases j with
      | zero => rfl
      | succ j =>
        rw [List.getD_cons_succ, h3 j (by omega)]
        congr 1
        omega

theorem readLoop_spec (be : Bool) (m : Mem) : ∀ (n k off left : Nat), off < 4 → left ≤ n → (left ≠ 0 → 4 * k + off + left ≤ 0x1FFFE) →
    ∃ l, readLoop be m n (4 * k) off left = some (l, 0) ∧ l.length = left ∧ ∀ j, j < left → l.getD j 0 = m (place be (4 * k + off + j)) := by
  intro n
  induction n with
  | zero =>
    intro k off left _ h _
    have : left = 0 := by omega
    subst this
    exact ⟨[], by simp [readLoop], rfl, fun j hj => by omega⟩
  | succ n ih =>
    intro k off left ho hn hb
    cases left with
    | zero => exact ⟨[], by simp [readLoop], rfl, fun j hj => by omega⟩
    | succ left =>
      have hb := hb (by omega)
      have hc := regCheck_ok (k := k) (by omega)
      have hk : 4 * k / 4 = k := by omega
      unfold readLoop
      simp only [regRead, hc, if_true, hk]
      generalize hw : hostCvt be [m (4 * k), m (4 * k + 1), m (4 * k + 2), m (4 * k + 3)] = w
      obtain ⟨t1, t2, t3⟩ := take_spec w (4 - off) (left + 1)
      rw [t1]
      obtain ⟨l, e, hl, hg⟩ := ih (k + 1) 0 (left + 1 - (4 - off)) (by omega) (by omega) (by omega)
      rw [Nat.mul_add, Nat.mul_one] at e
      rw [e]
      refine ⟨_, rfl, by rw [List.length_append, t2, hl]; omega, fun j hj => ?_⟩
      by_cases c : j < min (4 - off) (left + 1)
      · rw [List.getD_eq_getElem?_getD, List.getElem?_append_left (by rw [t2]; exact c), ← List.getD_eq_getElem?_getD, t3 j c]
        have e1 : 4 - off - 1 - j = 3 - (off + j) := by omega
        rw [e1, ← hw, word_getD be m k (off + j) (by omega), Nat.add_assoc]
      · rw [List.getD_eq_getElem?_getD, List.getElem?_append_right (by rw [t2]; omega), ← List.getD_eq_getElem?_getD, t2,
          hg _ (by omega)]
        congr 2
        omega

/-! ## C132 -/

/-- A write is never refused and stores exactly the data at the address, whatever the address, its alignment and the length; no other
byte changes. -/
theorem C132_write (be : Bool) (m : Mem) (a : BitVec 16) (data : List Byte) (h : data.length < 2 ^ 16) :
    ∃ m', sramWrite be m a data = some (m', 0) ∧ Stored be m a.toNat data m' := by
  have hlt := a.isLt
  unfold sramWrite
  simp only [align]
  obtain ⟨m', e, hs⟩ := writeLoop_spec be data.length m (a.toNat / 4) (a.toNat - 4 * (a.toNat / 4)) data (by omega) (by omega) (fun _ => by omega)
  exact ⟨m', e, by rwa [show 4 * (a.toNat / 4) + (a.toNat - 4 * (a.toNat / 4)) = a.toNat by omega] at hs⟩

/-- A read is never refused and returns the bytes at the address. -/
theorem C132_read (be : Bool) (m : Mem) (a : BitVec 16) (n : Nat) (h : n < 2 ^ 16) :
    ∃ l, sramRead be m a n = some (l, 0) ∧ l.length = n ∧ ∀ j, j < n → l.getD j 0 = m (place be (a.toNat + j)) := by
  have hlt := a.isLt
  unfold sramRead
  simp only [align]
  obtain ⟨l, e, hl, hg⟩ := readLoop_spec be m n (a.toNat / 4) (a.toNat - 4 * (a.toNat / 4)) n (by omega) (by omega) (fun _ => by omega)
  exact ⟨l, e, hl, by rwa [show 4 * (a.toNat / 4) + (a.toNat - 4 * (a.toNat / 4)) = a.toNat by omega] at hg⟩

/-- What was written is read back; a write elsewhere in between does not matter. -/
theorem C132_round_trip (be : Bool) (m : Mem) (a b : BitVec 16) (data other : List Byte) (h : data.length < 2 ^ 16) (h' : other.length < 2 ^ 16)
    (apart : a.toNat + data.length ≤ b.toNat ∨ b.toNat + other.length ≤ a.toNat) :
    ∃ m1 m2, sramWrite be m a data = some (m1, 0) ∧ sramWrite be m1 b other = some (m2, 0) ∧ sramRead be m2 a data.length = some (data, 0) ∧
      sramRead be m2 b other.length = some (other, 0) := by
  obtain ⟨m1, e1, s1⟩ := C132_write be m a data h
  obtain ⟨m2, e2, s2⟩ := C132_write be m1 b other h'
  obtain ⟨l, e3, hl, hg⟩ := C132_read be m2 a data.length h
  obtain ⟨l', e4, hl', hg'⟩ := C132_read be m2 b other.length h'
  have hd : l = data := by
    apply List.ext_getElem hl
    intro j h1 h2
    have := hg j h2
    rw [s2, if_neg (by omega), s1, if_pos (by omega), Nat.add_sub_cancel_left] at this
    simpa [List.getD_eq_getElem?_getD, h1, h2] using this
  have ho : l' = other := by
    apply List.ext_getElem hl'
    intro j h1 h2
    have := hg' j h2
    rw [s2, if_pos (by omega), Nat.add_sub_cancel_left] at this
    simpa [List.getD_eq_getElem?_getD, h1, h2] using this
  exact ⟨m1, m2, e1, e2, by rw [e3, hd], by rw [e4, ho]⟩

/-- On a machine with the least significant byte first the addresses are places: `pf_sram_write` is `memcpy` to the mapped memory. -/
theorem C132_is_memcpy (m : Mem) (a : BitVec 16) (data : List Byte) (h : data.length < 2 ^ 16) :
    ∃ m', sramWrite false m a data = some (m', 0) ∧
      ∀ x, m' x = if a.toNat ≤ x ∧ x < a.toNat + data.length then data.getD (x - a.toNat) 0 else m x :=
  C132_write false m a data h

/-- Two neighbours that share a word meet the hypotheses. -/
example : (101 : BitVec 16).toNat + [(1 : Byte), 2, 3, 4, 5].length ≤ (106 : BitVec 16).toNat ∧
    ((sramWrite false (fun _ => 0) 101 [1, 2, 3, 4, 5]).bind fun x => sramRead false x.1 100 8) = some ([0, 1, 2, 3, 4, 5, 0, 0], 0) :=
  ⟨by decide, by decide +kernel⟩

end Verif.Lan
