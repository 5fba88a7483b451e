/-!
Byte buffers shared by the models: reading and writing a range of an array. `none` stands for
an access outside the array (undefined behaviour in C).
-/
namespace Verif

abbrev Byte := BitVec 8

/-- Read `len` bytes at `off` (memcpy from the array). -/
def slice {α} (l : List α) (off len : Nat) : Option (List α) :=
  if off + len ≤ l.length then some ((l.drop off).take len) else none

/-- Write `d` at `off` (memcpy into the array). -/
def writeAt {α} (l : List α) (off : Nat) (d : List α) : Option (List α) :=
  if off + d.length ≤ l.length then some (l.take off ++ d ++ l.drop (off + d.length)) else none

theorem slice_eq_some {α} {l : List α} {off len : Nat} (h : off + len ≤ l.length) :
    slice l off len = some ((l.drop off).take len) := by simp [slice, h]

theorem slice_isSome {α} {l : List α} {off len : Nat} :
    (slice l off len).isSome = true ↔ off + len ≤ l.length := by
  unfold slice; split <;> simp_all

theorem slice_length {α} {l x : List α} {off len : Nat} (h : slice l off len = some x) :
    x.length = len := by
  unfold slice at h; split at h
  · cases h; simp; omega
  · cases h

theorem writeAt_eq_some {α} {l : List α} {off : Nat} {d : List α} (h : off + d.length ≤ l.length) :
    writeAt l off d = some (l.take off ++ d ++ l.drop (off + d.length)) := by simp [writeAt, h]

theorem writeAt_length {α} {l x : List α} {off : Nat} {d : List α} (h : writeAt l off d = some x) :
    x.length = l.length := by
  unfold writeAt at h; split at h
  · cases h; simp; omega
  · cases h

/-- Element-wise description of a write. -/
theorem writeAt_get {α} {l x : List α} {off : Nat} {d : List α} (h : writeAt l off d = some x) (i : Nat) :
    x[i]? = if off ≤ i ∧ i < off + d.length then d[i - off]? else l[i]? := by
  unfold writeAt at h; split at h
  · rename_i hle
    cases h
    rw [List.append_assoc]
    by_cases h1 : i < off
    · rw [List.getElem?_append_left (by simp; omega)]
      simp [List.getElem?_take, h1]
      omega
    · rw [List.getElem?_append_right (by simp; omega)]
      have hlen : (List.take off l).length = off := by simp; omega
      rw [hlen]
      by_cases h2 : i < off + d.length
      · rw [List.getElem?_append_left (by omega)]
        simp [h2]; omega
      · rw [List.getElem?_append_right (by omega), List.getElem?_drop]
        have : off + d.length + (i - off - d.length) = i := by omega
        rw [this]; simp [h2]
  · cases h

theorem slice_get {α} {l x : List α} {off len : Nat} (h : slice l off len = some x) (i : Nat) :
    x[i]? = if i < len then l[off + i]? else none := by
  unfold slice at h; split at h
  · cases h
    rw [List.getElem?_take]
    split
    · rw [List.getElem?_drop]
    · rfl
  · cases h

/-- A range that does not meet the written range reads as before. -/
theorem slice_writeAt_disjoint {α} {l x : List α} {off : Nat} {d : List α} {o n : Nat}
    (h : writeAt l off d = some x) (hd : o + n ≤ off ∨ off + d.length ≤ o ∨ n = 0) :
    slice x o n = slice l o n := by
  have hl := writeAt_length h
  unfold slice
  rw [hl]
  split
  · congr 1
    apply List.ext_getElem?
    intro i
    rw [List.getElem?_take, List.getElem?_take]
    split
    · rw [List.getElem?_drop, List.getElem?_drop, writeAt_get h]
      rw [if_neg (by omega)]
    · rfl
  · rfl

/-- The written range reads back. -/
theorem slice_writeAt_same {α} {l x : List α} {off : Nat} {d : List α}
    (h : writeAt l off d = some x) : slice x off d.length = some d := by
  have hl := writeAt_length h
  have hle : off + d.length ≤ l.length := by
    unfold writeAt at h; split at h
    · assumption
    · cases h
  rw [slice_eq_some (by omega)]
  congr 1
  apply List.ext_getElem?
  intro i
  rw [List.getElem?_take]
  split
  · rw [List.getElem?_drop, writeAt_get h]
    rw [if_pos (by omega)]; congr 1; omega
  · rw [List.getElem?_eq_none (by omega)]

/-- Big-endian 16-bit value of two bytes. -/
def be16 (a b : Byte) : Nat := a.toNat * 256 + b.toNat

/-- Big-endian bytes of a 16-bit value. -/
def toBe16 (v : Nat) : List Byte := [BitVec.ofNat 8 (v / 256), BitVec.ofNat 8 v]

theorem be16_toBe16 {v : Nat} (h : v < 65536) :
    be16 (BitVec.ofNat 8 (v / 256)) (BitVec.ofNat 8 v) = v := by
  simp [be16]; omega

theorem be16_lt (a b : Byte) : be16 a b < 65536 := by
  have := a.isLt; have := b.isLt; simp [be16]; omega

end Verif
