import Verif.Im.Spec
/-!
Lemmas about writing and reading I&M records.
-/
set_option linter.unusedVariables false
set_option linter.unusedSimpArgs false

namespace Verif.Im
open Verif.Wire

theorem writes_nil : Writes (fun w => some w) [] := by
  intro x hc hp
  simp at hp
  exact ⟨x.buf, writeAt_nil _ (by omega), rfl⟩

theorem writes_putRep (v : Byte) : ∀ n, Writes (putRep v n) (List.replicate n v)
  | 0 => writes_nil
  | n + 1 => by
    have h := Writes.seq (writes_putByte v) (writes_putRep v n)
    exact h

/-- What is sent for a text. -/
def shown (a : List Byte) : List Byte :=
  a.takeWhile (· ≠ 0) ++ List.replicate (a.length - 1 - (a.takeWhile (· ≠ 0)).length) 0x20

/-- The inner part of `putStr`. -/
def rawStr (a : List Byte) : W :=
  putMem (a.take (a.takeWhile (· ≠ 0)).length) ;; putRep 0x20 (a.length - 1 - (a.takeWhile (· ≠ 0)).length)

theorem take_takeWhile (p : Byte → Bool) (a : List Byte) : a.take (a.takeWhile p).length = a.takeWhile p := by
  induction a with
  | nil => rfl
  | cons x t ih =>
    by_cases h : p x
    · simp [List.takeWhile_cons, h, ih]
    · simp [List.takeWhile_cons, h]

theorem ne_of_mem_takeWhile {x : Byte} : ∀ {a : List Byte}, x ∈ a.takeWhile (· ≠ 0) → x ≠ 0
  | [], h => by simp at h
  | y :: t, h => by
    rw [List.takeWhile_cons] at h
    split at h
    · rename_i hy
      rcases List.mem_cons.mp h with rfl | h
      · simpa using hy
      · exact ne_of_mem_takeWhile h
    · simp at h

theorem writes_rawStr (a : List Byte) : Writes (rawStr a) (shown a) := by
  unfold rawStr shown
  rw [take_takeWhile]
  exact Writes.seq (writes_putMem _) (writes_putRep _ _)

theorem Text.mem {n : Nat} {a : List Byte} (h : Text n a) : (0 : Byte) ∈ a := List.mem_of_getElem? h.2

theorem putStr_eq {n : Nat} {a : List Byte} (h : Text n a) {x : Wr} (hx : x.pos + (n + 1) ≤ x.cap) :
    putStr a x = rawStr a x := by
  unfold putStr strlen rawStr
  rw [if_pos h.mem]
  simp only [Option.bind_some]
  rw [if_neg (by have := h.1; omega)]

theorem putStr_skip {n : Nat} {a : List Byte} (h : Text n a) {x : Wr} (hx : x.pos + (n + 1) > x.cap) :
    putStr a x = some x := by
  unfold putStr strlen
  rw [if_pos h.mem]
  simp only [Option.bind_some]
  rw [if_pos (by have := h.1; omega)]

theorem takeWhile_lt {n : Nat} {a : List Byte} (h : Text n a) : (a.takeWhile (· ≠ 0)).length ≤ n := by
  by_cases c : (a.takeWhile (· ≠ 0)).length ≤ n
  · exact c
  exfalso
  have e := take_takeWhile (· ≠ 0) a
  have g : (a.take (a.takeWhile (· ≠ 0)).length)[n]? = some 0 := by
    rw [List.getElem?_take, if_pos (by omega)]; exact h.2
  rw [e] at g
  exact ne_of_mem_takeWhile (List.mem_of_getElem? g) rfl

theorem shown_length {n : Nat} {a : List Byte} (h : Text n a) : (shown a).length = n := by
  have := takeWhile_lt h
  have := h.1
  simp only [shown, List.length_append, List.length_replicate]
  omega

theorem takeWhile_append_zero (d : List Byte) (h : (0 : Byte) ∉ d) :
    ((d ++ [0]).takeWhile (· ≠ 0)) = d := by
  induction d with
  | nil => rfl
  | cons x t ih =>
    simp only [List.mem_cons, not_or] at h
    rw [List.cons_append, List.takeWhile_cons, if_pos (by simpa using fun hh => h.1 hh.symm), ih h.2]

theorem Text.split {n : Nat} {a : List Byte} (h : Text n a) : a = a.take n ++ [0] := by
  apply List.ext_getElem?
  intro i
  have hl : (a.take n).length = n := by simp; have := h.1; omega
  by_cases c : i < n
  · rw [List.getElem?_append_left (by omega), List.getElem?_take, if_pos c]
  · rw [List.getElem?_append_right (by omega), hl]
    by_cases c2 : i = n
    · subst c2; rw [h.2]; simp
    · rw [List.getElem?_eq_none (by have := h.1; omega), List.getElem?_eq_none (by simp; omega)]

/-- A text without zeros is sent as it is. -/
theorem shown_eq {n : Nat} {a : List Byte} (h : Text n a) (hz : (0 : Byte) ∉ a.take n) : shown a = a.take n := by
  have e : a.takeWhile (· ≠ 0) = a.take n := by
    have e := takeWhile_append_zero _ hz
    rw [← h.split] at e
    exact e
  have hl : (a.take n).length = n := by simp; have := h.1; omega
  unfold shown
  rw [e, hl, h.1]
  simp

/-- After a zero there are only spaces. -/
theorem shown_zero {n k : Nat} {a : List Byte} (h : Text n a) (hk : k < n) (hz : a[k]? = some 0) {j : Nat}
    (h1 : k ≤ j) (h2 : j < n) : (shown a)[j]? = some 0x20 := by
  have hle : (a.takeWhile (· ≠ 0)).length ≤ k := by
    by_cases c : (a.takeWhile (· ≠ 0)).length ≤ k
    · exact c
    exfalso
    have e := take_takeWhile (· ≠ 0) a
    have g : (a.take (a.takeWhile (· ≠ 0)).length)[k]? = some 0 := by
      rw [List.getElem?_take, if_pos (by omega)]; exact hz
    rw [e] at g
    exact ne_of_mem_takeWhile (List.mem_of_getElem? g) rfl
  have := h.1
  unfold shown
  rw [List.getElem?_append_right (by omega), List.getElem?_replicate, if_pos (by omega)]

/-- The header of a block has to fit, then only what the body does at that place matters. -/
theorem putBlock_congr {be : Bool} {t : U16} {b1 b2 : W} {x : Wr} (hc : x.cap ≤ x.buf.length)
    (hp : x.pos + 6 ≤ x.cap) (h : ∀ y : Wr, y.cap = x.cap → y.pos = x.pos + 6 → y.cap ≤ y.buf.length → b1 y = b2 y) :
    putBlock be t b1 x = putBlock be t b2 x := by
  have lh : ∀ h, (encBlockHeader be h).length = 6 := by
    intro h; simp [encBlockHeader, enc16_length]
  obtain ⟨b, w1, e1⟩ := writes_putBlockHeader be t 0 1 0 x hc (by rw [lh]; omega)
  have hl := writeAt_length w1
  have e : (putBlockHeader be t 0 1 0 ;; b1) x = (putBlockHeader be t 0 1 0 ;; b2) x := by
    unfold W.seq
    rw [e1]
    simp only [Option.bind_some]
    exact h _ rfl (by simp [lh]) (by simpa [hl] using hc)
  unfold putBlock
  rw [e]

/-- What a read sends for a record. -/
def sent (index : U16) (im : Im) : List Byte :=
  if index = 0xaff1 then shown im.fn ++ shown im.loc
  else if index = 0xaff2 then shown im.date
  else if index = 0xaff3 then shown im.desc
  else im.sig

theorem sent_eq {index : U16} {sup : Supp} {n : Nat} {im : Im} (h : Wf im) (hr : RecordLen sup index n)
    (hz : index = 0xaff4 ∨ (0 : Byte) ∉ contents index im) : sent index im = contents index im := by
  rcases hr with ⟨rfl, _, _⟩ | ⟨rfl, _, _⟩ | ⟨rfl, _, _⟩ | ⟨rfl, _, _⟩
  · have hz : (0 : Byte) ∉ im.fn.take 32 ++ im.loc.take 22 := by
      rcases hz with hz | hz
      · exact absurd hz (by decide)
      · exact hz
    rw [List.mem_append, not_or] at hz
    show shown im.fn ++ shown im.loc = im.fn.take 32 ++ im.loc.take 22
    rw [shown_eq h.fn hz.1, shown_eq h.loc hz.2]
  · have hz : (0 : Byte) ∉ im.date.take 16 := by
      rcases hz with hz | hz
      · exact absurd hz (by decide)
      · exact hz
    exact shown_eq h.date hz
  · have hz : (0 : Byte) ∉ im.desc.take 54 := by
      rcases hz with hz | hz
      · exact absurd hz (by decide)
      · exact hz
    exact shown_eq h.desc hz
  · rfl

theorem contents_length {index : U16} {sup : Supp} {n : Nat} {im : Im} (h : Wf im) (hr : RecordLen sup index n) :
    (contents index im).length = n := by
  have h1 := h.fn.1; have h2 := h.loc.1; have h3 := h.date.1; have h4 := h.desc.1; have h5 := h.sig
  rcases hr with ⟨rfl, _, rfl⟩ | ⟨rfl, _, rfl⟩ | ⟨rfl, _, rfl⟩ | ⟨rfl, _, rfl⟩
  · show (im.fn.take 32 ++ im.loc.take 22).length = _
    simp; omega
  · show (im.date.take 16).length = _
    simp; omega
  · show (im.desc.take 54).length = _
    simp; omega
  · exact h5

theorem sent_length {index : U16} {sup : Supp} {n : Nat} {im : Im} (h : Wf im) (hr : RecordLen sup index n) :
    (sent index im).length = n := by
  rcases hr with ⟨rfl, _, rfl⟩ | ⟨rfl, _, rfl⟩ | ⟨rfl, _, rfl⟩ | ⟨rfl, _, rfl⟩
  · show (shown im.fn ++ shown im.loc).length = _
    rw [List.length_append, shown_length h.fn, shown_length h.loc]
  · exact shown_length h.date
  · exact shown_length h.desc
  · exact h.sig

/-- With one byte to spare behind the record, the read sends the whole record. -/
theorem read_sends {index : U16} {sup : Supp} {n : Nat} {im : Im} (h : Wf im) (hr : RecordLen sup index n) {x : Wr}
    (hc : x.cap ≤ x.buf.length) (hroom : x.pos + 6 + n < x.cap) :
    ∃ b, writeAt x.buf x.pos (block index (sent index im)) = some b ∧
      cmRead sup index im x = some (true, { x with buf := b, pos := x.pos + 6 + n }) := by
  have lb : (block index (sent index im)).length = 6 + n := by
    unfold block
    rw [List.length_append, sent_length h hr]
    simp [encBlockHeader, enc16_length]
  have key : ∀ t body, Writes body (sent index im) → blockType index = t →
      ∃ b, writeAt x.buf x.pos (block index (sent index im)) = some b ∧
        putBlock true t body x = some { x with buf := b, pos := x.pos + 6 + n } := by
    intro t body hw ht
    have hn : n ≤ 54 := by
      rcases hr with ⟨_, _, rfl⟩ | ⟨_, _, rfl⟩ | ⟨_, _, rfl⟩ | ⟨_, _, rfl⟩ <;> omega
    have g := writes_putBlock (be := true) (t := t) hw (by rw [sent_length h hr]; omega)
    rw [← ht] at g
    obtain ⟨b, w1, e1⟩ := g x hc (by rw [show (_ ++ _ : List Byte).length = _ from lb]; omega)
    refine ⟨b, w1, ?_⟩
    rw [← ht, e1, show (_ ++ _ : List Byte).length = _ from lb]
    simp [Nat.add_assoc]
  rcases hr with ⟨rfl, hs, rfl⟩ | ⟨rfl, hs, rfl⟩ | ⟨rfl, hs, rfl⟩ | ⟨rfl, hs, rfl⟩
  · obtain ⟨b, w1, e1⟩ := key 0x21 (rawStr im.fn ;; rawStr im.loc)
      (Writes.seq (writes_rawStr _) (writes_rawStr _)) rfl
    refine ⟨b, w1, ?_⟩
    unfold cmRead
    rw [if_pos rfl, if_pos (by simp [hs]; omega), putBlock_congr (b2 := rawStr im.fn ;; rawStr im.loc) hc (by omega)
      ?_, e1]
    · rfl
    · intro y h1 h2 h3
      unfold W.seq
      rw [putStr_eq h.fn (by omega)]
      obtain ⟨b, w1, e1⟩ := writes_rawStr im.fn y h3 (by rw [shown_length h.fn]; omega)
      rw [e1]
      simp only [Option.bind_some]
      rw [putStr_eq h.loc (by simp only [shown_length h.fn]; omega)]
  · obtain ⟨b, w1, e1⟩ := key 0x22 (rawStr im.date) (writes_rawStr _) rfl
    refine ⟨b, w1, ?_⟩
    unfold cmRead
    rw [if_neg (by decide), if_pos rfl, if_pos (by simp [hs]; omega),
      putBlock_congr (b2 := rawStr im.date) hc (by omega) ?_, e1]
    · rfl
    · intro y h1 h2 h3
      exact putStr_eq h.date (by omega)
  · obtain ⟨b, w1, e1⟩ := key 0x23 (rawStr im.desc) (writes_rawStr _) rfl
    refine ⟨b, w1, ?_⟩
    unfold cmRead
    rw [if_neg (by decide), if_neg (by decide), if_pos rfl, if_pos (by simp [hs]; omega),
      putBlock_congr (b2 := rawStr im.desc) hc (by omega) ?_, e1]
    · rfl
    · intro y h1 h2 h3
      exact putStr_eq h.desc (by omega)
  · obtain ⟨b, w1, e1⟩ := key 0x24 (putMem im.sig) (writes_putMem _) rfl
    refine ⟨b, w1, ?_⟩
    unfold cmRead
    rw [if_neg (by decide), if_neg (by decide), if_neg (by decide), if_pos rfl, if_pos (by simp [hs]; omega), e1]
    rfl

theorem text_append {n : Nat} {d : List Byte} (h : d.length = n) : Text n (d ++ [0]) := by
  refine ⟨by simp [h], ?_⟩
  rw [List.getElem?_append_right (by omega)]
  simp [h]

theorem text_set {n : Nat} {a : List Byte} (h : Text n a) : a.set n 0 = a := by
  apply List.ext_getElem?
  intro i
  rw [List.getElem?_set]
  split
  · subst_vars
    rw [if_pos (by have := h.1; omega), h.2]
  · rfl

/-- Every case of reading an I&M 1 record. -/
theorem getIm1_cases (len : Nat) (mem : List Byte) (hm : len ≤ mem.length) :
    getIm1 33 23 ⟨mem, false, len, true, .ok, 0⟩ =
      if len < 32 then some ((none, none), ⟨mem, false, len, true, .endOfInput, 0⟩)
      else if len < 54 then some ((some (mem.take 32), none), ⟨mem, false, len, true, .endOfInput, 32⟩)
      else some ((some (mem.take 32), some ((mem.drop 32).take 22)), ⟨mem, false, len, true, .ok, 54⟩) := by
  have e : ∀ r, getIm1 33 23 r = (getMem 32 r).bind fun x => (getMem 22 x.2).bind fun y => some ((x.1, y.1), y.2) :=
    fun _ => rfl
  rw [e]
  split
  · rename_i c
    have g : getMem 32 ⟨mem, false, len, true, .ok, 0⟩ = some (none, ⟨mem, false, len, true, .endOfInput, 0⟩) := by
      unfold getMem
      rw [if_neg (by simp), if_pos (by simpa using c)]
    rw [g]
    rfl
  · rename_i c
    have g : getMem 32 ⟨mem, false, len, true, .ok, 0⟩ = some (some (mem.take 32), ⟨mem, false, len, true, .ok, 32⟩) := by
      unfold getMem
      rw [if_neg (by simp), if_neg (by simp; omega), if_neg (by simp), slice_eq_some (by simp; omega)]
      rfl
    rw [g]
    dsimp only [Option.bind_some]
    split
    · rename_i c2
      have g : getMem 22 ⟨mem, false, len, true, .ok, 32⟩ = some (none, ⟨mem, false, len, true, .endOfInput, 32⟩) := by
        unfold getMem
        rw [if_neg (by simp), if_pos (by simp; omega)]
      rw [g]
      rfl
    · rename_i c2
      have g : getMem 22 ⟨mem, false, len, true, .ok, 32⟩ =
          some (some ((mem.drop 32).take 22), ⟨mem, false, len, true, .ok, 54⟩) := by
        unfold getMem
        rw [if_neg (by simp), if_neg (by simp; omega), if_neg (by simp), slice_eq_some (by simp; omega)]
        rfl
      rw [g]
      rfl

end Verif.Im
