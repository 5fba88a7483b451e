import Verif.DiagRead.Model
import Verif.Wire.Codec

/-! Writers that may give up a block they started: what they leave in the buffer. -/
set_option linter.unusedSimpArgs false
set_option linter.unusedVariables false

namespace Verif.DiagRead
open Verif.Wire hiding ExpApi ExpMod ExpSub

/-- The buffer holds the bytes `bs` from `pos` on. -/
def Holds (buf : List Byte) (pos : Nat) (bs : List Byte) : Prop := ∀ i, i < bs.length → buf[pos + i]? = bs[i]?

/-- `p` ends, changes nothing before the position or behind the usable size, moves the position forward and
not past the usable size, and, if there is room for them, adds exactly the bytes `bs`. -/
def Emits (p : W) (bs : List Byte) : Prop :=
  ∀ w : Wr, w.cap ≤ w.buf.length → w.cap < 65536 → w.pos ≤ w.cap → ∃ w', p w = some w' ∧ w'.cap = w.cap ∧
    w'.buf.length = w.buf.length ∧ w.pos ≤ w'.pos ∧ w'.pos ≤ w.cap ∧
    (∀ i, i < w.pos ∨ w.cap ≤ i → w'.buf[i]? = w.buf[i]?) ∧
    (w.pos + bs.length ≤ w.cap → w'.pos = w.pos + bs.length ∧ Holds w'.buf w.pos bs)

theorem emits_skip : Emits skip [] := by
  intro w h1 h2 h3
  exact ⟨w, rfl, rfl, rfl, Nat.le_refl _, h3, fun _ _ => rfl, fun _ => ⟨rfl, fun i hi => absurd hi (by simp)⟩⟩

theorem Emits.seq {p q : W} {x y : List Byte} (hp : Emits p x) (hq : Emits q y) : Emits (p ;; q) (x ++ y) := by
  intro w h1 h2 h3
  obtain ⟨w1, e1, c1, l1, m1, n1, s1, r1⟩ := hp w h1 h2 h3
  obtain ⟨w2, e2, c2, l2, m2, n2, s2, r2⟩ := hq w1 (by omega) (by omega) (by omega)
  refine ⟨w2, by simp [W.seq, e1, e2], by omega, by omega, by omega, by omega, ?_, ?_⟩
  · intro i hi
    rw [s2 i (by omega), s1 i hi]
  · intro hr
    rw [List.length_append] at hr
    obtain ⟨a1, a2⟩ := r1 (by omega)
    obtain ⟨b1, b2⟩ := r2 (by omega)
    refine ⟨by rw [List.length_append]; omega, ?_⟩
    intro i hi
    rw [List.length_append] at hi
    by_cases c : i < x.length
    · rw [List.getElem?_append_left c, ← a2 i c]
      exact s2 _ (by omega)
    · rw [List.getElem?_append_right (by omega), ← b2 (i - x.length) (by omega)]
      congr 1
      omega

theorem emits_of {p : W} {bs : List Byte} (hw : Writes p bs) (hs : WSafe p) : Emits p bs := by
  intro w h1 h2 h3
  obtain ⟨w', e, c, l, m, n, s⟩ := hs w h1
  refine ⟨w', e, c, l, m, by omega, fun i hi => s i (by omega), ?_⟩
  intro hr
  obtain ⟨b, hb, he⟩ := hw w h1 hr
  rw [e] at he
  cases Option.some.inj he
  refine ⟨rfl, ?_⟩
  intro i hi
  show b[w.pos + i]? = _
  rw [writeAt_get hb, if_pos (by omega)]
  congr 1
  omega

theorem emits_each {α : Type} {f : α → W} {g : α → List Byte} (l : List α) (h : ∀ a ∈ l, Emits (f a) (g a)) :
    Emits (each f l) (l.flatMap g) := by
  induction l with
  | nil => exact emits_skip
  | cons a l ih =>
    rw [List.flatMap_cons]
    exact Emits.seq (h a (by simp)) (ih (fun b hb => h b (by simp [hb])))

theorem emits_n16 (n : Nat) : Emits (n16 n) (enc16 true (BitVec.ofNat 16 n)) :=
  emits_of (writes_putU16 _ _) (wsafe_putU16 _ _)
theorem emits_n32 (n : Nat) : Emits (n32 n) (enc32 true (BitVec.ofNat 32 n)) :=
  emits_of (writes_putU32 _ _) (wsafe_putU32 _ _)

/-- A block that is given up if nothing follows its head.  The head is at least four bytes long and has the
length of the block in bytes 2 and 3. -/
theorem emits_block {head body : W} {t : U16} {vh vl : Byte} {hs bs : List Byte}
    (hh : Emits head (encBlockHeader true ⟨t, 2, vh, vl⟩ ++ hs)) (hb : Emits body bs) {out : W}
    (ho : ∀ w : Wr, out w = (head w).bind fun w1 => (body w1).bind fun w2 =>
      if w2.pos > w1.pos then
        (putU16 true (BitVec.ofNat 16 w2.pos - BitVec.ofNat 16 (w.pos + 4)) { w2 with pos := w.pos + 2 }).map
          fun w3 => { w3 with pos := w2.pos }
      else some { w2 with pos := w.pos }) :
    Emits out (if bs = [] then [] else
      encBlockHeader true ⟨t, BitVec.ofNat 16 (hs.length + bs.length + 2), vh, vl⟩ ++ hs ++ bs) := by
  have lh : ∀ h, (encBlockHeader true h).length = 6 := by
    intro h; simp [encBlockHeader, enc16_length]
  intro w h1 h2 h3
  obtain ⟨w1, e1, c1, l1, m1, n1, s1, r1⟩ := hh w h1 h2 h3
  obtain ⟨w2, e2, c2, l2, m2, n2, s2, r2⟩ := hb w1 (by omega) (by omega) (by omega)
  rw [ho, e1, Option.bind_some, e2, Option.bind_some]
  by_cases hp : w2.pos > w1.pos
  · rw [if_pos hp]
    obtain ⟨w3, e3, c3, l3, m3, n3, s3⟩ := wsafe_putU16 true
      (BitVec.ofNat 16 w2.pos - BitVec.ofNat 16 (w.pos + 4)) { w2 with pos := w.pos + 2 } (by simp; omega)
    rw [e3]
    simp only at c3 l3 m3 n3 s3
    refine ⟨{ w3 with pos := w2.pos }, rfl, by simp; omega, by simp; omega, by simp; omega, by simp; omega, ?_, ?_⟩
    · intro i hi
      show w3.buf[i]? = _
      rw [s3 i (by omega), s2 i (by omega), s1 i hi]
    · intro hr
      by_cases hbs : bs = []
      · subst hbs
        rw [if_pos rfl] at hr ⊢
        exfalso
        have := (r2 (by simp; omega)).1
        simp at this
        omega
      · rw [if_neg hbs] at hr ⊢
        rw [List.length_append, List.length_append, lh] at hr
        obtain ⟨a1, a2⟩ := r1 (by rw [List.length_append, lh]; omega)
        rw [List.length_append, lh] at a1
        obtain ⟨b1, b2⟩ := r2 (by omega)
        refine ⟨by simp [lh]; omega, ?_⟩
        have hv : (BitVec.ofNat 16 w2.pos - BitVec.ofNat 16 (w.pos + 4) : U16) =
            BitVec.ofNat 16 (hs.length + bs.length + 2) := by
          apply BitVec.eq_of_toNat_eq
          simp [BitVec.toNat_sub]
          omega
        rw [hv] at e3
        obtain ⟨b, hb3, he3⟩ := writes_putU16 true (BitVec.ofNat 16 (hs.length + bs.length + 2))
          { w2 with pos := w.pos + 2 } (by simp; omega) (by rw [enc16_length]; simp; omega)
        rw [e3] at he3
        have he3 := Option.some.inj he3
        subst he3
        intro i hi
        rw [List.length_append, List.length_append, lh] at hi
        show b[w.pos + i]? = _
        rw [writeAt_get hb3]
        simp only [enc16_length]
        by_cases d1 : w.pos + 2 ≤ w.pos + i ∧ w.pos + i < w.pos + 2 + 2
        · rw [if_pos d1]
          have : i = 2 ∨ i = 3 := by omega
          rcases this with rfl | rfl <;> simp [encBlockHeader, enc16]
        · rw [if_neg d1]
          by_cases d2 : i < 6 + hs.length
          · rw [List.getElem?_append_left (by rw [List.length_append, lh]; omega), s2 _ (by omega),
              a2 i (by rw [List.length_append, lh]; omega)]
            by_cases d3 : i < 6
            · have : i = 0 ∨ i = 1 ∨ i = 4 ∨ i = 5 := by omega
              rcases this with rfl | rfl | rfl | rfl <;> simp [encBlockHeader, enc16]
            · rw [List.getElem?_append_right (by rw [lh]; omega), List.getElem?_append_right (by rw [lh]; omega), lh, lh]
          · rw [List.getElem?_append_right (by rw [List.length_append, lh]; omega), List.length_append, lh,
              ← b2 _ (by omega)]
            congr 1
            omega
  · rw [if_neg hp]
    refine ⟨{ w2 with pos := w.pos }, rfl, by simp; omega, by simp; omega, by simp, by simp; omega, ?_, ?_⟩
    · intro i hi
      show w2.buf[i]? = _
      rw [s2 i (by omega), s1 i hi]
    · intro hr
      by_cases hbs : bs = []
      · subst hbs
        rw [if_pos rfl]
        exact ⟨rfl, fun i hi => absurd hi (by simp)⟩
      · rw [if_neg hbs] at hr
        exfalso
        rw [List.length_append, List.length_append, lh] at hr
        obtain ⟨a1, a2⟩ := r1 (by rw [List.length_append, lh]; omega)
        rw [List.length_append, lh] at a1
        obtain ⟨b1, b2⟩ := r2 (by omega)
        have : 0 < bs.length := List.length_pos_iff.2 hbs
        omega

end Verif.DiagRead
