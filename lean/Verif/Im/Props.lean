import Verif.Im.Lemmas
/-!
C45: writing and reading the I&M records.
-/
set_option linter.unusedVariables false
set_option linter.unusedSimpArgs false

namespace Verif.Im
open Verif.Wire

/-! ## Which writes are accepted -/

/-- A write is accepted exactly if it is for a supported record and has the length of the record. -/
theorem C45_decides (sup : Supp) (i : U16) (len : Nat) (mem : List Byte) (im : Im) (hm : len ≤ mem.length) :
    ∃ im', cmWrite sup i len mem im = some (decide (RecordLen sup i len), im') := by
  unfold cmWrite
  by_cases c1 : i = 0xaff1
  · subst c1
    rw [if_pos rfl]
    cases hs : sup.im1
    · simp [RecordLen, hs]
    · rw [if_pos rfl, getIm1_cases _ _ hm]
      split
      · rename_i c
        refine ⟨setIm1 (none, none) im, ?_⟩
        rw [decide_eq_false (by simp [RecordLen]; omega)]
        rfl
      · split
        · rename_i c
          refine ⟨setIm1 (some (mem.take 32), none) im, ?_⟩
          rw [decide_eq_false (by simp [RecordLen]; omega)]
          rfl
        · refine ⟨setIm1 (some (mem.take 32), some ((mem.drop 32).take 22)) im, ?_⟩
          simp only [Option.map_some]
          congr 1
          refine Prod.ext ?_ rfl
          simp [RecordLen, hs]
          by_cases c : len = 54
          · simp [c]
          · simp [c, Ne.symm c]
  rw [if_neg c1]
  by_cases c2 : i = 0xaff2
  · subst c2
    rw [if_pos rfl]
    cases hs : sup.im2
    · simp [RecordLen, hs]
    · by_cases c : len = 16
      · rw [if_pos (by simp [c]), slice_eq_some (by omega)]
        exact ⟨_, by simp [RecordLen, hs, c]; rfl⟩
      · rw [if_neg (by simp [c])]
        exact ⟨_, by simp [RecordLen, hs, c]; rfl⟩
  rw [if_neg c2]
  by_cases c3 : i = 0xaff3
  · subst c3
    rw [if_pos rfl]
    cases hs : sup.im3
    · simp [RecordLen, hs]
    · by_cases c : len = 54
      · rw [if_pos (by simp [c]), slice_eq_some (by omega)]
        exact ⟨_, by simp [RecordLen, hs, c]; rfl⟩
      · rw [if_neg (by simp [c])]
        exact ⟨_, by simp [RecordLen, hs, c]; rfl⟩
  rw [if_neg c3]
  by_cases c4 : i = 0xaff4
  · subst c4
    rw [if_pos rfl]
    cases hs : sup.im4
    · simp [RecordLen, hs]
    · by_cases c : len = 54
      · rw [if_pos (by simp [c]), slice_eq_some (by omega)]
        exact ⟨_, by simp [RecordLen, hs, c]; rfl⟩
      · rw [if_neg (by simp [c])]
        exact ⟨_, by simp [RecordLen, hs, c]; rfl⟩
  rw [if_neg c4]
  refine ⟨im, ?_⟩
  rw [decide_eq_false]
  rintro (⟨h, _⟩ | ⟨h, _⟩ | ⟨h, _⟩ | ⟨h, _⟩)
  · exact c1 h
  · exact c2 h
  · exact c3 h
  · exact c4 h

/-- In particular I&M 0 cannot be written. -/
theorem C45_im0 (sup : Supp) (len : Nat) (mem : List Byte) (im : Im) : cmWrite sup 0xaff0 len mem im = some (false, im) := rfl

/-! ## Accepted writes -/

/-- An accepted write stores the data and changes no other record, and the texts stay terminated. -/
theorem C45_accepted {sup : Supp} {i : U16} {len : Nat} {mem : List Byte} {im im' : Im} (hw : Wf im)
    (hm : len ≤ mem.length) (h : cmWrite sup i len mem im = some (true, im')) :
    RecordLen sup i len ∧ contents i im' = mem.take len ∧ (∀ j, j ≠ i → contents j im' = contents j im) ∧ Wf im' := by
  have hr : RecordLen sup i len := by
    obtain ⟨_, e⟩ := C45_decides sup i len mem im hm
    rw [e] at h
    simpa using (Prod.mk.inj (Option.some.inj h)).1
  refine ⟨hr, ?_⟩
  unfold cmWrite at h
  rcases hr with ⟨rfl, hs, rfl⟩ | ⟨rfl, hs, rfl⟩ | ⟨rfl, hs, rfl⟩ | ⟨rfl, hs, rfl⟩
  · rw [if_pos rfl, if_pos hs, getIm1_cases _ _ hm, if_neg (by omega), if_neg (by omega)] at h
    have e := (Prod.mk.inj (Option.some.inj h)).2
    have e : im' = { im with fn := mem.take 32 ++ [0], loc := (mem.drop 32).take 22 ++ [0] } := e.symm
    subst e
    have l1 : (mem.take 32).length = 32 := by simp; omega
    have l2 : ((mem.drop 32).take 22).length = 22 := by simp; omega
    refine ⟨?_, ?_, ⟨text_append l1, text_append l2, hw.date, hw.desc, hw.sig⟩⟩
    · show (mem.take 32 ++ [0]).take 32 ++ ((mem.drop 32).take 22 ++ [0]).take 22 = mem.take (32 + 22)
      rw [List.take_append_of_le_length (by omega), List.take_append_of_le_length (by omega),
        List.take_of_length_le (by omega), List.take_of_length_le (l := (mem.drop 32).take 22) (by omega), List.take_add]
    · intro j hj
      unfold contents
      rw [if_neg hj, if_neg hj]
  · rw [if_neg (by decide), if_pos rfl, if_pos (by simp [hs]), slice_eq_some (by omega)] at h
    have e : im' = { im with date := mem.take 16 ++ [0] } := (Prod.mk.inj (Option.some.inj h)).2.symm
    subst e
    have l1 : (mem.take 16).length = 16 := by simp; omega
    refine ⟨?_, ?_, ⟨hw.fn, hw.loc, text_append l1, hw.desc, hw.sig⟩⟩
    · show (mem.take 16 ++ [0]).take 16 = mem.take 16
      rw [List.take_append_of_le_length (by omega), List.take_of_length_le (by omega)]
    · intro j hj
      unfold contents
      simp only [if_neg hj]
  · rw [if_neg (by decide), if_neg (by decide), if_pos rfl, if_pos (by simp [hs]), slice_eq_some (by omega)] at h
    have e : im' = { im with desc := mem.take 54 ++ [0] } := (Prod.mk.inj (Option.some.inj h)).2.symm
    subst e
    have l1 : (mem.take 54).length = 54 := by simp; omega
    refine ⟨?_, ?_, ⟨hw.fn, hw.loc, hw.date, text_append l1, hw.sig⟩⟩
    · show (mem.take 54 ++ [0]).take 54 = mem.take 54
      rw [List.take_append_of_le_length (by omega), List.take_of_length_le (by omega)]
    · intro j hj
      unfold contents
      simp only [if_neg hj]
  · rw [if_neg (by decide), if_neg (by decide), if_neg (by decide), if_pos rfl, if_pos (by simp [hs]),
      slice_eq_some (by omega)] at h
    have e : im' = { im with sig := mem.take 54 } := (Prod.mk.inj (Option.some.inj h)).2.symm
    subst e
    have l1 : (mem.take 54).length = 54 := by simp; omega
    refine ⟨rfl, ?_, ⟨hw.fn, hw.loc, hw.date, hw.desc, l1⟩⟩
    intro j hj
    unfold contents
    simp only [if_neg hj]

/-- What was written is what the next read sends, if the texts written hold no zero byte and there is at least one
byte of room behind the record. -/
theorem C45_readback_partial {sup : Supp} {i : U16} {len : Nat} {mem : List Byte} {im im' : Im} (hw : Wf im)
    (hm : len ≤ mem.length) (h : cmWrite sup i len mem im = some (true, im'))
    (hz : i = 0xaff4 ∨ (0 : Byte) ∉ mem.take len) (x : Wr) (hc : x.cap ≤ x.buf.length)
    (hroom : x.pos + 6 + len < x.cap) :
    ∃ b, writeAt x.buf x.pos (block i (mem.take len)) = some b ∧
      cmRead sup i im' x = some (true, { x with buf := b, pos := x.pos + 6 + len }) := by
  obtain ⟨hr, e, -, hw'⟩ := C45_accepted hw hm h
  obtain ⟨b, g⟩ := read_sends hw' hr hc hroom
  rw [sent_eq hw' hr (by rw [e]; exact hz), e] at g
  exact ⟨b, g⟩

/-! ## Refused writes -/

/-- A refused write changes nothing, except for an I&M 1 record of 32 bytes or more. -/
theorem C45_refused_partial {sup : Supp} {i : U16} {len : Nat} {mem : List Byte} {im im' : Im} (hw : Wf im)
    (hm : len ≤ mem.length) (hi : i ≠ 0xaff1 ∨ sup.im1 = false ∨ len < 32)
    (h : cmWrite sup i len mem im = some (false, im')) : im' = im := by
  unfold cmWrite at h
  by_cases c1 : i = 0xaff1
  · subst c1
    rw [if_pos rfl] at h
    cases hs : sup.im1
    · rw [hs] at h
      exact (Prod.mk.inj (Option.some.inj h)).2.symm
    · have hl : len < 32 := by
        rcases hi with hi | hi | hi
        · exact absurd rfl hi
        · rw [hs] at hi; cases hi
        · exact hi
      rw [if_pos hs, getIm1_cases _ _ hm, if_pos hl] at h
      have e : im' = setIm1 (none, none) im := (Prod.mk.inj (Option.some.inj h)).2.symm
      rw [e]
      show { im with fn := im.fn.set 32 0, loc := im.loc.set 22 0 } = im
      rw [text_set hw.fn, text_set hw.loc]
  rw [if_neg c1] at h
  by_cases c2 : i = 0xaff2
  · rw [if_pos c2] at h
    split at h
    · cases hsl : slice mem 0 16 <;> rw [hsl] at h
      · cases h
      · cases (Prod.mk.inj (Option.some.inj h)).1
    · exact (Prod.mk.inj (Option.some.inj h)).2.symm
  rw [if_neg c2] at h
  by_cases c3 : i = 0xaff3
  · rw [if_pos c3] at h
    split at h
    · cases hsl : slice mem 0 54 <;> rw [hsl] at h
      · cases h
      · cases (Prod.mk.inj (Option.some.inj h)).1
    · exact (Prod.mk.inj (Option.some.inj h)).2.symm
  rw [if_neg c3] at h
  by_cases c4 : i = 0xaff4
  · rw [if_pos c4] at h
    split at h
    · cases hsl : slice mem 0 54 <;> rw [hsl] at h
      · cases h
      · cases (Prod.mk.inj (Option.some.inj h)).1
    · exact (Prod.mk.inj (Option.some.inj h)).2.symm
  rw [if_neg c4] at h
  exact (Prod.mk.inj (Option.some.inj h)).2.symm

/-- Every I&M 1 record of 32 bytes or more and of wrong length is refused, and yet its first 32 bytes are the
function text from then on. -/
theorem C45_fails_im1 (sup : Supp) (hs : sup.im1 = true) (len : Nat) (mem : List Byte) (im : Im) (hm : len ≤ mem.length)
    (h1 : 32 ≤ len) (h2 : len ≠ 54) :
    ∃ im', cmWrite sup 0xaff1 len mem im = some (false, im') ∧ im'.fn.take 32 = mem.take 32 := by
  have l1 : (mem.take 32).length = 32 := by simp; omega
  have e : (mem.take 32 ++ [0]).take 32 = mem.take 32 := by
    rw [List.take_append_of_le_length (by omega), List.take_of_length_le (by omega)]
  unfold cmWrite
  rw [if_pos rfl, if_pos hs, getIm1_cases _ _ hm, if_neg (by omega)]
  split
  · exact ⟨_, rfl, e⟩
  · refine ⟨setIm1 (some (mem.take 32), some ((mem.drop 32).take 22)) im, ?_, e⟩
    simp only [Option.map_some]
    congr 1
    refine Prod.ext ?_ rfl
    simpa using fun h => h2 h.symm

/-- A zero byte that was written and accepted is read as a space, as is everything after it in its text. -/
theorem C45_fails_zero (sup : Supp) (hs : sup.im3 = true) (mem : List Byte) (im : Im) (hw : Wf im)
    (hm : mem.length = 54) {k : Nat} (hk : k < 54) (hz : mem[k]? = some 0) (x : Wr) (hc : x.cap ≤ x.buf.length)
    (hroom : x.pos + 60 < x.cap) :
    ∃ im' y, cmWrite sup 0xaff3 54 mem im = some (true, im') ∧ cmRead sup 0xaff3 im' x = some (true, y) ∧
      ∀ j, k ≤ j → j < 54 → y.buf[x.pos + 6 + j]? = some 0x20 := by
  obtain ⟨im', e⟩ := C45_decides sup 0xaff3 54 mem im (by omega)
  rw [decide_eq_true (by simp [RecordLen, hs])] at e
  obtain ⟨hr, ec, -, hw'⟩ := C45_accepted hw (by omega) e
  obtain ⟨b, w1, e1⟩ := read_sends hw' hr hc (by omega)
  refine ⟨im', _, e, e1, ?_⟩
  intro j h1 h2
  have lh : ∀ h, (encBlockHeader true h).length = 6 := by
    intro h; simp [encBlockHeader, enc16_length]
  have hz' : im'.desc[k]? = some 0 := by
    have : (im'.desc.take 54)[k]? = some 0 := by
      rw [show im'.desc.take 54 = mem.take 54 from ec, List.getElem?_take, if_pos hk]; exact hz
    rwa [List.getElem?_take, if_pos hk] at this
  show b[x.pos + 6 + j]? = _
  rw [writeAt_get w1, if_pos]
  · unfold block
    rw [List.getElem?_append_right (by rw [lh]; omega), lh]
    rw [show x.pos + 6 + j - x.pos - 6 = j by omega]
    exact shown_zero hw'.desc hk hz' h1 h2
  · unfold block
    rw [List.length_append, lh, sent_length hw' hr]
    omega

/-- With a buffer that is too small by less than the block header, the read of I&M 1 succeeds, but the location is
missing. -/
theorem C45_fails_room (sup : Supp) (hs : sup.im1 = true) (im : Im) (hw : Wf im) (x : Wr) (hc : x.cap ≤ x.buf.length)
    (h1 : x.pos + 57 ≤ x.cap) (h2 : x.cap ≤ x.pos + 60) :
    ∃ y, cmRead sup 0xaff1 im x = some (true, y) ∧ y.pos = x.pos + 6 + 32 := by
  unfold cmRead
  rw [if_pos rfl, if_pos (by simp [hs]; omega), putBlock_congr (b2 := rawStr im.fn) hc (by omega)]
  · have g := writes_putBlock (be := true) (t := 0x21) (writes_rawStr im.fn) (by rw [shown_length hw.fn]; omega)
    obtain ⟨b, w1, e1⟩ := g x hc (by rw [List.length_append, shown_length hw.fn]; simp [encBlockHeader, enc16_length]; omega)
    rw [e1]
    refine ⟨_, rfl, ?_⟩
    rw [List.length_append, shown_length hw.fn]
    simp [encBlockHeader, enc16_length]
  · intro y h3 h4 h5
    unfold W.seq
    rw [putStr_eq hw.fn (by omega)]
    obtain ⟨b, w1, e1⟩ := writes_rawStr im.fn y h5 (by rw [shown_length hw.fn]; omega)
    rw [e1]
    simp only [Option.bind_some]
    rw [putStr_skip hw.loc (by simp only [shown_length hw.fn]; omega)]

/-! ## All executions -/

/-- The state of a device: all texts are terminated, in memory and in the file. -/
def WfSt (s : St) : Prop := Wf s.im ∧ ∀ n, s.nvm = some n → Wf n

/-- The data of a write are there. -/
def OpOk : Op → Prop
  | .write _ n mem _ => n ≤ mem.length
  | _ => True

theorem wf_cleared : Wf cleared :=
  ⟨by unfold Text; decide, by unfold Text; decide, by unfold Text; decide, by unfold Text; decide, by decide⟩

theorem wf_location {im : Im} (h : Wf im) (l : List Byte) : Wf (setLocation l im) :=
  ⟨h.fn, text_append (by simp), h.date, h.desc, h.sig⟩

theorem wf_refused {sup : Supp} {i : U16} {len : Nat} {mem : List Byte} {im im' : Im} {b : Bool} (hw : Wf im)
    (hm : len ≤ mem.length) (h : cmWrite sup i len mem im = some (b, im')) :
    Wf im' ∧ (∀ j, j ≠ i → contents j im' = contents j im) := by
  cases b
  · by_cases hi : i ≠ 0xaff1 ∨ sup.im1 = false ∨ len < 32
    · rw [C45_refused_partial hw hm hi h]
      exact ⟨hw, fun _ _ => rfl⟩
    · simp only [not_or, Decidable.not_not, Bool.not_eq_false] at hi
      obtain ⟨rfl, hs, hl⟩ := hi
      unfold cmWrite at h
      rw [if_pos rfl, if_pos hs, getIm1_cases _ _ hm, if_neg hl] at h
      have l1 : (mem.take 32).length = 32 := by simp; omega
      split at h
      · have e : im' = { im with fn := mem.take 32 ++ [0], loc := im.loc.set 22 0 } :=
          (Prod.mk.inj (Option.some.inj h)).2.symm
        subst e
        refine ⟨⟨text_append l1, by rw [text_set hw.loc]; exact hw.loc, hw.date, hw.desc, hw.sig⟩, ?_⟩
        intro j hj
        unfold contents
        rw [if_neg hj, if_neg hj]
      · have e : im' = { im with fn := mem.take 32 ++ [0], loc := (mem.drop 32).take 22 ++ [0] } :=
          (Prod.mk.inj (Option.some.inj h)).2.symm
        subst e
        refine ⟨⟨text_append l1, text_append (by simp; omega), hw.date, hw.desc, hw.sig⟩, ?_⟩
        intro j hj
        unfold contents
        rw [if_neg hj, if_neg hj]
  · obtain ⟨-, -, h1, h2⟩ := C45_accepted hw hm h
    exact ⟨h2, h1⟩

theorem save_im (fs : Bool) (s : St) : (save fs s).im = s.im := by
  unfold save; split <;> rfl

theorem wf_save {s : St} (h : WfSt s) (fs : Bool) : WfSt (save fs s) := by
  unfold save
  split
  · exact ⟨h.1, by intro n e; cases e; exact h.1⟩
  · exact h

theorem step_ok {sup : Supp} {cfg : Im} (hcfg : Wf cfg) {s : St} (h : WfSt s) (o : Op) (ho : OpOk o) :
    ∃ s', step sup cfg s o = some s' ∧ WfSt s' := by
  cases o with
  | write i n mem fs =>
    obtain ⟨im', e⟩ := C45_decides sup i n mem s.im ho
    have w := (wf_refused h.1 ho e).1
    unfold step
    dsimp only
    rw [e]
    simp only [Option.map_some]
    split
    · exact ⟨_, rfl, wf_save (s := ⟨im', s.nvm⟩) ⟨w, h.2⟩ fs⟩
    · exact ⟨_, rfl, w, h.2⟩
  | clear => exact ⟨_, rfl, wf_cleared, h.2⟩
  | location l => exact ⟨_, rfl, wf_location h.1 l, h.2⟩
  | job fs => exact ⟨_, rfl, wf_save h fs⟩
  | restart rd fs =>
    refine ⟨_, rfl, wf_save (s := ⟨loaded rd cfg s.nvm, s.nvm⟩) ⟨?_, h.2⟩ fs⟩
    show Wf (loaded rd cfg s.nvm)
    unfold loaded
    cases rd
    · exact hcfg
    · cases e : s.nvm with
      | none => exact hcfg
      | some n => exact h.2 n e

/-- No sequence of operations makes the device access memory outside the records, and afterwards every supported
record can be read, in full. -/
theorem C45_always {sup : Supp} {cfg : Im} (hcfg : Wf cfg) {s : St} (h : WfSt s) (ops : List Op)
    (ho : ∀ o ∈ ops, OpOk o) :
    ∃ s', run sup cfg s ops = some s' ∧ WfSt s' ∧
      ∀ i len, RecordLen sup i len → ∀ x : Wr, x.cap ≤ x.buf.length → x.pos + 6 + len < x.cap →
        ∃ b d, d.length = len ∧ writeAt x.buf x.pos (block i d) = some b ∧
          cmRead sup i s'.im x = some (true, { x with buf := b, pos := x.pos + 6 + len }) := by
  induction ops generalizing s with
  | nil =>
    refine ⟨s, rfl, h, ?_⟩
    intro i len hr x hc hx
    obtain ⟨b, w1, e1⟩ := read_sends h.1 hr hc hx
    exact ⟨b, _, sent_length h.1 hr, w1, e1⟩
  | cons o l ih =>
    obtain ⟨s1, e1, h1⟩ := step_ok (sup := sup) hcfg h o (ho o (by simp))
    obtain ⟨s2, e2, g⟩ := ih h1 (fun o h => ho o (List.mem_cons_of_mem _ h))
    exact ⟨s2, by unfold run; rw [e1]; exact e2, g⟩

/-- Operations that are not meant to change record `i`, and at which the file can be read. -/
def Leaves (i : U16) : Op → Prop
  | .write j _ _ _ => j ≠ i
  | .clear => False
  | .location _ => i ≠ 0xaff1
  | .job _ => True
  | .restart rd _ => rd = true

theorem leaves_step {sup : Supp} {cfg : Im} (hcfg : Wf cfg) {s s' : St} (h : WfSt s) (o : Op) (ho : OpOk o) {i : U16}
    {d : List Byte} (hd : contents i s.im = d ∧ ∃ n, s.nvm = some n ∧ contents i n = d) (hl : Leaves i o)
    (e : step sup cfg s o = some s') :
    contents i s'.im = d ∧ ∃ n, s'.nvm = some n ∧ contents i n = d := by
  have hsave : ∀ (fs : Bool) (t : St), (contents i t.im = d ∧ ∃ n, t.nvm = some n ∧ contents i n = d) →
      (contents i (save fs t).im = d ∧ ∃ n, (save fs t).nvm = some n ∧ contents i n = d) := by
    intro fs t ht
    unfold save
    split
    · exact ⟨ht.1, _, rfl, ht.1⟩
    · exact ht
  cases o with
  | write j n mem fs =>
    obtain ⟨im', e'⟩ := C45_decides sup j n mem s.im ho
    have w := (wf_refused h.1 ho e').2 i (fun h => hl h.symm)
    unfold step at e
    dsimp only at e
    rw [e'] at e
    have e := Option.some.inj e
    have base : contents i im' = d ∧ ∃ n, s.nvm = some n ∧ contents i n = d := ⟨by rw [w]; exact hd.1, hd.2⟩
    dsimp only at e
    split at e
    · subst e; exact hsave fs ⟨im', s.nvm⟩ base
    · subst e; exact base
  | clear => exact absurd hl id
  | location l =>
    cases e
    refine ⟨?_, hd.2⟩
    have hl : i ≠ 0xaff1 := hl
    rw [← hd.1]
    unfold contents
    rw [if_neg hl, if_neg hl]
    rfl
  | job fs => cases e; exact hsave fs s hd
  | restart rd fs =>
    have hl : rd = true := hl
    subst hl
    cases e
    obtain ⟨-, n, e1, e2⟩ := hd
    refine hsave fs ⟨loaded true cfg s.nvm, s.nvm⟩ ⟨?_, n, e1, e2⟩
    show contents i (s.nvm.getD cfg) = d
    rw [e1]
    exact e2

/-- An accepted write that could be saved stays: through writes of other records, accepted or not, saved or not, and
through any number of restarts. -/
theorem C45_stays {sup : Supp} {cfg : Im} (hcfg : Wf cfg) {s : St} (h : WfSt s) {i : U16} {len : Nat} {mem : List Byte}
    (hm : len ≤ mem.length) (hr : RecordLen sup i len) (ops : List Op) (ho : ∀ o ∈ ops, OpOk o ∧ Leaves i o) :
    ∃ s', run sup cfg s (.write i len mem true :: ops) = some s' ∧ contents i s'.im = mem.take len := by
  obtain ⟨im', e⟩ := C45_decides sup i len mem s.im hm
  rw [decide_eq_true hr] at e
  obtain ⟨-, ec, -, hw'⟩ := C45_accepted h.1 hm e
  have e1 : step sup cfg s (.write i len mem true) = some ⟨im', some im'⟩ := by
    unfold step
    dsimp only
    rw [e]
    rfl
  have base : ∀ (ops : List Op) (s : St), WfSt s → (∀ o ∈ ops, OpOk o ∧ Leaves i o) →
      (contents i s.im = mem.take len ∧ ∃ n, s.nvm = some n ∧ contents i n = mem.take len) →
      ∃ s', run sup cfg s ops = some s' ∧ contents i s'.im = mem.take len := by
    intro ops
    induction ops with
    | nil => intro s _ _ hd; exact ⟨s, rfl, hd.1⟩
    | cons o l ih =>
      intro s hs ho hd
      obtain ⟨s1, g1, hs1⟩ := step_ok (sup := sup) hcfg hs o (ho o (by simp)).1
      have hd1 := leaves_step hcfg hs o (ho o (by simp)).1 hd (ho o (by simp)).2 g1
      obtain ⟨s2, g2, r⟩ := ih s1 hs1 (fun o h => ho o (List.mem_cons_of_mem _ h)) hd1
      exact ⟨s2, by unfold run; rw [g1]; exact g2, r⟩
  obtain ⟨s', g, r⟩ := base ops ⟨im', some im'⟩ ⟨hw', by intro n e; cases e; exact hw'⟩ ho ⟨ec, im', rfl, ec⟩
  exact ⟨s', by unfold run; rw [e1]; exact g, r⟩

/-! ## Cases that meet the hypotheses -/

/-- A device that supports I&M 1 to 3. -/
def exSup : Supp := ⟨true, true, true, false⟩

example : WfSt ⟨cleared, none⟩ := ⟨wf_cleared, by intro n h; cases h⟩

example : cmWrite exSup 0xaff2 16 (List.replicate 20 0x31) cleared =
    some (true, { cleared with date := List.replicate 16 0x31 ++ [0] }) := by decide +kernel

example : ∃ im', cmWrite exSup 0xaff1 40 (List.replicate 40 0x31) cleared = some (false, im') ∧ im' ≠ cleared :=
  ⟨{ cleared with fn := List.replicate 32 0x31 ++ [0] }, by decide +kernel, by decide +kernel⟩

example : (∀ o ∈ [Op.write 0xaff3 54 (List.replicate 54 0x41) false, .location [0x41], .job true, .restart true true],
    OpOk o ∧ Leaves 0xaff2 o) ∧ RecordLen exSup 0xaff2 16 := by
  refine ⟨?_, by decide⟩
  intro o ho
  simp at ho
  rcases ho with rfl | rfl | rfl | rfl <;> simp [OpOk, Leaves]

end Verif.Im
