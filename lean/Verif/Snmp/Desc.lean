import Verif.Snmp.Vars
import Verif.Epm.Lemmas
/-! C125: the text that identifies the device, for LLDP, SNMP and the endpoint mapper. -/
set_option linter.unusedVariables false
set_option linter.unusedSimpArgs false

namespace Verif.Snmp
open Verif.Wire
open Verif.Epm (Dev fmtStr fmtNum fmtStr_length fmtNum_length fmtNum_is)
open Verif.Epm.Spec (DevOk IsText IsNumber)

/-! ## Model -/

/-- The text written by pf_lldp_get_system_description (src/common/pf_lldp.c:926-949), before it is cut off; `serial`: the
I&M serial number without its terminator. -/
def descText (d : Dev) (serial : List Byte) : List Byte :=
  fmtStr 25 d.productName ++ [0x20] ++ fmtStr 20 d.orderId ++ [0x20] ++ fmtStr 16 serial ++ [0x20] ++
    fmtNum 5 d.hwRev.toNat ++ [0x20] ++ [d.swPrefix] ++ fmtNum 3 d.swFun.toNat ++ fmtNum 3 d.swFix.toNat ++ fmtNum 3 d.swInt.toNat

/-- pf_lldp_get_system_description (src/common/pf_lldp.c:926-949): the array (of 241 characters) and the result. -/
def sysDesc (dst : List Byte) (d : Dev) (serial : List Byte) : List Byte × Nat := (sprint 241 dst (descText d serial), (descText d serial).length)

/-- pf_snmp_get_system_description (src/common/pf_snmp.c:473-481). -/
def getDesc (dst : List Byte) (d : Dev) (serial : List Byte) : List Byte := (sysDesc dst d serial).1

/-- The case PF_LLDP_NAME_OF_DEVICE_MODE_STANDARD of pf_lldp_get_chassis_id (src/common/pf_lldp.c:584-630): array and length.
`none`: the zero is put outside the array. -/
def chassisText (dst : List Byte) (d : Dev) (serial : List Byte) : Option (List Byte × Nat) :=
  (writeAt (sysDesc dst d serial).1 (sysDesc dst d serial).2 [0]).map fun a => (a, (sysDesc dst d serial).2)

/-! ## Specification -/

/-- `n` characters from position `i` on. -/
def col (t : List Byte) (i n : Nat) : List Byte := (t.drop i).take n

/-- The columns of the description. -/
structure Describes (t : List Byte) (d : Dev) (serial : List Byte) : Prop where
  length : t.length = 80
  product : IsText (col t 0 25) d.productName
  blank1 : col t 25 1 = [0x20]
  order : IsText (col t 26 20) d.orderId
  blank2 : col t 46 1 = [0x20]
  serial : IsText (col t 47 16) serial
  blank3 : col t 63 1 = [0x20]
  hw : IsNumber (col t 64 5) d.hwRev.toNat
  blank4 : col t 69 1 = [0x20]
  letter : col t 70 1 = [d.swPrefix]
  func : IsNumber (col t 71 3) d.swFun.toNat
  fix : IsNumber (col t 74 3) d.swFix.toNat
  internal : IsNumber (col t 77 3) d.swInt.toNat

/-- Texts as the configuration and I&M 0 can have them, without zero. -/
structure Named (d : Dev) (serial : List Byte) : Prop where
  product : d.productName.length ≤ 25 ∧ ∀ b ∈ d.productName, b ≠ 0
  order : d.orderId.length ≤ 20 ∧ ∀ b ∈ d.orderId, b ≠ 0
  serial : serial.length ≤ 16 ∧ ∀ b ∈ serial, b ≠ 0
  letter : d.swPrefix ≠ 0

/-! ## Lemmas -/

theorem col_at {t a b c : List Byte} (e : t = a ++ b ++ c) {i n : Nat} (hi : a.length = i) (hn : b.length = n) : col t i n = b := by
  subst e
  unfold col
  rw [List.append_assoc, List.drop_left' hi, List.take_left' hn]

theorem hw_len (d : Dev) : (fmtNum 5 d.hwRev.toNat).length = 5 := fmtNum_length (by omega) (by have := d.hwRev.isLt; omega)
theorem byte_len (b : Byte) : (fmtNum 3 b.toNat).length = 3 := fmtNum_length (by omega) (by have := b.isLt; omega)
theorem byte_is (b : Byte) (w : Nat) : IsNumber (fmtNum w b.toNat) b.toNat := fmtNum_is (by have := b.isLt; omega)
theorem hw_is (d : Dev) : IsNumber (fmtNum 5 d.hwRev.toNat) d.hwRev.toNat := fmtNum_is (by have := d.hwRev.isLt; omega)

theorem descText_length {d : Dev} {serial : List Byte} (h : Named d serial) : (descText d serial).length = 80 := by
  unfold descText
  simp only [List.length_append, fmtStr_length h.product.1, fmtStr_length h.order.1, fmtStr_length h.serial.1, hw_len, byte_len,
    List.length_cons, List.length_nil]

theorem mem_fmtStr {w : Nat} {s : List Byte} (h : ∀ b ∈ s, b ≠ 0) : ∀ b ∈ fmtStr w s, b ≠ 0 := by
  intro b hb
  rcases List.mem_append.mp hb with hb | hb
  · exact h b hb
  · rw [(List.mem_replicate.mp hb).2]; decide

theorem mem_fmtNum {w n : Nat} : ∀ b ∈ fmtNum w n, b ≠ 0 := by
  intro b hb
  rcases List.mem_append.mp hb with e | e
  · rw [(List.mem_replicate.mp e).2]; decide
  · intro h0
    have := Epm.digits_mem 10 n b e
    rw [h0] at this
    exact absurd this.1 (by decide)

theorem blank_ne : ∀ b ∈ ([0x20] : List Byte), b ≠ 0 := by decide

theorem all_append {a b : List Byte} (h1 : ∀ x ∈ a, x ≠ 0) (h2 : ∀ x ∈ b, x ≠ 0) : ∀ x ∈ a ++ b, x ≠ 0 := by
  intro x hx
  rcases List.mem_append.mp hx with h | h
  · exact h1 x h
  · exact h2 x h

theorem descText_ne {d : Dev} {serial : List Byte} (h : Named d serial) : ∀ b ∈ descText d serial, b ≠ 0 := by
  unfold descText
  have hl : ∀ b ∈ ([d.swPrefix] : List Byte), b ≠ 0 := by
    intro b hb
    simp only [List.mem_cons, List.not_mem_nil, or_false] at hb
    rw [hb]
    exact h.letter
  exact all_append (all_append (all_append (all_append (all_append (all_append (all_append (all_append (all_append (all_append
    (all_append (mem_fmtStr h.product.2) blank_ne) (mem_fmtStr h.order.2)) blank_ne) (mem_fmtStr h.serial.2)) blank_ne)
    mem_fmtNum) blank_ne) hl) mem_fmtNum) mem_fmtNum) mem_fmtNum

/-- The end of both texts. -/
def tailText (d : Dev) : List Byte :=
  fmtNum 5 d.hwRev.toNat ++ [0x20] ++ [d.swPrefix] ++ fmtNum 3 d.swFun.toNat ++ fmtNum 3 d.swFix.toNat ++ fmtNum 3 d.swInt.toNat

theorem text_desc {d : Dev} {serial : List Byte} (h : Named d serial) {dst : List Byte} (hd : dst.length = 241) :
    text (getDesc dst d serial) = descText d serial := by
  unfold getDesc sysDesc
  exact (sprint_text (n := 240) hd (descText_ne h) (by rw [descText_length h]; omega)).2

theorem describes {d : Dev} {serial : List Byte} (h : Named d serial) : Describes (descText d serial) d serial := by
  have l1 := fmtStr_length h.product.1
  have l2 := fmtStr_length h.order.1
  have l7 := fmtStr_length h.serial.1
  have l3 := hw_len d
  have l4 := byte_len d.swFun
  have l5 := byte_len d.swFix
  have l6 := byte_len d.swInt
  generalize ht : descText d serial = t
  have e : t = fmtStr 25 d.productName ++ ([0x20] ++ (fmtStr 20 d.orderId ++ ([0x20] ++ (fmtStr 16 serial ++ ([0x20] ++ tailText d))))) := by
    rw [← ht]; simp [descText, tailText]
  have c1 : col t 0 25 = fmtStr 25 d.productName := col_at (a := []) (by rw [e]; rfl) rfl l1
  have c2 : col t 25 1 = [0x20] :=
    col_at (a := fmtStr 25 d.productName) (by rw [e, List.append_assoc]) l1 rfl
  have c3 : col t 26 20 = fmtStr 20 d.orderId :=
    col_at (a := fmtStr 25 d.productName ++ [0x20]) (c := [0x20] ++ (fmtStr 16 serial ++ ([0x20] ++ tailText d))) (by rw [e]; simp only [List.append_assoc]) (by simp [l1]) l2
  have c4 : col t 46 1 = [0x20] :=
    col_at (a := fmtStr 25 d.productName ++ [0x20] ++ fmtStr 20 d.orderId) (c := fmtStr 16 serial ++ ([0x20] ++ tailText d)) (by rw [e]; simp only [List.append_assoc]) (by simp [l1, l2]) rfl
  have c5 : col t 47 16 = fmtStr 16 serial :=
    col_at (a := fmtStr 25 d.productName ++ [0x20] ++ fmtStr 20 d.orderId ++ [0x20]) (c := [0x20] ++ tailText d) (by rw [e]; simp only [List.append_assoc]) (by simp [l1, l2]) l7
  have c6 : col t 63 1 = [0x20] :=
    col_at (a := fmtStr 25 d.productName ++ [0x20] ++ fmtStr 20 d.orderId ++ [0x20] ++ fmtStr 16 serial) (c := tailText d) (by rw [e]; simp only [List.append_assoc])
      (by simp [l1, l2, l7]) rfl
  generalize hp : fmtStr 25 d.productName ++ [0x20] ++ fmtStr 20 d.orderId ++ [0x20] ++ fmtStr 16 serial ++ [0x20] = pre
  have e' : t = pre ++ tailText d := by rw [e, ← hp]; simp only [List.append_assoc]
  have lp : pre.length = 64 := by rw [← hp]; simp [l1, l2, l7]
  have d1 : col t 64 5 = fmtNum 5 d.hwRev.toNat :=
    col_at (a := pre) (c := [0x20] ++ ([d.swPrefix] ++ (fmtNum 3 d.swFun.toNat ++ (fmtNum 3 d.swFix.toNat ++ fmtNum 3 d.swInt.toNat))))
      (by rw [e']; simp [tailText]) lp l3
  have d2 : col t 69 1 = [0x20] :=
    col_at (a := pre ++ fmtNum 5 d.hwRev.toNat)
      (c := [d.swPrefix] ++ (fmtNum 3 d.swFun.toNat ++ (fmtNum 3 d.swFix.toNat ++ fmtNum 3 d.swInt.toNat)))
      (by rw [e']; simp [tailText]) (by simp [lp, l3]) rfl
  have d3 : col t 70 1 = [d.swPrefix] :=
    col_at (a := pre ++ fmtNum 5 d.hwRev.toNat ++ [0x20])
      (c := fmtNum 3 d.swFun.toNat ++ (fmtNum 3 d.swFix.toNat ++ fmtNum 3 d.swInt.toNat))
      (by rw [e']; simp [tailText]) (by simp [lp, l3]) rfl
  have d4 : col t 71 3 = fmtNum 3 d.swFun.toNat :=
    col_at (a := pre ++ fmtNum 5 d.hwRev.toNat ++ [0x20] ++ [d.swPrefix])
      (c := fmtNum 3 d.swFix.toNat ++ fmtNum 3 d.swInt.toNat)
      (by rw [e']; simp [tailText]) (by simp [lp, l3]) l4
  have d5 : col t 74 3 = fmtNum 3 d.swFix.toNat :=
    col_at (a := pre ++ fmtNum 5 d.hwRev.toNat ++ [0x20] ++ [d.swPrefix] ++ fmtNum 3 d.swFun.toNat)
      (c := fmtNum 3 d.swInt.toNat)
      (by rw [e']; simp [tailText]) (by simp [lp, l3, l4]) l5
  have d6 : col t 77 3 = fmtNum 3 d.swInt.toNat :=
    col_at (a := pre ++ fmtNum 5 d.hwRev.toNat ++ [0x20] ++ [d.swPrefix] ++ fmtNum 3 d.swFun.toNat ++ fmtNum 3 d.swFix.toNat)
      (c := [])
      (by rw [e']; simp [tailText]) (by simp [lp, l3, l4, l5]) l6
  exact ⟨by rw [← ht]; exact descText_length h, by rw [c1]; exact ⟨_, rfl⟩, c2, by rw [c3]; exact ⟨_, rfl⟩, c4, by rw [c5]; exact ⟨_, rfl⟩, c6,
    by rw [d1]; exact hw_is d, d2, d3, by rw [d4]; exact byte_is _ _, by rw [d5]; exact byte_is _ _, by rw [d6]; exact byte_is _ _⟩

/-! ## C125 -/

/-- C125 (system description): 80 characters in fixed columns, nothing is cut off. -/
theorem C125_description {d : Dev} {serial : List Byte} (h : Named d serial) {dst : List Byte} (hd : dst.length = 241) :
    Describes (text (getDesc dst d serial)) d serial := by
  rw [text_desc h hd]
  exact describes h

/-- C125 (LLDP): as chassis id the same text is sent, with its own length, and stays inside the array. -/
theorem C125_chassis {d : Dev} {serial : List Byte} (h : Named d serial) {dst dst' : List Byte} (hd : dst.length = 241)
    (hd' : dst'.length = 241) :
    ∃ a, chassisText dst d serial = some (a, 80) ∧ a.length = 241 ∧ a.take 80 = text (getDesc dst' d serial) ∧ a[80]? = some 0 := by
  have l := descText_length h
  have es : (sysDesc dst d serial).1 = descText d serial ++ [0] ++ dst.drop 81 := by
    unfold sysDesc sprint
    rw [List.take_of_length_le (by omega), l]
  have hs : (sysDesc dst d serial).1.length = 241 := by
    rw [es]
    simp only [List.length_append, List.length_drop, l, hd, List.length_cons, List.length_nil]
  have e2 : (sysDesc dst d serial).2 = 80 := l
  have ew : writeAt (sysDesc dst d serial).1 80 [0] = some (descText d serial ++ [0] ++ dst.drop 81) := by
    rw [writeAt_eq_some (by rw [hs]; exact (by decide : 80 + 1 ≤ 241)), es]
    generalize dst.drop 81 = tl
    generalize descText d serial = t at l
    have k1 : List.take 80 (t ++ [0] ++ tl) = t := by rw [List.append_assoc, List.take_left' l]
    have k2 : List.drop (80 + [(0 : Byte)].length) (t ++ [0] ++ tl) = tl := List.drop_left' (by simp [l])
    rw [k1, k2]
  unfold chassisText
  rw [e2, ew, text_desc h hd']
  refine ⟨_, rfl, by rw [← es]; exact hs, ?_, ?_⟩
  · rw [List.append_assoc, List.take_left' l]
  · rw [List.append_assoc, List.getElem?_append_right (by omega), l]
    rfl

/-- C125 (endpoint mapper): the annotation of the endpoint mapper is the description without the serial number. -/
theorem C125_annotation {d : Dev} {serial : List Byte} (h : Named d serial) (hm : DevOk d) {dst : List Byte} (hd : dst.length = 241) :
    Epm.annotation d = col (text (getDesc dst d serial)) 0 47 ++ col (text (getDesc dst d serial)) 64 16 ++ [0] := by
  have l1 := fmtStr_length h.product.1
  have l2 := fmtStr_length h.order.1
  have l7 := fmtStr_length h.serial.1
  rw [text_desc h hd, Epm.annotation_eq hm]
  have c1 : col (descText d serial) 0 47 = fmtStr 25 d.productName ++ [0x20] ++ fmtStr 20 d.orderId ++ [0x20] :=
    col_at (a := []) (c := fmtStr 16 serial ++ [0x20] ++ tailText d) (by simp [descText, tailText]) rfl (by simp [l1, l2])
  have c2 : col (descText d serial) 64 16 = tailText d :=
    col_at (a := fmtStr 25 d.productName ++ [0x20] ++ fmtStr 20 d.orderId ++ [0x20] ++ fmtStr 16 serial ++ [0x20]) (c := [])
      (by simp [descText, tailText]) (by simp [l1, l2, l7]) (by simp [tailText, hw_len, byte_len])
  rw [c1, c2]
  simp [Epm.text, tailText]

theorem filled_inj {t a b : List Byte} (h1 : IsText t a) (h2 : IsText t b) (ha : a.getLast? ≠ some 0x20)
    (hb : b.getLast? ≠ some 0x20) : a = b := by
  obtain ⟨n, e1⟩ := h1
  obtain ⟨m, e2⟩ := h2
  have key : ∀ (n : Nat) (a b : List Byte) (m : Nat), a ++ List.replicate n 0x20 = b ++ List.replicate m 0x20 →
      a.getLast? ≠ some 0x20 → n ≤ m → a = b := by
    intro n
    induction n with
    | zero =>
      intro a b m e hl _
      cases m with
      | zero => simpa using e
      | succ m =>
        exfalso
        apply hl
        simp only [List.replicate_zero, List.append_nil] at e
        rw [e, List.replicate_succ', ← List.append_assoc, List.getLast?_append]
        rfl
    | succ n ih =>
      intro a b m e hl hm
      cases m with
      | zero => omega
      | succ m =>
        rw [List.replicate_succ', List.replicate_succ', ← List.append_assoc, ← List.append_assoc] at e
        exact ih a b m (List.append_inj_left' e rfl) hl (by omega)
  rcases Nat.le_total n m with c | c
  · exact key n a b m (e1.symm.trans e2) ha c
  · exact (key m b a n (e2.symm.trans e1) hb c).symm

theorem digits_blank {k : Nat} {ds : List Byte} {n : Nat} (h : ∀ b ∈ ds, 48 ≤ b.toNat ∧ b.toNat ≤ 57) :
    (List.replicate k (0x20 : Byte) ++ ds).filter (fun b => b != 0x20) = ds := by
  rw [List.filter_append, List.filter_eq_nil_iff.mpr (by intro b hb; simp [(List.mem_replicate.mp hb).2]), List.nil_append,
    List.filter_eq_self]
  intro b hb
  have := (h b hb).1
  simp only [bne_iff_ne, ne_eq]
  intro e
  rw [e] at this
  exact absurd this (by decide)

theorem number_inj {t : List Byte} {a b : Nat} (h1 : IsNumber t a) (h2 : IsNumber t b) : a = b := by
  obtain ⟨k, ds, e1, -, m1, v1, -⟩ := h1
  obtain ⟨j, es, e2, -, m2, v2, -⟩ := h2
  have := digits_blank (n := 0) (k := k) m1
  rw [← e1, e2, digits_blank (n := 0) m2] at this
  rw [← v1, ← v2, this]

/-- C125 (distinct devices): two devices with names that do not end in a blank have the same description only if they have
the same identity. -/
theorem C125_distinct {c d : Dev} {s r : List Byte} (hc : Named c s) (hd : Named d r) {dst : List Byte} (h1 : dst.length = 241)
    (e : text (getDesc dst c s) = text (getDesc dst d r))
    (bc : c.productName.getLast? ≠ some 0x20 ∧ c.orderId.getLast? ≠ some 0x20 ∧ s.getLast? ≠ some 0x20)
    (bd : d.productName.getLast? ≠ some 0x20 ∧ d.orderId.getLast? ≠ some 0x20 ∧ r.getLast? ≠ some 0x20) :
    c.productName = d.productName ∧ c.orderId = d.orderId ∧ s = r ∧ c.hwRev = d.hwRev ∧ c.swPrefix = d.swPrefix ∧ c.swFun = d.swFun ∧
      c.swFix = d.swFix ∧ c.swInt = d.swInt := by
  have s1 := C125_description hc h1
  have s2 := C125_description hd h1
  rw [e] at s1
  exact ⟨filled_inj s1.product s2.product bc.1 bd.1, filled_inj s1.order s2.order bc.2.1 bd.2.1,
    filled_inj s1.serial s2.serial bc.2.2 bd.2.2, BitVec.eq_of_toNat_eq (number_inj s1.hw s2.hw),
    (List.cons_eq_cons.mp (s1.letter.symm.trans s2.letter)).1, BitVec.eq_of_toNat_eq (number_inj s1.func s2.func),
    BitVec.eq_of_toNat_eq (number_inj s1.fix s2.fix), BitVec.eq_of_toNat_eq (number_inj s1.internal s2.internal)⟩

/-- "P-Net", "123", hardware 3, software V1.2.30; the rest of the configuration does not matter. -/
def exDev : Dev := ⟨[80, 45, 78, 101, 116], [49, 50, 51], 3, 86, 1, 2, 30, 0, 1, 0, 2, [2, 0, 0, 0, 0, 1], 0, false⟩

theorem exDev_named : Named exDev [48, 48, 55] := ⟨by decide, by decide, by decide, by decide⟩

theorem exDev_ok : DevOk exDev := ⟨by decide, by decide, by decide⟩

example : descText exDev [48, 48, 55] = [80, 45, 78, 101, 116] ++ List.replicate 21 0x20 ++ [49, 50, 51] ++ List.replicate 18 0x20 ++
    [48, 48, 55] ++ List.replicate 18 0x20 ++ [51, 0x20, 86, 0x20, 0x20, 49, 0x20, 0x20, 50, 0x20, 51, 48] := by decide +kernel

end Verif.Snmp
