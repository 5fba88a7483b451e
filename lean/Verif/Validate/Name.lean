import Mathlib.Tactic.Tauto
import Mathlib.Data.List.Basic
/-!
# C35 Accepted station names are well-formed

Model of `pf_cmina_is_stationname_valid` (`src/device/pf_cmina.c`), an exact characterisation of the accepted
names in terms of the list of labels, and the comparison with the documented rules.
-/
namespace Verif.Validate

/-! ## Model -/

abbrev Byte := BitVec 8
abbrev hyphen : Byte := 45
abbrev dot : Byte := 46

/-- `isdigit` in the C locale. -/
def isDigit (c : Byte) : Bool := decide (48 ≤ c ∧ c ≤ 57)
/-- `islower` in the C locale. -/
def isLower (c : Byte) : Bool := decide (97 ≤ c ∧ c ≤ 122)

/-- The port name test of pf_cmina_is_stationname_valid (src/device/pf_cmina.c:1528-1637). `strncmp` may read up to five bytes
even if `len` is smaller; those reads have no effect on the result because of the length test, so
the model looks at the `len` bytes only. -/
def portTest (name : List Byte) : Bool :=
  if name.take 5 = [112, 111, 114, 116, 45] then
    if name.length = 8 ∨ name.length = 14 then
      decide (((name.drop 5).filter fun c => !isDigit c && !(decide (c = hyphen))).length = 0)
    else false
  else false

/-- The loop of pf_cmina_is_stationname_valid (src/device/pf_cmina.c:1528-1637). Result: `prev`, `n_labels` and `n_non_digit` at the
end, `none` for `return false`. The `uint16_t` counters are unbounded here; they stay below 242 because the
length is checked before the loop. -/
def scan : List Byte → (labelOffset : Nat) → (prev : Byte) → (nLabels nNonDigit : Nat) →
    Option (Byte × Nat × Nat)
  | [], _, prev, nl, nd => some (prev, nl, nd)
  | c :: cs, off, prev, nl, nd =>
    if c = dot then
      if prev = hyphen then none else scan cs 0 c (nl + 1) nd
    else if !(isLower c || isDigit c || decide (c = hyphen)) then none
    else if off = 0 ∧ c = hyphen then none
    else if 63 ≤ off then none
    else scan cs (off + 1) c nl (if isDigit c then nd else nd + 1)

/-- pf_cmina_is_stationname_valid (src/device/pf_cmina.c:1528-1637); the buffer pointer is not NULL
and `len` is the length of the list. -/
def stationnameValid (name : List Byte) : Bool :=
  if name.length = 0 then true
  else if name.head? = some hyphen ∨ 241 ≤ name.length then false
  else if portTest name then false
  else match scan name 0 97 1 0 with
    | none => false
    | some (prev, nl, nd) =>
      if nl = 4 ∧ nd = 0 then false
      else if prev = hyphen then false
      else true

/-! ## Specification -/

/-- The labels of a name: the maximal dot-free pieces. -/
def labels : List Byte → List (List Byte)
  | [] => [[]]
  | c :: cs =>
    if c = dot then [] :: labels cs
    else (c :: (labels cs).head!) :: (labels cs).tail

/-- Characters allowed in a label: `[a-z0-9-]`. -/
def LabelChar (c : Byte) : Prop := (97 ≤ c ∧ c ≤ 122) ∨ (48 ≤ c ∧ c ≤ 57) ∨ c = 45

/-- A label of at most 63 allowed characters that neither starts nor ends with a hyphen. -/
def LabelOk (l : List Byte) : Prop :=
  (∀ c ∈ l, LabelChar c) ∧ l.length ≤ 63 ∧ l.head? ≠ some 45 ∧ l.getLast? ≠ some 45

def Digit (c : Byte) : Prop := 48 ≤ c ∧ c ≤ 57

/-- What the code takes for a port name: `port-` followed by exactly 3 or 9 digits or hyphens, and nothing more. -/
def CodePortName (name : List Byte) : Prop :=
  ∃ rest, name = [112, 111, 114, 116, 45] ++ rest ∧ (rest.length = 3 ∨ rest.length = 9) ∧
    ∀ c ∈ rest, Digit c ∨ c = 45

/-- What the code takes for an IPv4 address: four labels of digits (possibly empty, of any length). -/
def CodeIpName (name : List Byte) : Prop :=
  (labels name).length = 4 ∧ ∀ l ∈ labels name, ∀ c ∈ l, Digit c

/-- A label `port-xyz` or `port-xyz-abcde`, all digits. -/
def PortLabel (l : List Byte) : Prop :=
  ∃ xyz, (∀ c ∈ xyz, Digit c) ∧ xyz.length = 3 ∧
    (l = [112, 111, 114, 116, 45] ++ xyz ∨
     ∃ abcde, (∀ c ∈ abcde, Digit c) ∧ abcde.length = 5 ∧
       l = [112, 111, 114, 116, 45] ++ xyz ++ [45] ++ abcde)

/-- The documented rules (comment above the C function, without the rule on repeated hyphens). The empty
name is allowed: it means that no name has been set. -/
def Documented (name : List Byte) : Prop :=
  name = [] ∨
  (name.length ≤ 240 ∧
   (∀ l ∈ labels name, LabelOk l ∧ l ≠ []) ∧
   ¬ ((labels name).length = 4 ∧ ∀ l ∈ labels name, l.length ≤ 3 ∧ ∀ c ∈ l, Digit c) ∧
   ∀ l, (labels name).head? = some l → ¬ PortLabel l)

/-! ## Proof -/

theorem labels_ne (cs : List Byte) : labels cs ≠ [] := by
  cases cs with
  | nil => simp [labels]
  | cons c cs => unfold labels; split <;> simp

/-- The labels are the dot-free pieces whose concatenation with dots is the name. -/
theorem labels_spec (cs : List Byte) :
    List.intercalate [dot] (labels cs) = cs ∧ ∀ l ∈ labels cs, dot ∉ l := by
  induction cs with
  | nil => simp [labels, List.intercalate]
  | cons c cs ih =>
    obtain ⟨h1, h2⟩ := ih
    unfold labels
    obtain ⟨l, ls, e⟩ := List.exists_cons_of_ne_nil (labels_ne cs)
    rw [e] at h1 h2
    split
    · rename_i h
      rw [e]
      refine ⟨?_, ?_⟩
      · rw [← h1, h]
        simp [List.intercalate]
      · intro x hx
        rcases List.mem_cons.1 hx with rfl | hx
        · simp
        · exact h2 x hx
    · rename_i h
      rw [e]
      refine ⟨?_, ?_⟩
      · conv_rhs => rw [← h1]
        cases ls <;> simp [List.intercalate]
      · intro x hx
        rcases List.mem_cons.1 hx with rfl | hx
        · have := h2 l (by simp)
          simp only [List.head!_cons, List.mem_cons, not_or]
          exact ⟨fun hh => h hh.symm, this⟩
        · exact h2 x (List.mem_cons_of_mem _ hx)

theorem labelChar_iff (c : Byte) : (!(isLower c || isDigit c || decide (c = hyphen))) = false ↔ LabelChar c := by
  unfold LabelChar isLower isDigit
  by_cases h1 : (97 : Byte) ≤ c ∧ c ≤ 122 <;> by_cases h2 : (48 : Byte) ≤ c ∧ c ≤ 57 <;>
    by_cases h3 : c = (45 : Byte) <;> simp only [h1, h2, h3] <;> decide

theorem digit_iff (c : Byte) : isDigit c = true ↔ Digit c := by simp [isDigit, Digit]

/-- Number of characters that are not digits. -/
def nonDigits (l : List Byte) : Nat := (l.filter fun c => !isDigit c).length

theorem nonDigits_zero (l : List Byte) : nonDigits l = 0 ↔ ∀ c ∈ l, Digit c := by
  simp [nonDigits, ← digit_iff]

/-- The decision after the loop. -/
def final : Option (Byte × Nat × Nat) → Bool
  | none => false
  | some (prev, nl, nd) => if nl = 4 ∧ nd = 0 then false else if prev = hyphen then false else true

theorem getD_last (c p : Byte) (l : List Byte) : ((c :: l).getLast?).getD p = l.getLast?.getD c := by
  cases l with
  | nil => rfl
  | cons a l => rw [List.getLast?_cons_cons]; simp [List.getLast?_cons]

theorem scan_iff (cs : List Byte) : ∀ (off : Nat) (prev : Byte) (nl nd : Nat), off ≤ 63 →
    (final (scan cs off prev nl nd) = true ↔
      ∀ l ls, labels cs = l :: ls →
        ((∀ c ∈ l, LabelChar c) ∧ off + l.length ≤ 63 ∧ (off = 0 → l.head? ≠ some 45) ∧ l.getLast?.getD prev ≠ 45) ∧
        (∀ x ∈ ls, LabelOk x) ∧
        ¬ (nl + ls.length = 4 ∧ nd = 0 ∧ ∀ x ∈ l :: ls, ∀ c ∈ x, Digit c)) := by
  induction cs with
  | nil =>
    intro off prev nl nd hoff
    simp only [scan, final, labels]
    constructor
    · intro h l ls e
      cases e
      split_ifs at h with h1 h2
      refine ⟨⟨by simp, by simpa using hoff, by simp, by simpa using h2⟩, by simp, ?_⟩
      rintro ⟨a, b, _⟩
      exact h1 ⟨by simpa using a, b⟩
    · intro h
      obtain ⟨⟨_, _, _, h1⟩, _, h2⟩ := h [] [] rfl
      rw [if_neg, if_neg]
      · simpa using h1
      · rintro ⟨a, b⟩; exact h2 ⟨by simpa using a, b, by simp⟩
  | cons c cs ih =>
    intro off prev nl nd hoff
    obtain ⟨l, ls, e⟩ := List.exists_cons_of_ne_nil (labels_ne cs)
    have hex : ∀ P : List Byte → List (List Byte) → Prop,
        (∀ l' ls', labels cs = l' :: ls' → P l' ls') ↔ P l ls := by
      intro P
      constructor
      · intro h; exact h l ls e
      · intro h l' ls' e'
        rw [e] at e'; cases e'; exact h
    unfold scan
    by_cases hdot : c = dot
    · have e' : labels (c :: cs) = [] :: l :: ls := by unfold labels; rw [if_pos hdot, e]
      rw [if_pos hdot]
      by_cases hp : prev = hyphen
      · rw [if_pos hp]
        simp only [final, Bool.false_eq_true, false_iff]
        intro h
        obtain ⟨⟨_, _, _, h1⟩, _⟩ := h [] (l :: ls) e'
        exact h1 (by simpa using hp)
      · rw [if_neg hp, ih 0 c (nl + 1) nd (by omega), hex]
        have hd : l.getLast?.getD c ≠ 45 ↔ l.getLast? ≠ some 45 := by
          cases hl : l.getLast? with
          | none => simp [hdot]
          | some x => simp
        constructor
        · rintro ⟨⟨h1, h2, h3, h4⟩, h5, h6⟩ l' ls' e''
          rw [e'] at e''
          cases e''
          refine ⟨⟨by simp, by simpa using hoff, by simp, by simpa using hp⟩, ?_, ?_⟩
          · intro x hx
            rcases List.mem_cons.1 hx with rfl | hx
            · exact ⟨h1, by omega, h3 rfl, hd.1 h4⟩
            · exact h5 x hx
          · rintro ⟨a, b, c'⟩
            exact h6 ⟨by simp only [List.length_cons] at a; omega, b, fun x hx => c' x (List.mem_cons_of_mem _ hx)⟩
        · intro h
          obtain ⟨_, h5, h6⟩ := h [] (l :: ls) e'
          obtain ⟨a1, a2, a3, a4⟩ := h5 l (by simp)
          refine ⟨⟨a1, by omega, fun _ => a3, hd.2 a4⟩, fun x hx => h5 x (by simp [hx]), ?_⟩
          rintro ⟨a, b, c'⟩
          refine h6 ⟨by simp only [List.length_cons]; omega, b, ?_⟩
          intro x hx
          rcases List.mem_cons.1 hx with rfl | hx
          · simp
          · exact c' x hx
    · have e' : labels (c :: cs) = (c :: l) :: ls := by unfold labels; rw [if_neg hdot, e]; rfl
      rw [if_neg hdot]
      have hex' : ∀ P : List Byte → List (List Byte) → Prop,
          (∀ l' ls', labels (c :: cs) = l' :: ls' → P l' ls') ↔ P (c :: l) ls := by
        intro P
        constructor
        · intro h; exact h _ _ e'
        · intro h l' ls' e''
          rw [e'] at e''; cases e''; exact h
      rw [hex']
      have hc := labelChar_iff c
      by_cases h1 : (!(isLower c || isDigit c || decide (c = hyphen))) = true
      · rw [if_pos h1]
        simp only [final, Bool.false_eq_true, false_iff]
        rintro ⟨⟨h2, _⟩, _⟩
        have := hc.2 (h2 c (by simp))
        rw [h1] at this; cases this
      · rw [if_neg h1]
        have hc' : LabelChar c := hc.1 (by simpa using h1)
        by_cases h2 : off = 0 ∧ c = hyphen
        · rw [if_pos h2]
          simp only [final, Bool.false_eq_true, false_iff]
          rintro ⟨⟨_, _, h3, _⟩, _⟩
          exact h3 h2.1 (by simp [h2.2])
        · rw [if_neg h2]
          by_cases h3 : 63 ≤ off
          · rw [if_pos h3]
            simp only [final, Bool.false_eq_true, false_iff]
            rintro ⟨⟨_, h4, _⟩, _⟩
            simp only [List.length_cons] at h4; omega
          · rw [if_neg h3, ih (off + 1) c nl _ (by omega), hex, getD_last]
            have hnd : (if isDigit c = true then nd else nd + 1) = 0 ↔ nd = 0 ∧ Digit c := by
              rw [← digit_iff]
              split_ifs with hh <;> simp [hh]
            rw [hnd]
            constructor
            · rintro ⟨⟨a1, a2, a3, a4⟩, a5, a6⟩
              refine ⟨⟨?_, by simp only [List.length_cons]; omega, ?_, a4⟩, a5, ?_⟩
              · intro x hx
                rcases List.mem_cons.1 hx with rfl | hx
                · exact hc'
                · exact a1 x hx
              · intro h0 hh
                exact h2 ⟨h0, by simpa using hh⟩
              · rintro ⟨b1, b2, b3⟩
                refine a6 ⟨b1, ⟨b2, b3 (c :: l) (by simp) c (by simp)⟩, ?_⟩
                intro x hx y hy
                rcases List.mem_cons.1 hx with rfl | hx
                · exact b3 (c :: x) (by simp) y (by simp [hy])
                · exact b3 x (by simp [hx]) y hy
            · rintro ⟨⟨a1, a2, a3, a4⟩, a5, a6⟩
              simp only [List.length_cons] at a2
              refine ⟨⟨fun x hx => a1 x (by simp [hx]), by omega, by omega, a4⟩, a5, ?_⟩
              rintro ⟨b1, ⟨b2, b4⟩, b3⟩
              refine a6 ⟨b1, b2, ?_⟩
              intro x hx y hy
              rcases List.mem_cons.1 hx with rfl | hx
              · rcases List.mem_cons.1 hy with rfl | hy
                · exact b4
                · exact b3 l (by simp) y hy
              · exact b3 x (by simp [hx]) y hy

theorem portTest_iff (name : List Byte) : portTest name = true ↔ CodePortName name := by
  unfold portTest CodePortName
  constructor
  · intro h
    split_ifs at h with h1 h2
    refine ⟨name.drop 5, ?_, ?_, ?_⟩
    · conv_lhs => rw [← List.take_append_drop 5 name]
      rw [h1]
    · rw [List.length_drop]; omega
    · intro c hc
      simp only [decide_eq_true_eq, List.length_eq_zero_iff, List.filter_eq_nil_iff] at h
      have := h c hc
      by_cases hd : isDigit c = true
      · exact Or.inl ((digit_iff c).1 hd)
      · right; simpa [hd] using this
  · rintro ⟨rest, rfl, hl, hc⟩
    have e1 : ([112, 111, 114, 116, 45] ++ rest : List Byte).take 5 = [112, 111, 114, 116, 45] := by simp
    have e2 : ([112, 111, 114, 116, 45] ++ rest : List Byte).drop 5 = rest := by simp
    rw [if_pos e1, if_pos (by simp only [List.length_append, List.length_cons, List.length_nil]; omega), e2]
    simp only [decide_eq_true_eq, List.length_eq_zero_iff, List.filter_eq_nil_iff]
    intro c hcm
    rcases hc c hcm with h | h
    · simp [(digit_iff c).2 h]
    · simp [h]

/-- **C35 (partial)** The exact set of accepted names, for all byte strings: the empty name, or at most 240
bytes, every label of at most 63 characters `[a-z0-9-]` not starting or ending with a hyphen, not
four all-digit labels and not `port-` with 3 or 9 digits or hyphens.

Partial because it differs from the documented rules; see `C35_documented_partial` for the names on which
they agree and the `C35_accepts_…`/`C35_rejects_…` theorems for the differences. -/
theorem C35_accepted_iff_partial (name : List Byte) :
    stationnameValid name = true ↔
      name = [] ∨ (name.length ≤ 240 ∧ (∀ l ∈ labels name, LabelOk l) ∧
        ¬ CodeIpName name ∧ ¬ CodePortName name) := by
  unfold stationnameValid
  by_cases h0 : name = []
  · subst h0; simp
  rw [if_neg (by simpa using h0)]
  simp only [h0, false_or]
  have hs := scan_iff name 0 97 1 0 (by omega)
  obtain ⟨l, ls, e⟩ := List.exists_cons_of_ne_nil (labels_ne name)
  have hfin : (match scan name 0 97 1 0 with
    | none => false
    | some (prev, nl, nd) => if nl = 4 ∧ nd = 0 then false else if prev = hyphen then false else true) =
      final (scan name 0 97 1 0) := by
    cases scan name 0 97 1 0 <;> rfl
  rw [hfin]
  have hd : l.getLast?.getD 97 ≠ (45 : Byte) ↔ l.getLast? ≠ some 45 := by
    cases hl : l.getLast? with
    | none => simp
    | some x => simp
  have hs' : final (scan name 0 97 1 0) = true ↔ (∀ x ∈ labels name, LabelOk x) ∧ ¬ CodeIpName name := by
    rw [hs]
    unfold CodeIpName
    rw [e]
    constructor
    · intro h
      obtain ⟨⟨a1, a2, a3, a4⟩, a5, a6⟩ := h l ls rfl
      refine ⟨?_, ?_⟩
      · intro x hx
        rcases List.mem_cons.1 hx with rfl | hx
        · exact ⟨a1, by omega, a3 rfl, hd.1 a4⟩
        · exact a5 x hx
      · rintro ⟨b1, b2⟩
        exact a6 ⟨by simp only [List.length_cons] at b1; omega, rfl, b2⟩
    · rintro ⟨h1, h2⟩ l' ls' e'
      cases e'
      obtain ⟨a1, a2, a3, a4⟩ := h1 l (by simp)
      refine ⟨⟨a1, by omega, fun _ => a3, hd.2 a4⟩, fun x hx => h1 x (by simp [hx]), ?_⟩
      rintro ⟨b1, _, b2⟩
      exact h2 ⟨by simp only [List.length_cons]; omega, b2⟩
  have hhead : name.head? = some hyphen → ¬ ∀ x ∈ labels name, LabelOk x := by
    intro hh h
    cases name with
    | nil => simp at hh
    | cons c cs =>
      have hc : c = hyphen := by simpa using hh
      have : labels (c :: cs) = (c :: (labels cs).head!) :: (labels cs).tail := by
        conv_lhs => unfold labels
        rw [if_neg]; rw [hc]; decide
      have := (h (c :: (labels cs).head!) (by rw [this]; simp)).2.2.1
      exact this (by simp [hc])
  have hp := portTest_iff name
  by_cases h1 : name.head? = some hyphen ∨ 241 ≤ name.length
  · rw [if_pos h1]
    simp only [Bool.false_eq_true, false_iff]
    rintro ⟨a, b, _⟩
    rcases h1 with h1 | h1
    · exact hhead h1 b
    · omega
  · rw [if_neg h1]
    push Not at h1
    by_cases h2 : portTest name = true
    · rw [if_pos h2]
      simp only [Bool.false_eq_true, false_iff]
      rintro ⟨_, _, _, h⟩
      exact h (hp.1 h2)
    · rw [if_neg h2, hs']
      have : ¬ CodePortName name := fun h => h2 (hp.2 h)
      constructor
      · rintro ⟨a, b⟩; exact ⟨by omega, a, b, this⟩
      · rintro ⟨_, a, b, _⟩; exact ⟨a, b⟩

theorem labels_single (name : List Byte) (h : dot ∉ name) : labels name = [name] := by
  induction name with
  | nil => rfl
  | cons c cs ih =>
    unfold labels
    rw [if_neg (fun hh => h (by simp [hh])), ih (fun hh => h (List.mem_cons_of_mem _ hh))]
    rfl

/-- The first label starts with the same characters as the name. -/
theorem head_prefix (name : List Byte) (l : List Byte) (h : (labels name).head? = some l) :
    ∃ rest, name = l ++ rest := by
  induction name generalizing l with
  | nil => simp [labels] at h; exact ⟨[], by simp [← h]⟩
  | cons c cs ih =>
    unfold labels at h
    obtain ⟨l', ls, e⟩ := List.exists_cons_of_ne_nil (labels_ne cs)
    split_ifs at h with hc
    · simp at h; exact ⟨c :: cs, by simp [← h]⟩
    · rw [e] at h
      simp only [List.head!_cons, List.head?_cons, Option.some.injEq] at h
      obtain ⟨rest, hr⟩ := ih l' (by rw [e]; rfl)
      exact ⟨rest, by rw [← h, hr]; simp⟩

/-- **C35 (partial)** On names without empty labels, without four all-digit labels one of which is longer
than three digits, and not starting with `port-`, the code decides exactly the documented rules. -/
theorem C35_documented_partial (name : List Byte)
    (hne : name = [] ∨ [] ∉ labels name)
    (hip : CodeIpName name → ∀ l ∈ labels name, l.length ≤ 3)
    (hport : ¬ [112, 111, 114, 116, 45] <+: name) :
    stationnameValid name = true ↔ Documented name := by
  rw [C35_accepted_iff_partial]
  unfold Documented
  constructor
  · rintro (h | ⟨h1, h2, h3, h4⟩)
    · exact Or.inl h
    by_cases h0 : name = []
    · exact Or.inl h0
    right
    refine ⟨h1, fun l hl => ⟨h2 l hl, fun hh => ?_⟩, ?_, ?_⟩
    · rcases hne with h | h
      · exact h0 h
      · rw [hh] at hl; exact h hl
    · rintro ⟨a, b⟩
      exact h3 ⟨a, fun l hl => (b l hl).2⟩
    · rintro l hl ⟨xyz, _, _, h | ⟨abcde, _, _, h⟩⟩
      all_goals
        obtain ⟨rest, hr⟩ := head_prefix name l hl
        apply hport
        rw [hr, h]
        simp
  · rintro (h | ⟨h1, h2, h3, h4⟩)
    · exact Or.inl h
    right
    refine ⟨h1, fun l hl => (h2 l hl).1, ?_, ?_⟩
    · intro h
      exact h3 ⟨h.1, fun l hl => ⟨hip h l hl, h.2 l hl⟩⟩
    · rintro ⟨rest, h, _⟩
      exact hport ⟨rest, h.symm⟩

/-- **C35 (finding)** `a..b` has an empty label and is accepted. -/
theorem C35_accepts_empty_label :
    stationnameValid [97, 46, 46, 98] = true ∧ [] ∈ labels [97, 46, 46, 98] := by decide

/-- **C35 (finding)** `port-001.a` is accepted although its first label is a port name. -/
theorem C35_accepts_port_label :
    stationnameValid [112, 111, 114, 116, 45, 48, 48, 49, 46, 97] = true ∧
    (labels [112, 111, 114, 116, 45, 48, 48, 49, 46, 97]).head? = some [112, 111, 114, 116, 45, 48, 48, 49] ∧
    PortLabel [112, 111, 114, 116, 45, 48, 48, 49] := by
  refine ⟨by decide, by decide, [48, 48, 49], by unfold Digit; decide, rfl, Or.inl rfl⟩

/-- **C35 (finding)** `port-1-2` satisfies the documented rules and is rejected. -/
theorem C35_rejects_documented :
    stationnameValid [112, 111, 114, 116, 45, 49, 45, 50] = false ∧
    Documented [112, 111, 114, 116, 45, 49, 45, 50] := by
  have e : labels [112, 111, 114, 116, 45, 49, 45, 50] = [[112, 111, 114, 116, 45, 49, 45, 50]] :=
    labels_single _ (by decide)
  refine ⟨by decide, Or.inr ⟨by decide, ?_, ?_, ?_⟩⟩
  · rw [e]; unfold LabelOk LabelChar; decide
  · rw [e]; rintro ⟨h, _⟩; simp at h
  · rw [e]
    intro l hl
    simp only [List.head?_cons, Option.some.injEq] at hl
    subst hl
    rintro ⟨xyz, hd, hl, h | ⟨abcde, _, hl', h⟩⟩
    · have : xyz = [49, 45, 50] := by
        have := congrArg (List.drop 5) h; simpa using this.symm
      subst this
      have := hd 45 (by simp)
      unfold Digit at this; exact absurd this (by decide)
    · have := congrArg List.length h
      simp [hl, hl'] at this

/-- A concrete name that meets the hypotheses of `C35_documented_partial` and is accepted: `rt-labs.dev-1`. -/
theorem C35_example :
    let n : List Byte := [114, 116, 45, 108, 97, 98, 115, 46, 100, 101, 118, 45, 49]
    stationnameValid n = true ∧ [] ∉ labels n ∧ (labels n).length = 2 ∧ ¬ [112, 111, 114, 116, 45] <+: n ∧
    stationnameValid ([45] ++ n) = false ∧ stationnameValid (n ++ [45]) = false ∧
    stationnameValid ([49, 46, 50, 46, 51, 46, 52] : List Byte) = false := by decide

end Verif.Validate
