import Verif.Rx.Spec
import Verif.Connect.Props
import Verif.Device.Table
import Mathlib.Data.List.Perm.Subperm

set_option linter.unusedSimpArgs false
set_option linter.unusedVariables false

namespace Verif.Rx

open Verif.Connect (Cr Ar crAt)
open Verif.Device (modFirst)
open Verif.Eth (live)

/-! ## Endpoints -/

theorem any_find {α : Type} (p : α → Bool) (l : List α) : l.find? p = none ↔ ∀ e ∈ l, p e = false := by
  simp [List.find?_eq_none]

theorem count_modFirst {α : Type} [BEq α] [LawfulBEq α] [DecidableEq α] (p : α → Bool) (f : α → α) (l : List α) (x : α) :
    (l.find? p = none ∧ modFirst p f l = l) ∨
    ∃ e, l.find? p = some e ∧
      (modFirst p f l).count x + (if e = x then 1 else 0) = l.count x + (if f e = x then 1 else 0) := by
  induction l with
  | nil => left; exact ⟨rfl, rfl⟩
  | cons a l ih =>
    unfold modFirst
    by_cases h : p a = true
    · right
      refine ⟨a, by simp [h], ?_⟩
      rw [if_pos h, List.count_cons, List.count_cons]
      simp only [beq_iff_eq]
      omega
    · rw [if_neg h]
      rcases ih with ⟨h1, h2⟩ | ⟨e, h1, h2⟩
      · left; exact ⟨by simp [h, h1], by rw [h2]⟩
      · right
        refine ⟨e, by simp [h, h1], ?_⟩
        rw [List.count_cons, List.count_cons]
        omega

theorem find_modFirst_ne {α : Type} (p q : α → Bool) (f : α → α) (l : List α)
    (h : ∀ e ∈ l, p e = true → q e = false ∧ q (f e) = false) :
    (modFirst p f l).find? q = l.find? q := by
  induction l with
  | nil => rfl
  | cons a l ih =>
    unfold modFirst
    by_cases hp : p a = true
    · rw [if_pos hp]
      have := h a (by simp) hp
      simp [List.find?_cons, this.1, this.2]
    · rw [if_neg hp, List.find?_cons, List.find?_cons, ih (fun e he => h e (by simp [he]))]

theorem find_modFirst_eq {α : Type} (p : α → Bool) (f : α → α) (l : List α) (e : α)
    (h : l.find? p = some e) (hf : p (f e) = true) : (modFirst p f l).find? p = some (f e) := by
  induction l with
  | nil => cases h
  | cons a l ih =>
    unfold modFirst
    by_cases hp : p a = true
    · rw [if_pos hp]
      simp [hp] at h
      subst h
      simp [hf]
    · rw [if_neg hp]
      simp [hp] at h ⊢
      exact ih h

theorem mem_modFirst' {α : Type} (p : α → Bool) (f : α → α) (l : List α) (x : α) (hx : x ∈ modFirst p f l) :
    x ∈ l ∨ ∃ e, l.find? p = some e ∧ x = f e := by
  induction l with
  | nil => cases hx
  | cons a l ih =>
    unfold modFirst at hx
    by_cases hp : p a = true
    · rw [if_pos hp] at hx
      rcases List.mem_cons.1 hx with h | h
      · exact Or.inr ⟨a, by simp [hp], h⟩
      · exact Or.inl (by simp [h])
    · rw [if_neg hp] at hx
      rcases List.mem_cons.1 hx with h | h
      · exact Or.inl (by simp [h])
      · rcases ih h with h | ⟨e, h1, h2⟩
        · exact Or.inl (by simp [h])
        · exact Or.inr ⟨e, by simp [hp, h1], h2⟩

/-- The endpoint table agrees with the running connections. -/
structure EpInv (n : Nat) (started : Nat → Bool) (eps : Eps) : Prop where
  len : eps.length = n
  owned : ∀ e ∈ eps, e.2 = true → e.1 ≠ none
  cnt : ∀ i, eps.count (some i, true) = if started i = true then 1 else 0
  first : ∀ i, started i = true → eps.find? (fun e => e.1 == some i) = some (some i, true)

theorem EpInv.any {n : Nat} {started : Nat → Bool} {eps : Eps} (h : EpInv n started eps) :
    eps.any (·.2) = true ↔ ∃ i, started i = true := by
  rw [List.any_eq_true]
  constructor
  · rintro ⟨⟨o, b⟩, he, hb⟩
    simp only at hb
    subst hb
    cases o with
    | none => exact absurd rfl (h.owned _ he rfl)
    | some i =>
      refine ⟨i, ?_⟩
      have := h.cnt i
      have hc := List.count_pos_iff.2 he
      by_cases hs : started i = true
      · exact hs
      · rw [if_neg hs] at this; omega
  · rintro ⟨i, hi⟩
    exact ⟨_, List.mem_of_find?_eq_some (h.first i hi), rfl⟩

theorem alloc_inv {n : Nat} {started : Nat → Bool} {eps : Eps} (h : EpInv n started eps) {i : Nat}
    (hi : started i = false) : EpInv n started (allocEp eps i) := by
  refine ⟨by unfold allocEp; rw [Device.modFirst_length]; exact h.len, ?_, ?_, ?_⟩
  · intro e he hb
    rcases mem_modFirst' _ _ _ _ he with h1 | ⟨e', h1, rfl⟩
    · exact h.owned e h1 hb
    · simp
  · intro j
    rw [← h.cnt j]
    rcases count_modFirst (fun e : Option Nat × Bool => e.1.isNone) (fun _ => (some i, false)) eps (some j, true) with ⟨h1, h2⟩ | ⟨e, h1, h2⟩
    · unfold allocEp; rw [h2]
    · have := List.find?_some h1
      rw [if_neg (by rintro rfl; simp at this), if_neg (by simp)] at h2
      exact h2
  · intro j hj
    rw [← h.first j hj]
    unfold allocEp
    refine find_modFirst_ne _ _ _ _ fun e he hp => ?_
    have hij : i ≠ j := by rintro rfl; rw [hi] at hj; cases hj
    refine ⟨?_, by simp [hij]⟩
    cases h1 : e.1 with
    | none => rfl
    | some _ => simp [h1] at hp

theorem setActive_true_inv {n : Nat} {started : Nat → Bool} {eps : Eps} (h : EpInv n started eps) {i : Nat}
    (hi : started i = false) (hex : ∃ e ∈ eps, e.1 = some i) :
    EpInv n (fun j => if j = i then true else started j) (setActive eps i true) := by
  obtain ⟨e0, he0, he0'⟩ := hex
  have hf : ∃ e, eps.find? (fun e => e.1 == some i) = some e := by
    cases hh : eps.find? (fun e => e.1 == some i) with
    | some e => exact ⟨e, rfl⟩
    | none => have := (any_find _ _).1 hh e0 he0; simp [he0'] at this
  obtain ⟨e, hf⟩ := hf
  have he : e.1 = some i := by simpa using List.find?_some hf
  have hmem := List.mem_of_find?_eq_some hf
  have hc := h.cnt i
  rw [if_neg (by simp [hi])] at hc
  have hne : e ≠ (some i, true) := by
    rintro rfl
    exact (List.count_eq_zero.1 hc) hmem
  refine ⟨by unfold setActive; rw [Device.modFirst_length]; exact h.len, ?_, ?_, ?_⟩
  · intro x hx hb
    rcases mem_modFirst' _ _ _ _ hx with h1 | ⟨e', h1, rfl⟩
    · exact h.owned x h1 hb
    · rw [hf] at h1; cases h1; simp [he]
  · intro j
    rcases count_modFirst (fun e : Option Nat × Bool => e.1 == some i) (fun e => (e.1, true)) eps (some j, true) with ⟨h1, h2⟩ | ⟨e', h1, h2⟩
    · rw [hf] at h1; cases h1
    · rw [hf] at h1; cases h1
      unfold setActive
      have hj := h.cnt j
      by_cases hji : j = i
      · subst hji
        rw [if_neg hne, if_pos (by rw [he])] at h2
        simp; omega
      · rw [if_neg (by rintro rfl; simp at he; exact hji he), if_neg (by rw [he]; simp; exact fun h => hji h.symm)] at h2
        simp only [if_neg hji]; omega
  · intro j hj
    by_cases hji : j = i
    · subst hji
      unfold setActive
      rw [find_modFirst_eq _ _ _ _ hf (by simp [he])]
      rw [he]
    · rw [if_neg hji] at hj
      rw [← h.first j hj]
      refine find_modFirst_ne _ _ _ _ fun x _ hp => ?_
      have : x.1 = some i := by simpa using hp
      simp [this, Ne.symm hji]

theorem setActive_false_inv {n : Nat} {started : Nat → Bool} {eps : Eps} (h : EpInv n started eps) {i : Nat}
    (hi : started i = true) :
    EpInv n (fun j => if j = i then false else started j) (setActive eps i false) := by
  have hf := h.first i hi
  refine ⟨by unfold setActive; rw [Device.modFirst_length]; exact h.len, ?_, ?_, ?_⟩
  · intro x hx hb
    rcases mem_modFirst' _ _ _ _ hx with h1 | ⟨e', h1, rfl⟩
    · exact h.owned x h1 hb
    · simp at hb
  · intro j
    rcases count_modFirst (fun e : Option Nat × Bool => e.1 == some i) (fun e => (e.1, false)) eps (some j, true) with ⟨h1, h2⟩ | ⟨e', h1, h2⟩
    · rw [hf] at h1; cases h1
    · rw [hf] at h1; cases h1
      unfold setActive
      have hj := h.cnt j
      by_cases hji : j = i
      · subst hji
        rw [if_pos rfl, if_neg (by simp)] at h2
        rw [if_pos hi] at hj
        simp; omega
      · rw [if_neg (by simp; exact fun h => hji h.symm), if_neg (by simp)] at h2
        simp only [if_neg hji]; omega
  · intro j hj
    by_cases hji : j = i
    · rw [if_pos hji] at hj; cases hj
    · rw [if_neg hji] at hj
      rw [← h.first j hj]
      refine find_modFirst_ne _ _ _ _ fun x _ hp => ?_
      have : x.1 = some i := by simpa using hp
      simp [this, Ne.symm hji]

theorem free_inv {n : Nat} {started : Nat → Bool} {eps : Eps} (h : EpInv n started eps) {i : Nat}
    (hi : started i = false) : EpInv n started (freeEp eps i) := by
  refine ⟨by unfold freeEp; rw [Device.modFirst_length]; exact h.len, ?_, ?_, ?_⟩
  · intro x hx hb
    rcases mem_modFirst' _ _ _ _ hx with h1 | ⟨e', h1, rfl⟩
    · exact h.owned x h1 hb
    · simp at hb
  · intro j
    rw [← h.cnt j]
    rcases count_modFirst (fun e : Option Nat × Bool => e.1 == some i) (fun _ => (none, false)) eps (some j, true) with ⟨h1, h2⟩ | ⟨e, h1, h2⟩
    · unfold freeEp; rw [h2]
    · have he : e.1 = some i := by simpa using List.find?_some h1
      have hne : e ≠ (some j, true) := by
        rintro rfl
        simp at he
        subst he
        have := h.cnt j
        rw [if_neg (by simp [hi])] at this
        exact (List.count_eq_zero.1 this) (List.mem_of_find?_eq_some h1)
      rw [if_neg hne, if_neg (by simp)] at h2
      exact h2
  · intro j hj
    have hji : i ≠ j := by rintro rfl; rw [hi] at hj; cases hj
    rw [← h.first j hj]
    refine find_modFirst_ne _ _ _ _ fun x _ hp => ?_
    have : x.1 = some i := by simpa using hp
    simp [this, hji]

theorem alloc_has {eps : Eps} {i : Nat} (h : ∃ e ∈ eps, e.1 = none) : ∃ e ∈ allocEp eps i, e.1 = some i := by
  obtain ⟨e, he, h1⟩ := h
  refine ⟨(some i, false), ?_, rfl⟩
  unfold allocEp
  induction eps with
  | nil => cases he
  | cons a l ih =>
    unfold modFirst
    split
    · simp
    · rename_i hn
      rcases List.mem_cons.1 he with h2 | h2
      · subst h2; simp [h1] at hn
      · exact List.mem_cons_of_mem _ (ih h2)

/-! ## The frame ID map -/

abbrev keys (m : Eth.Map Handler) : List (BitVec 16) := (live m).map (·.1)

theorem add_spec {m : Eth.Map Handler} {f : BitVec 16} {h : Handler} (hn : (keys m).Nodup) (hf : f ∉ keys m)
    (hl : (live m).length < m.length) :
    (keys (Eth.add m f h)).Nodup ∧ (∀ p, p ∈ live (Eth.add m f h) ↔ p = (f, h) ∨ p ∈ live m) ∧
    (live (Eth.add m f h)).length = (live m).length + 1 ∧ (Eth.add m f h).length = m.length := by
  have hp := Eth.live_add m f h hl
  refine ⟨?_, ?_, by rw [hp.length_eq]; rfl, Eth.add_length _ _ _⟩
  · rw [keys, (hp.map _).nodup_iff, List.map_cons, List.nodup_cons]
    exact ⟨hf, hn⟩
  · intro p
    rw [hp.mem_iff]
    simp

/-- Entering a list of handlers. -/
def addAll (L : List (BitVec 16 × Handler)) (m : Eth.Map Handler) : Eth.Map Handler :=
  L.foldl (fun m p => Eth.add m p.1 p.2) m

theorem addAll_spec (L : List (BitVec 16 × Handler)) : ∀ (m : Eth.Map Handler), (keys m).Nodup →
    (L.map (·.1)).Nodup → (∀ f ∈ L.map (·.1), f ∉ keys m) → (live m).length + L.length ≤ m.length →
    (keys (addAll L m)).Nodup ∧ (∀ p, p ∈ live (addAll L m) ↔ p ∈ L ∨ p ∈ live m) ∧
    (addAll L m).length = m.length := by
  induction L with
  | nil => intro m h1 _ _ _; exact ⟨h1, by simp [addAll], rfl⟩
  | cons p L ih =>
    intro m h1 h2 h3 h4
    simp only [List.map_cons, List.nodup_cons, List.length_cons] at h2 h3 h4
    obtain ⟨a1, a2, a3, a4⟩ := add_spec (h := p.2) h1 (h3 p.1 (by simp)) (by omega)
    have hk : ∀ f, f ∈ keys (Eth.add m p.1 p.2) ↔ f = p.1 ∨ f ∈ keys m := by
      intro f
      simp only [keys, List.mem_map, a2]
      constructor
      · rintro ⟨x, hx | hx, rfl⟩
        · left; rw [hx]
        · right; exact ⟨x, hx, rfl⟩
      · rintro (rfl | ⟨x, hx, rfl⟩)
        · exact ⟨p, Or.inl rfl, rfl⟩
        · exact ⟨x, Or.inr hx, rfl⟩
    obtain ⟨b1, b2, b3⟩ := ih (Eth.add m p.1 p.2) a1 h2.2 (by
      intro f hf hm
      rcases (hk f).1 hm with rfl | hm
      · exact h2.1 hf
      · exact h3 f (by simp [hf]) hm) (by omega)
    refine ⟨b1, ?_, by rw [← a4]; exact b3⟩
    intro q
    have := b2 q
    rw [a2] at this
    show q ∈ live (addAll L (Eth.add m p.1 p.2)) ↔ _
    rw [this, List.mem_cons]
    constructor
    · rintro (h | h | h)
      · exact Or.inl (Or.inr h)
      · exact Or.inl (Or.inl h)
      · exact Or.inr h
    · rintro ((h | h) | h)
      · exact Or.inr (Or.inl h)
      · exact Or.inl h
      · exact Or.inr (Or.inr h)

/-- Removing a list of frame IDs. -/
def removeAll (L : List (BitVec 16)) (m : Eth.Map Handler) : Eth.Map Handler := L.foldl Eth.remove m

theorem removeAll_spec (L : List (BitVec 16)) : ∀ (m : Eth.Map Handler), (keys m).Nodup →
    (keys (removeAll L m)).Nodup ∧ (∀ p, p ∈ live (removeAll L m) ↔ p ∈ live m ∧ p.1 ∉ L) ∧
    (removeAll L m).length = m.length := by
  induction L with
  | nil => intro m h; exact ⟨h, by simp [removeAll], rfl⟩
  | cons f L ih =>
    intro m h
    have e := Eth.live_remove m f h
    obtain ⟨b1, b2, b3⟩ := ih (Eth.remove m f) (by
      rw [keys, e]; exact h.sublist (List.filter_sublist.map _))
    refine ⟨b1, ?_, by rw [← Eth.remove_length m f]; exact b3⟩
    intro p
    show p ∈ live (removeAll L (Eth.remove m f)) ↔ _
    rw [b2, e, List.mem_filter]
    simp only [List.mem_cons, not_or, decide_not, Bool.not_eq_eq_eq_not, Bool.not_true, decide_eq_false_iff_not, ne_eq]
    constructor
    · rintro ⟨⟨h1, h2⟩, h3⟩; exact ⟨h1, h2, h3⟩
    · rintro ⟨h1, h2, h3⟩; exact ⟨⟨h1, h2⟩, h3⟩

/-- The handlers of the output CRs of a connection. -/
def outsFrom (i : Nat) : Nat → List Cr → List (BitVec 16 × Handler)
  | _, [] => []
  | k, c :: cs => if c.type = 2 then (c.frameId, .output i k) :: outsFrom i (k + 1) cs else outsFrom i (k + 1) cs

theorem mem_outsFrom (i : Nat) (cs : List Cr) : ∀ (k : Nat) (p : BitVec 16 × Handler), p ∈ outsFrom i k cs ↔
    ∃ (j : Nat) (c : Cr), cs[j]? = some c ∧ c.type = 2 ∧ p = (c.frameId, .output i (k + j)) := by
  induction cs with
  | nil => intro k p; simp [outsFrom]
  | cons c cs ih =>
    intro k p
    have key : (∃ (j : Nat) (d : Cr), (c :: cs)[j]? = some d ∧ d.type = 2 ∧ p = (d.frameId, Handler.output i (k + j))) ↔
        (c.type = 2 ∧ p = (c.frameId, .output i k)) ∨ p ∈ outsFrom i (k + 1) cs := by
      rw [ih]
      constructor
      · rintro ⟨j, d, h1, h2, h3⟩
        cases j with
        | zero => simp at h1; subst h1; exact Or.inl ⟨h2, h3⟩
        | succ j =>
          exact Or.inr ⟨j, d, by simpa using h1, h2, by rw [h3, show k + (j + 1) = k + 1 + j by omega]⟩
      · rintro (⟨h1, h2⟩ | ⟨j, d, h1, h2, h3⟩)
        · exact ⟨0, c, rfl, h1, h2⟩
        · exact ⟨j + 1, d, by simpa using h1, h2, by rw [h3, show k + (j + 1) = k + 1 + j by omega]⟩
    rw [key, outsFrom]
    split
    · rename_i h; simp [h]
    · rename_i h; simp [h]

theorem startCrs_eq (i : Nat) (cs : List Cr) : ∀ (k : Nat) (m : Eth.Map Handler),
    startCrs i k cs m = addAll (outsFrom i k cs) m := by
  induction cs with
  | nil => intro k m; rfl
  | cons c cs ih =>
    intro k m
    unfold startCrs outsFrom
    rw [ih]
    split <;> rfl

theorem closeCrs_eq (cs : List Cr) : ∀ (m : Eth.Map Handler),
    closeCrs cs m = removeAll ((cs.filter fun c => c.type = 2).map Cr.frameId) m := by
  induction cs with
  | nil => intro m; rfl
  | cons c cs ih =>
    intro m
    unfold closeCrs
    rw [ih, List.filter_cons]
    split
    · rename_i h; rw [if_pos (by simpa using h)]; rfl
    · rename_i h; rw [if_neg (by simpa using h)]

theorem addAll_append (L L' : List (BitVec 16 × Handler)) (m : Eth.Map Handler) :
    addAll (L ++ L') m = addAll L' (addAll L m) := by unfold addAll; rw [List.foldl_append]

theorem removeAll_append (L L' : List (BitVec 16)) (m : Eth.Map Handler) :
    removeAll (L ++ L') m = removeAll L' (removeAll L m) := by unfold removeAll; rw [List.foldl_append]

theorem alarmActivate_eq (m : Eth.Map Handler) (eps : Eps) :
    alarmActivate m eps = addAll (if eps.any (·.2) then [] else alarmIds) m := by
  unfold alarmActivate; split <;> rfl

theorem alarmClose_eq (m : Eth.Map Handler) (eps : Eps) :
    alarmClose m eps = removeAll (if eps.any (·.2) then [] else [0xFC01, 0xFE01]) m := by
  unfold alarmClose; split <;> rfl

end Verif.Rx
