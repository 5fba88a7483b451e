import Mathlib.Data.List.Nodup
import Mathlib.Data.List.Perm.Subperm

/-!
Fixed-size tables with an `in_use` flag per entry and a key per entry, as used for APIs, slots and
subslots in src/device/pf_cmdev.c.  Generic lemmas only, no model of particular code.
-/
set_option linter.unusedSimpArgs false
set_option linter.unusedVariables false

namespace Verif.Device

/-- Change the first entry that satisfies `p`. -/
def modFirst {α : Type} (p : α → Bool) (f : α → α) : List α → List α
  | [] => []
  | a :: l => if p a then f a :: l else a :: modFirst p f l

variable {α : Type}

theorem modFirst_length (p : α → Bool) (f : α → α) (l : List α) :
    (modFirst p f l).length = l.length := by
  induction l with
  | nil => rfl
  | cons a l ih => by_cases h : p a <;> simp [modFirst, h, ih]

/-- No entry satisfies `p`: nothing changes. -/
theorem modFirst_none (p : α → Bool) (f : α → α) (l : List α) (h : l.find? p = none) :
    modFirst p f l = l := by
  induction l with
  | nil => rfl
  | cons a l ih =>
    rw [List.find?_cons] at h
    cases hp : p a with
    | true => simp [hp] at h
    | false => simp only [hp] at h; simp [modFirst, hp, ih h]

/-- The change keeps what `p` looks at: looking up gives the changed entry. -/
theorem find_modFirst_same (p : α → Bool) (f : α → α) (l : List α)
    (hf : ∀ a ∈ l, p a = true → p (f a) = true) :
    (modFirst p f l).find? p = (l.find? p).map f := by
  induction l with
  | nil => rfl
  | cons a l ih =>
    cases hp : p a with
    | true => simp [modFirst, hp, hf a (by simp) hp]
    | false =>
      simp only [modFirst, hp, Bool.false_eq_true, if_false, List.find?_cons]
      exact ih (fun b hb => hf b (by simp [hb]))

/-- A change of an entry that `q` does not see, before or after, is invisible to `q`. -/
theorem find_modFirst_other (p q : α → Bool) (f : α → α) (l : List α)
    (h : ∀ a ∈ l, p a = true → q a = false ∧ q (f a) = false) :
    (modFirst p f l).find? q = l.find? q := by
  induction l with
  | nil => rfl
  | cons a l ih =>
    cases hp : p a with
    | true =>
      obtain ⟨h1, h2⟩ := h a (by simp) hp
      simp [modFirst, hp, h1, h2]
    | false =>
      simp only [modFirst, hp, Bool.false_eq_true, if_false, List.find?_cons]
      rw [ih (fun b hb => h b (by simp [hb]))]

/-- A change that makes some entry satisfy `q` when none did: it is found. -/
theorem find_modFirst_new (p q : α → Bool) (f : α → α) (l : List α) (e : α)
    (hq : l.find? q = none) (he : l.find? p = some e) (hqe : q (f e) = true) :
    (modFirst p f l).find? q = some (f e) := by
  induction l with
  | nil => simp at he
  | cons a l ih =>
    rw [List.find?_cons] at he hq
    cases hp : p a with
    | true =>
      simp only [hp] at he
      obtain rfl : a = e := by simpa using he
      simp [modFirst, hp, hqe]
    | false =>
      simp only [hp] at he
      cases hqa : q a with
      | true => simp [hqa] at hq
      | false =>
        simp only [hqa] at hq
        simp only [modFirst, hp, Bool.false_eq_true, if_false, List.find?_cons, hqa]
        exact ih hq he

/-- Which entries exist after a change. -/
theorem mem_modFirst (p : α → Bool) (f : α → α) (l : List α) (b : α)
    (hb : b ∈ modFirst p f l) : b ∈ l ∨ ∃ a, l.find? p = some a ∧ b = f a := by
  induction l with
  | nil => simp [modFirst] at hb
  | cons a l ih =>
    cases hp : p a with
    | true =>
      simp only [modFirst, hp, if_true, List.mem_cons] at hb
      rcases hb with rfl | hb
      · right; exact ⟨a, by simp [hp], rfl⟩
      · left; simp [hb]
    | false =>
      simp only [modFirst, hp, Bool.false_eq_true, if_false, List.mem_cons] at hb
      rcases hb with rfl | hb
      · left; simp
      · rcases ih hb with h | ⟨c, hc, rfl⟩
        · left; simp [h]
        · right; exact ⟨c, by simp [hp, hc], rfl⟩

/-- Every entry that does not satisfy `p` is kept. -/
theorem mem_modFirst_of_not (p : α → Bool) (f : α → α) (l : List α) (b : α)
    (hb : b ∈ l) (hp : p b = false) : b ∈ modFirst p f l := by
  induction l with
  | nil => simp at hb
  | cons a l ih =>
    rcases List.mem_cons.1 hb with rfl | hb'
    · simp [modFirst, hp]
    · by_cases ha : p a <;> simp [modFirst, ha, hb', ih hb']

/-- The keys of the entries in use, in table order. -/
def keysOf (u : α → Bool) (k : α → Nat) (l : List α) : List Nat := (l.filter u).map k

theorem keys_modFirst_same (u : α → Bool) (k : α → Nat) (p : α → Bool) (f : α → α) (l : List α)
    (hf : ∀ a ∈ l, p a = true → u (f a) = u a ∧ k (f a) = k a) :
    keysOf u k (modFirst p f l) = keysOf u k l := by
  unfold keysOf
  induction l with
  | nil => rfl
  | cons a l ih =>
    have ih' := ih (fun b hb => hf b (by simp [hb]))
    cases hp : p a with
    | true =>
      obtain ⟨h1, h2⟩ := hf a (by simp) hp
      simp only [modFirst, hp, if_true]
      cases hu : u a <;> simp [List.filter_cons, h1, hu, h2]
    | false =>
      simp only [modFirst, hp, Bool.false_eq_true, if_false]
      cases hu : u a <;> simp [List.filter_cons, hu, ih']

theorem keys_modFirst_drop (u : α → Bool) (k : α → Nat) (p : α → Bool) (f : α → α) (l : List α)
    (hf : ∀ a ∈ l, p a = true → u (f a) = false) :
    (keysOf u k (modFirst p f l)).Sublist (keysOf u k l) := by
  unfold keysOf
  induction l with
  | nil => simp [modFirst]
  | cons a l ih =>
    have ih' := ih (fun b hb => hf b (by simp [hb]))
    cases hp : p a with
    | true =>
      have h1 := hf a (by simp) hp
      simp only [modFirst, hp, if_true]
      cases hu : u a <;> simp [List.filter_cons, h1, hu]
    | false =>
      simp only [modFirst, hp, Bool.false_eq_true, if_false]
      cases hu : u a <;> simp [List.filter_cons, hu, ih']

/-- A new key is added once. -/
theorem keys_modFirst_new (u : α → Bool) (k : α → Nat) (f : α → α) (l : List α) (n : Nat)
    (hf : ∀ a, u (f a) = true ∧ k (f a) = n) (hn : n ∉ keysOf u k l)
    (hd : (keysOf u k l).Nodup) :
    (keysOf u k (modFirst (fun a => !u a) f l)).Nodup ∧
      ∀ m ∈ keysOf u k (modFirst (fun a => !u a) f l), m = n ∨ m ∈ keysOf u k l := by
  unfold keysOf at *
  induction l with
  | nil => simp [modFirst]
  | cons a l ih =>
    cases hu : u a with
    | false =>
      obtain ⟨h1, h2⟩ := hf a
      simp only [List.filter_cons, hu, Bool.false_eq_true, if_false] at hn hd
      simp only [modFirst, hu, Bool.not_false, if_true, List.filter_cons, h1, List.map_cons, h2,
        List.nodup_cons, Bool.false_eq_true, if_false]
      refine ⟨⟨hn, hd⟩, ?_⟩
      intro m hm
      simpa using hm
    | true =>
      simp only [List.filter_cons, hu, if_true, List.map_cons, List.nodup_cons,
        List.mem_cons, not_or] at hn hd
      obtain ⟨i1, i2⟩ := ih hn.2 hd.2
      simp only [modFirst, hu, Bool.not_true, Bool.false_eq_true, if_false, List.filter_cons,
        if_true, List.map_cons, List.nodup_cons]
      refine ⟨⟨?_, i1⟩, ?_⟩
      · intro hm
        rcases i2 _ hm with h | h
        · exact hn.1 h.symm
        · exact hd.1 h
      · intro m hm
        rcases List.mem_cons.1 hm with rfl | hm
        · right; simp
        · rcases i2 m hm with h | h
          · left; exact h
          · right; simp [h]

theorem mem_keysOf (u : α → Bool) (k : α → Nat) (l : List α) (n : Nat) :
    n ∈ keysOf u k l ↔ ∃ e, l.find? (fun a => u a && k a == n) = some e := by
  unfold keysOf
  constructor
  · intro h
    obtain ⟨e, he, rfl⟩ := List.mem_map.1 h
    obtain ⟨h1, h2⟩ := List.mem_filter.1 he
    cases hf : l.find? (fun a => u a && k a == k e) with
    | some x => exact ⟨x, rfl⟩
    | none =>
      rw [List.find?_eq_none] at hf
      exact absurd (by simp [h2]) (hf e h1)
  · rintro ⟨e, he⟩
    have h1 := List.mem_of_find?_eq_some he
    have h2 := List.find?_some he
    simp only [Bool.and_eq_true, beq_iff_eq] at h2
    exact List.mem_map.2 ⟨e, List.mem_filter.2 ⟨h1, h2.1⟩, h2.2⟩

/-- With unique keys, taking the entry with key `n` out of use removes exactly `n`. -/
theorem find_modFirst_gone (u : α → Bool) (k : α → Nat) (f : α → α) (l : List α) (n : Nat)
    (hf : ∀ a, u (f a) = false) (hd : (keysOf u k l).Nodup) :
    (modFirst (fun a => u a && k a == n) f l).find? (fun a => u a && k a == n) = none := by
  unfold keysOf at hd
  induction l with
  | nil => rfl
  | cons a l ih =>
    cases hp : (u a && k a == n) with
    | false =>
      simp only [modFirst, hp, Bool.false_eq_true, if_false, List.find?_cons]
      refine ih ?_
      cases hu : u a
      · simpa [List.filter_cons, hu] using hd
      · simp only [List.filter_cons, hu, if_true, List.map_cons, List.nodup_cons] at hd
        exact hd.2
    | true =>
      simp only [Bool.and_eq_true, beq_iff_eq] at hp
      simp only [List.filter_cons, hp.1, if_true, List.map_cons, List.nodup_cons] at hd
      simp only [modFirst, hp.1, hp.2, Bool.true_and, BEq.rfl, if_true, List.find?_cons, hf a,
        Bool.false_and, List.find?_eq_none]
      intro b hb hq
      simp only [Bool.and_eq_true, beq_iff_eq] at hq
      exact hd.1 (List.mem_map.2 ⟨b, List.mem_filter.2 ⟨hb, hq.1⟩, by rw [hq.2, hp.2]⟩)

/-- A table with unique keys has no free entry iff as many different keys as it has entries are
present. -/
theorem full_iff (u : α → Bool) (k : α → Nat) (l : List α) (hd : (keysOf u k l).Nodup) :
    l.find? (fun a => !u a) = none ↔
      ∃ L : List Nat, L.Nodup ∧ L.length = l.length ∧ ∀ n ∈ L, n ∈ keysOf u k l := by
  constructor
  · intro h
    have hall : l.filter u = l := by
      rw [List.filter_eq_self]
      intro a ha
      rw [List.find?_eq_none] at h
      simpa using h a ha
    refine ⟨keysOf u k l, hd, ?_, fun n hn => hn⟩
    unfold keysOf
    rw [hall, List.length_map]
  · rintro ⟨L, h1, h2, h3⟩
    have hle : L.length ≤ (keysOf u k l).length := (List.Nodup.subperm h1 h3).length_le
    unfold keysOf at hle
    rw [List.length_map, h2] at hle
    have hlen : (l.filter u).length = l.length :=
      Nat.le_antisymm (List.length_filter_le u l) hle
    rw [List.length_filter_eq_length_iff] at hlen
    rw [List.find?_eq_none]
    intro a ha
    simp [hlen a ha]

end Verif.Device
