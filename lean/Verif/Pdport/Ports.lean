import Verif.Pdport.Model
/-! The list of ports: iterators, subslots, loops over all ports. -/
set_option linter.unusedSimpArgs false
set_option linter.unusedVariables false

namespace Verif.Pdport

open Verif.Wire

/-- The results of `k` calls. -/
def Iter.calls : Nat → Iter → List Nat
  | 0, _ => []
  | k + 1, it => it.getNext.1 :: Iter.calls k it.getNext.2

def Iter.cyclicCalls : Nat → Iter → List Nat
  | 0, _ => []
  | k + 1, it => it.cyclic.1 :: Iter.cyclicCalls k it.cyclic.2

theorem calls_end (k n : Nat) : Iter.calls k ⟨0, n⟩ = List.replicate k 0 := by
  induction k with
  | zero => rfl
  | succ k ih =>
    unfold Iter.calls
    have : Iter.getNext ⟨0, n⟩ = (0, ⟨0, n⟩) := by simp [Iter.getNext]
    rw [this, List.replicate_succ]
    exact congrArg _ ih

theorem calls_from (n : Nat) : ∀ (k a : Nat), 1 ≤ a → a ≤ n →
    Iter.calls (n - a + 1 + k) ⟨a, n⟩ = List.range' a (n - a + 1) ++ List.replicate k 0 := by
  intro k a h1 h2
  obtain ⟨m, hm⟩ : ∃ m, n - a = m := ⟨_, rfl⟩
  rw [hm]
  induction m generalizing a with
  | zero =>
    have : a = n := by omega
    subst this
    rw [show 0 + 1 + k = k + 1 by omega]
    unfold Iter.calls
    have e : Iter.getNext ⟨a, a⟩ = (a, ⟨0, a⟩) := by simp [Iter.getNext]
    rw [e]
    simp only [calls_end]
    simp [List.range']
  | succ m ih =>
    rw [show m + 1 + 1 + k = (m + 1 + k) + 1 by omega]
    unfold Iter.calls
    have e : Iter.getNext ⟨a, n⟩ = (a, ⟨a + 1, n⟩) := by
      unfold Iter.getNext
      rw [if_neg (by show ¬(a = n ∨ a = 0); omega), if_neg (by show ¬a > n; omega)]
    rw [e]
    simp only
    rw [ih (a + 1) (by omega) (by omega) (by omega)]
    rfl

/-- The function of `f` on all ports, in order. -/
def mapAll (f : Port → Option Port) : List Port → Option (List Port)
  | [] => some []
  | p :: l => (f p).bind fun p' => (mapAll f l).map fun l' => p' :: l'

theorem forPorts_end (f : Port → Option Port) (fuel n : Nat) (l : List Port) : forPorts f (fuel + 1) ⟨0, n⟩ l = some l := by
  simp [forPorts, Iter.getNext]

theorem forPorts_eq (f : Port → Option Port) (n : Nat) : ∀ (b a : List Port) (fuel : Nat), a.length + b.length = n → b ≠ [] →
    b.length + 1 ≤ fuel → forPorts f fuel ⟨a.length + 1, n⟩ (a ++ b) = (mapAll f b).map fun x => a ++ x := by
  intro b
  induction b with
  | nil => intro a fuel _ h; exact absurd rfl h
  | cons p b ih =>
    intro a fuel hn _ hf
    obtain ⟨g, rfl⟩ : ∃ g, fuel = g + 1 := ⟨fuel - 1, by simp at hf; omega⟩
    simp only [List.length_cons] at hn hf
    unfold forPorts mapAll
    have hget : (a ++ p :: b)[a.length + 1 - 1]? = some p := by
      rw [Nat.add_sub_cancel, List.getElem?_append_right (Nat.le_refl _), Nat.sub_self]; rfl
    have hset : ∀ p', (a ++ p :: b).set (a.length + 1 - 1) p' = a ++ p' :: b := by
      intro p'
      rw [Nat.add_sub_cancel, List.set_append_right _ _ (Nat.le_refl _), Nat.sub_self]; rfl
    by_cases hb : b = []
    · subst hb
      have e : Iter.getNext ⟨a.length + 1, n⟩ = (a.length + 1, ⟨0, n⟩) := by
        unfold Iter.getNext
        rw [if_pos (by left; show a.length + 1 = n; simpa using hn)]
      rw [e]
      simp only
      rw [if_neg (by omega), hget]
      simp only [Option.bind_some, hset]
      cases f p with
      | none => rfl
      | some p' =>
        obtain ⟨g', rfl⟩ : ∃ g', g = g' + 1 := ⟨g - 1, by omega⟩
        simp only [Option.bind_some, forPorts_end, mapAll, Option.map_some]
    · have hbl : 0 < b.length := List.length_pos_iff.2 hb
      have e : Iter.getNext ⟨a.length + 1, n⟩ = (a.length + 1, ⟨a.length + 1 + 1, n⟩) := by
        unfold Iter.getNext
        rw [if_neg (by show ¬(a.length + 1 = n ∨ a.length + 1 = 0); omega), if_neg (by show ¬a.length + 1 > n; omega)]
      rw [e]
      simp only
      rw [if_neg (by omega), hget]
      simp only [Option.bind_some, hset]
      cases f p with
      | none => rfl
      | some p' =>
        simp only [Option.bind_some]
        have := ih (a ++ [p']) g (by simp; omega) hb (by omega)
        rw [List.length_append, List.length_singleton, List.append_assoc, List.singleton_append] at this
        rw [this]
        cases mapAll f b with
        | none => rfl
        | some l => simp

theorem forAll_eq (d : Dev) (f : Port → Option Port) :
    d.forAll f = (mapAll f d.ports).map fun l => { d with ports := l } := by
  unfold Dev.forAll
  congr 1
  by_cases h : d.ports = []
  · rw [h]; simp [rounds, Iter.init, forPorts, Iter.getNext, mapAll]
  · have := forPorts_eq f d.ports.length d.ports [] (rounds d.ports.length) (by simp) h (by simp [rounds])
    simpa [Iter.init] using this

theorem mapAll_some (f : Port → Port) (l : List Port) : mapAll (fun p => some (f p)) l = some (l.map f) := by
  induction l with
  | nil => rfl
  | cons p l ih => simp [mapAll, ih]

/-- If `f` succeeds on all ports, the result is the list of the results. -/
theorem mapAll_spec {f : Port → Option Port} {g : Port → Port} : ∀ {l : List Port}, (∀ p ∈ l, f p = some (g p)) →
    mapAll f l = some (l.map g) := by
  intro l
  induction l with
  | nil => intro _; rfl
  | cons p l ih =>
    intro h
    simp [mapAll, h p (by simp), ih fun q hq => h q (by simp [hq])]

theorem cyclic_from (n : Nat) (hn : 1 ≤ n) : ∀ (k a : Nat), a < n →
    Iter.cyclicCalls k ⟨a + 1, n⟩ = (List.range' a k).map fun i => i % n + 1 := by
  intro k
  induction k with
  | zero => intro a _; rfl
  | succ k ih =>
    intro a ha
    unfold Iter.cyclicCalls
    rw [List.range'_succ, List.map_cons, Nat.mod_eq_of_lt ha]
    have e1 : Iter.cyclic ⟨a + 1, n⟩ = (a + 1, ⟨if a + 1 = n then 1 else a + 1 + 1, n⟩) := by
      unfold Iter.cyclic
      rw [if_neg (by show ¬a + 1 > n; omega)]
    rw [e1]
    simp only
    congr 1
    by_cases h : a + 1 = n
    · rw [if_pos h, ih 0 (by omega)]
      rw [show List.range' (a + 1) k = (List.range' 0 k).map (n + ·) by rw [List.map_add_range', h, Nat.add_zero]]
      rw [List.map_map]
      apply List.map_congr_left
      intro i _
      simp
    · rw [if_neg h, ih (a + 1) (by omega)]

/-! ## C86 -/

/-- C86 (every port once): asking for the next port again and again gives 1, 2, … up to the number of ports, then 0 for ever. -/
theorem C86_each_once (n k : Nat) (hn : 1 ≤ n) :
    Iter.calls (n + k) (Iter.init n) = List.range' 1 n ++ List.replicate k 0 := by
  have := calls_from n k 1 (Nat.le_refl _) hn
  rwa [show n - 1 + 1 = n by omega] at this

/-- C86 (loops): a loop over the ports ends, and does its work on every port exactly once, in order. -/
theorem C86_loops (d : Dev) (f : Port → Option Port) (g : Port → Port) (h : ∀ p ∈ d.ports, f p = some (g p)) :
    d.forAll f = some { d with ports := d.ports.map g } := by
  rw [forAll_eq, mapAll_spec h]; rfl

/-- C86 (in turn): the link supervision visits the ports 1 … n in turn, for ever. -/
theorem C86_in_turn (n k : Nat) (hn : 1 ≤ n) :
    Iter.cyclicCalls k (Iter.init n) = (List.range k).map fun i => i % n + 1 := by
  rw [List.range_eq_range']
  exact cyclic_from n hn k 0 hn

/-- C86 (subslots): port and subslot belong together one to one; every other subslot is not that of a port. -/
theorem C86_subslots (n : Nat) (hn : n ≤ 0x7000) (port : Nat) (s : U16) :
    (1 ≤ port → port ≤ n → (portSubslot n port = some s ↔ subslotPort n s = port)) ∧
    (subslotPort n s = 0 ↔ ¬(0x8001 ≤ s.toNat ∧ s.toNat ≤ 0x8000 + n)) ∧ subslotPort n s ≤ n := by
  have hs := s.isLt
  refine ⟨fun h1 h2 => ?_, ?_, ?_⟩
  · unfold portSubslot subslotPort isValid
    rw [if_pos (by simp; omega)]
    simp only
    constructor
    · intro h
      have h := Option.some.inj h
      subst h
      rw [if_pos (by simp; omega)]
      simp; omega
    · intro h
      congr 1
      apply BitVec.eq_of_toNat_eq
      split at h
      · simp; omega
      · omega
  · unfold subslotPort isValid
    simp only
    split
    · rename_i h
      simp at h; omega
    · rename_i h
      simp at h; omega
  · unfold subslotPort isValid
    simp only
    split
    · rename_i h
      simp at h; omega
    · omega

theorem listGo_spec : ∀ (k port : Nat) (l : List Byte), 1 ≤ port → port + k ≤ 17 → l.length = 2 →
    ∃ r, listOfPorts.go k port l = some r ∧ r.length = 2 ∧
      ∀ i, i < 16 → ((r.getD (i / 8) 0).getLsbD (7 - i % 8) =
        ((l.getD (i / 8) 0).getLsbD (7 - i % 8) || decide (port ≤ i + 1 ∧ i + 1 < port + k))) := by
  intro k
  induction k with
  | zero =>
    intro port l _ _ hl
    refine ⟨l, rfl, hl, fun i _ => ?_⟩
    have : decide (port ≤ i + 1 ∧ i + 1 < port + 0) = false := by simp <;> omega
    rw [this, Bool.or_false]
  | succ k ih =>
    intro port l h1 h2 hl
    unfold listOfPorts.go
    simp only
    have hi : (port - 1) / 8 < l.length := by omega
    rw [List.getElem?_eq_getElem hi]
    simp only [Option.bind_some]
    obtain ⟨r, r1, r2, r3⟩ := ih (port + 1) (l.set ((port - 1) / 8) (l[(port - 1) / 8] ||| BitVec.ofNat 8 (2 ^ (7 - (port - 1) % 8))))
      (by omega) (by omega) (by simp [hl])
    refine ⟨r, r1, r2, fun i hi16 => ?_⟩
    rw [r3 i hi16]
    by_cases hq : i / 8 = (port - 1) / 8
    · have e1 : (l.set ((port - 1) / 8) (l[(port - 1) / 8] ||| BitVec.ofNat 8 (2 ^ (7 - (port - 1) % 8)))).getD (i / 8) 0 =
          l[(port - 1) / 8] ||| BitVec.ofNat 8 (2 ^ (7 - (port - 1) % 8)) := by
        rw [hq]; simp [List.getD, hi]
      have e2 : l.getD (i / 8) 0 = l[(port - 1) / 8] := by rw [hq]; simp [List.getD, hi]
      rw [e1, e2, BitVec.getLsbD_or]
      have e3 : (BitVec.ofNat 8 (2 ^ (7 - (port - 1) % 8)) : Byte).getLsbD (7 - i % 8) = decide (i + 1 = port) := by
        rw [BitVec.getLsbD_ofNat, Nat.testBit_two_pow]
        by_cases h : i + 1 = port
        · subst h
          simp
          omega
        · have : ¬ (7 - (port - 1) % 8 = 7 - i % 8) := by omega
          simp [h, this]
      rw [e3, Bool.or_assoc]
      congr 1
      rw [← Bool.decide_or, decide_eq_decide]
      omega
    · have e1 : (l.set ((port - 1) / 8) (l[(port - 1) / 8] ||| BitVec.ofNat 8 (2 ^ (7 - (port - 1) % 8)))).getD (i / 8) 0 =
          l.getD (i / 8) 0 := by
        simp only [List.getD]
        rw [List.getElem?_set_ne (fun h => hq h.symm)]
      rw [e1]
      congr 1
      rw [decide_eq_decide]
      omega

/-- C86 (list of ports): of the 16 bits in the list, first bit of the first byte first, those of the ports are set. -/
theorem C86_list (n : Nat) (hn : n ≤ 16) : ∃ r, listOfPorts n = some r ∧ r.length = 2 ∧
    ∀ i, i < 16 → ((r.getD (i / 8) 0).getLsbD (7 - i % 8) = true ↔ i < n) := by
  obtain ⟨r, r1, r2, r3⟩ := listGo_spec n 1 [0, 0] (Nat.le_refl _) (by omega) rfl
  refine ⟨r, r1, r2, fun i hi => ?_⟩
  rw [r3 i hi]
  have : (([0, 0] : List Byte).getD (i / 8) 0) = 0 := by
    have : i / 8 = 0 ∨ i / 8 = 1 := by omega
    rcases this with h | h <;> rw [h] <;> rfl
  rw [this]
  simp
  omega

/-- C86 applies: four ports. -/
example : Iter.calls 6 (Iter.init 4) = [1, 2, 3, 4, 0, 0] ∧ Iter.cyclicCalls 6 (Iter.init 4) = [1, 2, 3, 4, 1, 2] ∧
    listOfPorts 4 = some [0xf0, 0] ∧ portSubslot 4 2 = some 0x8002 :=
  ⟨C86_each_once 4 2 (by omega), C86_in_turn 4 6 (by omega), by decide, by decide⟩

end Verif.Pdport
