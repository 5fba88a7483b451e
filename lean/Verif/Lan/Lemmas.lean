import Verif.Lan.Model

/-! Pools of numbers: what is in use is what somebody owns. -/
set_option linter.unusedSimpArgs false
set_option linter.unusedVariables false

namespace Verif.Lan

/-- The number is one. -/
def valid (id : U16) : Option U16 := if id = invalid then none else some id

theorem valid_some {id x : U16} (h : valid id = some x) : x = id ∧ id ≠ invalid := by
  unfold valid at h
  split at h
  · cases h
  · exact ⟨by cases h; rfl, by assumption⟩

theorem valid_of {id : U16} (h : id ≠ invalid) : valid id = some id := if_neg h

theorem valid_invalid : valid invalid = none := if_pos rfl

section
variable {K : Type} [DecidableEq K]

def upd (own : K → Option U16) (k : K) (x : Option U16) : K → Option U16 := fun j => if j = k then x else own j

/-- `own` says who has which number of the pool: numbers are in range, marked as used, and have one owner; if `E`, every number that is
marked as used has an owner. -/
structure PoolInv (p : Pool) (own : K → Option U16) (E : Prop) : Prop where
  range : p.base.toNat + p.used.length ≤ 0xFFFF
  mem : ∀ k id, own k = some id → ∃ i, p.used[i]? = some true ∧ id.toNat = p.base.toNat + i
  inj : ∀ k k' id, own k = some id → own k' = some id → k = k'
  exact : E → ∀ i, p.used[i]? = some true → ∃ k id, own k = some id ∧ id.toNat = p.base.toNat + i

theorem firstFree_some {l : List Bool} {i : Nat} (h : firstFree l = some i) : l[i]? = some false := by
  unfold firstFree at h
  rw [List.findIdx?_eq_some_iff_getElem] at h
  obtain ⟨h1, h2, _⟩ := h
  rw [List.getElem?_eq_getElem h1]
  simpa using h2

theorem firstFree_none {l : List Bool} (h : firstFree l = none) : ∀ b ∈ l, b = true := by
  unfold firstFree at h
  rw [List.findIdx?_eq_none_iff] at h
  intro b hb
  have := h b hb
  simpa using this

theorem lt_of_some {α : Type} {l : List α} {i : Nat} {a : α} (h : l[i]? = some a) : i < l.length := by
  rcases Nat.lt_or_ge i l.length with c | c
  · exact c
  · rw [List.getElem?_eq_none c] at h; cases h

theorem new_id {p : Pool} {own : K → Option U16} {E : Prop} (h : PoolInv p own E) {i : Nat} (hi : i < p.used.length) :
    (p.base + BitVec.ofNat 16 i).toNat = p.base.toNat + i ∧ p.base + BitVec.ofNat 16 i ≠ invalid := by
  have r := h.range
  have e : (p.base + BitVec.ofNat 16 i).toNat = p.base.toNat + i := by
    rw [BitVec.toNat_add, BitVec.toNat_ofNat]
    have := p.base.isLt
    omega
  refine ⟨e, fun c => ?_⟩
  have : (p.base + BitVec.ofNat 16 i).toNat = 0xFFFF := by rw [c]; rfl
  omega

theorem alloc_inv {p : Pool} {own : K → Option U16} {E : Prop} (h : PoolInv p own E) {k : K} (hk : own k = none) :
    PoolInv p.alloc.2 (upd own k (valid p.alloc.1)) E := by
  unfold Pool.alloc
  split
  · rename_i i hi
    have hf := firstFree_some hi
    have hl := lt_of_some hf
    obtain ⟨n1, n2⟩ := new_id h hl
    simp only
    rw [valid_of n2]
    refine ⟨by simpa using h.range, fun j id hj => ?_, fun j j' id hj hj' => ?_, fun e m hm => ?_⟩
    · unfold upd at hj
      split at hj
      · cases hj
        exact ⟨i, by simp [hl], n1⟩
      · obtain ⟨m, a, b⟩ := h.mem j id hj
        refine ⟨m, ?_, b⟩
        rw [List.getElem?_set]
        split
        · rfl
        · exact a
    · unfold upd at hj hj'
      have key : ∀ k', own k' = some (p.base + BitVec.ofNat 16 i) → False := by
        intro k' hk'
        obtain ⟨m, a, b⟩ := h.mem _ _ hk'
        have : m = i := by omega
        subst this
        rw [hf] at a
        cases a
      split at hj <;> split at hj'
      · simp_all
      · cases hj; exact (key _ hj').elim
      · cases hj'; exact (key _ hj).elim
      · exact h.inj _ _ _ hj hj'
    · rw [List.getElem?_set] at hm
      split at hm
      · rename_i c
        subst c
        exact ⟨k, _, by simp [upd], n1⟩
      · obtain ⟨j, id, a, b⟩ := h.exact e m hm
        refine ⟨j, id, ?_, b⟩
        unfold upd
        rw [if_neg, a]
        rintro rfl
        rw [hk] at a
        cases a
  · simp only
    rw [valid_invalid]
    have : upd own k none = own := by
      funext j
      unfold upd
      split
      · rename_i c; rw [c, hk]
      · rfl
    rw [this]
    exact h

theorem free_inv {p : Pool} {own : K → Option U16} {E : Prop} (h : PoolInv p own E) {k : K} {id : U16} (hk : own k = valid id) :
    ∃ p', p.free id = some p' ∧ PoolInv p' (upd own k none) E := by
  unfold Pool.free
  by_cases c : id = invalid
  · rw [if_neg (by simpa using c)]
    refine ⟨p, rfl, ?_⟩
    rw [c, valid_invalid] at hk
    have : upd own k none = own := by
      funext j
      unfold upd
      split
      · rename_i c; rw [c, hk]
      · rfl
    rw [this]
    exact h
  · rw [if_pos c]
    rw [valid_of c] at hk
    obtain ⟨i, hi, e⟩ := h.mem k id hk
    have hl := lt_of_some hi
    have e' : id.toNat - p.base.toNat = i := by omega
    rw [if_pos (by omega), e']
    refine ⟨_, rfl, by simpa using h.range, fun j x hj => ?_, fun j j' x hj hj' => ?_, fun ex m hm => ?_⟩
    · unfold upd at hj
      split at hj
      · cases hj
      · rename_i hne
        obtain ⟨m, a, b⟩ := h.mem j x hj
        refine ⟨m, ?_, b⟩
        rw [List.getElem?_set, if_neg, a]
        rintro rfl
        have : x = id := BitVec.eq_of_toNat_eq (by omega)
        subst this
        exact hne (h.inj _ _ _ hj hk)
    · unfold upd at hj hj'
      split at hj
      · cases hj
      · split at hj'
        · cases hj'
        · exact h.inj _ _ _ hj hj'
    · rw [List.getElem?_set] at hm
      split at hm
      · cases hm
      · rename_i hmi
        obtain ⟨j, x, a, b⟩ := h.exact ex m hm
        refine ⟨j, x, ?_, b⟩
        unfold upd
        rw [if_neg, a]
        rintro rfl
        rw [hk] at a
        cases a
        exact hmi (by omega)

/-- Forgetting an owner without giving back its number. -/
theorem drop_inv {p : Pool} {own own' : K → Option U16} {E : Prop} (h : PoolInv p own E) (hsub : ∀ k id, own' k = some id → own k = some id)
    (hex : E → ∀ k, own' k = own k) : PoolInv p own' E := by
  refine ⟨h.range, fun k id hk => h.mem k id (hsub k id hk), fun k k' id hk hk' => h.inj _ _ _ (hsub _ _ hk) (hsub _ _ hk'), fun e i hi => ?_⟩
  obtain ⟨k, id, a, b⟩ := h.exact e i hi
  exact ⟨k, id, by rw [hex e k]; exact a, b⟩

end

theorem init_inv {K : Type} (n : Nat) (b : U16) (hb : b.toNat + n ≤ 0xFFFF) (E : Prop) :
    PoolInv ⟨b, .replicate n false⟩ (fun _ : K => none) E := by
  refine ⟨by simpa using hb, fun k id h => (nomatch h), fun k k' id h => (nomatch h), fun _ i hi => ?_⟩
  have := List.mem_of_getElem? hi
  simp at this

/-! ## SRAM frames -/

structure SramInv (l : List Bool) (own : Nat → Option U16) : Prop where
  range : 100 + 1600 * l.length ≤ 0x10000
  mem : ∀ k a, own k = some a → ∃ i, l[i]? = some true ∧ a = sramStart i
  inj : ∀ k k' a, own k = some a → own k' = some a → k = k'
  exact : ∀ i, l[i]? = some true → ∃ k, own k = some (sramStart i)

theorem sramStart_toNat {l : List Bool} (h : 100 + 1600 * l.length ≤ 0x10000) {i : Nat} (hi : i < l.length) : (sramStart i).toNat = 100 + i * 1600 := by
  unfold sramStart
  rw [BitVec.toNat_ofNat]
  omega

theorem sramStart_inj {l : List Bool} (h : 100 + 1600 * l.length ≤ 0x10000) {i j : Nat} (hi : i < l.length) (hj : j < l.length)
    (e : sramStart i = sramStart j) : i = j := by
  have := congrArg BitVec.toNat e
  rw [sramStart_toNat h hi, sramStart_toNat h hj] at this
  omega

theorem sramAlloc_inv {l : List Bool} {own : Nat → Option U16} (h : SramInv l own) {k : Nat} (hk : own k = none) :
    ((sramAlloc l).1 = 0 ∧ (sramAlloc l).2 = l) ∨ ((sramAlloc l).1 ≠ 0 ∧ SramInv (sramAlloc l).2 (upd own k (some (sramAlloc l).1))) := by
  unfold sramAlloc
  split
  · rename_i i hi
    have hf := firstFree_some hi
    have hl := lt_of_some hf
    right
    simp only
    refine ⟨fun c => ?_, by simpa using h.range, fun j a hj => ?_, fun j j' a hj hj' => ?_, fun m hm => ?_⟩
    · have := sramStart_toNat h.range hl
      rw [c] at this
      have z : (0 : U16).toNat = 0 := rfl
      omega
    · unfold upd at hj
      split at hj
      · cases hj
        exact ⟨i, by simp [hl], rfl⟩
      · obtain ⟨m, a, b⟩ := h.mem j a hj
        refine ⟨m, ?_, b⟩
        rw [List.getElem?_set]
        split
        · rfl
        · exact a
    · have key : ∀ k', own k' = some (sramStart i) → False := by
        intro k' hk'
        obtain ⟨m, a, b⟩ := h.mem _ _ hk'
        have := sramStart_inj h.range hl (lt_of_some a) b
        subst this
        rw [hf] at a
        cases a
      unfold upd at hj hj'
      split at hj <;> split at hj'
      · simp_all
      · cases hj; exact (key _ hj').elim
      · cases hj'; exact (key _ hj).elim
      · exact h.inj _ _ _ hj hj'
    · rw [List.getElem?_set] at hm
      split at hm
      · rename_i c
        subst c
        exact ⟨k, by simp [upd]⟩
      · obtain ⟨j, a⟩ := h.exact m hm
        refine ⟨j, ?_⟩
        unfold upd
        rw [if_neg, a]
        rintro rfl
        rw [hk] at a
        cases a
  · exact Or.inl ⟨rfl, rfl⟩

theorem sramFree_inv {l : List Bool} {own : Nat → Option U16} (h : SramInv l own) {k : Nat} {a : U16} (hk : own k = some a) :
    SramInv (sramFree l a) (upd own k none) := by
  obtain ⟨i, hi, rfl⟩ := h.mem k a hk
  have hl := lt_of_some hi
  have hfind : (List.range l.length).find? (fun j => sramStart j == sramStart i) = some i := by
    have hsome : ((List.range l.length).find? (fun j => sramStart j == sramStart i)).isSome := by
      rw [List.find?_isSome]
      exact ⟨i, List.mem_range.mpr hl, by simp⟩
    obtain ⟨j, hj⟩ := Option.isSome_iff_exists.mp hsome
    have h1 := List.find?_some hj
    have h2 := List.mem_range.mp (List.mem_of_find?_eq_some hj)
    rw [hj, sramStart_inj h.range h2 hl (by simpa using h1)]
  unfold sramFree
  rw [hfind]
  simp only
  refine ⟨by simpa using h.range, fun j x hj => ?_, fun j j' x hj hj' => ?_, fun m hm => ?_⟩
  · unfold upd at hj
    split at hj
    · cases hj
    · rename_i hne
      obtain ⟨m, a, rfl⟩ := h.mem j x hj
      refine ⟨m, ?_, rfl⟩
      rw [List.getElem?_set, if_neg, a]
      rintro rfl
      exact hne (h.inj _ _ _ hj hk)
  · unfold upd at hj hj'
    split at hj
    · cases hj
    · split at hj'
      · cases hj'
      · exact h.inj _ _ _ hj hj'
  · rw [List.getElem?_set] at hm
    split at hm
    · cases hm
    · rename_i hmi
      obtain ⟨j, a⟩ := h.exact m hm
      refine ⟨j, ?_⟩
      unfold upd
      rw [if_neg, a]
      rintro rfl
      rw [hk] at a
      exact hmi (sramStart_inj h.range hl (lt_of_some hm) (Option.some.inj a))

end Verif.Lan
