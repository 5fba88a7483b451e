import Verif.AlarmQueue.Model
/-! Helper lemmas: the ring represents a list. -/
namespace Verif.AlarmQueue

/-- The `i`-th oldest element sits at ring position `(read + i) mod max`. -/
structure Rep {α} (max : Nat) (q : Queue α) (l : List α) : Prop where
  pos : 0 < max
  len : q.items.length = max
  cnt : q.count = l.length
  le : l.length ≤ max
  rd : q.readIndex < max
  wr : q.writeIndex = (q.readIndex + l.length) % max
  elt : ∀ i (h : i < l.length), q.items[(q.readIndex + i) % max]? = some l[i]

theorem succ_wrap {w max : Nat} (h : w < max) :
    (if w + 1 ≥ max then 0 else w + 1) = (w + 1) % max := by
  split
  · have : w + 1 = max := by omega
    simp [this]
  · rw [Nat.mod_eq_of_lt (by omega)]

theorem rep_init {α} (max : Nat) (blank : α) (h : 0 < max) : Rep max (init max blank) [] := by
  constructor <;> simp [init, h]

theorem rep_reset {α} {max : Nat} {q : Queue α} {l : List α} (blank : α) (h : Rep max q l) :
    Rep max (reset blank q) [] := by
  constructor <;> simp [reset, h.pos, h.len]

theorem mod_ne {r i n max : Nat} (hi : i < n) (hn : n < max) :
    (r + i) % max ≠ (r + n) % max := by
  intro h
  have h1 : (r + n) % max = (r + i) % max := h.symm
  have := Nat.sub_mod_eq_zero_of_mod_eq h1
  have e : r + n - (r + i) = n - i := by omega
  rw [e, Nat.mod_eq_of_lt (by omega)] at this
  omega

theorem post_full {α} {max : Nat} {q : Queue α} {l : List α} (h : Rep max q l) (a : α)
    (hf : l.length = max) : post max q a = some (q, false) := by
  have : q.count ≥ max := by rw [h.cnt, hf]; exact Nat.le_refl _
  simp [post, getWriteIndex, this]

theorem post_room {α} {max : Nat} {q : Queue α} {l : List α} (h : Rep max q l) (a : α)
    (hf : l.length < max) : ∃ q', post max q a = some (q', true) ∧ Rep max q' (l ++ [a]) := by
  have hc : ¬ q.count ≥ max := by rw [h.cnt]; omega
  have hw : q.writeIndex < max := by rw [h.wr]; exact Nat.mod_lt _ h.pos
  refine ⟨_, by simp [post, getWriteIndex, hc, h.len, hw]; rfl, ?_⟩
  constructor
  · exact h.pos
  · simp [h.len]
  · simp [h.cnt]
  · simp; omega
  · exact h.rd
  · show (if q.writeIndex + 1 ≥ max then 0 else q.writeIndex + 1) = _
    rw [succ_wrap hw, h.wr]
    simp [Nat.add_assoc]
  · intro i hi
    simp only [List.length_append, List.length_singleton] at hi
    show (q.items.set q.writeIndex a)[(q.readIndex + i) % max]? = _
    rw [List.getElem?_set]
    by_cases hil : i < l.length
    · have hne : q.writeIndex ≠ (q.readIndex + i) % max := by
        rw [h.wr]; exact (mod_ne hil hf).symm
      rw [if_neg hne, h.elt i hil, List.getElem_append_left hil]
    · have : i = l.length := by omega
      subst this
      rw [if_pos h.wr, if_pos (by rw [h.len]; exact hw)]
      simp

theorem fetch_empty {α} {max : Nat} {q : Queue α} (h : Rep max q []) :
    fetch max q = some (q, none) := by
  have : q.count = 0 := by simpa using h.cnt
  simp [fetch, getReadIndex, this]

theorem fetch_cons {α} {max : Nat} {q : Queue α} {a : α} {l : List α} (h : Rep max q (a :: l)) :
    ∃ q', fetch max q = some (q', some a) ∧ Rep max q' l := by
  have hc : q.count ≠ 0 := by rw [h.cnt]; simp
  have h0 := h.elt 0 (by simp)
  simp only [Nat.add_zero, Nat.mod_eq_of_lt h.rd, List.getElem_cons_zero] at h0
  refine ⟨_, by simp [fetch, getReadIndex, hc, h0]; rfl, ?_⟩
  have hle := h.le
  simp only [List.length_cons] at hle
  constructor
  · exact h.pos
  · exact h.len
  · simp [h.cnt]
  · omega
  · show (if q.readIndex + 1 ≥ max then 0 else q.readIndex + 1) < max
    rw [succ_wrap h.rd]; exact Nat.mod_lt _ h.pos
  · show q.writeIndex = ((if q.readIndex + 1 ≥ max then 0 else q.readIndex + 1) + l.length) % max
    rw [succ_wrap h.rd, h.wr]
    simp [Nat.add_comm l.length 1, Nat.add_assoc]
  · intro i hi
    show q.items[((if q.readIndex + 1 ≥ max then 0 else q.readIndex + 1) + i) % max]? = _
    have := h.elt (i + 1) (by simpa using hi)
    rw [succ_wrap h.rd]
    simpa [Nat.add_assoc, Nat.add_comm 1 i] using this

end Verif.AlarmQueue
