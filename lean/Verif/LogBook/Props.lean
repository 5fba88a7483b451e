import Mathlib.Data.List.Induction
/-!
# C44, C58 Log book

Model of the log book in `src/device/pf_fspm.c` and of its read-out in `src/device/pf_block_writer.c`.
-/
namespace Verif.LogBook

variable {α : Type}

/-! ## Model -/

/-- `pf_log_book_t` (src/pf_types.h:2483-2489): the array, the next position, the wrap flag. An entry is
any value (time stamp, AR UUID, status, detail). -/
structure Book (α : Type) where
  entries : List α
  put : Nat
  wrap : Bool

/-- pf_fspm_create_log_book_entry (src/device/pf_fspm.c:456-503); `e = none` if the AREP does not exist. `none` if the
array would be written out of bounds. -/
def create (b : Book α) : Option α → Option (Book α)
  | none => some b
  | some e =>
    let put := b.put
    let put' := b.put + 1
    let (put', wrap') := if put' ≥ b.entries.length then (0, true) else (put', b.wrap)
    if put < b.entries.length then some ⟨b.entries.set put e, put', wrap'⟩ else none

/-- The `while` loop of pf_put_log_book_data (src/device/pf_block_writer.c:2595-2680): the entries written. `none` for an access out of bounds
or for an endless loop (more than `fuel` rounds). -/
def outLoop (b : Book α) : Nat → Nat → Option (List α)
  | 0, ix => if ix = b.put then some [] else none
  | fuel + 1, ix =>
    if ix = b.put then some []
    else match b.entries[ix]? with
      | none => none
      | some e =>
        let ix' := if ix + 1 ≥ b.entries.length then 0 else ix + 1
        (outLoop b fuel ix').map (e :: ·)

/-- pf_put_log_book_data (src/device/pf_block_writer.c:2595-2680): the number of entries announced and the entries written. The output buffer is large enough. -/
def readOut (b : Book α) : Option (Nat × List α) :=
  let (ix, cnt) :=
    if b.wrap then (if b.put + 1 ≥ b.entries.length then 0 else b.put + 1, b.entries.length)
    else (0, b.put)
  (outLoop b b.entries.length ix).map (cnt, ·)

/-- All zero after start-up. -/
def init (cap : Nat) (z : α) : Book α := ⟨List.replicate cap z, 0, false⟩

def run (b : Book α) (ops : List (Option α)) : Option (Book α) :=
  ops.foldl (fun b o => b.bind fun b => create b o) (some b)

/-! ## Specification -/

/-- The entries made, oldest first. -/
def made (ops : List (Option α)) : List α := ops.filterMap id

/-- The newest `k` elements, oldest first. -/
def newest (k : Nat) (l : List α) : List α := l.drop (l.length - k)

/-- What the log book holds, oldest first: up to `put` if it has not wrapped, otherwise once around. -/
def holds (b : Book α) : List α :=
  if b.wrap then b.entries.drop b.put ++ b.entries.take b.put else b.entries.take b.put

/-! ## Proof -/

structure Inv (cap : Nat) (h : List α) (b : Book α) : Prop where
  len : b.entries.length = cap
  put : b.put < cap
  wrap : b.wrap = true ↔ cap ≤ h.length
  held : holds b = newest cap h

theorem inv_step {cap : Nat} {h : List α} {b : Book α} (hb : Inv cap h b) (e : α) :
    ∃ b', create b (some e) = some b' ∧ Inv cap (h ++ [e]) b' := by
  obtain ⟨entries, put, wrap⟩ := b
  obtain ⟨h1, h2, h3, h4⟩ := hb
  simp only at h1 h2 h3
  subst h1
  have hset : ∀ p, p ≤ entries.length → put < p → (entries.set put e).take p = (entries.take p).set put e := by
    intro p _ _; rw [List.take_set]
  have htake : (entries.set put e).take (put + 1) = entries.take put ++ [e] := by
    rw [List.take_succ_eq_append_getElem (by simpa using h2), List.take_set, List.getElem_set_self]
    congr 1
    rw [List.set_eq_of_length_le (by simp; omega)]
  have hdrop : (entries.set put e).drop (put + 1) = entries.drop (put + 1) := by
    rw [List.drop_set_of_lt (by omega)]
  simp only [create]
  rw [if_pos h2]
  refine ⟨_, rfl, ?_⟩
  by_cases hp : put + 1 ≥ entries.length
  · have hpe : put + 1 = entries.length := by omega
    simp only [if_pos hp]
    have hall : entries.set put e = entries.take put ++ [e] := by
      rw [← htake, hpe, List.take_of_length_le (by simp)]
    refine ⟨by simp, by simp; omega, ?_, ?_⟩
    · simp only [true_iff, List.length_append, List.length_singleton]
      by_cases hw : wrap = true
      · have := h3.1 hw; omega
      · simp only [holds, hw, newest] at h4
        have hlen := congrArg List.length h4
        simp at hlen
        have : ¬ entries.length ≤ h.length := fun h => hw (h3.2 h)
        omega
    · simp only [holds, if_true, List.drop_zero, List.take_zero, List.append_nil]
      rw [hall]
      unfold newest at *
      by_cases hw : wrap = true
      · simp only [holds, hw, if_true] at h4
        have hle := h3.1 hw
        have h5 : (h ++ [e]).length - entries.length = h.length - entries.length + 1 := by simp; omega
        rw [h5, List.drop_append_of_le_length (by omega)]
        congr 1
        rw [← List.drop_drop, ← h4, List.drop_append_of_le_length (by simp; omega), List.drop_drop, List.drop_of_length_le (by omega)]
        simp
      · have hw' : wrap = false := by simpa using hw
        simp only [holds, hw', Bool.false_eq_true, if_false] at h4
        have hnl : ¬ entries.length ≤ h.length := fun h => hw (h3.2 h)
        rw [show h.length - entries.length = 0 by omega] at h4
        rw [List.drop_zero] at h4
        have hlen := congrArg List.length h4
        simp at hlen
        rw [h4, show (h ++ [e]).length - entries.length = 0 by simp; omega, List.drop_zero]
  · simp only [if_neg hp]
    refine ⟨by simp, by simp; omega, ?_, ?_⟩
    · simp only [List.length_append, List.length_singleton]
      by_cases hw : wrap = true
      · have := h3.1 hw; simp [hw]; omega
      · simp only [holds, hw, newest] at h4
        have hlen := congrArg List.length h4
        simp at hlen
        have hnl : ¬ entries.length ≤ h.length := fun h => hw (h3.2 h)
        simp only [hw]
        simp; omega
    · by_cases hw : wrap = true
      · simp only [holds, hw, if_true] at h4 ⊢
        rw [htake, hdrop]
        unfold newest at *
        have hle := h3.1 hw
        have h5 : (h ++ [e]).length - entries.length = h.length - entries.length + 1 := by simp; omega
        rw [h5, List.drop_append_of_le_length (by omega), ← List.append_assoc]
        congr 1
        have h6 : h.drop (h.length - entries.length + 1) = (h.drop (h.length - entries.length)).drop 1 := by
          rw [List.drop_drop]
        rw [h6, ← h4, List.drop_append_of_le_length (by simp; omega), List.drop_drop]
      · have hw' : wrap = false := by simpa using hw
        simp only [holds, hw', Bool.false_eq_true, if_false] at h4 ⊢
        rw [htake]
        unfold newest at *
        have hnl : ¬ entries.length ≤ h.length := fun h => hw (h3.2 h)
        rw [show h.length - entries.length = 0 by omega] at h4
        rw [List.drop_zero] at h4
        have hlen := congrArg List.length h4
        simp at hlen
        rw [h4, show (h ++ [e]).length - entries.length = 0 by simp; omega, List.drop_zero]

theorem run_inv (cap : Nat) (hc : 0 < cap) (z : α) (ops : List (Option α)) :
    ∃ b, run (init cap z) ops = some b ∧ Inv cap (made ops) b := by
  induction ops using List.reverseRecOn with
  | nil =>
    refine ⟨init cap z, rfl, ⟨by simp [init], hc, ?_, ?_⟩⟩
    · simp [init, made]; omega
    · simp [init, holds, newest, made]
  | append_singleton ops o ih =>
    obtain ⟨b, hb, hi⟩ := ih
    have hr : run (init cap z) (ops ++ [o]) = create b o := by
      unfold run at *
      rw [List.foldl_append, hb]; rfl
    rw [hr]
    cases o with
    | none => exact ⟨b, rfl, by simpa [made] using hi⟩
    | some e =>
      obtain ⟨b', h1, h2⟩ := inv_step hi e
      refine ⟨b', h1, ?_⟩
      have : made (ops ++ [some e]) = made ops ++ [e] := by simp [made, List.filterMap_append]
      rw [this]; exact h2

/-- **C44** After any history of log entries the log book holds exactly the newest ones up to its capacity, oldest first, nothing is
written out of bounds, and the wrap flag is set exactly if the capacity was reached. Attempts to log for an
unknown connection change nothing. -/
theorem C44_newest_entries (cap : Nat) (hc : 0 < cap) (z : α) (ops : List (Option α)) :
    ∃ b, run (init cap z) ops = some b ∧ holds b = newest cap (made ops) ∧
      (b.wrap = true ↔ cap ≤ (made ops).length) := by
  obtain ⟨b, h1, h2⟩ := run_inv cap hc z ops
  exact ⟨b, h1, h2.held, h2.wrap⟩

theorem outLoop_up (b : Book α) : ∀ (fuel ix : Nat), ix ≤ b.put → b.put < b.entries.length → b.put - ix ≤ fuel →
    outLoop b fuel ix = some ((b.entries.drop ix).take (b.put - ix)) := by
  intro fuel
  induction fuel with
  | zero =>
    intro ix h1 h2 h3
    have : ix = b.put := by omega
    unfold outLoop; rw [if_pos this, this]; simp
  | succ fuel ih =>
    intro ix h1 h2 h3
    unfold outLoop
    by_cases h : ix = b.put
    · rw [if_pos h, h]; simp
    · rw [if_neg h]
      have hx : ix < b.entries.length := by omega
      rw [List.getElem?_eq_getElem hx]
      dsimp only
      rw [if_neg (by omega), ih (ix + 1) (by omega) h2 (by omega),
        show b.put - ix = b.put - (ix + 1) + 1 by omega, List.drop_eq_getElem_cons hx, List.take_succ_cons]
      rfl

theorem outLoop_down (b : Book α) : ∀ (fuel ix : Nat), b.put < ix → ix < b.entries.length →
    b.entries.length - ix + b.put ≤ fuel →
    outLoop b fuel ix = some (b.entries.drop ix ++ b.entries.take b.put) := by
  intro fuel
  induction fuel with
  | zero => intro ix h1 h2 h3; omega
  | succ fuel ih =>
    intro ix h1 h2 h3
    unfold outLoop
    rw [if_neg (by omega), List.getElem?_eq_getElem h2]
    dsimp only
    rw [List.drop_eq_getElem_cons h2]
    by_cases h : ix + 1 ≥ b.entries.length
    · rw [if_pos h, outLoop_up b fuel 0 (by omega) (by omega) (by omega)]
      simp [List.drop_of_length_le h]
    · rw [if_neg h, ih (ix + 1) (by omega) (by omega) (by omega)]
      rfl

theorem newest_pred (cap : Nat) (h : List α) (hc : 0 < cap) (hl : cap ≤ h.length) :
    newest (cap - 1) h = (newest cap h).drop 1 := by
  unfold newest
  rw [List.drop_drop]
  congr 1
  omega

/-- **C58 (partial)** Reading the log book out terminates, reads nothing out of bounds, and announces the number of entries held. As long as
the capacity has not been reached exactly the announced entries follow, oldest first.

Partial: once wrapped, one entry less than announced follows (the oldest is left out), see `C58_count_mismatch`. -/
theorem C58_read_out_partial (cap : Nat) (hc : 0 < cap) (z : α) (ops : List (Option α)) (b : Book α)
    (hb : run (init cap z) ops = some b) :
    ∃ l, readOut b = some (min cap (made ops).length, l) ∧
      ((made ops).length < cap → l = made ops) ∧
      (cap ≤ (made ops).length → l = newest (cap - 1) (made ops)) := by
  obtain ⟨b', h1, hi⟩ := run_inv cap hc z ops
  rw [hb] at h1; cases h1
  obtain ⟨h1, h2, h3, h4⟩ := hi
  unfold readOut
  by_cases hw : b.wrap = true
  · have hle := h3.1 hw
    simp only [hw, if_true]
    have hmin : min cap (made ops).length = b.entries.length := by rw [Nat.min_eq_left hle, h1]
    have hh : holds b = b.entries.drop b.put ++ b.entries.take b.put := by simp [holds, hw]
    have hnew : newest (cap - 1) (made ops) = b.entries.drop (b.put + 1) ++ b.entries.take b.put := by
      rw [newest_pred cap _ hc hle, ← h4, hh, List.drop_append_of_le_length (by simp; omega), List.drop_drop]
    have : outLoop b b.entries.length (if b.put + 1 ≥ b.entries.length then 0 else b.put + 1) =
        some (newest (cap - 1) (made ops)) := by
      rw [hnew]
      split
      · rename_i hp
        rw [outLoop_up b _ 0 (by omega) (by omega) (by omega), List.drop_of_length_le hp]; simp
      · rename_i hp
        exact outLoop_down b _ _ (by omega) (by omega) (by omega)
    rw [this, hmin]
    exact ⟨_, rfl, fun h => by omega, fun _ => rfl⟩
  · have hw' : b.wrap = false := by simpa using hw
    have hlt : ¬ cap ≤ (made ops).length := fun h => hw (h3.2 h)
    have hh : b.entries.take b.put = made ops := by
      have : holds b = b.entries.take b.put := by simp [holds, hw']
      rw [← this, h4, newest, show (made ops).length - cap = 0 by omega, List.drop_zero]
    have hlen := congrArg List.length hh
    rw [List.length_take, Nat.min_eq_left (by omega)] at hlen
    simp only [hw', Bool.false_eq_true, if_false]
    rw [outLoop_up b _ 0 (by omega) (by omega) (by omega)]
    refine ⟨made ops, ?_, fun _ => rfl, fun h => absurd h hlt⟩
    rw [List.drop_zero, Nat.sub_zero, hh, hlen, Nat.min_eq_right (by omega : (made ops).length ≤ cap)]
    rfl

/-- **C58 (finding)** With capacity 2 and three entries: two announced, one written. -/
theorem C58_count_mismatch :
    (run (init 2 0) [some 1, some 2, some 3]).bind readOut = some (2, [3]) := by decide

/-- In general: once the capacity is reached the block always announces one entry more than it contains. -/
theorem C58_count_always_wrong_after_wrap (cap : Nat) (hc : 0 < cap) (z : α) (ops : List (Option α)) (b : Book α)
    (hb : run (init cap z) ops = some b) (hw : cap ≤ (made ops).length) :
    ∃ n l, readOut b = some (n, l) ∧ n = l.length + 1 := by
  obtain ⟨l, h1, _, h2⟩ := C58_read_out_partial cap hc z ops b hb
  refine ⟨_, l, h1, ?_⟩
  rw [h2 hw, newest, List.length_drop]
  omega

/-- Concrete case. -/
theorem C44_example : (run (init 3 0) [some 1, none, some 2, some 3, some 4]).map (fun b => (holds b, b.wrap)) =
    some ([2, 3, 4], true) ∧
    (run (init 3 0) [some 1, none, some 2]).map (fun b => (holds b, b.wrap, readOut b)) =
      some ([1, 2], false, some (2, [1, 2])) := by decide

end Verif.LogBook
