import Verif.Conc.RecvProps
/-!
# C140, C141: theorems about the reception of output data
-/
set_option linter.unusedVariables false
set_option linter.unusedSimpArgs false
namespace Verif.Conc.Recv

/-- Steps with which the connection stays open; reads stay within a C_SDU of `n` bytes (the positions are
those of the IOCR, see C04). -/
def Open (n : Nat) : Act → Prop
  | .close => False
  | .read offs => ∀ o ∈ offs, o < n
  | _ => True

theorem inv_step {fr : Nat → Frame} (hfr : ∀ i, (fr i).idPos = 14) {n : Nat} (hlong : Long fr n) {st : St}
    (inv : Inv fr n st) {a : Act} (ha : Open n a) : ∃ st', step fr st a = some st' ∧ Inv fr n st' := by
  cases a with
  | frame => exact inv_frame inv
  | eth => exact inv_eth hfr inv
  | read offs => exact inv_read inv ha
  | close => exact ha.elim
  | app => exact inv_app hfr hlong inv

theorem inv_run {fr : Nat → Frame} (hfr : ∀ i, (fr i).idPos = 14) {n : Nat} (hlong : Long fr n) (as : List Act)
    (ha : ∀ a ∈ as, Open n a) {st : St} (inv : Inv fr n st) :
    ∃ st', run fr st as = some st' ∧ Inv fr n st' := by
  induction as generalizing st with
  | nil => exact ⟨st, rfl, inv⟩
  | cons a as ih =>
    obtain ⟨st1, h1, i1⟩ := inv_step hfr hlong inv (ha a (by simp))
    obtain ⟨st2, h2, i2⟩ := ih (fun a h => ha a (by simp [h])) i1
    exact ⟨st2, by simp [run, h1, h2], i2⟩

theorem run_append (fr : Nat → Frame) (as bs : List Act) (st : St) :
    run fr st (as ++ bs) = (run fr st as).bind (run fr · bs) := by
  induction as generalizing st with
  | nil => rfl
  | cons a as ih =>
    simp only [List.cons_append, run]
    cases step fr st a with
    | none => rfl
    | some st1 => exact ih st1

/-- **C140** (frames without VLAN tag; what is missing is the case of tagged frames, for which it does not
hold: `C140_tagged`).  Whatever the order of the steps of the receiving thread and of the application: no
access to a freed buffer or outside a buffer and no buffer is freed twice; every read gives bytes of one
frame only, the newest one handed over when the call begins or a newer one, never an older one than the read
before; the flag is true exactly if it is another frame than that of the read before; a buffer is freed once
or still in use. -/
theorem C140_read_partial (fr : Nat → Frame) (untagged : ∀ i, (fr i).idPos = 14) (n : Nat) (long : Long fr n)
    (as : List Act) (ha : ∀ a ∈ as, Open n a) :
    ∃ st, run fr start as = some st ∧ (∃ k, Trace fr st.log k) ∧
      ∀ x < st.rx, st.freed x + (if st.live x then 1 else 0) = 1 := by
  obtain ⟨st, h, inv⟩ := inv_run untagged long as ha (inv_start fr n)
  obtain ⟨prev, tr, _⟩ := inv.app
  refine ⟨st, h, ⟨prev, tr⟩, fun x hx => ?_⟩
  have h1 := inv.all x
  have h2 := inv.live x
  rw [if_pos hx] at h1
  omega

/-! ### Both threads come to an end -/

def ethLeft : Eth → Nat
  | .idle => 0
  | .placed _ => 1
  | .unlocked .. => 2
  | .flagged .. => 3
  | .stored .. => 4
  | .loaded .. => 5
  | .locked _ => 6
  | .accepted _ => 7

def appLeft : App → Nat
  | .copying _ _ _ _ todo _ => todo.length + 1
  | .pointed r .. => r.offs.length + 2
  | .free r _ => r.offs.length + 3
  | .done r _ => r.offs.length + 4
  | .swapped r => r.offs.length + 5
  | .swap2 r _ => r.offs.length + 6
  | .swap1 r _ => r.offs.length + 7
  | .fresh r => r.offs.length + 8
  | .locked r => r.offs.length + 9
  | .begun r => r.offs.length + 10
  | _ => 0

theorem eth_progress {fr : Nat → Frame} {st st' : St} (ho : st.owner = none ∨ st.owner = some .eth)
    (he : st.eth ≠ .idle) (hl : ethLocks st.eth = true ↔ st.owner = some .eth)
    (h : stepEth fr st = some st') : ethLeft st'.eth < ethLeft st.eth ∧ st'.rd = st.rd := by
  unfold stepEth at h
  cases e : st.eth with
  | idle => exact absurd e he
  | accepted k =>
    simp only [e, lock] at h
    have : st.owner = none := by
      rcases ho with o | o
      · exact o
      · have := hl.mpr o; rw [e] at this; cases this
    split at h
    · simp only [this, if_true, Option.some.injEq] at h
      subst h
      simp [ethLeft]
    · cases h
  | locked k => simp only [e, Option.some.injEq] at h; subst h; simp [ethLeft]
  | loaded k p => simp only [e, Option.some.injEq] at h; subst h; simp [ethLeft]
  | stored k p => simp only [e, Option.some.injEq] at h; subst h; simp [ethLeft]
  | flagged k p =>
    simp only [e, unlock] at h
    split at h
    · simp only [Option.map_some, Option.some.injEq] at h; subst h; simp [ethLeft]
    · cases h
  | unlocked k p => simp only [e, Option.some.injEq] at h; subst h; simp [ethLeft]
  | placed p =>
    simp only [e] at h
    obtain ⟨s, hs, hh⟩ := Option.map_eq_some_iff.mp h
    subst hh
    refine ⟨by simp [ethLeft], ?_⟩
    cases p with
    | none => cases hs; rfl
    | some b =>
      simp only [free] at hs
      split at hs
      · cases hs; rfl
      · cases hs

theorem app_progress {fr : Nat → Frame} {st st' : St} {n : Nat} {prev : Option Nat} (ho : st.owner = none ∨ st.owner = some .app)
    (he : st.rd ≠ .idle) (hok : appOk fr n st prev) (hl : appLocks st.rd = true ↔ st.owner = some .app)
    (h : stepApp fr st = some st') : appLeft st'.rd < appLeft st.rd ∧ st'.eth = st.eth := by
  have hfree : appLocks st.rd = false → st.owner = none := by
    intro hf
    rcases ho with o | o
    · exact o
    · have := hl.mpr o; rw [hf] at this; cases this
  unfold stepApp at h
  cases e : st.rd with
  | idle => exact absurd e he
  | closed => simp [appOk, e] at hok
  | close1 => simp [appOk, e] at hok
  | close2 => simp [appOk, e] at hok
  | close3 => simp [appOk, e] at hok
  | begun r =>
    have := hfree (by rw [e]; rfl)
    simp only [e, lock] at h
    split at h
    · simp only [this, if_true, Option.some.injEq] at h; subst h; simp [appLeft]
    · cases h
  | locked r =>
    simp only [e, Option.some.injEq] at h
    subst h
    refine ⟨?_, rfl⟩
    show appLeft (if st.newBuf = true then App.fresh r else App.done r false) < _
    split <;> simp [appLeft]
  | fresh r => simp only [e, Option.some.injEq] at h; subst h; simp [appLeft]
  | swap1 r p => simp only [e, Option.some.injEq] at h; subst h; simp [appLeft]
  | swap2 r p => simp only [e, Option.some.injEq] at h; subst h; simp [appLeft]
  | swapped r => simp only [e, Option.some.injEq] at h; subst h; simp [appLeft]
  | done r new =>
    simp only [e, unlock] at h
    split at h
    · simp only [Option.map_some, Option.some.injEq] at h; subst h; simp [appLeft]
    · cases h
  | free r new =>
    simp only [e] at h
    cases ha : st.app with
    | none => simp only [ha, Option.some.injEq] at h; subst h; simp [appLeft]
    | some b => simp only [ha, Option.some.injEq] at h; subst h; simp [appLeft]
  | pointed r new b pos =>
    have := hfree (by rw [e]; rfl)
    simp only [e, lock] at h
    split at h
    · simp only [this, if_true, Option.some.injEq] at h; subst h; simp [appLeft]
    · cases h
  | copying r new b pos todo got =>
    cases todo with
    | nil =>
      simp only [e, unlock] at h
      split at h
      · simp only [Option.map_some, Option.some.injEq] at h; subst h; simp [appLeft]
      · cases h
    | cons o todo =>
      simp only [e] at h
      obtain ⟨x, _, hh⟩ := Option.map_eq_some_iff.mp h
      subst hh
      simp [appLeft]

theorem finish {fr : Nat → Frame} (hfr : ∀ i, (fr i).idPos = 14) {n : Nat} (hlong : Long fr n) (m : Nat) {st : St}
    (inv : Inv fr n st) (hm : ethLeft st.eth + appLeft st.rd ≤ m) :
    ∃ as st', (∀ a ∈ as, a = .eth ∨ a = .app) ∧ run fr st as = some st' ∧ Inv fr n st' ∧
      st'.eth = .idle ∧ st'.rd = .idle := by
  induction m generalizing st with
  | zero =>
    obtain ⟨prev, _, hok⟩ := inv.app
    refine ⟨[], st, by simp, rfl, inv, ?_, ?_⟩
    · cases e : st.eth <;> simp [e, ethLeft] at hm ⊢
    · cases e : st.rd <;> simp [e, appLeft] at hm ⊢ <;> simp [appOk, e] at hok
  | succ m ih =>
    obtain ⟨prev, _, hok⟩ := inv.app
    have next : ∀ a, (a = .eth ∨ a = .app) → ∀ st', step fr st a = some st' → Inv fr n st' →
        ethLeft st'.eth + appLeft st'.rd < ethLeft st.eth + appLeft st.rd →
        ∃ as st', (∀ a ∈ as, a = .eth ∨ a = .app) ∧ run fr st as = some st' ∧ Inv fr n st' ∧
          st'.eth = .idle ∧ st'.rd = .idle := by
      intro a ha st1 h1 i1 hlt
      obtain ⟨as, st2, h2, h3, h4⟩ := ih i1 (by omega)
      refine ⟨a :: as, st2, ?_, by simp [run, h1, h3], h4⟩
      intro b hb
      rcases List.mem_cons.mp hb with rfl | hb
      · exact ha
      · exact h2 b hb
    by_cases hoa : st.owner = some .app
    · have hl := inv.appLock.mpr hoa
      obtain ⟨st1, h1, i1⟩ := inv_app hfr hlong inv
      have hp := app_progress (.inr hoa) (by intro h; rw [h] at hl; cases hl) hok inv.appLock h1
      exact next .app (.inr rfl) st1 h1 i1 (by rw [hp.2]; omega)
    · by_cases he : st.eth = .idle
      · have hno : st.owner = none := by
          cases o : st.owner with
          | none => rfl
          | some w =>
            cases w with
            | app => exact absurd o hoa
            | eth => have := inv.ethLock.mpr o; rw [he] at this; cases this
        by_cases hr : st.rd = .idle
        · exact ⟨[], st, by simp, rfl, inv, he, hr⟩
        · obtain ⟨st1, h1, i1⟩ := inv_app hfr hlong inv
          have hp := app_progress (.inl hno) hr hok inv.appLock h1
          exact next .app (.inr rfl) st1 h1 i1 (by rw [hp.2]; omega)
      · have hno : st.owner = none ∨ st.owner = some .eth := by
          cases o : st.owner with
          | none => exact .inl rfl
          | some w =>
            cases w with
            | app => exact absurd o hoa
            | eth => exact .inr rfl
        obtain ⟨st1, h1, i1⟩ := inv_eth hfr inv
        have hp := eth_progress hno he inv.ethLock h1
        exact next .eth (.inl rfl) st1 h1 i1 (by rw [hp.2]; omega)

/-- No deadlock: in every state both threads can finish what they are doing; then at most two of the
received frames are still in memory. -/
theorem C140_no_deadlock_partial (fr : Nat → Frame) (untagged : ∀ i, (fr i).idPos = 14) (n : Nat)
    (long : Long fr n) (as : List Act) (ha : ∀ a ∈ as, Open n a) :
    ∃ bs st, (∀ b ∈ bs, b = .eth ∨ b = .app) ∧ run fr start (as ++ bs) = some st ∧
      st.eth = .idle ∧ st.rd = .idle ∧
      ∃ a b : Option Nat, ∀ x < st.rx, some x ≠ a → some x ≠ b → st.freed x = 1 := by
  obtain ⟨st, h, inv⟩ := inv_run untagged long as ha (inv_start fr n)
  obtain ⟨bs, st', hb, h2, inv', e1, e2⟩ := finish untagged long _ inv (Nat.le_refl _)
  refine ⟨bs, st', hb, by rw [run_append, h]; exact h2, e1, e2, st'.cpm, st'.app, fun x hx c1 c2 => ?_⟩
  have := inv'.all x
  rw [if_pos hx] at this
  have d1 : ¬ st'.cpm = some x := fun h => c1 h.symm
  have d2 : ¬ st'.app = some x := fun h => c2 h.symm
  simp only [e1, heldC, slotC, e2, cnt, if_neg d1, if_neg d2] at this
  exact this

/-- With a VLAN tag C140 does not hold: the position of the C_SDU is stored after the lock is released.  A
read of byte `o` between the two gives the byte four positions before, as if the frame had no tag. -/
theorem C140_tagged (fr : Nat → Frame) (o : Nat) (x y : Byte) (tag : (fr 0).idPos = 18)
    (hx : (fr 0).bytes[16 + o]? = some x) (hy : (fr 0).bytes[20 + o]? = some y) :
    ∃ as st r, (∀ a ∈ as, Open (o + 1) a) ∧ run fr start as = some st ∧ st.log = [r] ∧
      r.req.offs = [o] ∧ r.data = some [x] ∧ sdu (fr 0) [o] = some [y] := by
  let mid : St := ⟨none, some 0, false, 16, true, some .app, fun x => if x = 0 then true else false,
    fun _ => 0, 1, true, .unlocked 0 none, .copying ⟨[o], 1⟩ true 0 16 [o] [], []⟩
  have h1 : run fr start ([.frame, .eth, .eth, .eth, .eth, .eth, .read [o]] ++ List.replicate 9 .app) = some mid := rfl
  refine ⟨([.frame, .eth, .eth, .eth, .eth, .eth, .read [o]] ++ List.replicate 9 .app) ++ [.app, .app],
    { mid with rd := .idle, owner := none, log := [⟨⟨[o], 1⟩, true, some [x], 1⟩] },
    ⟨⟨[o], 1⟩, true, some [x], 1⟩, ?_, ?_, rfl, rfl, rfl, ?_⟩
  · intro a ha
    simp only [List.replicate, List.cons_append, List.nil_append, List.mem_cons, List.not_mem_nil, or_false] at ha
    rcases ha with h | h | h | h | h | h | h | h | h | h | h | h | h | h | h | h | h | h <;> subst h <;> simp [Open]
  · rw [run_append, h1]
    simp [run, step, stepApp, copyByte, mid, hx, unlock]
  · simp [sdu, tag, hy]

/-! ## C141: closing -/

/-- The receiving thread is at rest and the connection is being closed. -/
structure Closing (m : Nat) (st : St) : Prop where
  eth : st.eth = .idle
  reg : st.registered = false
  rx : st.rx = m
  rd : (st.rd = .close1 ∧ (∀ x, (if st.live x then 1 else 0) = cnt st.cpm x + cnt st.app x) ∧
        ∀ x, st.freed x + (cnt st.cpm x + cnt st.app x) = if x < st.rx then 1 else 0) ∨
    (st.rd = .close2 ∧ (∀ x, (if st.live x then 1 else 0) = cnt st.app x) ∧
        ∀ x, st.freed x + cnt st.app x = if x < st.rx then 1 else 0) ∨
    ((st.rd = .close3 ∨ st.rd = .closed) ∧ (∀ x, st.live x = false) ∧
        ∀ x, st.freed x = if x < st.rx then 1 else 0)

theorem free_spec {st : St} {p : Option Nat} {g : Nat → Nat}
    (hl : ∀ x, (if st.live x then 1 else 0) = cnt p x + g x)
    (hf : ∀ x, st.freed x + (cnt p x + g x) = if x < st.rx then 1 else 0) :
    ∃ st', free st p = some st' ∧ st'.eth = st.eth ∧ st'.registered = st.registered ∧ st'.rx = st.rx ∧
      st'.app = st.app ∧ st'.rd = st.rd ∧
      (∀ x, (if st'.live x then 1 else 0) = g x) ∧ ∀ x, st'.freed x + g x = if x < st.rx then 1 else 0 := by
  cases p with
  | none =>
    refine ⟨st, rfl, rfl, rfl, rfl, rfl, rfl, ?_, ?_⟩
    · intro x; have := hl x; simpa [cnt] using this
    · intro x; have := hf x; simpa [cnt] using this
  | some b =>
    have hb : st.live b = true := by
      have := hl b
      cases h : st.live b with
      | true => rfl
      | false => rw [h] at this; simp [cnt] at this; omega
    refine ⟨{ st with
        live := fun x => if x = b then false else st.live x
        freed := fun x => if x = b then st.freed x + 1 else st.freed x }, by simp [free, hb], rfl, rfl, rfl, rfl, rfl, ?_, ?_⟩
    · intro x
      have := hl x
      by_cases c : x = b
      · subst c
        simp only [hb, cnt, if_true] at this
        simp only [if_true, Bool.false_eq_true, if_false]
        omega
      · have n : ¬ (some b = some x) := fun h => c (Option.some.inj h).symm
        simp only [cnt, if_neg n, if_neg c, Nat.zero_add] at this ⊢
        exact this
    · intro x
      have := hf x
      by_cases c : x = b
      · subst c
        simp only [cnt, if_true] at this
        simp only [if_true]
        omega
      · have n : ¬ (some b = some x) := fun h => c (Option.some.inj h).symm
        simp only [cnt, if_neg n, if_neg c, Nat.zero_add] at this ⊢
        exact this

theorem closing_step {fr : Nat → Frame} {m : Nat} {st : St} (c : Closing m st) (a : Act) :
    ∃ st', step fr st a = some st' ∧ Closing m st' := by
  obtain ⟨he, hr, hm, h⟩ := id c
  have hni : st.rd ≠ .idle := by
    rcases h with ⟨e, _⟩ | ⟨e, _⟩ | ⟨e | e, _⟩ <;> rw [e] <;> simp
  cases a with
  | frame => exact ⟨st, by simp [step, he, hr], c⟩
  | eth => exact ⟨st, by simp [step, stepEth, he], c⟩
  | read offs => exact ⟨st, by simp [step, hni], c⟩
  | close => exact ⟨st, by simp [step, hni], c⟩
  | app =>
    rcases h with ⟨e, hl, hf⟩ | ⟨e, hl, hf⟩ | ⟨e | e, hl, hf⟩
    · obtain ⟨s, h1, h2, h3, h4, h5, h6, h7, h8⟩ := free_spec hl hf
      refine ⟨{ s with rd := .close2 }, by simp [step, stepApp, e, h1], h2.trans he, h3.trans hr, h4.trans hm,
        .inr (.inl ⟨rfl, ?_, ?_⟩)⟩
      · intro x; have := h7 x; rw [← h5] at this; exact this
      · intro x; have := h8 x; rw [← h5, ← h4] at this; exact this
    · obtain ⟨s, h1, h2, h3, h4, h5, h6, h7, h8⟩ := free_spec (g := fun _ => 0) hl hf
      refine ⟨{ s with rd := .close3 }, by simp [step, stepApp, e, h1], h2.trans he, h3.trans hr, h4.trans hm,
        .inr (.inr ⟨.inl rfl, ?_, ?_⟩)⟩
      · intro x
        have := h7 x
        cases h : s.live x with
        | false => rfl
        | true => rw [h] at this; cases this
      · intro x; have := h8 x; rw [← h4] at this; exact this
    · exact ⟨{ st with lockOk := false, cpm := none, app := none, newBuf := false, rd := .closed },
        by simp [step, stepApp, e], he, hr, hm, .inr (.inr ⟨.inr rfl, hl, hf⟩)⟩
    · exact ⟨st, by simp [step, stepApp, e], c⟩

theorem closing_run {fr : Nat → Frame} (as : List Act) {m : Nat} {st : St} (c : Closing m st) :
    ∃ st', run fr st as = some st' ∧ Closing m st' := by
  induction as generalizing st with
  | nil => exact ⟨st, rfl, c⟩
  | cons a as ih =>
    obtain ⟨st1, h1, c1⟩ := closing_step (fr := fr) c a
    obtain ⟨st2, h2, c2⟩ := ih c1
    exact ⟨st2, by simp [run, h1, h2], c2⟩

/-- **C141** (if the receiving thread is at rest when the closing begins; otherwise it does not hold:
`C141_destroyed_lock`, `C141_double_free`, `C141_leak`).  After any history of frames and reads, nothing
goes wrong while the connection is being closed, whatever frames arrive and whatever the order of steps;
when it is closed every received buffer has been freed exactly once. -/
theorem C141_close_partial (fr : Nat → Frame) (untagged : ∀ i, (fr i).idPos = 14) (n : Nat) (long : Long fr n)
    (as : List Act) (ha : ∀ a ∈ as, Open n a) (st : St) (h : run fr start as = some st)
    (rest : st.eth = .idle) (ready : st.rd = .idle) (bs : List Act) :
    ∃ st', run fr st (.close :: bs) = some st' ∧
      (st'.rd = .closed → ∀ x, st'.live x = false ∧ st'.freed x = if x < st.rx then 1 else 0) := by
  obtain ⟨st0, h0, inv⟩ := inv_run untagged long as ha (inv_start fr n)
  rw [h] at h0
  cases h0
  have c : Closing st.rx { st with registered := false, rd := .close1 } := by
    refine ⟨rest, rfl, rfl, .inl ⟨rfl, ?_, ?_⟩⟩
    · intro x; have := inv.live x; simpa [rest, heldC, slotC, ready] using this
    · intro x; have := inv.all x; simpa [rest, heldC, slotC, ready] using this
  obtain ⟨st', h1, c1⟩ := closing_run (fr := fr) bs c
  refine ⟨st', ?_, ?_⟩
  · simpa [run, step, ready] using h1
  · intro e x
    rcases c1.rd with ⟨e2, _⟩ | ⟨e2, _⟩ | ⟨_, hl, hf⟩
    · rw [e] at e2; cases e2
    · rw [e] at e2; cases e2
    · exact ⟨hl x, by rw [← c1.rx]; exact hf x⟩

/-- Three steps suffice to close. -/
theorem C141_ends_partial (fr : Nat → Frame) (untagged : ∀ i, (fr i).idPos = 14) (n : Nat) (long : Long fr n)
    (as : List Act) (ha : ∀ a ∈ as, Open n a) (st : St) (h : run fr start as = some st)
    (rest : st.eth = .idle) (ready : st.rd = .idle) :
    ∃ st', run fr st [.close, .app, .app, .app] = some st' ∧ st'.rd = .closed := by
  obtain ⟨st', h', _⟩ := C141_close_partial fr untagged n long as ha st h rest ready [.app, .app, .app]
  refine ⟨st', h', ?_⟩
  simp only [run, step, ready, Option.bind_some, stepApp] at h'
  obtain ⟨s1, e1, h'⟩ := Option.bind_eq_some_iff.mp h'
  obtain ⟨t1, f1, rfl⟩ := Option.map_eq_some_iff.mp e1
  obtain ⟨s2, e2, h'⟩ := Option.bind_eq_some_iff.mp h'
  obtain ⟨t2, f2, rfl⟩ := Option.map_eq_some_iff.mp e2
  simp only [Option.bind_some, Option.some.injEq] at h'
  rw [← h']

/-- A frame has been accepted; before the receiving thread takes the lock, the connection is closed: the
receiving thread uses a lock that no longer exists (and memory of a cleared AR). -/
theorem C141_destroyed_lock (fr : Nat → Frame) : run fr start [.frame, .close, .app, .app, .app, .eth] = none := rfl

/-- The receiving thread has taken the older frame out; closing frees it (without asking for the lock); the
receiving thread frees it again. -/
theorem C141_double_free (fr : Nat → Frame) :
    run fr start (.frame :: List.replicate 8 .eth ++ [.frame, .eth, .eth, .close, .app] ++ List.replicate 5 .eth)
      = none := rfl

/-- The frame is stored after `p_buffer_cpm` has been freed: nobody frees it. -/
theorem C141_leak (fr : Nat → Frame) :
    ∃ st, run fr start [.frame, .eth, .eth, .close, .app, .eth, .eth, .eth, .eth, .eth, .app, .app] = some st ∧
      st.eth = .idle ∧ st.rd = .closed ∧ st.live 0 = true ∧ st.cpm = none ∧ st.app = none ∧ st.freed 0 = 0 :=
  ⟨_, rfl, rfl, rfl, rfl, rfl, rfl, rfl⟩

/-! ## Example -/

/-- Frames without VLAN tag, with a C_SDU of 40 bytes all of which are the number of the frame. -/
def exampleFrames (i : Nat) : Frame := ⟨List.replicate 60 (BitVec.ofNat 8 i), 14⟩

/-- Frames with a VLAN tag; the C_SDU is as above. -/
def exampleTagged (i : Nat) : Frame := ⟨List.replicate 20 0xff ++ List.replicate 40 (BitVec.ofNat 8 i), 18⟩

theorem C140_example : (∀ i, (exampleFrames i).idPos = 14) ∧ Long exampleFrames 40 ∧
    (exampleTagged 0).idPos = 18 ∧ (exampleTagged 0).bytes[16 + 2]? = some 0xff ∧
    (exampleTagged 0).bytes[20 + 2]? = some 0 := by
  refine ⟨fun _ => rfl, fun i => ?_, rfl, by decide, by decide⟩
  simp [exampleFrames]

/-- The second frame arrives while the first is being read; the reads give 0, 1 and 1, and say whether the
frame is a new one. -/
example : (run exampleFrames start ([.read [3]] ++ List.replicate 5 .app ++ .frame :: List.replicate 8 .eth ++
    .read [0, 7] :: List.replicate 10 .app ++ .frame :: List.replicate 4 .eth ++ List.replicate 2 .app ++
    List.replicate 7 .eth ++ .read [1] :: List.replicate 11 .app ++ .read [5] :: List.replicate 11 .app)).map
      (fun st => st.log.map fun r => (r.new, r.data)) =
    some [(false, none), (true, some [0, 0]), (true, some [1]), (false, some [1])] := by decide +kernel

end Verif.Conc.Recv
