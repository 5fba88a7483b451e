import Verif.Conc.Recv
/-!
# C140: reading output data while frames arrive
-/
set_option linter.unusedVariables false
set_option linter.unusedSimpArgs false
namespace Verif.Conc.Recv

/-! ## Specification -/

/-- The bytes `offs` of the C_SDU of a frame: they begin after the frame ID. -/
def sdu (f : Frame) (offs : List Nat) : Option (List Byte) := offs.mapM (fun o => f.bytes[f.idPos + 2 + o]?)

/-- `a` is not newer than `b`. -/
def NotNewer : Option Nat → Option Nat → Prop
  | none, _ => True
  | some _, none => False
  | some a, some b => a ≤ b

/-- The read `r` shows frame `k` (or no frame), after `prev` was shown before: all bytes are of that one
frame; the frame is not older than the frames handed over before the call, nor than the one shown before;
the flag tells whether it is another one. -/
structure Shows (fr : Nat → Frame) (prev : Option Nat) (r : Res) (k : Option Nat) : Prop where
  none : k = .none → r.data = .none ∧ r.req.since = 0
  some : ∀ f, k = .some f → r.data = sdu (fr f) r.req.offs ∧ r.data.isSome ∧ r.req.since ≤ f + 1 ∧ f < r.upto
  order : NotNewer prev k
  flag : r.new = true ↔ k ≠ prev

/-- All reads, in order, are good; the last one shows `k`. -/
inductive Trace (fr : Nat → Frame) : List Res → Option Nat → Prop where
  | nil : Trace fr [] none
  | snoc {l prev r k} : Trace fr l prev → Shows fr prev r k → Trace fr (l ++ [r]) k

/-- Acceptable frames for a C_SDU of `n` bytes (the length is checked at reception). -/
def Long (fr : Nat → Frame) (n : Nat) : Prop := ∀ i, (fr i).idPos + 2 + n ≤ (fr i).bytes.length

/-! ## Invariant -/

/-- 1 if the pointer points to `x`. -/
def cnt (p : Option Nat) (x : Nat) : Nat := if p = some x then 1 else 0

/-- Buffers in the hands of the receiving thread. -/
def heldC (e : Eth) (x : Nat) : Nat := match e with
  | .idle => 0
  | .accepted n => cnt (some n) x
  | .locked n => cnt (some n) x
  | .loaded n _ => cnt (some n) x
  | .stored _ p => cnt p x
  | .flagged _ p => cnt p x
  | .unlocked _ p => cnt p x
  | .placed p => cnt p x

/-- Buffers in the places shared by the threads, and in the hands of the application. -/
def slotC (st : St) (x : Nat) : Nat := match st.rd with
  | .swap2 _ p => cnt p x + cnt st.app x
  | _ => cnt st.cpm x + cnt st.app x

/-- The newest of `k` frames. -/
def newest : Nat → Option Nat
  | 0 => none
  | k + 1 => some k

def ethLocks : Eth → Bool
  | .locked _ | .loaded .. | .stored .. | .flagged .. => true
  | _ => false

def appLocks : App → Bool
  | .locked _ | .fresh _ | .swap1 .. | .swap2 .. | .swapped _ | .done .. | .copying .. => true
  | _ => false

def ethOk (st : St) : Prop := match st.eth with
  | .idle => True
  | .accepted n => st.rx = n + 1
  | .locked n => st.rx = n + 1
  | .loaded n p => st.rx = n + 1 ∧ p = st.cpm
  | .stored n _ => st.rx = n + 1 ∧ st.cpm = some n
  | .flagged n _ => st.rx = n + 1 ∧ st.newBuf = true
  | .unlocked n _ => st.rx = n + 1
  | .placed _ => True

/-- Where the newest frame is. -/
def newestOk (st : St) : Prop := match st.rd with
  | .swap2 .. => st.app = newest (handed st)
  | .swapped _ => st.app = newest (handed st)
  | _ => match st.eth with
    | .stored n _ => True
    | _ => if st.newBuf then handed st ≠ 0 ∧ st.cpm = newest (handed st) else st.app = newest (handed st)

/-- The newest frame when the application had the lock. -/
def Recent (st : St) (r : Req) : Prop := ∃ k, st.app = newest k ∧ r.since ≤ k ∧ k ≤ handed st

/-- The frame `st.app` is what the read shows, after `prev`. -/
def Change (st : St) (prev : Option Nat) (new : Bool) : Prop :=
  NotNewer prev st.app ∧ (new = true ↔ st.app ≠ prev)

def appOk (fr : Nat → Frame) (n : Nat) (st : St) (prev : Option Nat) : Prop := match st.rd with
  | .idle => st.app = prev
  | .begun r => st.app = prev ∧ r.since ≤ handed st
  | .locked r => st.app = prev ∧ r.since ≤ handed st
  | .fresh r => st.app = prev ∧ r.since ≤ handed st ∧ st.newBuf = true
  | .swap1 r p => st.app = prev ∧ r.since ≤ handed st ∧ st.newBuf = true ∧ p = prev
  | .swap2 r p => p = prev ∧ r.since ≤ handed st ∧ Change st prev true
  | .swapped r => r.since ≤ handed st ∧ Change st prev true
  | .done r new => Recent st r ∧ Change st prev new
  | .free r new => Recent st r ∧ Change st prev new
  | .pointed r new b pos => Recent st r ∧ Change st prev new ∧ st.app = some b ∧ pos = 16
  | .copying r new b pos todo got => Recent st r ∧ Change st prev new ∧ st.app = some b ∧ pos = 16 ∧
      ∃ pre, r.offs = pre ++ todo ∧ pre.mapM (fun o => (fr b).bytes[16 + o]?) = some got
  | _ => False

def reqOk (n : Nat) : App → Prop
  | .begun r | .locked r | .fresh r | .swap1 r _ | .swap2 r _ | .swapped r | .done r _ | .free r _
  | .pointed r .. | .copying r .. => ∀ o ∈ r.offs, o < n
  | _ => True

structure Inv (fr : Nat → Frame) (n : Nat) (st : St) : Prop where
  lockOk : st.lockOk = true
  reg : st.registered = true
  pos : st.pos = 16
  ethLock : ethLocks st.eth = true ↔ st.owner = some .eth
  appLock : appLocks st.rd = true ↔ st.owner = some .app
  live : ∀ x, (if st.live x then 1 else 0) = heldC st.eth x + slotC st x
  all : ∀ x, st.freed x + heldC st.eth x + slotC st x = if x < st.rx then 1 else 0
  eth : ethOk st
  new : newestOk st
  req : reqOk n st.rd
  app : ∃ prev, Trace fr st.log prev ∧ appOk fr n st prev

theorem inv_start (fr : Nat → Frame) (n : Nat) : Inv fr n start where
  lockOk := rfl
  reg := rfl
  pos := rfl
  ethLock := by simp [start, ethLocks]
  appLock := by simp [start, appLocks]
  live := by intro x; simp [start, heldC, slotC, cnt]
  all := by intro x; simp [start, heldC, slotC, cnt]
  eth := trivial
  new := by simp [newestOk, start, handed, newest]
  req := trivial
  app := ⟨none, .nil, rfl⟩

/-- The application is not in a section while the receiving thread is. -/
theorem not_both {fr : Nat → Frame} {n : Nat} {st : St} (inv : Inv fr n st)
    (h : ethLocks st.eth = true) : appLocks st.rd = false := by
  have o := inv.ethLock.mp h
  cases e : appLocks st.rd with
  | false => rfl
  | true =>
    have := inv.appLock.mp e
    rw [o] at this; cases this

theorem recent_mono {st st' : St} {r : Req} (h : Recent st r) (ha : st'.app = st.app)
    (hh : handed st ≤ handed st') : Recent st' r := by
  obtain ⟨k, h1, h2, h3⟩ := h
  exact ⟨k, ha.trans h1, h2, by omega⟩

/-- A step of the other thread that leaves `app` and the flag keeps what the application knows. -/
theorem appOk_mono {fr : Nat → Frame} {n : Nat} {st st' : St} {prev : Option Nat}
    (h : appOk fr n st prev) (hr : st'.rd = st.rd) (ha : st'.app = st.app)
    (hn : st.newBuf = true → st'.newBuf = true) (hh : handed st ≤ handed st') :
    appOk fr n st' prev := by
  unfold appOk at h ⊢
  unfold Change at *
  rw [hr]
  split at h <;> try (rw [ha])
  · exact h
  · exact ⟨h.1, by omega⟩
  · exact ⟨h.1, by omega⟩
  · exact ⟨h.1, by omega, hn h.2.2⟩
  · exact ⟨h.1, by omega, hn h.2.2.1, h.2.2.2⟩
  · exact ⟨h.1, by omega, h.2.2⟩
  · exact ⟨by omega, h.2⟩
  · exact ⟨recent_mono h.1 ha hh, h.2⟩
  · exact ⟨recent_mono h.1 ha hh, h.2⟩
  · exact ⟨recent_mono h.1 ha hh, h.2⟩
  · exact ⟨recent_mono h.1 ha hh, h.2⟩
  · exact h.elim

theorem inv_eth {fr : Nat → Frame} (hfr : ∀ i, (fr i).idPos = 14) {n : Nat} {st : St} (inv : Inv fr n st) :
    ∃ st', stepEth fr st = some st' ∧ Inv fr n st' := by
  have hnb := not_both inv
  obtain ⟨hlo, hreg, hpos, hel, hal, hlive, hall, heth, hnew, hreq, prev, htr, happ⟩ := inv
  cases e : st.eth with
  | idle =>
    refine ⟨st, by simp [stepEth, e], hlo, hreg, hpos, hel, hal, hlive, hall, heth, hnew, hreq, prev, htr, happ⟩
  | accepted k =>
    simp only [ethOk, e] at heth
    by_cases ho : st.owner = none
    · refine ⟨{ st with owner := some .eth, eth := .locked k }, by simp [stepEth, e, lock, hlo, ho],
        hlo, hreg, hpos, by simp [ethLocks], ?_, ?_, ?_, heth, ?_, hreq, prev, htr, ?_⟩
      · rw [ho] at hal; simpa using hal
      · intro x; have := hlive x; simp only [e, heldC] at this; exact this
      · intro x; have := hall x; simp only [e, heldC] at this; exact this
      · have ha : appLocks st.rd = false := by
          rw [ho] at hal; simpa using hal
        simp only [newestOk, e, handed] at hnew ⊢
        exact hnew
      · exact appOk_mono happ rfl rfl id (by simp [handed, e])
    · refine ⟨st, by simp [stepEth, e, lock, hlo, ho], hlo, hreg, hpos, hel, hal, hlive, hall, ?_, hnew, hreq, prev, htr, happ⟩
      simp only [ethOk, e]; exact heth
  | locked k =>
    have ho : st.owner = some .eth := hel.mp (by rw [e]; rfl)
    simp only [ethOk, e] at heth
    refine ⟨{ st with eth := .loaded k st.cpm }, by simp [stepEth, e],
        hlo, hreg, hpos, by simp [ethLocks, ho], hal, ?_, ?_, ⟨heth, rfl⟩, ?_, hreq, prev, htr, ?_⟩
    · intro x; have := hlive x; simp only [e, heldC] at this; exact this
    · intro x; have := hall x; simp only [e, heldC] at this; exact this
    · simp only [newestOk, e, handed] at hnew ⊢; exact hnew
    · exact appOk_mono happ rfl rfl id (by simp [handed, e])
  | loaded k p =>
    have ho : st.owner = some .eth := hel.mp (by rw [e]; rfl)
    have hna := hnb (by rw [e]; rfl)
    simp only [ethOk, e] at heth
    obtain ⟨hrx, hp⟩ := heth
    have hsl : ∀ st' : St, st'.rd = st.rd → ∀ x, slotC st' x = cnt st'.cpm x + cnt st'.app x := by
      intro st' h x
      unfold slotC
      rw [h]
      split
      · rename_i e2; rw [e2] at hna; cases hna
      · rfl
    refine ⟨{ st with cpm := some k, eth := .stored k p }, by simp [stepEth, e],
        hlo, hreg, hpos, by simp [ethLocks, ho], hal, ?_, ?_, ⟨hrx, rfl⟩, ?_, hreq, prev, htr, ?_⟩
    · intro x
      have := hlive x
      rw [hsl st rfl] at this
      rw [hsl { st with cpm := some k, eth := .stored k p } rfl x]
      simp only [e, heldC, hp] at this ⊢
      omega
    · intro x
      have := hall x
      rw [hsl st rfl] at this
      rw [hsl { st with cpm := some k, eth := .stored k p } rfl x]
      simp only [e, heldC, hp] at this ⊢
      omega
    · simp only [newestOk]
      split
      · rename_i e2; rw [e2] at hna; cases hna
      · rename_i e2; rw [e2] at hna; cases hna
      · trivial
    · exact appOk_mono happ rfl rfl id (by simp [handed, e]; omega)
  | stored k p =>
    have ho : st.owner = some .eth := hel.mp (by rw [e]; rfl)
    have hna := hnb (by rw [e]; rfl)
    simp only [ethOk, e] at heth
    obtain ⟨hrx, hc⟩ := heth
    refine ⟨{ st with newBuf := true, eth := .flagged k p }, by simp [stepEth, e],
        hlo, hreg, hpos, by simp [ethLocks, ho], hal, ?_, ?_, ⟨hrx, rfl⟩, ?_, hreq, prev, htr, ?_⟩
    · intro x; have := hlive x; simp only [e, heldC] at this; exact this
    · intro x; have := hall x; simp only [e, heldC] at this; exact this
    · simp only [newestOk]
      split
      · rename_i e2; rw [e2] at hna; cases hna
      · rename_i e2; rw [e2] at hna; cases hna
      · simp only [handed, if_true, hrx, hc, newest]; simp
    · exact appOk_mono happ rfl rfl (fun _ => rfl) (by simp [handed, e])
  | flagged k p =>
    have ho : st.owner = some .eth := hel.mp (by rw [e]; rfl)
    have hna := hnb (by rw [e]; rfl)
    simp only [ethOk, e] at heth
    obtain ⟨hrx, hc⟩ := heth
    refine ⟨{ st with owner := none, eth := .unlocked k p }, by simp [stepEth, e, unlock, hlo, ho],
        hlo, hreg, hpos, by simp [ethLocks], by simp [hna], ?_, ?_, hrx, ?_, hreq, prev, htr, ?_⟩
    · intro x; have := hlive x; simp only [e, heldC] at this; exact this
    · intro x; have := hall x; simp only [e, heldC] at this; exact this
    · simp only [newestOk, e, handed] at hnew ⊢; exact hnew
    · exact appOk_mono happ rfl rfl id (by simp [handed, e])
  | unlocked k p =>
    simp only [ethOk, e] at heth
    have hne : st.owner ≠ some .eth := by
      intro h; have := hel.mpr h; rw [e] at this; cases this
    refine ⟨{ st with pos := (fr k).idPos + 2, eth := .placed p }, by simp [stepEth, e],
        hlo, hreg, by simp [hfr], by simpa [ethLocks] using hne, hal, ?_, ?_, trivial, ?_, hreq, prev, htr, ?_⟩
    · intro x; have := hlive x; simp only [e, heldC] at this; exact this
    · intro x; have := hall x; simp only [e, heldC] at this; exact this
    · simp only [newestOk, e, handed] at hnew ⊢; exact hnew
    · exact appOk_mono happ rfl rfl id (by simp [handed, e])
  | placed p =>
    have hne : st.owner ≠ some .eth := by
      intro h; have := hel.mpr h; rw [e] at this; cases this
    cases p with
    | none =>
      refine ⟨{ st with eth := .idle }, by simp [stepEth, e, free],
        hlo, hreg, hpos, by simpa [ethLocks] using hne, hal, ?_, ?_, trivial, ?_, hreq, prev, htr, ?_⟩
      · intro x
        have := hlive x
        have h2 : slotC { st with eth := .idle } x = slotC st x := rfl
        rw [h2]
        simp only [e, heldC, cnt] at this ⊢
        simpa using this
      · intro x
        have := hall x
        have h2 : slotC { st with eth := .idle } x = slotC st x := rfl
        rw [h2]
        simp only [e, heldC, cnt] at this ⊢
        simpa using this
      · simp only [newestOk, e, handed] at hnew ⊢; exact hnew
      · exact appOk_mono happ rfl rfl id (by simp [handed, e])
    | some b =>
      have hb : st.live b = true := by
        have := hlive b
        simp only [e, heldC, cnt, if_true] at this
        cases h : st.live b with
        | true => rfl
        | false => rw [h] at this; simp at this; omega
      refine ⟨{ st with
          live := fun x => if x = b then false else st.live x
          freed := fun x => if x = b then st.freed x + 1 else st.freed x
          eth := .idle }, by simp [stepEth, e, free, hb],
        hlo, hreg, hpos, by simpa [ethLocks] using hne, hal, ?_, ?_, trivial, ?_, hreq, prev, htr, ?_⟩
      · intro x
        have := hlive x
        simp only [e, heldC] at this ⊢
        have hs : slotC { st with
          live := fun x => if x = b then false else st.live x
          freed := fun x => if x = b then st.freed x + 1 else st.freed x
          eth := .idle } x = slotC st x := rfl
        rw [hs]
        by_cases c : x = b
        · subst c
          rw [hb] at this
          simp [cnt] at this ⊢
          omega
        · have z : cnt (some b) x = 0 := by simp [cnt]; exact fun h => c h.symm
          simp only [c, if_false]
          rw [z] at this
          exact this
      · intro x
        have := hall x
        simp only [e, heldC] at this ⊢
        have hs : slotC { st with
          live := fun x => if x = b then false else st.live x
          freed := fun x => if x = b then st.freed x + 1 else st.freed x
          eth := .idle } x = slotC st x := rfl
        rw [hs]
        by_cases c : x = b
        · subst c
          simp [cnt] at this ⊢
          omega
        · have z : cnt (some b) x = 0 := by simp [cnt]; exact fun h => c h.symm
          simp only [c, if_false]
          rw [z] at this
          exact this
      · simp only [newestOk, e, handed] at hnew ⊢; exact hnew
      · exact appOk_mono happ rfl rfl id (by simp [handed, e])

theorem inv_frame {fr : Nat → Frame} {n : Nat} {st : St} (inv : Inv fr n st) :
    ∃ st', step fr st .frame = some st' ∧ Inv fr n st' := by
  obtain ⟨hlo, hreg, hpos, hel, hal, hlive, hall, heth, hnew, hreq, prev, htr, happ⟩ := id inv
  by_cases e : st.eth = .idle
  · have hs : ∀ x, slotC { st with
          eth := .accepted st.rx, rx := st.rx + 1
          live := fun x => if x = st.rx then true else st.live x } x = slotC st x := fun _ => rfl
    have hne : st.owner ≠ some .eth := by
      intro h; have := hel.mpr h; rw [e] at this; cases this
    refine ⟨{ st with
          eth := .accepted st.rx, rx := st.rx + 1
          live := fun x => if x = st.rx then true else st.live x }, by simp [step, e, hreg],
        hlo, hreg, hpos, by simpa [ethLocks] using hne, hal, ?_, ?_, rfl, ?_, hreq, prev, htr, ?_⟩
    · intro x
      rw [hs]
      have := hlive x
      have h2 := hall x
      simp only [e, heldC, cnt] at this h2 ⊢
      by_cases c : x = st.rx
      · subst c
        simp at h2 ⊢
        omega
      · have hn : ¬ (some st.rx = some x) := fun h => c (Option.some.inj h).symm
        simp only [if_neg c, if_neg hn]
        exact this
    · intro x
      rw [hs]
      have h2 := hall x
      simp only [e, heldC, cnt] at h2 ⊢
      by_cases c : x = st.rx
      · subst c
        simp at h2 ⊢
        omega
      · have : ¬ (some st.rx = some x) := fun h => c (Option.some.inj h).symm
        rw [if_neg this]
        by_cases c2 : x < st.rx
        · rw [if_pos c2] at h2; rw [if_pos (by omega)]; omega
        · rw [if_neg c2] at h2; rw [if_neg (by omega)]; omega
    · simp only [newestOk, e, handed] at hnew ⊢; exact hnew
    · exact appOk_mono happ rfl rfl id (by simp [handed, e])
  · refine ⟨st, ?_, inv⟩
    simp [step, e]

theorem inv_read {fr : Nat → Frame} {n : Nat} {st : St} (inv : Inv fr n st) {offs : List Nat}
    (ho : ∀ o ∈ offs, o < n) :
    ∃ st', step fr st (.read offs) = some st' ∧ Inv fr n st' := by
  obtain ⟨hlo, hreg, hpos, hel, hal, hlive, hall, heth, hnew, hreq, prev, htr, happ⟩ := id inv
  by_cases e : st.rd = .idle
  · have hne : st.owner ≠ some .app := by
      intro h; have := hal.mpr h; rw [e] at this; cases this
    simp only [appOk, e] at happ
    refine ⟨{ st with rd := .begun ⟨offs, handed st⟩ }, by simp [step, e],
        hlo, hreg, hpos, hel, by simpa [appLocks] using hne, ?_, ?_, heth, ?_, ho, prev, htr, happ, Nat.le_refl _⟩
    · intro x; have := hlive x; simp only [slotC, e] at this ⊢; exact this
    · intro x; have := hall x; simp only [slotC, e] at this ⊢; exact this
    · simp only [newestOk, e] at hnew ⊢; exact hnew
  · refine ⟨st, ?_, inv⟩
    simp [step, e]

/-- The receiving thread is not in a section while the application is; then everything is settled. -/
theorem newest_of_app {fr : Nat → Frame} {n : Nat} {st : St} (inv : Inv fr n st)
    (h : appLocks st.rd = true) : ethLocks st.eth = false := by
  have o := inv.appLock.mp h
  cases e : ethLocks st.eth with
  | false => rfl
  | true =>
    have := inv.ethLock.mp e
    rw [o] at this; cases this

theorem settled {st : St} (h : ethLocks st.eth = false) (hn : newestOk st)
    (hr : ∀ r p, st.rd ≠ .swap2 r p) (hr2 : ∀ r, st.rd ≠ .swapped r) :
    if st.newBuf then handed st ≠ 0 ∧ st.cpm = newest (handed st) else st.app = newest (handed st) := by
  unfold newestOk at hn
  split at hn
  · rename_i r p e; exact absurd e (hr r p)
  · rename_i r e; exact absurd e (hr2 r)
  · split at hn
    · rename_i e; rw [e] at h; cases h
    · exact hn

theorem newestOk_of {st : St} (hr : ∀ r p, st.rd ≠ .swap2 r p) (hr2 : ∀ r, st.rd ≠ .swapped r)
    (h : if st.newBuf then handed st ≠ 0 ∧ st.cpm = newest (handed st) else st.app = newest (handed st)) :
    newestOk st := by
  unfold newestOk
  split
  · rename_i r p e; exact absurd e (hr r p)
  · rename_i r e; exact absurd e (hr2 r)
  · split
    · trivial
    · exact h

/-- A step of the application that leaves the shared members. -/
theorem newestOk_rd {st : St} {rd' : App} (h : newestOk st) (hr : ∀ r p, st.rd ≠ .swap2 r p)
    (hr2 : ∀ r, st.rd ≠ .swapped r) (hr' : ∀ r p, rd' ≠ .swap2 r p) (hr2' : ∀ r, rd' ≠ .swapped r)
    {o : Option Who} {l : List Res} : newestOk { st with rd := rd', owner := o, log := l } := by
  unfold newestOk
  split
  · rename_i r p e; exact absurd e (hr' r p)
  · rename_i r e; exact absurd e (hr2' r)
  · unfold newestOk at h
    split at h
    · rename_i r p e; exact absurd e (hr r p)
    · rename_i r e; exact absurd e (hr2 r)
    · exact h

theorem mapM_snoc {f : Nat → Option Byte} {pre : List Nat} {o : Nat} {got : List Byte} {x : Byte}
    (h : pre.mapM f = some got) (hx : f o = some x) : (pre ++ [o]).mapM f = some (got ++ [x]) := by
  induction pre generalizing got with
  | nil =>
    simp at h
    subst h
    simp [hx]
  | cons p pre ih =>
    simp only [List.mapM_cons, Option.bind_eq_bind, Option.bind_eq_some_iff] at h
    obtain ⟨a, ha, b, hb, e⟩ := h
    simp only [List.cons_append, List.mapM_cons, Option.bind_eq_bind, ha, Option.bind_some, ih hb]
    cases e
    rfl

theorem app_lt {fr : Nat → Frame} {n : Nat} {st : St} (inv : Inv fr n st) {a : Nat}
    (h : st.app = some a) : a < st.rx := by
  have := inv.all a
  have : 1 ≤ slotC st a := by
    unfold slotC
    split <;> simp [cnt, h]
  by_cases c : a < st.rx
  · exact c
  · rename_i h2
    rw [if_neg c] at h2
    omega

/-- The pointers are different. -/
theorem apart {fr : Nat → Frame} {n : Nat} {st : St} (inv : Inv fr n st) (hr : ∀ r p, st.rd ≠ .swap2 r p)
    {a : Nat} (h : st.app = some a) : st.cpm ≠ some a ∧ heldC st.eth a = 0 := by
  have h2 := inv.all a
  have hs : slotC st a = cnt st.cpm a + cnt st.app a := by
    unfold slotC
    split
    · rename_i r p e; exact absurd e (hr r p)
    · rfl
  rw [hs] at h2
  have h1 : cnt st.app a = 1 := by simp [cnt, h]
  rw [h1] at h2
  constructor
  · intro hc
    have : cnt st.cpm a = 1 := by simp [cnt, hc]
    rw [this] at h2
    split at h2 <;> omega
  · split at h2 <;> omega

theorem inv_app {fr : Nat → Frame} (hfr : ∀ i, (fr i).idPos = 14) {n : Nat} (hlong : Long fr n) {st : St}
    (inv : Inv fr n st) : ∃ st', stepApp fr st = some st' ∧ Inv fr n st' := by
  have hnb := newest_of_app inv
  have hlt := @app_lt fr n st inv
  have hap := @apart fr n st inv
  obtain ⟨hlo, hreg, hpos, hel, hal, hlive, hall, heth, hnew, hreq, prev, htr, happ⟩ := id inv
  cases e : st.rd with
  | idle => exact ⟨st, by simp [stepApp, e], inv⟩
  | closed => simp only [appOk, e] at happ
  | close1 => simp only [appOk, e] at happ
  | close2 => simp only [appOk, e] at happ
  | close3 => simp only [appOk, e] at happ
  | begun r =>
    simp only [appOk, e] at happ
    simp only [reqOk, e] at hreq
    by_cases ho : st.owner = none
    · refine ⟨{ st with owner := some .app, rd := .locked r }, by simp [stepApp, e, lock, hlo, ho],
        hlo, hreg, hpos, ?_, by simp [appLocks], ?_, ?_, heth, ?_, hreq, prev, htr, happ⟩
      · rw [ho] at hel; simpa using hel
      · intro x; have := hlive x; simp only [slotC, e] at this ⊢; exact this
      · intro x; have := hall x; simp only [slotC, e] at this ⊢; exact this
      · exact newestOk_rd hnew (by simp [e]) (by simp [e]) (by simp) (by simp) (l := st.log)
    · exact ⟨st, by simp [stepApp, e, lock, hlo, ho], inv⟩
  | locked r =>
    have ho : st.owner = some .app := hal.mp (by rw [e]; rfl)
    have hne := hnb (by rw [e]; rfl)
    have hset := settled hne hnew (by simp [e]) (by simp [e])
    simp only [appOk, e] at happ
    simp only [reqOk, e] at hreq
    cases hb : st.newBuf with
    | true =>
      refine ⟨{ st with rd := .fresh r }, by simp [stepApp, e, hb],
        hlo, hreg, hpos, hel, by simp [appLocks, ho], ?_, ?_, heth, ?_, hreq, prev, htr, happ.1, happ.2, hb⟩
      · intro x; have := hlive x; simp only [slotC, e] at this ⊢; exact this
      · intro x; have := hall x; simp only [slotC, e] at this ⊢; exact this
      · exact newestOk_rd hnew (by simp [e]) (by simp [e]) (by simp) (by simp) (l := st.log) (o := st.owner)
    | false =>
      rw [hb] at hset
      refine ⟨{ st with rd := .done r false }, by simp [stepApp, e, hb],
        hlo, hreg, hpos, hel, by simp [appLocks, ho], ?_, ?_, heth, ?_, hreq, prev, htr, ?_, ?_⟩
      · intro x; have := hlive x; simp only [slotC, e] at this ⊢; exact this
      · intro x; have := hall x; simp only [slotC, e] at this ⊢; exact this
      · exact newestOk_rd hnew (by simp [e]) (by simp [e]) (by simp) (by simp) (l := st.log) (o := st.owner)
      · exact ⟨handed st, by simpa using hset, happ.2, Nat.le_refl _⟩
      · refine ⟨?_, by simp [happ.1]⟩
        show NotNewer prev st.app
        rw [happ.1]
        cases prev <;> simp [NotNewer]
  | fresh r =>
    have ho : st.owner = some .app := hal.mp (by rw [e]; rfl)
    simp only [appOk, e] at happ
    simp only [reqOk, e] at hreq
    refine ⟨{ st with rd := .swap1 r st.app }, by simp [stepApp, e],
        hlo, hreg, hpos, hel, by simp [appLocks, ho], ?_, ?_, heth, ?_, hreq, prev, htr, happ.1, happ.2.1, happ.2.2, happ.1⟩
    · intro x; have := hlive x; simp only [slotC, e] at this ⊢; exact this
    · intro x; have := hall x; simp only [slotC, e] at this ⊢; exact this
    · exact newestOk_rd hnew (by simp [e]) (by simp [e]) (by simp) (by simp) (l := st.log) (o := st.owner)
  | swap1 r p =>
    have ho : st.owner = some .app := hal.mp (by rw [e]; rfl)
    have hne := hnb (by rw [e]; rfl)
    have hset := settled hne hnew (by simp [e]) (by simp [e])
    simp only [appOk, e] at happ
    simp only [reqOk, e] at hreq
    obtain ⟨ha, hsi, hnb', hp⟩ := happ
    rw [hnb'] at hset
    simp only [if_true] at hset
    refine ⟨{ st with app := st.cpm, rd := .swap2 r p }, by simp [stepApp, e],
        hlo, hreg, hpos, hel, by simp [appLocks, ho], ?_, ?_, ?_, hset.2, hreq, prev, htr, hp, hsi, ?_⟩
    · intro x; have := hlive x; simp only [slotC, e] at this ⊢; rw [hp, ← ha]; omega
    · intro x; have := hall x; simp only [slotC, e] at this ⊢; rw [hp, ← ha]; omega
    · exact heth
    · show NotNewer prev st.cpm ∧ (true = true ↔ st.cpm ≠ prev)
      obtain ⟨k, hk⟩ : ∃ k, handed st = k + 1 := ⟨handed st - 1, by omega⟩
      have hc : st.cpm = some k := by rw [hset.2, hk]; rfl
      rw [hc]
      cases hpv : prev with
      | none => simp [NotNewer]
      | some a =>
        have ha' : st.app = some a := by rw [ha, hpv]
        have h1 := hlt ha'
        obtain ⟨h2, h3⟩ := hap (by simp [e]) ha'
        have hka : k ≠ a := by intro h; exact h2 (h ▸ hc)
        have : a ≤ k := by
          cases he : st.eth with
          | accepted m =>
            simp only [ethOk, he] at heth
            simp only [handed, he] at hk
            simp only [he, heldC, cnt] at h3
            have : m ≠ a := by intro h; simp [h] at h3
            omega
          | locked m => rw [he] at hne; cases hne
          | loaded m q => rw [he] at hne; cases hne
          | idle => simp only [handed, he] at hk; omega
          | stored m q => simp only [handed, he] at hk; omega
          | flagged m q => simp only [handed, he] at hk; omega
          | unlocked m q => simp only [handed, he] at hk; omega
          | placed q => simp only [handed, he] at hk; omega
        simp [NotNewer, this, hka]
  | swap2 r p =>
    have ho : st.owner = some .app := hal.mp (by rw [e]; rfl)
    have hne := hnb (by rw [e]; rfl)
    simp only [appOk, e] at happ
    simp only [reqOk, e] at hreq
    simp only [newestOk, e] at hnew
    refine ⟨{ st with cpm := p, rd := .swapped r }, by simp [stepApp, e],
        hlo, hreg, hpos, hel, by simp [appLocks, ho], ?_, ?_, ?_, hnew, hreq, prev, htr, happ.2⟩
    · intro x; have := hlive x; simp only [slotC, e] at this ⊢; exact this
    · intro x; have := hall x; simp only [slotC, e] at this ⊢; exact this
    · simp only [ethOk] at heth ⊢
      split at heth
      · trivial
      · exact heth
      · exact heth
      · rename_i he; rw [he] at hne; cases hne
      · rename_i he; rw [he] at hne; cases hne
      · exact heth
      · exact heth
      · trivial
  | swapped r =>
    have ho : st.owner = some .app := hal.mp (by rw [e]; rfl)
    have hne := hnb (by rw [e]; rfl)
    simp only [appOk, e] at happ
    simp only [reqOk, e] at hreq
    simp only [newestOk, e] at hnew
    refine ⟨{ st with newBuf := false, rd := .done r true }, by simp [stepApp, e],
        hlo, hreg, hpos, hel, by simp [appLocks, ho], ?_, ?_, ?_, ?_, hreq, prev, htr, ⟨handed st, hnew, happ.1, Nat.le_refl _⟩, happ.2⟩
    · intro x; have := hlive x; simp only [slotC, e] at this ⊢; exact this
    · intro x; have := hall x; simp only [slotC, e] at this ⊢; exact this
    · simp only [ethOk] at heth ⊢
      split at heth
      · trivial
      · exact heth
      · exact heth
      · exact heth
      · exact heth
      · rename_i he; rw [he] at hne; cases hne
      · exact heth
      · trivial
    · exact newestOk_of (by simp) (by simp) (by rw [if_neg (by simp)]; exact hnew)
  | done r new =>
    have ho : st.owner = some .app := hal.mp (by rw [e]; rfl)
    have hne := hnb (by rw [e]; rfl)
    simp only [appOk, e] at happ
    simp only [reqOk, e] at hreq
    refine ⟨{ st with owner := none, rd := .free r new }, by simp [stepApp, e, unlock, hlo, ho],
        hlo, hreg, hpos, by simp [hne], by simp [appLocks], ?_, ?_, heth, ?_, hreq, prev, htr, happ⟩
    · intro x; have := hlive x; simp only [slotC, e] at this ⊢; exact this
    · intro x; have := hall x; simp only [slotC, e] at this ⊢; exact this
    · exact newestOk_rd hnew (by simp [e]) (by simp [e]) (by simp) (by simp) (l := st.log)
  | free r new =>
    have ho : st.owner ≠ some .app := by
      intro h; have := hal.mpr h; rw [e] at this; cases this
    simp only [appOk, e] at happ
    simp only [reqOk, e] at hreq
    obtain ⟨hrec, hch⟩ := happ
    cases ha : st.app with
    | none =>
      have hprev : prev = none := by
        have := hch.1
        rw [ha] at this
        cases prev with
        | none => rfl
        | some a => cases this
      refine ⟨{ st with rd := .idle, log := st.log ++ [⟨r, false, none, st.rx⟩] }, by simp [stepApp, e, ha],
        hlo, hreg, hpos, hel, by simpa [appLocks] using ho, ?_, ?_, heth, ?_, trivial, none, ?_, ha⟩
      · intro x; have := hlive x; simp only [slotC, e] at this ⊢; exact this
      · intro x; have := hall x; simp only [slotC, e] at this ⊢; exact this
      · exact newestOk_rd hnew (by simp [e]) (by simp [e]) (by simp) (by simp) (o := st.owner)
      · refine .snoc htr ⟨?_, (by intro f h; cases h), ?_, ?_⟩
        · intro _
          refine ⟨rfl, ?_⟩
          obtain ⟨k, hk, h1, _⟩ := hrec
          rw [ha] at hk
          cases k with
          | zero => exact Nat.le_zero.mp h1
          | succ k => cases hk
        · rw [hprev]; trivial
        · rw [hprev]; simp
    | some b =>
      refine ⟨{ st with rd := .pointed r new b st.pos }, by simp [stepApp, e, ha],
        hlo, hreg, hpos, hel, by simpa [appLocks] using ho, ?_, ?_, heth, ?_, hreq, prev, htr, hrec, hch, ha, hpos⟩
      · intro x; have := hlive x; simp only [slotC, e] at this ⊢; exact this
      · intro x; have := hall x; simp only [slotC, e] at this ⊢; exact this
      · exact newestOk_rd hnew (by simp [e]) (by simp [e]) (by simp) (by simp) (l := st.log) (o := st.owner)
  | pointed r new b pos =>
    simp only [appOk, e] at happ
    simp only [reqOk, e] at hreq
    by_cases ho : st.owner = none
    · refine ⟨{ st with owner := some .app, rd := .copying r new b pos r.offs [] }, by simp [stepApp, e, lock, hlo, ho],
        hlo, hreg, hpos, ?_, by simp [appLocks], ?_, ?_, heth, ?_, hreq, prev, htr, ?_⟩
      · rw [ho] at hel; simpa using hel
      · intro x; have := hlive x; simp only [slotC, e] at this ⊢; exact this
      · intro x; have := hall x; simp only [slotC, e] at this ⊢; exact this
      · exact newestOk_rd hnew (by simp [e]) (by simp [e]) (by simp) (by simp) (l := st.log)
      · exact ⟨happ.1, happ.2.1, happ.2.2.1, happ.2.2.2, [], rfl, rfl⟩
    · exact ⟨st, by simp [stepApp, e, lock, hlo, ho], inv⟩
  | copying r new b pos todo got =>
    have ho : st.owner = some .app := hal.mp (by rw [e]; rfl)
    have hne := hnb (by rw [e]; rfl)
    simp only [appOk, e] at happ
    simp only [reqOk, e] at hreq
    obtain ⟨hrec, hch, hb, hp16, pre, hpre, hgot⟩ := happ
    subst hp16
    cases todo with
    | nil =>
      refine ⟨{ st with owner := none, rd := .idle, log := st.log ++ [⟨r, new, some got, st.rx⟩] },
        by simp [stepApp, e, unlock, hlo, ho],
        hlo, hreg, hpos, by simp [hne], by simp [appLocks], ?_, ?_, heth, ?_, trivial, some b, ?_, hb⟩
      · intro x; have := hlive x; simp only [slotC, e] at this ⊢; exact this
      · intro x; have := hall x; simp only [slotC, e] at this ⊢; exact this
      · exact newestOk_rd hnew (by simp [e]) (by simp [e]) (by simp) (by simp)
      · obtain ⟨h1, h2⟩ := hch
        rw [hb] at h1 h2
        refine .snoc htr ⟨by (intro h; cases h), ?_, h1, h2⟩
        intro f hf
        cases hf
        rw [List.append_nil] at hpre
        refine ⟨?_, rfl, ?_, hlt hb⟩
        · show some got = sdu (fr b) r.offs
          unfold sdu
          rw [hpre, hfr b]
          exact hgot.symm
        · obtain ⟨k, hk, h3, _⟩ := hrec
          rw [hb] at hk
          cases k with
          | zero => cases hk
          | succ k => cases hk; exact h3
    | cons o todo =>
      have hbl : st.live b = true := by
        have := hlive b
        have h1 : 1 ≤ slotC st b := by
          unfold slotC
          split <;> simp [cnt, hb]
        cases h : st.live b with
        | true => rfl
        | false => rw [h] at this; simp at this; omega
      have hon : o < n := hreq o (by rw [hpre]; simp)
      have hbound : 16 + o < (fr b).bytes.length := by
        have := hlong b
        rw [hfr b] at this
        omega
      have hx : (fr b).bytes[16 + o]? = some ((fr b).bytes[16 + o]) := List.getElem?_eq_getElem hbound
      refine ⟨{ st with rd := .copying r new b 16 todo (got ++ [(fr b).bytes[16 + o]]) },
        by simp [stepApp, e, copyByte, hbl, hx],
        hlo, hreg, hpos, hel, by simp [appLocks, ho], ?_, ?_, heth, ?_, hreq, prev, htr, hrec, hch, hb, rfl,
        pre ++ [o], by rw [hpre]; simp, mapM_snoc hgot hx⟩
      · intro x; have := hlive x; simp only [slotC, e] at this ⊢; exact this
      · intro x; have := hall x; simp only [slotC, e] at this ⊢; exact this
      · exact newestOk_rd hnew (by simp [e]) (by simp [e]) (by simp) (by simp) (l := st.log) (o := st.owner)

end Verif.Conc.Recv
