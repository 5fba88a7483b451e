import Verif.Lan.Model

/-! C136: supervision of incoming data in the LAN9662 driver. -/
set_option linter.unusedSimpArgs false
set_option linter.unusedVariables false

namespace Verif.Lan.Watch

abbrev U64 := BitVec 64
abbrev U8 := BitVec 8

/-! ## Model -/

inductive St where
  | wStart
  | fRun
  | run
deriving DecidableEq

/-- The members of pf_cpm_t and of the frame that the timer uses.  `aborts` etc. are outputs, see `Out`. -/
structure Wd where
  running : Bool
  st : St
  rx : U64
  recv : BitVec 32
  status : U8
  dht : U16
  dhf : U16

/-- What the hardware answers at one call of the timer: the frame counter, the data status and the events (stopped, data status mismatch), each
unless reading fails; and whether the timer can be started again. -/
structure In where
  counter : Option U64
  status : Option U8
  events : Option (Bool × Bool)
  sched : Bool

/-- pf_cpm_state_ind (true), pf_mera_cpm_activate_rte_dht, pf_fspm_data_status_changed, pf_cmio_cpm_new_data_ind, pf_cpm_state_ind (false) after
setting the error "consumer DHT expired", and pf_cmsu_cpm_error_ind. -/
inductive Out where
  | start
  | activate
  | changed (changes status : U8)
  | newData
  | abort
  | timerError
deriving DecidableEq

/-- pf_mera_cpm_read_rx_count (src/drivers/lan9662/src/pf_lan9662_mera.c:2650-2672): the frames since the last call, and the new `rx_count`. -/
def rxCount (old : U64) : Option U64 → U64 × U64
  | some c => (if old ≤ c then c - old else c + (0xFFFFFFFFFFFFFFFF - c), c)
  | none => (0, old)

/-- PNET_DATA_STATUS_BIT_PROVIDER_STATE. -/
def providerRun (s : U8) : Bool := s.getLsbD 4
/-- PNET_DATA_STATUS_BIT_STATION_PROBLEM_INDICATOR: set if there is no problem. -/
def noProblem (s : U8) : Bool := s.getLsbD 5

/-- The switch over the state: the state after, the outputs, and `reset_dht`. -/
def byState (st : St) (rx : U64) (changes status : U8) : St × List Out × Bool :=
  match st with
  | .run => (.run, (if changes ≠ 0 then [.changed changes status] else []) ++ (if 0 < rx then [.newData] else []), false)
  | s => if 0 < rx ∧ providerRun status then (.run, [.start, .activate], true) else (s, [], true)

/-- The end of pf_cpm_drv_lan9662_ci_timeout (src/drivers/lan9662/src/pf_cpm_driver_lan9662.c:39-237): stop, or start the timer again. -/
def conclude (w : Wd) (stopped sched : Bool) (outs : List Out) : Wd × List Out :=
  if stopped || w.dht == w.dhf then ({ w with dht := 0, running := false, st := .wStart }, outs ++ [.abort])
  else (w, outs ++ if sched then [] else [.timerError])

/-- pf_cpm_drv_lan9662_ci_timeout (src/drivers/lan9662/src/pf_cpm_driver_lan9662.c:39-237).  The measurement of the time used is left out. -/
def tick (w : Wd) (i : In) : Wd × List Out :=
  if w.running then
    let (rx, counter) := rxCount w.rx i.counter
    let status := i.status.getD 0
    let (st, outs, reset0) := byState w.st rx (w.status ^^^ status) status
    let (stopped, mismatch) := i.events.getD (false, false)
    let reset := reset0 || (if 0 < rx ∧ mismatch = false then true else !providerRun status || !noProblem status)
    let dht := if reset then 0 else w.dht + 1
    conclude { w with st := st, rx := counter, recv := w.recv + rx.setWidth 32, status := status, dht := dht } stopped i.sched outs
  else (w, [])

def ticks (w : Wd) : List In → Wd × List Out
  | [] => (w, [])
  | i :: is => let (w', o) := tick w i; let (w'', os) := ticks w' is; (w'', o ++ os)

/-! ## Specification -/

/-- A new frame has come since the counter was `old`. -/
def Fresh (old : U64) (i : In) : Prop := ∃ c, i.counter = some c ∧ c ≠ old

/-- The interval counts as missed: no new frame with an accepted data status, although the last known data status says that the provider is in
operation without a problem. -/
def Missed (old : U64) (i : In) : Prop :=
  ¬ (Fresh old i ∧ ∀ s m, i.events = some (s, m) → m = false) ∧ ∃ s, i.status = some s ∧ s.getLsbD 4 = true ∧ s.getLsbD 5 = true

/-- The hardware tells that it stopped. -/
def Stopped (i : In) : Prop := ∃ m, i.events = some (true, m)

/-- The counter after an interval. -/
def counterAfter (old : U64) (i : In) : U64 := i.counter.getD old

open Classical in
/-- Somewhere the hardware stopped, or `limit` intervals in a row were missed (`n` of them before). -/
def Expired (limit : Nat) (old : U64) (n : Nat) : List In → Prop
  | [] => False
  | i :: is => Stopped i ∨ (if Missed old i then n + 1 else 0) = limit ∨ Expired limit (counterAfter old i) (if Missed old i then n + 1 else 0) is

/-! ## Proofs -/

theorem rx_pos (old : U64) (c : Option U64) : 0 < (rxCount old c).1 ↔ ∃ x, c = some x ∧ x ≠ old := by
  cases c with
  | none => simp [rxCount]
  | some x =>
    simp only [rxCount, Option.some.injEq, exists_eq_left']
    split
    · rename_i h
      rw [BitVec.lt_def, BitVec.toNat_sub_of_le h]
      rw [BitVec.le_def] at h
      have z : (0 : U64).toNat = 0 := rfl
      constructor
      · intro h1 e; subst e; omega
      · intro h1
        have : x.toNat ≠ old.toNat := fun c => h1 (BitVec.eq_of_toNat_eq c)
        omega
    · rename_i h
      constructor
      · intro _ e; subst e; exact h (BitVec.le_refl _)
      · intro _
        have : x + (0xFFFFFFFFFFFFFFFF - x) = 0xFFFFFFFFFFFFFFFF := by
          rw [BitVec.add_comm, BitVec.sub_add_cancel]
        rw [this]
        decide

theorem rx_counter (old : U64) (c : Option U64) : (rxCount old c).2 = c.getD old := by
  cases c <;> rfl

theorem missed_iff (old : U64) (i : In) :
    (if 0 < (rxCount old i.counter).1 ∧ (i.events.getD (false, false)).2 = false then true
      else !providerRun (i.status.getD 0) || !noProblem (i.status.getD 0)) = true ↔ ¬ Missed old i := by
  have h1 : (0 < (rxCount old i.counter).1) ↔ Fresh old i := rx_pos old i.counter
  have h2 : (i.events.getD (false, false)).2 = false ↔ ∀ s m, i.events = some (s, m) → m = false := by
    cases i.events with
    | none => simp
    | some p =>
      obtain ⟨s, m⟩ := p
      simp
  have h3 : (!providerRun (i.status.getD 0) || !noProblem (i.status.getD 0)) = true ↔ ¬ ∃ s, i.status = some s ∧ s.getLsbD 4 = true ∧ s.getLsbD 5 = true := by
    cases i.status with
    | none => simp [providerRun, noProblem]
    | some s => simp [providerRun, noProblem]; cases s[4] <;> simp
  have h12 := and_congr h1 h2
  unfold Missed
  split
  · rename_i c
    replace c := h12.mp c
    exact ⟨fun _ ⟨a, _⟩ => a c, fun _ => rfl⟩
  · rename_i c
    replace c := fun x => c (h12.mpr x)
    rw [h3]
    exact ⟨fun a ⟨_, b⟩ => a b, fun a b => a ⟨c, b⟩⟩

open Classical in
/-- One interval in state RUN. -/
theorem tick_run {w : Wd} (hr : w.running = true) (hs : w.st = .run) (i : In) :
    let n := if Missed w.rx i then w.dht + 1 else 0
    if Stopped i ∨ n = w.dhf then Out.abort ∈ (tick w i).2 ∧ (tick w i).1.running = false
    else Out.abort ∉ (tick w i).2 ∧ (tick w i).1.running = true ∧ (tick w i).1.st = .run ∧ (tick w i).1.dht = n ∧ (tick w i).1.dhf = w.dhf ∧
      (tick w i).1.rx = counterAfter w.rx i := by
  intro n
  have hm := missed_iff w.rx i
  have hstop : (i.events.getD (false, false)).1 = true ↔ Stopped i := by
    unfold Stopped
    cases i.events with
    | none => simp
    | some p => obtain ⟨s, m⟩ := p; simp
  have hd : (if (if 0 < (rxCount w.rx i.counter).1 ∧ (i.events.getD (false, false)).2 = false then true
      else !providerRun (i.status.getD 0) || !noProblem (i.status.getD 0)) = true then (0 : U16) else w.dht + 1) = n := by
    show _ = if Missed w.rx i then w.dht + 1 else 0
    by_cases c : Missed w.rx i
    · rw [if_pos c, if_neg (fun h => hm.mp h c)]
    · rw [if_neg c, if_pos (hm.mpr c)]
  have noAbort : ∀ (rx : U64) (c s : U8), Out.abort ∉ (byState .run rx c s).2.1 := by
    intro rx c s
    unfold byState
    simp only [List.mem_append, not_or]
    constructor <;> (split <;> simp)
  have hb : (byState .run (rxCount w.rx i.counter).1 (w.status ^^^ i.status.getD 0) (i.status.getD 0)).1 = .run := rfl
  have hb2 : (byState .run (rxCount w.rx i.counter).1 (w.status ^^^ i.status.getD 0) (i.status.getD 0)).2.2 = false := rfl
  unfold tick
  rw [if_pos hr, hs]
  simp only [hb2, Bool.false_or]
  rw [hd]
  unfold conclude
  by_cases c : Stopped i ∨ n = w.dhf
  · rw [if_pos c]
    have : ((i.events.getD (false, false)).1 || n == w.dhf) = true := by
      rw [Bool.or_eq_true]
      rcases c with c | c
      · exact Or.inl (hstop.mpr c)
      · exact Or.inr (by simpa using c)
    rw [if_pos this]
    exact ⟨List.mem_append_right _ List.mem_cons_self, rfl⟩
  · rw [if_neg c]
    have : ¬ ((i.events.getD (false, false)).1 || n == w.dhf) = true := by
      rw [Bool.or_eq_true]
      rintro (h | h)
      · exact c (Or.inl (hstop.mp h))
      · exact c (Or.inr (by simpa using h))
    rw [if_neg this]
    refine ⟨?_, hr, hb, rfl, rfl, rx_counter _ _⟩
    rw [List.mem_append, not_or]
    refine ⟨noAbort _ _ _, ?_⟩
    split <;> simp

theorem ticks_cons (w : Wd) (i : In) (is : List In) : ticks w (i :: is) = ((ticks (tick w i).1 is).1, (tick w i).2 ++ (ticks (tick w i).1 is).2) := rfl

/-- After the end nothing happens any more. -/
theorem ticks_idle {w : Wd} (hr : w.running = false) : ∀ is, ticks w is = (w, []) := by
  intro is
  have one : ∀ i, tick w i = (w, []) := by
    intro i
    unfold tick
    rw [if_neg (by rw [hr]; simp)]
  induction is with
  | nil => rfl
  | cons i is ih => rw [ticks_cons, one, ih]; rfl

open Classical in
theorem aborts_iff : ∀ (is : List In) {w : Wd}, w.running = true → w.st = .run → w.dht.toNat < w.dhf.toNat →
    (Out.abort ∈ (ticks w is).2 ↔ Expired w.dhf.toNat w.rx w.dht.toNat is) := by
  intro is
  induction is with
  | nil => intro w _ _ _; exact ⟨fun h => absurd h List.not_mem_nil, fun h => h.elim⟩
  | cons i is ih =>
    intro w hr hs hlt
    rw [ticks_cons]
    unfold Expired
    have key := tick_run hr hs i
    simp only at key
    have hn : (if Missed w.rx i then w.dht.toNat + 1 else 0) = (if Missed w.rx i then w.dht + 1 else (0 : U16)).toNat := by
      split
      · have o : (1 : U16).toNat = 1 := rfl
        rw [BitVec.toNat_add, o]
        have := w.dhf.isLt
        omega
      · rfl
    have heq : (if Missed w.rx i then w.dht.toNat + 1 else 0) = w.dhf.toNat ↔ (if Missed w.rx i then w.dht + 1 else (0 : U16)) = w.dhf := by
      rw [hn]
      exact ⟨fun h => BitVec.eq_of_toNat_eq h, fun h => by rw [h]⟩
    by_cases c : Stopped i ∨ (if Missed w.rx i then w.dht + 1 else (0 : U16)) = w.dhf
    · rw [if_pos c] at key
      refine ⟨fun _ => ?_, fun _ => List.mem_append_left _ key.1⟩
      rcases c with c | c
      · exact Or.inl c
      · exact Or.inr (Or.inl (heq.mpr c))
    · rw [if_neg c] at key
      obtain ⟨k1, k2, k3, k4, k5, k6⟩ := key
      have hlt' : (tick w i).1.dht.toNat < (tick w i).1.dhf.toNat := by
        rw [k4, k5, ← hn]
        have : (if Missed w.rx i then w.dht.toNat + 1 else 0) ≠ w.dhf.toNat := fun h => c (Or.inr (heq.mp h))
        split at this <;> split <;> first | omega | contradiction
      have := ih k2 k3 hlt'
      rw [k4, k5, k6, ← hn] at this
      rw [List.mem_append]
      constructor
      · rintro (h | h)
        · exact absurd h k1
        · exact Or.inr (Or.inr (this.mp h))
      · rintro (h | h | h)
        · exact absurd (Or.inl h) c
        · exact absurd (Or.inr (heq.mp h)) c
        · exact Or.inr (this.mpr h)

/-- C136: once data is exchanged, the connection is aborted exactly when the hardware stops or as many intervals in a row as the data hold factor
says were missed. -/
theorem C136_aborts_iff {w : Wd} (hr : w.running = true) (hs : w.st = .run) (hd : w.dht = 0) (hf : w.dhf ≠ 0) (is : List In) :
    Out.abort ∈ (ticks w is).2 ↔ Expired w.dhf.toNat w.rx 0 is := by
  have z : (0 : U16).toNat = 0 := rfl
  have := aborts_iff is hr hs (by
    rw [hd, z]
    exact Nat.pos_of_ne_zero fun c => hf (BitVec.eq_of_toNat_eq c))
  rw [hd, z] at this
  exact this

/-! ### Consequences -/

theorem expired_silent (limit : Nat) (old : U64) : ∀ (is : List In) (n : Nat), n < limit → (∀ i ∈ is, i.counter = some old ∧ ¬ Stopped i ∧ Missed old i) →
    (Expired limit old n is ↔ limit ≤ n + is.length) := by
  intro is
  induction is with
  | nil => intro n hn _; exact ⟨fun h => h.elim, fun h => by simp at h; omega⟩
  | cons i is ih =>
    intro n hn h
    obtain ⟨h1, h2, h3⟩ := h i List.mem_cons_self
    have hc : counterAfter old i = old := by unfold counterAfter; rw [h1]; rfl
    unfold Expired
    rw [if_pos h3, hc, List.length_cons]
    by_cases c : n + 1 = limit
    · exact ⟨fun _ => by omega, fun _ => Or.inr (Or.inl c)⟩
    · have := ih (n + 1) (by omega) fun x hx => h x (List.mem_cons_of_mem _ hx)
      constructor
      · rintro (h' | h' | h')
        · exact absurd h' h2
        · exact absurd h' c
        · have := this.mp h'; omega
      · intro h'
        exact Or.inr (Or.inr (this.mpr (by omega)))

/-- The frames stay away: the counter stands still, the data status is the one of normal operation (0x35) and there are no events. -/
def Silent (old : U64) (i : In) : Prop := i.counter = some old ∧ i.status = some 0x35 ∧ i.events = some (false, false)

theorem silent_missed {old : U64} {i : In} (h : Silent old i) : i.counter = some old ∧ ¬ Stopped i ∧ Missed old i := by
  obtain ⟨h1, h2, h3⟩ := h
  refine ⟨h1, fun ⟨m, hm⟩ => ?_, fun ⟨⟨c, hc, hne⟩, _⟩ => ?_, 0x35, h2, rfl, rfl⟩
  · rw [h3] at hm; cases hm
  · rw [h1] at hc; exact hne (Option.some.inj hc).symm

/-- C136: if no frame comes any more, the connection is aborted after exactly as many intervals as the data hold factor says. -/
theorem C136_silence_partial {w : Wd} (hr : w.running = true) (hs : w.st = .run) (hd : w.dht = 0) (hf : w.dhf ≠ 0) {is : List In}
    (h : ∀ i ∈ is, Silent w.rx i) : Out.abort ∈ (ticks w is).2 ↔ w.dhf.toNat ≤ is.length := by
  rw [C136_aborts_iff hr hs hd hf]
  have := expired_silent w.dhf.toNat w.rx is 0 (Nat.pos_of_ne_zero fun c => hf (BitVec.eq_of_toNat_eq c)) fun i hi => silent_missed (h i hi)
  simpa using this

/-- Frames come in every interval. -/
def Alive (old : U64) : List In → Prop
  | [] => True
  | i :: is => Fresh old i ∧ (∀ s m, i.events = some (s, m) → s = false ∧ m = false) ∧ Alive (counterAfter old i) is

/-- C136: while frames come in every interval, the connection is not aborted. -/
theorem C136_alive {w : Wd} (hr : w.running = true) (hs : w.st = .run) (hd : w.dht = 0) (hf : w.dhf ≠ 0) {is : List In}
    (h : Alive w.rx is) : Out.abort ∉ (ticks w is).2 := by
  rw [C136_aborts_iff hr hs hd hf]
  have pos : 0 < w.dhf.toNat := Nat.pos_of_ne_zero fun c => hf (BitVec.eq_of_toNat_eq c)
  have : ∀ (is : List In) (old : U64), Alive old is → ¬ Expired w.dhf.toNat old 0 is := by
    intro is
    induction is with
    | nil => intro old _ h; exact h
    | cons i is ih =>
      intro old ⟨h1, h2, h3⟩
      have nm : ¬ Missed old i := fun m => m.1 ⟨h1, fun s m hm => (h2 s m hm).2⟩
      unfold Expired
      rw [if_neg nm]
      rintro (⟨m, hm⟩ | h | h)
      · exact absurd (h2 true m hm).1 (by simp)
      · omega
      · exact ih _ h3 h
  exact this is _ h

/-- C136: an abort ends the supervision; nothing is told afterwards. -/
theorem C136_once {w : Wd} (i : In) (h : Out.abort ∈ (tick w i).2) (is : List In) : (ticks (tick w i).1 is).2 = [] ∧ (tick w i).1.st = .wStart := by
  have key : (tick w i).1.running = false ∧ (tick w i).1.st = .wStart ∨ Out.abort ∉ (tick w i).2 := by
    unfold tick
    split
    · dsimp only
      unfold conclude
      by_cases c : ((i.events.getD (false, false)).1 || (if ((byState w.st (rxCount w.rx i.counter).1 (w.status ^^^ i.status.getD 0)
          (i.status.getD 0)).2.2 || if 0 < (rxCount w.rx i.counter).1 ∧ (i.events.getD (false, false)).2 = false then true
            else !providerRun (i.status.getD 0) || !noProblem (i.status.getD 0)) = true then 0 else w.dht + 1) == w.dhf) = true
      · rw [if_pos c]; exact Or.inl ⟨rfl, rfl⟩
      · rw [if_neg c]
        refine Or.inr fun h => ?_
        rw [List.mem_append] at h
        rcases h with h | h
        · unfold byState at h
          split at h
          · simp only [List.mem_append] at h
            rcases h with h | h <;> (split at h <;> simp at h)
          · split at h <;> simp at h
        · split at h <;> simp at h
    · exact Or.inr List.not_mem_nil
  rcases key with k | k
  · exact ⟨by rw [ticks_idle k.1], k.2⟩
  · exact absurd h k

/-- C136: data exchange starts with the first frame whose provider is in operation, and the supervision of the hardware with it. -/
theorem C136_starts {w : Wd} (hr : w.running = true) (hs : w.st ≠ .run) (hf : w.dhf ≠ 0) (i : In) (hn : ¬ Stopped i) :
    (Out.start ∈ (tick w i).2 ↔ Fresh w.rx i ∧ ∃ s, i.status = some s ∧ s.getLsbD 4 = true) ∧
      ((tick w i).1.st = .run ↔ Fresh w.rx i ∧ ∃ s, i.status = some s ∧ s.getLsbD 4 = true) ∧
      (Out.start ∈ (tick w i).2 → Out.activate ∈ (tick w i).2) ∧ (tick w i).1.dht = 0 ∧ Out.abort ∉ (tick w i).2 := by
  have h1 : (0 < (rxCount w.rx i.counter).1) ↔ Fresh w.rx i := rx_pos w.rx i.counter
  have h2 : providerRun (i.status.getD 0) = true ↔ ∃ s, i.status = some s ∧ s.getLsbD 4 = true := by
    cases i.status with
    | none => simp [providerRun]
    | some s => simp [providerRun]
  have hstop : ¬ (i.events.getD (false, false)).1 = true := by
    intro c
    refine hn ?_
    unfold Stopped
    cases he : i.events with
    | none => rw [he] at c; simp at c
    | some p => obtain ⟨s, m⟩ := p; rw [he] at c; simp at c; exact ⟨m, by rw [c]⟩
  have hb : byState w.st (rxCount w.rx i.counter).1 (w.status ^^^ i.status.getD 0) (i.status.getD 0) =
      if 0 < (rxCount w.rx i.counter).1 ∧ providerRun (i.status.getD 0) = true then (.run, [.start, .activate], true) else (w.st, [], true) := by
    unfold byState
    split
    · rename_i c; exact absurd c hs
    · rfl
  unfold tick
  rw [if_pos hr]
  simp only [hb]
  rw [← h1, ← h2]
  unfold conclude
  have z : ((0 : U16) == w.dhf) = false := by
    rw [beq_eq_false_iff_ne]
    exact fun c => hf c.symm
  by_cases c : 0 < (rxCount w.rx i.counter).1 ∧ providerRun (i.status.getD 0) = true
  · rw [if_pos c]
    simp only [Bool.true_or, if_true, z, Bool.or_false]
    rw [if_neg hstop]
    refine ⟨⟨fun _ => c, fun _ => by simp⟩, ⟨fun _ => c, fun _ => rfl⟩, fun _ => by simp, rfl, ?_⟩
    split <;> simp
  · rw [if_neg c]
    simp only [Bool.true_or, if_true, z, Bool.or_false]
    rw [if_neg hstop]
    refine ⟨⟨fun h => ?_, fun h => absurd h c⟩, ⟨fun h => absurd h hs, fun h => absurd h c⟩, fun h => ?_, rfl, ?_⟩
    · exfalso
      simp only [List.nil_append] at h
      split at h <;> simp at h
    · exfalso
      simp only [List.nil_append] at h
      split at h <;> simp at h
    · split <;> simp

/-! ## Where C136 fails -/

/-- The frames stay away while the last known data status says that the provider is stopped or has a problem, or cannot be read. -/
def SilentStopped (old : U64) (i : In) : Prop :=
  i.counter = some old ∧ i.events = some (false, false) ∧ ∀ s, i.status = some s → s.getLsbD 4 = false ∨ s.getLsbD 5 = false

/-- C136 fails: such a connection is never aborted, however long the silence. -/
theorem C136_silence_after_stop {w : Wd} (hr : w.running = true) (hs : w.st = .run) (hd : w.dht = 0) (hf : w.dhf ≠ 0) {is : List In}
    (h : ∀ i ∈ is, SilentStopped w.rx i) : Out.abort ∉ (ticks w is).2 := by
  rw [C136_aborts_iff hr hs hd hf]
  have pos : 0 < w.dhf.toNat := Nat.pos_of_ne_zero fun c => hf (BitVec.eq_of_toNat_eq c)
  have : ∀ (is : List In) (old : U64), (∀ i ∈ is, SilentStopped old i) → ¬ Expired w.dhf.toNat old 0 is := by
    intro is
    induction is with
    | nil => intro old _ h; exact h
    | cons i is ih =>
      intro old h
      obtain ⟨h1, h2, h3⟩ := h i List.mem_cons_self
      have nm : ¬ Missed old i := by
        rintro ⟨_, s, hs, b4, b5⟩
        rcases h3 s hs with h | h
        · rw [b4] at h; cases h
        · rw [b5] at h; cases h
      have hc : counterAfter old i = old := by unfold counterAfter; rw [h1]; rfl
      unfold Expired
      rw [if_neg nm, hc]
      rintro (⟨m, hm⟩ | h' | h')
      · rw [h2] at hm; cases hm
      · omega
      · exact ih _ (fun x hx => h x (List.mem_cons_of_mem _ hx)) h'
  exact this is _ h

/-- C136 fails: when the counter of the hardware is smaller than before (it wrapped around or was cleared), 2^64 - 1 frames are counted, whatever
the counter says: a new frame is assumed. -/
theorem C136_counter_wrap (old c : U64) (h : c.toNat < old.toNat) : (rxCount old (some c)).1 = 0xFFFFFFFFFFFFFFFF ∧
    ((rxCount old (some c)).1 = c - old ↔ c + 1 = old) := by
  have h' : ¬ old ≤ c := by rw [BitVec.le_def]; omega
  have e : (rxCount old (some c)).1 = 0xFFFFFFFFFFFFFFFF := by
    show (if old ≤ c then c - old else c + (0xFFFFFFFFFFFFFFFF - c)) = _
    rw [if_neg h', BitVec.add_comm, BitVec.sub_add_cancel]
  rw [e]
  refine ⟨rfl, ?_⟩
  have m : (0xFFFFFFFFFFFFFFFF : U64).toNat = 0xFFFFFFFFFFFFFFFF := rfl
  have o : (1 : U64).toNat = 1 := rfl
  have h1 := c.isLt
  have h2 := old.isLt
  constructor
  · intro h3
    have h3 := congrArg BitVec.toNat h3
    rw [BitVec.toNat_sub, m] at h3
    apply BitVec.eq_of_toNat_eq
    rw [BitVec.toNat_add, o]
    omega
  · intro h3
    have h3 := congrArg BitVec.toNat h3
    rw [BitVec.toNat_add, o] at h3
    apply BitVec.eq_of_toNat_eq
    rw [BitVec.toNat_sub, m]
    omega

/-! ### Timers left over from earlier connections -/

/-- The timers of one connection that wait in the scheduler: the calls of pf_cpm_drv_lan9662_activate_req
(src/drivers/lan9662/src/pf_cpm_driver_lan9662.c:324-377), pf_cpm_drv_lan9662_close_req (299-322, which forgets the timer without taking it out of
the scheduler), and the timers that run out. -/
structure Timers where
  waiting : Nat
  running : Bool

def Timers.activate (t : Timers) : Timers := ⟨t.waiting + 1, true⟩
def Timers.close (t : Timers) : Timers := { t with running := false }
/-- One timer runs out: it is started again if the connection is in operation. -/
def Timers.fire (t : Timers) : Timers := ⟨if t.running then t.waiting else t.waiting - 1, t.running⟩

def reconnect : Nat → Timers → Timers
  | 0, t => t
  | k + 1, t => reconnect k t.close.activate

/-- C136 fails: after `k` reconnections within one interval `k + 1` timers run for the connection, so that it is aborted after `j` intervals of
silence for every `j` with `(k + 1) * j` at least the data hold factor. -/
theorem C136_left_over_timers (k j : Nat) {w : Wd} (hr : w.running = true) (hs : w.st = .run) (hd : w.dht = 0) (hf : w.dhf ≠ 0)
    (hj : w.dhf.toNat ≤ (k + 1) * j) {is : List In} (hl : is.length = (reconnect k (Timers.activate ⟨0, false⟩)).waiting * j)
    (h : ∀ i ∈ is, Silent w.rx i) :
    (reconnect k (Timers.activate ⟨0, false⟩)).waiting = k + 1 ∧ (reconnect k (Timers.activate ⟨0, false⟩)).fire.waiting = k + 1 ∧
      Out.abort ∈ (ticks w is).2 := by
  have key : ∀ k (t : Timers), t.running = true → (reconnect k t).waiting = t.waiting + k ∧ (reconnect k t).running = true := by
    intro k
    induction k with
    | zero => intro t ht; exact ⟨rfl, ht⟩
    | succ k ih =>
      intro t ht
      have := ih t.close.activate rfl
      refine ⟨?_, this.2⟩
      show (reconnect k t.close.activate).waiting = _
      rw [this.1]
      show t.waiting + 1 + k = _
      omega
  obtain ⟨k1, k2⟩ := key k (Timers.activate ⟨0, false⟩) rfl
  have k1 : (reconnect k (Timers.activate ⟨0, false⟩)).waiting = k + 1 := by
    rw [k1]
    show 0 + 1 + k = _
    omega
  refine ⟨k1, ?_, ?_⟩
  · unfold Timers.fire
    rw [k2, k1]; rfl
  · rw [C136_silence_partial hr hs hd hf h, hl, k1]
    exact hj

/-! ## Concrete cases -/

def demo : Wd := ⟨true, .run, 10, 0, 0x35, 0, 3⟩
def quiet : In := ⟨some 10, some 0x35, some (false, false), true⟩

example : Silent demo.rx quiet ∧ SilentStopped demo.rx { quiet with status := some 0x25 } := ⟨⟨rfl, rfl, rfl⟩, rfl, rfl, fun s h => by cases h; exact Or.inl rfl⟩

example : (ticks demo [quiet, quiet, quiet]).2 = [.abort] ∧ (ticks demo [quiet, quiet]).2 = [] := by decide

example : Alive demo.rx [{ quiet with counter := some 11 }, { quiet with counter := some 13 }] :=
  ⟨⟨11, rfl, by decide⟩, fun s m h => by cases h; exact ⟨rfl, rfl⟩, ⟨13, rfl, by decide⟩, fun s m h => by cases h; exact ⟨rfl, rfl⟩, trivial⟩

end Verif.Lan.Watch
