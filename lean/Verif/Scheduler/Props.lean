import Verif.Scheduler.Client
/-!
# C01–C03 The timer service

The specification (`Timer`, `after`, `SlotsOk`, `TimesOk`, `InTime`, `SlotsTrace`, `TimesTrace`
in `Sim.lean`) is about calls, their times and their results only.
-/
set_option linter.unusedSimpArgs false
namespace Verif.Scheduler

theorem init_sim (N : Nat) : ∃ s, init N = some s ∧ Sim N s [] [] (List.range N) (fun _ => 0) := by
  obtain ⟨s, e, hr⟩ := init_spec N
  exact ⟨s, e, hr, by simp⟩

/-- **C01.** For every capacity, every tick period up to 2^29 us and every history of timed
calls (add, remove, a complete tick, or one iteration of the tick loop between which callbacks may
call the service) the run is defined, and as long as time is monotone and no running timer is
overdue by 2^30 us, every tick fires exactly the running timers whose expiry time has come, in order
of expiry. Absolute times are unbounded; the code only sees them modulo 2^32. -/
theorem C01_timers_fire_once_on_time_in_order (N : Nat) (tk : BitVec 32) (h0 : 0 < tk.toNat)
    (h1 : tk.toNat ≤ 2 ^ 29) (h : List (Nat × Op)) :
    ∃ s os, run N tk h = some (s, os) ∧ TimesTrace N tk 0 [] h os := by
  obtain ⟨s, e, hs⟩ := init_sim N
  obtain ⟨s', os, e', _⟩ := slots_run (tk := tk) h hs
  refine ⟨s', os, by simp [run, e, e'], ?_⟩
  exact times_run h0 (by simpa using h1) h hs ⟨List.Pairwise.nil, by simp⟩ e'

/-- **C02.** For every capacity, tick period and history, whatever the times: no call
dereferences an invalid slot, loops forever or trips an assertion; an add fails iff `N` timers are
running and otherwise returns an unused handle in `1..N`; a remove takes effect iff it names a
running timer; only running timers fire. -/
theorem C02_slots_never_leaked (N : Nat) (tk : BitVec 32) (h : List (Nat × Op)) :
    ∃ s os, run N tk h = some (s, os) ∧ SlotsTrace N tk [] h os := by
  obtain ⟨s, e, hs⟩ := init_sim N
  obtain ⟨s', os, e', ht⟩ := slots_run (tk := tk) h hs
  exact ⟨s', os, by simp [run, e, e'], ht⟩

/-- A concrete history that wraps the 32-bit clock: all obligations of the environment hold and
three timers fire in order of expiry (handles 3, 1, 2). -/
example : (run 3 1000#32
    [(4294966000, .add 5000#32 1 11), (4294966100, .add 9000#32 1 12), (4294966200, .add 1#32 1 13),
     (4294966300, .add 1#32 1 14), (4294967400, .tick), (4294967500, .remove 2 9), (4294977000, .tick)]).map (·.2) =
  some [.added (some 1), .added (some 2), .added (some 3), .added none, .fired [(3, 13)], .removed false,
    .fired [(1, 11), (2, 12)]] := by decide +kernel

example : InTime 4294967500 4294977000 [⟨2, 1, 12, 4294966100 + 8500⟩, ⟨1, 1, 11, 4294966000 + 4500⟩] := by
  simp [InTime]

/-- Without the obligation the claim is false: a timer overdue by 2^31 us does not fire. -/
theorem C01_needs_in_time : (run 2 1000#32 [(0, .add 1#32 1 11), (500 + 2 ^ 31, .tick)]).map (·.2) =
    some [.added (some 1), .fired []] := by decide +kernel

/-! ### Handles -/

/-- What the clients themselves conclude from the results of their calls. -/
def ranAfter (R : Nat → Bool) : COp → COut → Nat → Bool
  | .restart c _, .restarted ok => fun x => if x = c then ok else R x
  | .stop c, .stopped => fun x => if x = c then false else R x
  | .expire, .expired (some c) => fun x => if x = c then false else R x
  | _, _ => R

/-- Requirements on the results: a restart fails iff `N` *other* clients' timers are running; only
a running timer expires. -/
def HandlesOk (N : Nat) (R : Nat → Bool) : COp → COut → Prop
  | .restart c _, .restarted ok => ok = false ↔
      ∃ L : List Nat, L.Nodup ∧ L.length = N ∧ ∀ x, x ∈ L ↔ (x ≠ c ∧ R x = true)
  | .stop _, .stopped => True
  | .expire, .expired none => True
  | .expire, .expired (some c) => R c = true
  | _, _ => False

def HandlesTrace (N : Nat) : (Nat → Bool) → List (Nat × COp) → List COut → (Nat → Bool) → Prop
  | R, [], [], R' => R' = R
  | R, (_, op) :: h, o :: os, R' => HandlesOk N R op o ∧ HandlesTrace N (ranAfter R op o) h os R'
  | _, _, _, _ => False

theorem cstep_spec {N tk nm s H busy free E} (h : CInv N nm s H busy free E) (t : Nat) (op : COp) :
    ∃ s' H' o busy' free' E', cstep N tk nm s H t op = some (s', H', o) ∧
      CInv N nm s' H' busy' free' E' ∧ HandlesOk N (isRunning H) op o ∧
      isRunning H' = ranAfter (isRunning H) op o := by
  cases op with
  | restart c d =>
    obtain ⟨s1, H1, busy1, free1, e1, h1, rfl⟩ := removeIfRunning_spec (c := c) h
    obtain ⟨s2, r, busy2, free2, E2, e2, h2, hr⟩ := add_inv (tk := tk) (c := c) h1 (by simp [setH]) t d
    refine ⟨s2, _, .restarted r.isSome, busy2, free2, E2, by simp [cstep, e1, e2], h2, ?_, ?_⟩
    · have hb := busy_clients h1
      have hrun : ∀ x, isRunning (setH H c none) x = true ↔ x ≠ c ∧ isRunning H x = true := by
        intro x; unfold isRunning setH; split <;> simp_all
      have hiff : (r.isSome = false ↔ busy1.length = N) := by rw [← hr]; cases r <;> simp
      simp only [HandlesOk]
      rw [hiff]
      constructor
      · intro hl
        refine ⟨_, hb.1, by simpa using hl, fun x => ?_⟩
        rw [← hb.2 x, hrun x]
      · rintro ⟨L, hnd, hl, hm⟩
        have hperm : L.Perm (busy1.map (fun i => (s1.slots i).cb)) := by
          rw [List.perm_ext_iff_of_nodup hnd hb.1]
          intro x; rw [hm x, ← hb.2 x, hrun x]
        have := hperm.length_eq
        simp at this; omega
    · funext x
      unfold isRunning setH ranAfter
      simp only []
      split <;> rfl
  | stop c =>
    obtain ⟨s1, H1, busy1, free1, e1, h1, rfl⟩ := removeIfRunning_spec (c := c) h
    refine ⟨s1, _, .stopped, busy1, free1, E, by simp [cstep, e1], h1, trivial, ?_⟩
    funext x
    unfold isRunning setH ranAfter
    simp only []
    split <;> rfl
  | expire =>
    by_cases hd : ∃ b B, busy = b :: B ∧ due s.slots (BitVec.ofNat 32 t) b = true
    · obtain ⟨b, B, rfl, hd⟩ := hd
      obtain ⟨s', e, hr', hn⟩ := fireOne_some h.rep hd
      refine ⟨s', _, .expired (some (s.slots b).cb), B, b :: free, E, by simp [cstep, e],
        drop_inv (A := []) h hr' hn, ?_, ?_⟩
      · simp [HandlesOk, isRunning, (h.own b (by simp)).1]
      · funext x
        unfold isRunning setH ranAfter
        simp only []
        split <;> rfl
    · have hd' : ∀ b B, busy = b :: B → due s.slots (BitVec.ofNat 32 t) b = false := by
        intro b B hb
        cases hh : due s.slots (BitVec.ofNat 32 t) b
        · rfl
        · exact absurd ⟨b, B, hb, hh⟩ hd
      exact ⟨s, H, .expired none, busy, free, E, by simp [cstep, fireOne_none h.rep hd'], h, trivial, rfl⟩

theorem crun_spec {N tk nm} (h : List (Nat × COp)) : ∀ {s H busy free E}, CInv N nm s H busy free E →
    ∃ s' H' os, crun N tk nm s H h = some (s', H', os) ∧
      HandlesTrace N (isRunning H) h os (isRunning H') := by
  induction h with
  | nil => intro s H _ _ _ _; exact ⟨s, H, [], rfl, rfl⟩
  | cons a h ih =>
    obtain ⟨t, op⟩ := a
    intro s H busy free E hi
    obtain ⟨s1, H1, o, _, _, _, e1, h1, hok, hran⟩ := cstep_spec (tk := tk) hi t op
    obtain ⟨s2, H2, os, e2, ht⟩ := ih h1
    exact ⟨s2, H2, o :: os, by simp [crun, e1, e2], hok, by rw [← hran]; exact ht⟩

/-- **C02, handles.** For clients that restart, stop, and reset their handle in the callback: after
every history, at any times, each handle reports "running" exactly when the client's timer was
started and since then neither stopped nor expired; a restart fails iff `N` other timers run. -/
theorem C02_handles_report_running (N : Nat) (tk : BitVec 32) (nm : Nat → Nat)
    (h : List (Nat × COp)) : ∃ s s' H' os, init N = some s ∧
      crun N tk nm s (fun _ => none) h = some (s', H', os) ∧
      HandlesTrace N (fun _ => false) h os (isRunning H') := by
  obtain ⟨s, e, hr⟩ := init_spec N
  obtain ⟨s', H', os, e', ht⟩ := crun_spec (tk := tk) h (nm := nm) (H := fun _ => none)
    ⟨hr, by simp, by simp⟩
  exact ⟨s, s', H', os, e, e', ht⟩

/-- Concrete instance: capacity 1; the second client is refused until the first expires. -/
example : ((init 1).bind fun s => (crun 1 1000#32 (fun _ => 5) s (fun _ => none)
    [(0, .restart 7 100#32), (1, .restart 8 100#32), (2, .restart 7 100#32), (600, .expire),
     (601, .restart 8 100#32), (602, .stop 7), (603, .stop 8), (604, .restart 7 9#32)]).map (·.2.2)) =
  some [.restarted true, .restarted false, .restarted true, .expired (some 7), .restarted true,
    .stopped, .stopped, .restarted true] := by decide +kernel

/-- Outside that discipline a stale handle can remove another client's timer of the same name
(handles are slot numbers): here handle 1 was fired, the slot reused, and the stale handle removes
the new timer. -/
theorem C02_stale_handle_removes_other : (run 2 1000#32
    [(0, .add 1#32 5 11), (600, .tick), (700, .add 1#32 5 22), (701, .remove 1 5), (2000, .tick)]).map (·.2) =
    some [.added (some 1), .fired [(1, 11)], .added (some 1), .removed true, .fired []] := by decide +kernel

/-! ### C03 -/

/-- The documented delay: requests above 100 s count as 0; requests up to one and a half tick wait
one tick, others the nearest number of ticks (halves rounded up); the result is half a tick less. -/
def specTicks (wanted tick : Nat) : Nat :=
  let w := if wanted > 100000000 then 0 else wanted
  if 2 * w ≤ 3 * tick then 1 else (w + tick / 2) / tick

theorem sanitize_toNat (d tk : BitVec 32) (h0 : 0 < tk.toNat) (h1 : tk.toNat ≤ 2 ^ 31) :
    (sanitizeDelay d tk).toNat = specTicks d.toNat tk.toNat * tk.toNat - tk.toNat / 2 ∧
    1 ≤ specTicks d.toNat tk.toNat := by
  have hhalf : (tk / 2#32).toNat = tk.toNat / 2 := by rw [BitVec.toNat_udiv]; rfl
  have hsum : (tk + tk / 2#32).toNat = tk.toNat + tk.toNat / 2 := by
    rw [BitVec.toNat_add, hhalf]; omega
  unfold sanitizeDelay specTicks
  generalize hwdef : (if d > maxDelayUs then 0#32 else d) = w
  have hwn : (if d.toNat > 100000000 then 0 else d.toNat) = w.toNat := by
    subst hwdef
    have : d > maxDelayUs ↔ d.toNat > 100000000 := by
      simp [gt_iff_lt, BitVec.lt_def, maxDelayUs]
    by_cases hh : d.toNat > 100000000
    · simp [hh, this.2 hh]
    · simp [hh, mt this.1 hh]
  have hw : w.toNat ≤ 100000000 := by rw [← hwn]; split <;> omega
  simp only [hwn]
  by_cases hgt : w > tk + tk / 2#32
  · have hgt' : tk.toNat + tk.toNat / 2 < w.toNat := by
      simp only [gt_iff_lt, BitVec.lt_def] at hgt; rwa [hsum] at hgt
    have hs2 : (w + tk / 2#32).toNat = w.toNat + tk.toNat / 2 := by
      rw [BitVec.toNat_add, hhalf]; omega
    have hq : ((w + tk / 2#32) / tk).toNat = (w.toNat + tk.toNat / 2) / tk.toNat := by
      rw [BitVec.toNat_udiv, hs2]
    have hle : (w.toNat + tk.toNat / 2) / tk.toNat * tk.toNat ≤ w.toNat + tk.toNat / 2 :=
      Nat.div_mul_le_self _ _
    have h1' : 1 ≤ (w.toNat + tk.toNat / 2) / tk.toNat := by
      rw [Nat.le_div_iff_mul_le h0]; omega
    have hge : tk.toNat ≤ (w.toNat + tk.toNat / 2) / tk.toNat * tk.toNat := by
      calc tk.toNat = 1 * tk.toNat := by omega
        _ ≤ _ := Nat.mul_le_mul_right _ h1'
    rw [if_pos hgt, BitVec.toNat_sub, BitVec.toNat_mul, hq, hhalf]
    by_cases hodd : 2 * w.toNat ≤ 3 * tk.toNat
    · -- `w` is just above `tick + tick / 2` with an odd tick: both round to the same
      exfalso; omega
    · rw [if_neg hodd]
      refine ⟨?_, h1'⟩
      generalize (w.toNat + tk.toNat / 2) / tk.toNat * tk.toNat = m at *
      omega
  · have hgt' : w.toNat ≤ tk.toNat + tk.toNat / 2 := by
      simp only [gt_iff_lt, BitVec.lt_def] at hgt; rw [hsum] at hgt; omega
    have hle : 2 * w.toNat ≤ 3 * tk.toNat := by omega
    rw [if_neg hgt, if_pos hle, BitVec.toNat_sub, BitVec.toNat_mul, hhalf]
    simp
    omega

/-- **C03.** For every requested delay and every tick period from 1 to 2^31 us the delay used is
half a tick (rounded down) less than a whole number `k ≥ 1` of ticks; requests above 100 s count as 0;
for a request longer than one and a half tick the delay used is less than one tick shorter than the
request and never longer; otherwise one tick is waited. None of the 32-bit operations overflows. -/
theorem C03_delay_rounding (d tk : BitVec 32) (h0 : 0 < tk.toNat) (h1 : tk.toNat ≤ 2 ^ 31) :
    let used := (sanitizeDelay d tk).toNat
    let wanted := if d.toNat > 100000000 then 0 else d.toNat
    ∃ k : Nat, 1 ≤ k ∧ k < 2 ^ 31 ∧ used + tk.toNat / 2 = k * tk.toNat ∧
      (2 * wanted ≤ 3 * tk.toNat → k = 1) ∧
      (3 * tk.toNat < 2 * wanted → used ≤ wanted ∧ wanted < used + tk.toNat) := by
  intro used wanted
  obtain ⟨hu, hk⟩ := sanitize_toNat d tk h0 h1
  have hw : wanted ≤ 100000000 := by simp only [wanted]; split <;> omega
  have hge : tk.toNat ≤ specTicks d.toNat tk.toNat * tk.toNat := by
    calc tk.toNat = 1 * tk.toNat := by omega
      _ ≤ _ := Nat.mul_le_mul_right _ hk
  have hspec : specTicks d.toNat tk.toNat =
      if 2 * wanted ≤ 3 * tk.toNat then 1 else (wanted + tk.toNat / 2) / tk.toNat := rfl
  refine ⟨specTicks d.toNat tk.toNat, hk, ?_, by simp only [used]; omega, ?_, ?_⟩
  · rw [hspec]
    split
    · omega
    · rename_i hh
      have : (wanted + tk.toNat / 2) / tk.toNat ≤ wanted + tk.toNat / 2 := Nat.div_le_self _ _
      omega
  · intro hle; rw [hspec, if_pos hle]
  · intro hlt
    have hq : specTicks d.toNat tk.toNat = (wanted + tk.toNat / 2) / tk.toNat := by
      rw [hspec, if_neg (by omega)]
    have h2 := Nat.div_add_mod (wanted + tk.toNat / 2) tk.toNat
    have h3 := Nat.mod_lt (wanted + tk.toNat / 2) h0
    rw [← hq, Nat.mul_comm] at h2
    simp only [used]
    omega

example : (sanitizeDelay 2600#32 1000#32).toNat = 2500 ∧ (sanitizeDelay 1500#32 1000#32).toNat = 500 ∧
    (sanitizeDelay 4294967295#32 1000#32).toNat = 500 := by decide +kernel

end Verif.Scheduler
