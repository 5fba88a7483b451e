import Verif.Scheduler.Step
/-! Specification of the timer service and the simulation proof. -/
set_option linter.unusedSimpArgs false
set_option linter.unusedVariables false
namespace Verif.Scheduler

/-! ## Specification

It is written about what a client sees: the calls, their times and results.  `Timer` is a
running timer as the client knows it; `after` is the client's own bookkeeping. -/

/-- A timer that was added and neither removed nor fired. `expiry` is the absolute time. -/
structure Timer where
  handle : Nat
  name : Nat
  cb : Nat
  expiry : Nat
deriving Repr, DecidableEq

/-- The client's bookkeeping of the running timers, from the calls and their results only. -/
def after (tk : BitVec 32) (P : List Timer) (t : Nat) : Op → Out → List Timer
  | .add d n c, .added (some h) => ⟨h, n, c, t + (sanitizeDelay d tk).toNat⟩ :: P
  | .remove h n, .removed true => P.filter (fun x => !(x.handle == h && x.name == n))
  | .tick, .fired l => P.filter (fun x => !(l.map (·.1)).contains x.handle)
  | .fireOne, .fired l => P.filter (fun x => !(l.map (·.1)).contains x.handle)
  | _, _ => P

/-- What a result must satisfy irrespective of timing: an add fails iff `N` timers are
running, otherwise the handle is an unused one in `1..N`; a remove succeeds iff it names a
running timer; only running timers fire, each at most once. -/
def SlotsOk (N : Nat) (P : List Timer) : Op → Out → Prop
  | .add _ _ _, .added none => P.length = N
  | .add _ _ _, .added (some h) => P.length < N ∧ 1 ≤ h ∧ h ≤ N ∧ ∀ x ∈ P, x.handle ≠ h
  | .remove h n, .removed b => b = true ↔ ∃ x ∈ P, x.handle = h ∧ x.name = n
  | .tick, .fired l => (l.map (·.1)).Nodup ∧ ∀ y ∈ l, ∃ x ∈ P, y = (x.handle, x.cb)
  | .fireOne, .fired l => l.length ≤ 1 ∧ ∀ y ∈ l, ∃ x ∈ P, y = (x.handle, x.cb)
  | _, _ => False

/-- What a result must satisfy with respect to time `t`: a tick fires exactly the timers with
expiry `≤ t`, in order of expiry; one iteration fires a timer of smallest expiry if it is
expired. -/
def TimesOk (P : List Timer) (t : Nat) : Op → Out → Prop
  | .tick, .fired l => ∃ xs : List Timer, xs.Perm (P.filter (fun x => x.expiry ≤ t)) ∧
      xs.Pairwise (fun a b => a.expiry ≤ b.expiry) ∧ l = xs.map (fun x => (x.handle, x.cb))
  | .fireOne, .fired l => (l = [] ∧ ∀ x ∈ P, t < x.expiry) ∨
      ∃ x ∈ P, l = [(x.handle, x.cb)] ∧ x.expiry ≤ t ∧ ∀ y ∈ P, x.expiry ≤ y.expiry
  | _, _ => True

/-- The environment's obligation for a call at time `t`: time does not run backwards and no
running timer is overdue by 2^30 microseconds (18 minutes) or more. -/
def InTime (last t : Nat) (P : List Timer) : Prop :=
  last ≤ t ∧ ∀ x ∈ P, t < x.expiry + 1073741824

/-- Every result of the trace is right, as far as slots are concerned. -/
def SlotsTrace (N : Nat) (tk : BitVec 32) : List Timer → List (Nat × Op) → List Out → Prop
  | _, [], [] => True
  | P, (t, op) :: h, o :: os => SlotsOk N P op o ∧ SlotsTrace N tk (after tk P t op o) h os
  | _, _, _ => False

/-- Every result of the trace is right, as long as the environment has kept its obligation. -/
def TimesTrace (N : Nat) (tk : BitVec 32) : Nat → List Timer → List (Nat × Op) → List Out → Prop
  | _, _, [], [] => True
  | last, P, (t, op) :: h, o :: os =>
    InTime last t P → SlotsOk N P op o ∧ TimesOk P t op o ∧ TimesTrace N tk t (after tk P t op o) h os
  | _, _, _, _ => False

/-! ## Simulation -/

def timerOf (s : Sched) (E : Nat → Nat) (i : Nat) : Timer :=
  ⟨i + 1, (s.slots i).name, (s.slots i).cb, E i⟩

/-- `P` is what the state represents. -/
def Sim (N : Nat) (s : Sched) (P : List Timer) (busy free : List Nat) (E : Nat → Nat) : Prop :=
  Rep N s busy free E ∧ P.Perm (busy.map (timerOf s E))

/-- The busy list is sorted by expiry, and no expiry is too far in the future. -/
def Sorted (last : Nat) (busy : List Nat) (E : Nat → Nat) : Prop :=
  busy.Pairwise (fun a b => E a ≤ E b) ∧ ∀ i ∈ busy, E i < last + 1073741824

theorem toNat_add_ofNat (t : Nat) (d : BitVec 32) :
    BitVec.ofNat 32 t + d = BitVec.ofNat 32 (t + d.toNat) := by
  rw [BitVec.ofNat_add, BitVec.ofNat_toNat, BitVec.setWidth_eq]

theorem map_timerOf_congr {s s' : Sched} {E E' : Nat → Nat} {L : List Nat}
    (h : ∀ i ∈ L, (s'.slots i).name = (s.slots i).name ∧ (s'.slots i).cb = (s.slots i).cb)
    (hE : ∀ i ∈ L, E' i = E i) : L.map (timerOf s' E') = L.map (timerOf s E) := by
  apply List.map_congr_left
  intro i hi
  simp [timerOf, h i hi, hE i hi]

theorem mem_P {N s P busy free E} (h : Sim N s P busy free E) (x : Timer) :
    x ∈ P ↔ ∃ i ∈ busy, timerOf s E i = x := by
  rw [h.2.mem_iff, List.mem_map]

theorem filter_map_timer (s : Sched) (E : Nat → Nat) (p : Timer → Bool) (L : List Nat) :
    (L.map (timerOf s E)).filter p = (L.filter (fun i => p (timerOf s E i))).map (timerOf s E) := by
  rw [List.filter_map]; rfl

theorem filter_ne_middle {A B : List Nat} {ix : Nat} {p : Nat → Bool}
    (hp : p ix = false) (ho : ∀ i ∈ A ++ B, p i = true) : (A ++ ix :: B).filter p = A ++ B := by
  rw [List.filter_append, List.filter_cons, hp]
  simp only [Bool.false_eq_true, if_false]
  rw [List.filter_eq_self.2 (fun i hi => ho i (by simp [hi])),
    List.filter_eq_self.2 (fun i hi => ho i (by simp [hi]))]

theorem takeWhile_dropWhile_filter {p : Nat → Bool} {L : List Nat} (hnd : L.Nodup) :
    L.filter (fun i => !(L.takeWhile p).contains i) = L.dropWhile p := by
  conv_lhs => rw [← List.takeWhile_append_dropWhile (p := p) (l := L)]
  rw [List.filter_append]
  have hnd' := hnd
  rw [← List.takeWhile_append_dropWhile (p := p) (l := L)] at hnd'
  have hd := (List.nodup_append.1 hnd').2.2
  rw [List.takeWhile_append_dropWhile]
  have h1 : (L.takeWhile p).filter (fun i => !(L.takeWhile p).contains i) = [] := by
    apply List.filter_eq_nil_iff.2
    intro i hi; simp [hi]
  have h2 : (L.dropWhile p).filter (fun i => !(L.takeWhile p).contains i) = L.dropWhile p := by
    apply List.filter_eq_self.2
    intro i hi
    have : i ∉ L.takeWhile p := fun hh => hd i hh i hi rfl
    simp [this]
  rw [h1, h2]; rfl

/-- What one call does, structurally: slots-correct, and the exact way the busy list changes. -/
inductive BusyStep (s : Sched) (E E' : Nat → Nat) (t : Nat) (tk : BitVec 32) :
    List Nat → List Nat → Op → Out → Prop
  | addFull {busy d n c} : E' = E → BusyStep s E E' t tk busy busy (.add d n c) (.added none)
  | addOk {busy ix d n c} :
      ix ∉ busy →
      E' = (fun i => if i = ix then t + (sanitizeDelay d tk).toNat else E i) →
      BusyStep s E E' t tk busy
        (busy.takeWhile (laterThan s.slots (BitVec.ofNat 32 (t + (sanitizeDelay d tk).toNat))) ++ ix ::
          busy.dropWhile (laterThan s.slots (BitVec.ofNat 32 (t + (sanitizeDelay d tk).toNat))))
        (.add d n c) (.added (some (ix + 1)))
  | removeMiss {busy h n} : E' = E → BusyStep s E E' t tk busy busy (.remove h n) (.removed false)
  | removeHit {A ix B n} : E' = E →
      BusyStep s E E' t tk (A ++ ix :: B) (A ++ B) (.remove (ix + 1) n) (.removed true)
  | tick {busy} : E' = E → BusyStep s E E' t tk busy
      (busy.dropWhile (due s.slots (BitVec.ofNat 32 t))) .tick
      (.fired ((busy.takeWhile (due s.slots (BitVec.ofNat 32 t))).map
        (fun i => (i + 1, (s.slots i).cb))))
  | oneNone {busy} : E' = E →
      (∀ b B, busy = b :: B → due s.slots (BitVec.ofNat 32 t) b = false) →
      BusyStep s E E' t tk busy busy .fireOne (.fired [])
  | oneSome {b B} : E' = E → due s.slots (BitVec.ofNat 32 t) b = true →
      BusyStep s E E' t tk (b :: B) B .fireOne (.fired [(b + 1, (s.slots b).cb)])

theorem step_sim {N tk s P busy free E} (h : Sim N s P busy free E) (t : Nat) (op : Op) :
    ∃ s' o busy' free' E', step N tk s t op = some (s', o) ∧ SlotsOk N P op o ∧
      Sim N s' (after tk P t op o) busy' free' E' ∧ BusyStep s E E' t tk busy busy' op o := by
  obtain ⟨hr, hp⟩ := h
  have hlen : P.length = busy.length := by have := hp.length_eq; simpa using this
  have hmem := mem_P ⟨hr, hp⟩
  cases op with
  | add d n c =>
    cases free with
    | nil =>
      have hl := hr.length
      refine ⟨s, .added none, busy, [], E, by simp [step, add_full hr], ?_, ⟨hr, hp⟩, .addFull rfl⟩
      simp [SlotsOk, hlen]; simpa using hl
    | cons ix F =>
      obtain ⟨s', e, hr', hn, hni, hci⟩ := add_room (n := n) (c := c) hr
        (t + (sanitizeDelay d tk).toNat) (toNat_add_ofNat t _)
      have hixb : ix ∉ busy := fun hh => hr.disj ix hh (by simp)
      refine ⟨s', .added (some (ix + 1)), _, F, _, by simp [step, e], ?_, ⟨hr', ?_⟩, .addOk hixb rfl⟩
      · have hl := hr.length
        have := hr.cf.lt ix (by simp)
        refine ⟨by rw [hlen]; simp at hl; omega, by omega, by omega, ?_⟩
        intro x hx hh
        obtain ⟨i, hi, rfl⟩ := (hmem x).1 hx
        simp [timerOf] at hh
        exact hixb (hh ▸ hi)
      · simp only [after]
        rw [List.map_append, List.map_cons]
        refine List.Perm.trans ?_ List.perm_middle.symm
        rw [← List.map_append, List.takeWhile_append_dropWhile]
        have h1 : timerOf s' (fun i => if i = ix then t + (sanitizeDelay d tk).toNat else E i) ix =
          ⟨ix + 1, n, c, t + (sanitizeDelay d tk).toNat⟩ := by simp [timerOf, hni, hci]
        rw [h1]
        refine List.Perm.cons _ ?_
        rw [map_timerOf_congr (E := E) hn (fun i hi => by
          have : i ≠ ix := fun hh => hixb (hh ▸ hi)
          simp [this])]
        exact hp
  | remove hd n =>
    by_cases hm : ∃ i ∈ busy, i + 1 = hd ∧ (s.slots i).name = n
    · obtain ⟨ix, hix, rfl, hname⟩ := hm
      obtain ⟨A, B, rfl⟩ := List.append_of_mem hix
      obtain ⟨s', e, hr', hn⟩ := remove_hit hr hname
      refine ⟨s', .removed true, A ++ B, ix :: free, E, by simp [step, e], ?_, ⟨hr', ?_⟩, .removeHit rfl⟩
      · simp only [SlotsOk, true_iff]
        exact ⟨timerOf s E ix, (hmem _).2 ⟨ix, hix, rfl⟩, rfl, hname⟩
      · simp only [after]
        refine (hp.filter _).trans ?_
        rw [filter_map_timer, filter_ne_middle, map_timerOf_congr (fun i _ => hn i) (fun _ _ => rfl)]
        · simp [timerOf, hname]
        · intro i hi
          have hnd := (List.perm_middle.nodup_iff).1 hr.cb.nd
          have : i ≠ ix := fun hh => (List.nodup_cons.1 hnd).1 (hh ▸ hi)
          simp [timerOf, this]
    · refine ⟨s, .removed false, busy, free, E, ?_, ?_, ⟨hr, hp⟩, .removeMiss rfl⟩
      · simp [step, remove_miss hr (fun i hi hh => hm ⟨i, hi, hh⟩)]
      · simp only [SlotsOk, Bool.false_eq_true, false_iff]
        rintro ⟨x, hx, h1, h2⟩
        obtain ⟨i, hi, rfl⟩ := (hmem x).1 hx
        exact hm ⟨i, hi, h1, h2⟩
  | tick =>
    obtain ⟨s', free', e, hr', hn⟩ := tick_spec (now := BitVec.ofNat 32 t) hr
    refine ⟨s', _, _, free', E, by simp only [step, e, Option.map_some], ?_, ⟨hr', ?_⟩, .tick rfl⟩
    · constructor
      · rw [List.map_map]
        have hnd := (List.takeWhile_sublist (due s.slots (BitVec.ofNat 32 t))).nodup hr.cb.nd
        exact List.Pairwise.map _ (fun a b (hab : a ≠ b) => by simpa using hab) hnd
      · intro y hy
        obtain ⟨i, hi, rfl⟩ := List.mem_map.1 hy
        exact ⟨timerOf s E i, (hmem _).2 ⟨i, (List.takeWhile_sublist _).subset hi, rfl⟩, rfl⟩
    · simp only [after]
      refine (hp.filter _).trans ?_
      rw [filter_map_timer, map_timerOf_congr (L := List.dropWhile _ _) (fun i _ => hn i) (fun _ _ => rfl)]
      have : (fun i => !(List.map (fun x => x.1) (List.map (fun i => (i + 1, (s.slots i).cb))
          (List.takeWhile (due s.slots (BitVec.ofNat 32 t)) busy))).contains (timerOf s E i).handle) =
          fun i => !(busy.takeWhile (due s.slots (BitVec.ofNat 32 t))).contains i := by
        funext i
        simp [timerOf, List.map_map, Function.comp_def]
      rw [this, takeWhile_dropWhile_filter hr.cb.nd]
  | fireOne =>
    by_cases hd : ∃ b B, busy = b :: B ∧ due s.slots (BitVec.ofNat 32 t) b = true
    · obtain ⟨b, B, rfl, hd⟩ := hd
      obtain ⟨s', e, hr', hn⟩ := fireOne_some hr hd
      refine ⟨s', .fired [(b + 1, (s.slots b).cb)], B, b :: free, E, by simp [step, e], ?_, ⟨hr', ?_⟩,
        .oneSome rfl hd⟩
      · refine ⟨by simp, ?_⟩
        intro y hy
        simp at hy; subst hy
        exact ⟨timerOf s E b, (hmem _).2 ⟨b, by simp, rfl⟩, rfl⟩
      · simp only [after]
        refine (hp.filter _).trans ?_
        rw [filter_map_timer, map_timerOf_congr (fun i _ => hn i) (fun _ _ => rfl)]
        have := filter_ne_middle (A := []) (B := B) (ix := b)
          (p := fun i => !(List.map (fun x => x.1) [(b + 1, (s.slots b).cb)]).contains (timerOf s E i).handle)
          (by simp [timerOf]) (by
            intro i hi
            have : i ≠ b := fun hh => (List.nodup_cons.1 hr.cb.nd).1 (hh ▸ hi)
            simp [timerOf, this])
        simp only [List.nil_append] at this
        rw [this]
    · have hd' : ∀ b B, busy = b :: B → due s.slots (BitVec.ofNat 32 t) b = false := by
        intro b B hb
        cases hh : due s.slots (BitVec.ofNat 32 t) b
        · rfl
        · exact absurd ⟨b, B, hb, hh⟩ hd
      refine ⟨s, .fired [], busy, free, E, by simp [step, fireOne_none hr hd'], by simp [SlotsOk], ⟨hr, ?_⟩,
        .oneNone rfl hd'⟩
      simp only [after]
      simpa using hp

theorem slots_run {N tk} (h : List (Nat × Op)) : ∀ {s P busy free E}, Sim N s P busy free E →
    ∃ s' os, runFrom N tk s h = some (s', os) ∧ SlotsTrace N tk P h os := by
  induction h with
  | nil => intro s P busy free E _; exact ⟨s, [], rfl, trivial⟩
  | cons a h ih =>
    obtain ⟨t, op⟩ := a
    intro s P busy free E hs
    obtain ⟨s', o, busy', free', E', e, hok, hs', _⟩ := step_sim (tk := tk) hs t op
    obtain ⟨s'', os, e', htr⟩ := ih hs'
    exact ⟨s'', o :: os, by simp [runFrom, e, e'], hok, htr⟩

/-! ### Timing -/

/-- Bound on the delay that is used. -/
theorem sanitize_lt {d tk : BitVec 32} (h0 : 0 < tk.toNat) (h1 : tk.toNat ≤ 536870912) :
    (sanitizeDelay d tk).toNat < 1073741824 := by
  unfold sanitizeDelay
  generalize hwdef : (if d > maxDelayUs then 0#32 else d) = w
  have hw : w.toNat ≤ 100000000 := by
    subst hwdef
    split
    · simp
    · rename_i h; simp only [gt_iff_lt, BitVec.lt_def, maxDelayUs] at h; simpa using h
  have hhalf : (tk / 2#32).toNat = tk.toNat / 2 := by rw [BitVec.toNat_udiv]; rfl
  have hsum : (tk + tk / 2#32).toNat = tk.toNat + tk.toNat / 2 := by
    rw [BitVec.toNat_add, hhalf]; omega
  simp only []
  split
  · rename_i hgt
    have hgt' : tk.toNat + tk.toNat / 2 < w.toNat := by
      simp only [gt_iff_lt, BitVec.lt_def] at hgt; rwa [hsum] at hgt
    have hs2 : (w + tk / 2#32).toNat = w.toNat + tk.toNat / 2 := by
      rw [BitVec.toNat_add, hhalf]; omega
    have hq : ((w + tk / 2#32) / tk).toNat = (w.toNat + tk.toNat / 2) / tk.toNat := by
      rw [BitVec.toNat_udiv, hs2]
    have hle : (w.toNat + tk.toNat / 2) / tk.toNat * tk.toNat ≤ w.toNat + tk.toNat / 2 :=
      Nat.div_mul_le_self _ _
    have hge : tk.toNat ≤ (w.toNat + tk.toNat / 2) / tk.toNat * tk.toNat := by
      have : 1 ≤ (w.toNat + tk.toNat / 2) / tk.toNat := by
        rw [Nat.le_div_iff_mul_le h0]; omega
      calc tk.toNat = 1 * tk.toNat := by omega
        _ ≤ _ := Nat.mul_le_mul_right _ this
    rw [BitVec.toNat_sub, BitVec.toNat_mul, hq, hhalf]
    generalize (w.toNat + tk.toNat / 2) / tk.toNat * tk.toNat = m at *
    omega
  · rw [BitVec.toNat_sub, BitVec.toNat_mul, hhalf]
    simp
    omega

theorem due_abs {s : Sched} {E : Nat → Nat} {t i : Nat}
    (hw : (s.slots i).when = BitVec.ofNat 32 (E i))
    (h1 : t < E i + 1073741824) (h2 : E i < t + 1073741824) :
    due s.slots (BitVec.ofNat 32 t) i = decide (E i ≤ t) := by
  simp only [due, hw]
  rw [sdiff_abs (by omega) (by omega)]
  simp

theorem later_abs {s : Sched} {E : Nat → Nat} {e i : Nat}
    (hw : (s.slots i).when = BitVec.ofNat 32 (E i))
    (h1 : e < E i + 2147483648) (h2 : E i ≤ e + 2147483648) :
    laterThan s.slots (BitVec.ofNat 32 e) i = decide (E i < e) := by
  simp only [laterThan, hw]
  rw [sdiff_abs h1 h2]
  simp

theorem takeWhile_sorted {E : Nat → Nat} {e : Nat} : ∀ {L : List Nat},
    L.Pairwise (fun a b => E a ≤ E b) →
    (∀ i ∈ L.takeWhile (fun i => decide (E i < e)), E i < e) ∧
    (∀ i ∈ L.dropWhile (fun i => decide (E i < e)), e ≤ E i) := by
  intro L
  induction L with
  | nil => intro _; simp
  | cons a L ih =>
    intro h
    have h' := List.pairwise_cons.1 h
    by_cases ha : E a < e
    · have := ih h'.2
      simp [List.takeWhile_cons, List.dropWhile_cons, ha]
      simpa using this
    · simp [List.takeWhile_cons, List.dropWhile_cons, ha]
      refine ⟨by omega, fun i hi => ?_⟩
      have := h'.1 i hi; omega

theorem takeWhile_eq_filter {E : Nat → Nat} {t : Nat} : ∀ {L : List Nat},
    L.Pairwise (fun a b => E a ≤ E b) →
    L.takeWhile (fun i => decide (E i ≤ t)) = L.filter (fun i => decide (E i ≤ t)) := by
  intro L
  induction L with
  | nil => intro _; rfl
  | cons a L ih =>
    intro h
    have h' := List.pairwise_cons.1 h
    by_cases ha : E a ≤ t
    · simp [List.takeWhile_cons, List.filter_cons, ha, ih h'.2]
    · simp [List.takeWhile_cons, List.filter_cons, ha]
      intro i hi
      have := h'.1 i hi; omega

theorem times_step {N tk s P busy free E t last op o busy' E'}
    (htk0 : 0 < tk.toNat) (htk : tk.toNat ≤ 536870912)
    (h : Sim N s P busy free E) (hso : Sorted last busy E) (hin : InTime last t P)
    (hb : BusyStep s E E' t tk busy busy' op o) :
    TimesOk P t op o ∧ Sorted t busy' E' := by
  obtain ⟨hr, hp⟩ := h
  have hmem := mem_P ⟨hr, hp⟩
  obtain ⟨hsort, hfar⟩ := hso
  obtain ⟨hlast, hover⟩ := hin
  have hover' : ∀ i ∈ busy, t < E i + 1073741824 := fun i hi =>
    hover _ ((hmem _).2 ⟨i, hi, rfl⟩)
  have hfar' : ∀ i ∈ busy, E i < t + 1073741824 := fun i hi => by have := hfar i hi; omega
  have hdue : ∀ i ∈ busy, due s.slots (BitVec.ofNat 32 t) i = decide (E i ≤ t) := fun i hi =>
    due_abs (hr.wh i hi) (hover' i hi) (hfar' i hi)
  cases hb with
  | addFull hE => subst hE; exact ⟨trivial, hsort, hfar'⟩
  | @addOk _ ix d n c hixb hE =>
    refine ⟨trivial, ?_⟩
    have hd := sanitize_lt (d := d) htk0 htk
    generalize (sanitizeDelay d tk).toNat = D at *
    have hlt : ∀ i ∈ busy, laterThan s.slots (BitVec.ofNat 32 (t + D)) i = decide (E i < t + D) :=
      fun i hi => by
        have := hover' i hi
        have := hfar' i hi
        exact later_abs (hr.wh i hi) (by omega) (by omega)
    have htw := takeWhile_congr' hlt
    rw [htw.1, htw.2]
    have hts := takeWhile_sorted (e := t + D) hsort
    have hne : ∀ i ∈ busy, E' i = E i := by
      intro i hi
      have : i ≠ ix := fun hh => hixb (hh ▸ hi)
      simp [hE, this]
    have hix : E' ix = t + D := by simp [hE]
    have hsubT : ∀ i ∈ busy.takeWhile (fun i => decide (E i < t + D)), i ∈ busy :=
      fun i hi => (List.takeWhile_sublist _).subset hi
    have hsubD : ∀ i ∈ busy.dropWhile (fun i => decide (E i < t + D)), i ∈ busy :=
      fun i hi => (List.dropWhile_sublist _).subset hi
    have hsort' : busy.Pairwise (fun a b => E' a ≤ E' b) := by
      refine hsort.imp_of_mem (fun {a b} ha hb hab => ?_)
      rw [hne a ha, hne b hb]; exact hab
    rw [← List.takeWhile_append_dropWhile (p := fun i => decide (E i < t + D)) (l := busy)] at hsort'
    have hs3 := List.pairwise_append.1 hsort'
    constructor
    · rw [List.pairwise_append]
      refine ⟨hs3.1, ?_, ?_⟩
      · rw [List.pairwise_cons]
        refine ⟨fun i hi => ?_, hs3.2.1⟩
        rw [hix, hne i (hsubD i hi)]; exact hts.2 i hi
      · intro a ha b hb
        rcases List.mem_cons.1 hb with rfl | hb
        · rw [hix, hne a (hsubT a ha)]; have := hts.1 a ha; omega
        · exact hs3.2.2 a ha b hb
    · intro i hi
      simp only [List.mem_append, List.mem_cons] at hi
      rcases hi with hi | rfl | hi
      · rw [hne i (hsubT i hi)]; exact hfar' i (hsubT i hi)
      · rw [hix]; omega
      · rw [hne i (hsubD i hi)]; exact hfar' i (hsubD i hi)
  | removeMiss hE => subst hE; exact ⟨trivial, hsort, hfar'⟩
  | @removeHit A ix B n hE =>
    subst hE
    have hsl : (A ++ B).Sublist (A ++ ix :: B) :=
      List.Sublist.append (List.Sublist.refl _) (List.sublist_cons_self _ _)
    exact ⟨trivial, hsort.sublist hsl, fun i hi => hfar' i (hsl.subset hi)⟩
  | tick hE =>
    subst hE
    have htw := takeWhile_congr' hdue
    refine ⟨?_, hsort.sublist (List.dropWhile_sublist _),
      fun i hi => hfar' i ((List.dropWhile_sublist _).subset hi)⟩
    rw [htw.1, takeWhile_eq_filter hsort]
    refine ⟨(busy.filter (fun i => decide (E' i ≤ t))).map (timerOf s E'), ?_, ?_, ?_⟩
    · refine List.Perm.trans ?_ (hp.filter _).symm
      rw [filter_map_timer]; exact List.Perm.refl _
    · exact List.Pairwise.map _ (fun a b hab => by simpa [timerOf] using hab)
        (hsort.sublist List.filter_sublist)
    · rw [List.map_map]; rfl
  | oneNone hE hnd =>
    subst hE
    refine ⟨.inl ⟨rfl, ?_⟩, hsort, hfar'⟩
    intro x hx
    obtain ⟨i, hi, rfl⟩ := (hmem x).1 hx
    cases busy with
    | nil => simp at hi
    | cons b B =>
      have h1 := hnd b B rfl
      rw [hdue b (by simp)] at h1
      simp only [decide_eq_false_iff_not] at h1
      simp only [timerOf]
      rcases List.mem_cons.1 hi with rfl | hi
      · omega
      · have := (List.pairwise_cons.1 hsort).1 i hi; omega
  | @oneSome b B hE hd =>
    subst hE
    rw [hdue b (by simp)] at hd
    simp only [decide_eq_true_eq] at hd
    refine ⟨.inr ⟨timerOf s E' b, (hmem _).2 ⟨b, by simp, rfl⟩, rfl, hd, ?_⟩,
      (List.pairwise_cons.1 hsort).2, fun i hi => hfar' i (by simp [hi])⟩
    intro y hy
    obtain ⟨i, hi, rfl⟩ := (hmem y).1 hy
    simp only [timerOf]
    rcases List.mem_cons.1 hi with rfl | hi
    · exact Nat.le_refl _
    · exact (List.pairwise_cons.1 hsort).1 i hi

theorem times_run {N tk} (htk0 : 0 < tk.toNat) (htk : tk.toNat ≤ 536870912) (h : List (Nat × Op)) :
    ∀ {s P busy free E last os s'}, Sim N s P busy free E → Sorted last busy E →
    runFrom N tk s h = some (s', os) → TimesTrace N tk last P h os := by
  induction h with
  | nil => intro s P busy free E last os s' _ _ e; simp [runFrom] at e; obtain ⟨_, rfl⟩ := e; trivial
  | cons a h ih =>
    obtain ⟨t, op⟩ := a
    intro s P busy free E last os s' hs hso e
    obtain ⟨s1, o, busy', free', E', e1, hok, hs', hb⟩ := step_sim (tk := tk) hs t op
    simp only [runFrom, e1, bind, Option.bind] at e
    cases e2 : runFrom N tk s1 h with
    | none => rw [e2] at e; cases e
    | some r =>
      obtain ⟨s2, os2⟩ := r
      rw [e2] at e
      simp at e
      obtain ⟨_, rfl⟩ := e
      intro hin
      obtain ⟨h1, h2⟩ := times_step htk0 htk hs hso hin hb
      exact ⟨hok, h1, ih hs' h2 e2⟩

end Verif.Scheduler
