import Mathlib.Data.List.Induction
/-!
# C39 Identify response delay, C41 Signal LED

Model of the corresponding functions of `src/common/pf_dcp.c`.
-/
namespace Verif.Signal

/-! ## Response delay -/

/-- pf_dcp_calculate_response_delay (src/common/pf_dcp.c:1406-1421), in microseconds. The arithmetic is that of the C types: `int` promotion for the
random number, then `uint16_t`, then `uint32_t`. -/
def responseDelay (mac4 mac5 : BitVec 8) (factor : BitVec 16) : BitVec 32 :=
  if factor = 0 ∨ factor > 6400#16 then 0
  else
    let random : BitVec 16 := mac4.setWidth 16 * 0x100#16 + mac5.setWidth 16
    let spread : BitVec 32 := (random % factor).setWidth 32
    spread * 10 * 1000

theorem scale (x : Nat) (h : x < 6400) : x % 2 ^ 32 * 10 % 2 ^ 32 * 1000 % 2 ^ 32 = x * 10000 := by omega

/-- **C39** For factors 1 to 6400 the delay is a multiple of 10 ms strictly below factor times 10 ms, namely the last two
bytes of the MAC address (as a big-endian number) modulo the factor; for all other factors there is no delay. -/
theorem C39_delay (mac4 mac5 : BitVec 8) (factor : BitVec 16) :
    (1 ≤ factor.toNat ∧ factor.toNat ≤ 6400 →
      (responseDelay mac4 mac5 factor).toNat = ((mac4.toNat * 256 + mac5.toNat) % factor.toNat) * 10000 ∧
      (responseDelay mac4 mac5 factor).toNat < factor.toNat * 10000) ∧
    (factor.toNat = 0 ∨ 6400 < factor.toNat → responseDelay mac4 mac5 factor = 0) := by
  have h4 := mac4.isLt
  have h5 := mac5.isLt
  have hf := factor.isLt
  have hz : factor = 0 ↔ factor.toNat = 0 :=
    ⟨fun h => by rw [h]; rfl, fun h => BitVec.eq_of_toNat_eq h⟩
  have hg : factor > 6400#16 ↔ 6400 < factor.toNat := by
    show 6400#16 < factor ↔ _
    rw [BitVec.lt_def]; rfl
  unfold responseDelay
  constructor
  · rintro ⟨h1, h2⟩
    rw [if_neg (by rw [hz, hg]; omega)]
    have hr : (mac4.setWidth 16 * 0x100#16 + mac5.setWidth 16 : BitVec 16).toNat = mac4.toNat * 256 + mac5.toNat := by
      simp only [BitVec.toNat_add, BitVec.toNat_mul, BitVec.toNat_setWidth, BitVec.toNat_ofNat]
      omega
    have hm : ((mac4.toNat * 256 + mac5.toNat) % factor.toNat) < factor.toNat := Nat.mod_lt _ (by omega)
    have hs : ((mac4.setWidth 16 * 0x100#16 + mac5.setWidth 16) % factor : BitVec 16).toNat =
        (mac4.toNat * 256 + mac5.toNat) % factor.toNat := by
      rw [BitVec.toNat_umod, hr]
    have : (((mac4.setWidth 16 * 0x100#16 + mac5.setWidth 16) % factor : BitVec 16).setWidth 32 * 10 * 1000 : BitVec 32).toNat =
        ((mac4.toNat * 256 + mac5.toNat) % factor.toNat) * 10000 := by
      have e : ∀ y : BitVec 32, (y * 10 * 1000).toNat = (y.toNat * 10 % 2 ^ 32 * 1000) % 2 ^ 32 := by
        intro y; rw [BitVec.toNat_mul, BitVec.toNat_mul]; rfl
      rw [e, BitVec.toNat_setWidth, hs]
      exact scale _ (Nat.lt_of_lt_of_le hm h2)
    refine ⟨this, ?_⟩
    dsimp only
    rw [this]
    omega
  · intro h
    rw [if_pos (by rw [hz, hg]; exact h)]

theorem C39_example : responseDelay 0x12 0x34 100#16 = 600000#32 ∧ responseDelay 0x12 0x34 6401#16 = 0 := by decide

/-! ## Signal LED -/

/-- The handle `dcp_led_timeout` and the timer it stands for: `running` is pf_scheduler_is_running (src/common/pf_scheduler.c:244-247); `timer` is the argument of the pending
callback. Both are set by a successful pf_scheduler_add (src/common/pf_scheduler.c:299-384); a failing one resets the handle. The callback is
removed from the scheduler before it runs. -/
structure Led where
  running : Bool
  timer : Option Nat

/-- Observable effects: the application's LED callback, and a timer started with a delay in microseconds. -/
inductive Eff where
  | led (on : Bool)
  | arm (us : Nat)
deriving DecidableEq, Repr

/-- Half interval and number of flashes (src/common/pf_dcp.c:69-70). -/
def halfInterval : Nat := 500000
def flashes : Nat := 3

/-- pf_scheduler_add (src/common/pf_scheduler.c:299-384) for this handle; `ok` whether the scheduler has room. -/
def schedAdd (ok : Bool) (s : Nat) : Led × List Eff :=
  if ok then (⟨true, some s⟩, [.arm halfInterval]) else (⟨false, none⟩, [])

/-- pf_dcp_control_signal_led (src/common/pf_dcp.c:588-634) called with argument `s`. -/
def control (ok : Bool) (s : Nat) : Led × List Eff :=
  let e := if s % 2 = 1 then [Eff.led true] else [Eff.led false]
  if s > 0 ∧ s < 200 then
    let r := schedAdd ok (s - 1)
    (r.1, e ++ r.2)
  else (⟨false, none⟩, e)

/-- pf_dcp_trigger_signal_led (src/common/pf_dcp.c:646-671). -/
def trigger (l : Led) (ok : Bool) : Led × List Eff :=
  if l.running = false then schedAdd ok (2 * flashes - 1) else (l, [])

/-- `ok`: the scheduler has room for the timer, if one is started. -/
inductive Op where
  | request (ok : Bool)
  | expire (ok : Bool)

def Op.ok : Op → Bool
  | .request ok => ok
  | .expire ok => ok

def step (l : Led) : Op → Led × List Eff
  | .request ok => trigger l ok
  | .expire ok =>
    match l.timer with
    | none => (l, [])
    | some s => control ok s

/-- State and all effects, in order. -/
def run : List Op → Led × List Eff
  | ops => ops.foldl (fun st o => let r := step st.1 o; (r.1, st.2 ++ r.2)) (⟨false, none⟩, [])

/-! ### Specification -/

/-- LED on or off, in order. -/
def leds (es : List Eff) : List Bool := es.filterMap fun | .led b => some b | .arm _ => none

def arms (es : List Eff) : List Nat := es.filterMap fun | .led _ => none | .arm d => some d

/-- Three flashes. -/
def threeFlashes : List Bool := [true, false, true, false, true, false]

/-- The number of accepted requests: those that come when all flashes of the previously accepted ones have been shown.
`n` counts accepted requests, `k` LED changes shown. -/
def accepted : List Op → Nat × Nat
  | ops => ops.foldl (fun (n, k) o => match o with
      | .request _ => if k = 6 * n then (n + 1, k) else (n, k)
      | .expire _ => if k < 6 * n then (n, k + 1) else (n, k)) (0, 0)

/-! ### Proof -/

theorem three_get (k n : Nat) (h : k < 6 * n) : ((List.replicate n threeFlashes).flatten)[k]? = some (decide (k % 2 = 0)) := by
  induction n generalizing k with
  | zero => omega
  | succ n ih =>
    rw [List.replicate_succ, List.flatten_cons]
    by_cases hk : k < 6
    · rw [List.getElem?_append_left (by simpa [threeFlashes] using hk)]
      have : k = 0 ∨ k = 1 ∨ k = 2 ∨ k = 3 ∨ k = 4 ∨ k = 5 := by omega
      rcases this with rfl | rfl | rfl | rfl | rfl | rfl <;> rfl
    · rw [List.getElem?_append_right (by simp [threeFlashes]; omega)]
      have e : threeFlashes.length = 6 := rfl
      rw [e, ih (k - 6) (by omega)]
      congr 2
      simp; omega

theorem three_len (n : Nat) : ((List.replicate n threeFlashes).flatten).length = 6 * n := by
  induction n with
  | zero => rfl
  | succ n ih =>
    rw [List.replicate_succ, List.flatten_cons, List.length_append, ih]
    have e : threeFlashes.length = 6 := rfl
    omega

structure Inv (ops : List Op) : Prop where
  leds : leds (run ops).2 = ((List.replicate (accepted ops).1 threeFlashes).flatten).take (accepted ops).2
  arms : arms (run ops).2 = List.replicate ((accepted ops).2 + (if (run ops).1.running then 1 else 0)) halfInterval
  low : 6 * (accepted ops).1 ≤ (accepted ops).2 + 6
  high : (accepted ops).2 ≤ 6 * (accepted ops).1
  timer : (run ops).1.timer = if (accepted ops).2 = 6 * (accepted ops).1 then none
    else some (6 * (accepted ops).1 - (accepted ops).2 - 1)
  running : (run ops).1.running = (run ops).1.timer.isSome

theorem leds_append (a b : List Eff) : leds (a ++ b) = leds a ++ leds b := by simp [leds]
theorem arms_append (a b : List Eff) : arms (a ++ b) = arms a ++ arms b := by simp [arms]

theorem take_more (n k m : Nat) (h : k ≤ 6 * n) (h' : n ≤ m) :
    ((List.replicate m threeFlashes).flatten).take k = ((List.replicate n threeFlashes).flatten).take k := by
  obtain ⟨d, rfl⟩ := Nat.exists_eq_add_of_le h'
  rw [← List.replicate_append_replicate, List.flatten_append, List.take_append_of_le_length (by rw [three_len]; exact h)]

theorem run_snoc (ops : List Op) (o : Op) :
    run (ops ++ [o]) = ((step (run ops).1 o).1, (run ops).2 ++ (step (run ops).1 o).2) := by
  unfold run; rw [List.foldl_append]; rfl

theorem accepted_snoc (ops : List Op) (o : Op) :
    accepted (ops ++ [o]) = match o with
      | .request _ => if (accepted ops).2 = 6 * (accepted ops).1 then ((accepted ops).1 + 1, (accepted ops).2) else accepted ops
      | .expire _ => if (accepted ops).2 < 6 * (accepted ops).1 then ((accepted ops).1, (accepted ops).2 + 1) else accepted ops := by
  unfold accepted
  rw [List.foldl_append]
  cases o <;> rfl

theorem inv (ops : List Op) (hok : ∀ o ∈ ops, o.ok = true) : Inv ops := by
  induction ops using List.reverseRecOn with
  | nil => exact ⟨rfl, rfl, by simp [accepted], by simp [accepted], rfl, rfl⟩
  | append_singleton ops o ih =>
    obtain ⟨h1, h2, h3, h4, h5, h6⟩ := ih fun o' ho' => hok o' (by simp [ho'])
    have ho := hok o (by simp)
    have er := run_snoc ops o
    have ea := accepted_snoc ops o
    generalize hR : run ops = R at *
    generalize hA : accepted ops = A at *
    generalize hR' : run (ops ++ [o]) = R' at *
    generalize hA' : accepted (ops ++ [o]) = A' at *
    obtain ⟨⟨rn, tm⟩, es⟩ := R
    obtain ⟨n, k⟩ := A
    simp only at *
    cases o with
    | request ok =>
      have : ok = true := ho
      subst this
      simp only [step, trigger] at er
      dsimp only at ea
      by_cases hk : k = 6 * n
      · rw [if_pos hk] at ea h5
        subst h5
        simp only [Option.isSome_none] at h6
        subst h6
        simp only [if_true, schedAdd] at er
        subst er ea
        constructor
        all_goals simp only [hR', hA']
        all_goals try dsimp only
        · rw [leds_append, h1]
          rw [take_more n k (n + 1) (by omega) (by omega)]
          simp [leds]
        · rw [arms_append, h2]
          simp only [Bool.false_eq_true, if_false, if_true, Nat.add_zero]
          rw [List.replicate_succ']; rfl
        · omega
        · omega
        · rw [if_neg (by omega)]; congr 1; simp [flashes]; omega
        · rfl
      · rw [if_neg hk] at ea h5
        subst h5
        simp only [Option.isSome_some] at h6
        subst h6
        simp only [Bool.true_eq_false, if_false, List.append_nil] at er
        subst er ea
        constructor
        all_goals simp only [hR', hA']
        all_goals try dsimp only
        · exact h1
        · exact h2
        · exact h3
        · exact h4
        · rw [if_neg hk]
        · rfl
    | expire ok =>
      have : ok = true := ho
      subst this
      dsimp only at ea
      by_cases hk : k = 6 * n
      · rw [if_neg (by omega)] at ea
        rw [if_pos hk] at h5
        subst h5
        simp only [step, List.append_nil] at er
        subst er ea
        constructor
        all_goals simp only [hR', hA']
        all_goals try dsimp only
        · exact h1
        · exact h2
        · exact h3
        · exact h4
        · rw [if_pos hk]
        · exact h6
      · rw [if_pos (by omega)] at ea
        rw [if_neg hk] at h5
        subst h5
        simp only [Option.isSome_some] at h6
        subst h6
        simp only [step, control] at er
        subst ea
        have hev : (if (6 * n - k - 1) % 2 = 1 then [Eff.led true] else [Eff.led false]) =
            [Eff.led (decide (k % 2 = 0))] := by
          split
          · rename_i h; rw [decide_eq_true (by omega)]
          · rename_i h; rw [decide_eq_false (by omega)]
        rw [hev] at er
        have hleds : ((List.replicate n threeFlashes).flatten).take (k + 1) =
            ((List.replicate n threeFlashes).flatten).take k ++ [decide (k % 2 = 0)] := by
          rw [List.take_add_one, three_get k n (by omega)]; rfl
        by_cases hs : 6 * n - k - 1 > 0 ∧ 6 * n - k - 1 < 200
        · rw [if_pos hs] at er
          simp only [schedAdd, if_true] at er
          subst er
          constructor
          all_goals simp only [hR', hA']
          all_goals try dsimp only
          · rw [leds_append, h1, hleds]; rfl
          · rw [arms_append, h2]
            simp only [if_true]
            rw [List.replicate_succ' (n := k + 1)]; rfl
          · omega
          · omega
          · rw [if_neg (by omega)]; congr 1
          · rfl
        · rw [if_neg hs] at er
          subst er
          constructor
          all_goals simp only [hR', hA']
          all_goals try dsimp only
          · rw [leds_append, h1, hleds]; rfl
          · rw [arms_append, h2]
            simp [arms]
          · omega
          · omega
          · rw [if_pos (by omega)]
          · rfl

/-- **C41 (partial)** For every interleaving of signal requests and timer expiries with room in the scheduler: the LED shows exactly the
flashes of the accepted requests one after the other - on, off, on, off, on, off for each, never more - one change per
timer expiry, at half-second timers; when no timer is pending all of them have been shown and the LED is off; requests during
flashing have no effect.

Partial: needs room in the scheduler, see `C41_led_left_on`. -/
theorem C41_three_flashes_partial (ops : List Op) (hok : ∀ o ∈ ops, o.ok = true) :
    leds (run ops).2 <+: (List.replicate (accepted ops).1 threeFlashes).flatten ∧
    (leds (run ops).2).length = (accepted ops).2 ∧
    ((run ops).1.timer = none → leds (run ops).2 = (List.replicate (accepted ops).1 threeFlashes).flatten ∧
      (leds (run ops).2).getLast? ≠ some true) ∧
    (∀ d ∈ arms (run ops).2, d = 500000) ∧
    (∀ ok, (run ops).1.timer ≠ none → step (run ops).1 (.request ok) = ((run ops).1, [])) := by
  obtain ⟨h1, h2, h3, h4, h5, h6⟩ := inv ops hok
  have hl := three_len (accepted ops).1
  refine ⟨?_, ?_, ?_, ?_, ?_⟩
  · rw [h1]; exact List.take_prefix _ _
  · rw [h1, List.length_take, hl]; omega
  · intro ht
    have hk : (accepted ops).2 = 6 * (accepted ops).1 := by
      by_contra hne
      rw [if_neg hne] at h5
      rw [h5] at ht; cases ht
    have hall : leds (run ops).2 = (List.replicate (accepted ops).1 threeFlashes).flatten := by
      rw [h1, hk, List.take_of_length_le (Nat.le_of_eq hl)]
    refine ⟨hall, ?_⟩
    rw [hall, List.getLast?_eq_getElem?, hl]
    by_cases h0 : (accepted ops).1 = 0
    · simp [h0]
    · rw [three_get _ _ (by omega)]
      simp; omega
  · intro d hd
    rw [h2] at hd
    exact (List.mem_replicate.1 hd).2
  · intro ok ht
    have : (run ops).1.running = true := by
      rw [h6]
      cases hh : (run ops).1.timer with
      | none => exact absurd hh ht
      | some => rfl
    simp [step, trigger, this]

/-- **C41 (finding)** The result of starting the timer is ignored: if the scheduler is full when the LED has been turned on, it stays
on and no timer is pending. -/
theorem C41_led_left_on :
    (run [.request true, .expire false]).1.timer = none ∧ leds (run [.request true, .expire false]).2 = [true] := by
  decide

/-- Concrete case: a second request during the flashing, a third afterwards. -/
theorem C41_example :
    let ops := [Op.request true, .expire true, .request true] ++ List.replicate 7 (.expire true) ++ [.request true, .expire true]
    (accepted ops).1 = 2 ∧ leds (run ops).2 = [true, false, true, false, true, false, true] := by decide

end Verif.Signal
