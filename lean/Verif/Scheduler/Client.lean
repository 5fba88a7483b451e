import Verif.Scheduler.Sim
import Mathlib.Data.List.Nodup
/-! Timer handles: the layer `pf_scheduler_handle_t` above the slot table. -/
set_option linter.unusedSimpArgs false
set_option linter.unusedVariables false
namespace Verif.Scheduler

/-- The handles of all clients: `none` is `timer_index == UINT32_MAX` (not running). -/
abbrev Handles := Nat → Option Nat

def setH (H : Handles) (c : Nat) (v : Option Nat) : Handles := fun x => if x = c then v else H x

/-- pf_scheduler_is_running (src/common/pf_scheduler.c:244-247). -/
def isRunning (H : Handles) (c : Nat) : Bool := (H c).isSome

/-- pf_scheduler_remove_if_running (src/common/pf_scheduler.c:249-257). -/
def removeIfRunning (N : Nat) (nm : Nat → Nat) (s : Sched) (H : Handles) (c : Nat) :
    Option (Sched × Handles) :=
  match H c with
  | none => some (s, H)
  | some h => do
    let (s', b) ← remove N s h (nm c)
    some (s', if b then setH H c none else H)

/-- Calls made by clients that follow the handle discipline: a timer is (re)started with
pf_scheduler_restart, stopped with pf_scheduler_remove_if_running, and a callback first resets its
own handle (as e.g. pf_ppm_drv_sw_send, src/common/pf_ppm_driver_sw.c:42, does). `expire` is one
iteration of the tick loop. -/
inductive COp
  | restart (c : Nat) (delay : BitVec 32)
  | stop (c : Nat)
  | expire

inductive COut
  | restarted (ok : Bool)
  | stopped
  | expired (c : Option Nat)
deriving DecidableEq, Repr

/-- pf_scheduler_restart (src/common/pf_scheduler.c:259-268), pf_scheduler_remove_if_running, and one iteration of
pf_scheduler_tick (src/common/pf_scheduler.c:444-481) with a callback that resets its handle. The callback identity is the client. -/
def cstep (N : Nat) (tk : BitVec 32) (nm : Nat → Nat) (s : Sched) (H : Handles) (t : Nat) :
    COp → Option (Sched × Handles × COut)
  | .restart c d => do
    let (s1, H1) ← removeIfRunning N nm s H c
    let (s2, h) ← add N tk s1 (BitVec.ofNat 32 t) d (nm c) c
    some (s2, setH H1 c h, .restarted h.isSome)
  | .stop c => do
    let (s1, H1) ← removeIfRunning N nm s H c
    some (s1, H1, .stopped)
  | .expire => do
    let (s1, f) ← fireOne N s (BitVec.ofNat 32 t)
    match f with
    | none => some (s1, H, .expired none)
    | some (_, c) => some (s1, setH H c none, .expired (some c))

def crun (N : Nat) (tk : BitVec 32) (nm : Nat → Nat) : Sched → Handles → List (Nat × COp) →
    Option (Sched × Handles × List COut)
  | s, H, [] => some (s, H, [])
  | s, H, (t, op) :: h => do
    let (s1, H1, o) ← cstep N tk nm s H t op
    let (s2, H2, os) ← crun N tk nm s1 H1 h
    some (s2, H2, o :: os)

/-- Handles and busy slots describe the same timers. -/
structure CInv (N : Nat) (nm : Nat → Nat) (s : Sched) (H : Handles) (busy free : List Nat)
    (E : Nat → Nat) : Prop where
  rep : Rep N s busy free E
  own : ∀ i ∈ busy, H ((s.slots i).cb) = some (i + 1) ∧ (s.slots i).name = nm (s.slots i).cb
  run : ∀ c h, H c = some h → ∃ i ∈ busy, h = i + 1 ∧ (s.slots i).cb = c

theorem drop_inv {N nm s H A ix B free E s'} (h : CInv N nm s H (A ++ ix :: B) free E)
    (hr : Rep N s' (A ++ B) (ix :: free) E)
    (hn : ∀ i, (s'.slots i).name = (s.slots i).name ∧ (s'.slots i).cb = (s.slots i).cb) :
    CInv N nm s' (setH H (s.slots ix).cb none) (A ++ B) (ix :: free) E := by
  have hsub : ∀ i ∈ A ++ B, i ∈ A ++ ix :: B := by
    intro i hi; simp only [List.mem_append, List.mem_cons] at hi ⊢; tauto
  have hne : ∀ i ∈ A ++ B, i ≠ ix := by
    intro i hi hh
    have hnd := (List.perm_middle.nodup_iff).1 h.rep.cb.nd
    exact (List.nodup_cons.1 hnd).1 (hh ▸ hi)
  refine ⟨hr, ?_, ?_⟩
  · intro i hi
    rw [(hn i).1, (hn i).2]
    have := h.own i (hsub i hi)
    refine ⟨?_, this.2⟩
    unfold setH
    split
    · rename_i hc
      have h2 := (h.own ix (by simp)).1
      rw [hc, h2] at this
      have := Option.some.inj this.1
      exact absurd (by omega : i = ix) (hne i hi)
    · exact this.1
  · intro c hd hc
    unfold setH at hc
    split at hc
    · cases hc
    · rename_i hcn
      obtain ⟨i, hi, rfl, hcb⟩ := h.run c hd hc
      refine ⟨i, ?_, rfl, by rw [(hn i).2]; exact hcb⟩
      simp only [List.mem_append, List.mem_cons] at hi ⊢
      rcases hi with hi | rfl | hi
      · exact .inl hi
      · exact absurd hcb.symm hcn
      · exact .inr hi

theorem removeIfRunning_spec {N nm s H busy free E c} (h : CInv N nm s H busy free E) :
    ∃ s' H' busy' free', removeIfRunning N nm s H c = some (s', H') ∧
      CInv N nm s' H' busy' free' E ∧ H' = setH H c none := by
  cases hc : H c with
  | none =>
    refine ⟨s, H, busy, free, by simp [removeIfRunning, hc], h, ?_⟩
    funext x; unfold setH; split <;> simp_all
  | some hd =>
    obtain ⟨i, hi, rfl, hcb⟩ := h.run c hd hc
    obtain ⟨A, B, rfl⟩ := List.append_of_mem hi
    have hname : (s.slots i).name = nm c := by rw [(h.own i hi).2, hcb]
    obtain ⟨s', e, hr, hn⟩ := remove_hit h.rep hname
    have := drop_inv h hr hn
    rw [hcb] at this
    exact ⟨s', setH H c none, A ++ B, i :: free, by simp [removeIfRunning, hc, e], this, rfl⟩

/-- The clients of the busy slots. -/
theorem busy_clients {N nm s H busy free E} (h : CInv N nm s H busy free E) :
    (busy.map (fun i => (s.slots i).cb)).Nodup ∧
    (∀ c, isRunning H c = true ↔ c ∈ busy.map (fun i => (s.slots i).cb)) := by
  constructor
  · refine List.Nodup.map_on ?_ h.rep.cb.nd
    intro x hx y hy hxy
    have h1 := (h.own x hx).1
    have h2 := (h.own y hy).1
    rw [hxy, h2] at h1
    have := Option.some.inj h1
    omega
  · intro c
    constructor
    · intro hc
      unfold isRunning at hc
      obtain ⟨hd, hh⟩ := Option.isSome_iff_exists.1 hc
      obtain ⟨i, hi, _, hcb⟩ := h.run c hd hh
      exact List.mem_map.2 ⟨i, hi, hcb⟩
    · intro hc
      obtain ⟨i, hi, rfl⟩ := List.mem_map.1 hc
      simp [isRunning, (h.own i hi).1]

theorem add_inv {N tk nm s H busy free E} {c : Nat} (h : CInv N nm s H busy free E) (hc : H c = none) (t : Nat)
    (d : BitVec 32) :
    ∃ s' r busy' free' E', add N tk s (BitVec.ofNat 32 t) d (nm c) c = some (s', r) ∧
      CInv N nm s' (setH H c r) busy' free' E' ∧ (r = none ↔ busy.length = N) := by
  have hl := h.rep.length
  cases free with
  | nil =>
    refine ⟨s, none, busy, [], E, add_full h.rep, ?_, by simp at hl; simp [hl]⟩
    have : setH H c none = H := by funext x; unfold setH; split <;> simp_all
    rw [this]; exact h
  | cons ix F =>
    obtain ⟨s', e, hr, hn, hni, hci⟩ := add_room (n := nm c) (c := c) h.rep
      (t + (sanitizeDelay d tk).toNat) (toNat_add_ofNat t _)
    refine ⟨s', some (ix + 1), _, F, _, e, ⟨hr, ?_, ?_⟩, by simp at hl; simp; omega⟩
    · intro i hi
      simp only [List.mem_append, List.mem_cons] at hi
      have hcase : i = ix ∨ i ∈ busy := by
        rcases hi with hi | hi | hi
        · exact .inr ((List.takeWhile_sublist _).subset hi)
        · exact .inl hi
        · exact .inr ((List.dropWhile_sublist _).subset hi)
      rcases hcase with rfl | hib
      · rw [hci, hni]; simp [setH]
      · rw [(hn i hib).1, (hn i hib).2]
        have := h.own i hib
        refine ⟨?_, this.2⟩
        unfold setH
        split
        · rename_i hh; rw [hh, hc] at this; cases this.1
        · exact this.1
    · intro x hd hx
      unfold setH at hx
      split at hx
      · rename_i hh
        refine ⟨ix, by simp, (Option.some.inj hx).symm, by rw [hci, hh]⟩
      · obtain ⟨i, hi, he, hcb⟩ := h.run x hd hx
        refine ⟨i, ?_, he, by rw [(hn i hi).2]; exact hcb⟩
        have hi' := hi
        rw [← List.takeWhile_append_dropWhile
          (p := laterThan s.slots (BitVec.ofNat 32 (t + (sanitizeDelay d tk).toNat))) (l := busy)] at hi'
        simp only [List.mem_append, List.mem_cons] at hi' ⊢
        tauto

end Verif.Scheduler
