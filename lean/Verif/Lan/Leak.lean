import Verif.Lan.Final

/-! C133: numbers of read lists are lost when a connection fails to start. -/
set_option linter.unusedSimpArgs false
set_option linter.unusedVariables false

namespace Verif.Lan

section
variable {lim : Lim} {n nSram : Nat} {vcam rtp ral wal : U16} {E : Prop} {u : Use}

theorem startLoop_fail (i : Nat) : ∀ (qs : List (Nat × Nat)) (h : Hw), (∃ q ∈ qs, busy (h.frame i) q = true) →
    (startLoop i (fun _ => false) qs h).2 = false ∧ (startLoop i (fun _ => false) qs h).1.ral = h.ral.alloc.2 ∧
      ((startLoop i (fun _ => false) qs h).1.frame i).active = (h.frame i).active := by
  intro qs
  induction qs with
  | nil => intro h ⟨q, hq, _⟩; exact absurd hq List.not_mem_nil
  | cons q qs ih =>
    intro h ⟨q', hq', hb⟩
    unfold startLoop
    by_cases c : busy (h.frame i) q = true
    · rw [if_pos c]
      simp [Hw.setFrame]
    · rw [if_neg c]
      refine ih h ⟨q', ?_, hb⟩
      rcases List.mem_cons.mp hq' with rfl | h'
      · exact absurd hb c
      · exact h'

theorem firstFree_prefix : ∀ (k : Nat) (l : List Bool), firstFree (List.replicate k true ++ false :: l) = some k := by
  intro k l
  unfold firstFree
  induction k with
  | zero => rw [List.replicate_zero, List.nil_append, List.findIdx?_cons]; rfl
  | succ k ih =>
    rw [List.replicate_succ, List.cons_append, List.findIdx?_cons, ih]
    rfl

theorem set_prefix : ∀ (k : Nat) (l : List Bool), (List.replicate k true ++ false :: l).set k true = List.replicate (k + 1) true ++ l := by
  intro k l
  induction k with
  | zero => rfl
  | succ k ih =>
    rw [List.replicate_succ, List.cons_append, List.set_cons_succ, ih, List.replicate_succ (n := k + 1), List.cons_append]

/-- One connection with the object `d` that is opened, fails to start and is closed. -/
def failing (d : Io) : List Op := [.openP [d], .startP 0 true (fun _ => false), .close 0]

theorem inUse_zero (h : ∀ i, u.held i = none) : inUse lim u = 0 := by
  unfold inUse
  rw [List.length_eq_zero_iff, List.filter_eq_nil_iff]
  intro i _
  rw [h i]
  simp

theorem mem_places {q : Nat × Nat} (h1 : q.1 < lim.slots) (h2 : q.2 < lim.subslots) : q ∈ places lim := by
  unfold places
  rw [List.mem_flatMap]
  exact ⟨q.1, List.mem_range.mpr h1, List.mem_map.mpr ⟨q.2, List.mem_range.mpr h2, rfl⟩⟩

theorem one_cycle (c : Conf n nSram vcam rtp ral wal) (r : Reached lim n nSram vcam rtp ral wal False u) (hn : ∀ i, u.held i = none) {d : Io}
    (hl : d.dataLength ≠ 0) (hd : Fits lim d) (h1 : 0 < lim.frames) (h2 : 0 < n) (h3 : 0 < nSram) :
    ∃ u', run lim u (failing d) = some u' ∧ Reached lim n nSram vcam rtp ral wal False u' ∧ (∀ i, u'.held i = none) ∧ u'.hw.ral = u.hw.ral.alloc.2 := by
  have z := inUse_zero (lim := lim) hn
  have inv := r.inv c
  obtain ⟨h, i, ei, e, ho⟩ := open_ok c r (descs := [d]) (fun x hx => by rw [List.mem_singleton.mp hx]; exact hd) (z ▸ h1) (z ▸ h2) (z ▸ h3) 6
  have i0 : i = 0 := by
    unfold allocFrame at ei
    obtain ⟨m, hm⟩ := Nat.exists_eq_succ_of_ne_zero (Nat.ne_of_gt h1)
    rw [hm, List.range_succ_eq_map, List.find?_cons_of_pos] at ei
    · exact (Option.some.inj ei).symm
    · rw [inv.used 0 h1, hn 0]; rfl
  subst i0
  have o := ho (.ppm false)
  have e1 : step lim u (.openP [d]) = some (u.hold h 0 (some (.ppm false))) := by
    unfold step
    simp only [e, Option.map_some]
  have r1 := Reached.next r (.openP [d]) (fun f => f.elim) e1
  generalize u.hold h 0 (some (.ppm false)) = u1 at *
  have hh1 : u1.held 0 = some (.ppm false) := by rw [o.after]; simp
  have hr1 : u1.hw.ral = u.hw.ral := o.idle.2
  have hb : ∃ q ∈ places lim, busy (setAddrs (u1.hw.frame 0)) q = true := by
    rcases hd with hd | hd
    · exact absurd hd hl
    · have hp := o.io
      unfold placeAll at hp
      rw [if_pos hl, rteObject_fits hd, Option.bind_some] at hp
      unfold placeAll at hp
      have hp := Option.some.inj hp
      refine ⟨(d.slot.toNat, d.subslot.toNat - 1), mem_places hd.1 (by simp only; omega), ?_⟩
      have : (setAddrs (u1.hw.frame 0)).io = (u1.hw.frame 0).io := rfl
      unfold busy
      rw [this, ← hp]
      simpa using hl
  have e2 : step lim u1 (.startP 0 true (fun _ => false)) = some (u1.hold (ppmStart lim u1.hw 0 true (fun _ => false)).1 0 (some (.ppm true))) := by
    unfold step
    simp only [hh1, if_true]
  have r2 := Reached.next r1 (.startP 0 true (fun _ => false)) (fun f => f.elim) e2
  have hf := startLoop_fail 0 (places lim) (u1.hw.setFrame 0 (setAddrs (u1.hw.frame 0))) (by
    have : (u1.hw.setFrame 0 (setAddrs (u1.hw.frame 0))).frame 0 = setAddrs (u1.hw.frame 0) := by unfold Hw.setFrame; simp
    rw [this]; exact hb)
  have hf1 : ((ppmStart lim u1.hw 0 true (fun _ => false)).1.frame 0).active = false ∧ (ppmStart lim u1.hw 0 true (fun _ => false)).1.ral = u.hw.ral.alloc.2 := by
    unfold ppmStart
    simp only [if_true]
    rw [if_neg (by rw [hf.1]; simp)]
    refine ⟨?_, ?_⟩
    · rw [hf.2.2]
      unfold Hw.setFrame
      simp only [if_true]
      exact o.idle.1
    · rw [hf.2.1]
      show u1.hw.ral.alloc.2 = _
      rw [hr1]
  generalize (ppmStart lim u1.hw 0 true (fun _ => false)).1 = h2 at *
  generalize hu2 : u1.hold h2 0 (some (.ppm true)) = u2 at *
  have hh2 : u2.held 0 = some (.ppm true) := by rw [← hu2]; unfold Use.hold; simp
  have hw2 : u2.hw = h2 := by rw [← hu2]; rfl
  obtain ⟨u3, e3, _⟩ := close_inv (r2.inv c) 0
  have r3 := Reached.next r2 (.close 0) (fun f => f.elim) e3
  refine ⟨u3, ?_, r3, fun i => ?_, ?_⟩
  · unfold failing run
    rw [e1, Option.bind_some]
    unfold run
    rw [e2, Option.bind_some]
    unfold run
    rw [e3, Option.bind_some]
    rfl
  · obtain ⟨⟨u', e', h', hj⟩, _⟩ := C133_safe c r2 0
    rw [e3] at e'
    cases e'
    by_cases ci : i = 0
    · rw [ci]; exact h'
    · rw [(hj i ci).1, ← hu2]
      show (if i = 0 then _ else u1.held i) = none
      rw [if_neg ci, o.after]
      simp only
      rw [if_neg ci]
      exact hn i
  · unfold step at e3
    simp only [hh2] at e3
    unfold ppmStop at e3
    rw [hw2, if_neg (by rw [hf1.1]; simp), Option.bind_some] at e3
    simp only [Option.map_eq_some_iff] at e3
    obtain ⟨h3, e4, e5⟩ := e3
    rw [← e5]
    unfold frameFree at e4
    simp only [Option.bind_eq_some_iff] at e4
    obtain ⟨p1, _, p2, _, p3, _, p4, _, e6⟩ := e4
    cases e6
    exact hf1.2

/-- C133 fails for read lists: after `k` connections that failed to start and were closed, `k` numbers of read lists are marked as used although
nothing is in use. -/
theorem C133_failed_start_leaks (c : Conf n nSram vcam rtp ral wal) {d : Io} (hl : d.dataLength ≠ 0) (hd : Fits lim d) (h1 : 0 < lim.frames)
    (h3 : 0 < nSram) : ∀ k, k ≤ n →
    ∃ u, run lim (start n nSram vcam rtp ral wal) (List.replicate k (failing d)).flatten = some u ∧ (∀ i, u.held i = none) ∧
      u.hw.ral.used = List.replicate k true ++ List.replicate (n - k) false := by
  have runApp : ∀ (a b : List Op) (v : Use), run lim v (a ++ b) = (run lim v a).bind fun w => run lim w b := by
    intro a
    induction a with
    | nil => intro b v; rfl
    | cons o os ih =>
      intro b v
      show (step lim v o).bind (fun w => run lim w (os ++ b)) = ((step lim v o).bind fun w => run lim w os).bind fun w => run lim w b
      cases step lim v o with
      | none => rfl
      | some w => simp only [Option.bind_some]; exact ih b w
  intro k
  induction k with
  | zero =>
    intro _
    exact ⟨start n nSram vcam rtp ral wal, rfl, fun _ => rfl, rfl⟩
  | succ k ih =>
    intro hk
    obtain ⟨u, e, hn, hu⟩ := ih (by omega)
    have r : Reached lim n nSram vcam rtp ral wal False u := reached_run (fun f => f.elim) .init e
    obtain ⟨u', e', r', hn', hu'⟩ := one_cycle c r hn hl hd h1 (by omega) h3
    refine ⟨u', ?_, hn', ?_⟩
    · rw [List.replicate_succ', List.flatten_append, List.flatten_singleton, runApp, e, Option.bind_some]
      exact e'
    · obtain ⟨m, hm⟩ : ∃ m, n - k = m + 1 := ⟨n - k - 1, by omega⟩
      have hm' : n - (k + 1) = m := by omega
      rw [hm, List.replicate_succ] at hu
      rw [hu', hm']
      unfold Pool.alloc
      rw [hu, firstFree_prefix]
      exact set_prefix k _

/-- All of them gone: the next connection that starts without any failure gets 0xFFFF for its read list. -/
theorem C133_leak_exhausts (c : Conf n nSram vcam rtp ral wal) {d : Io} (hl : d.dataLength ≠ 0) (hd : Fits lim d) (h1 : 0 < lim.frames)
    (h3 : 0 < nSram) : ∃ u, run lim (start n nSram vcam rtp ral wal) (List.replicate n (failing d)).flatten = some u ∧ (∀ i, u.held i = none) ∧
      u.hw.ral.alloc.1 = 0xFFFF := by
  obtain ⟨u, e, hn, hu⟩ := C133_failed_start_leaks c hl hd h1 h3 n (Nat.le_refl n)
  refine ⟨u, e, hn, ?_⟩
  unfold Pool.alloc
  split
  · rename_i k hk
    have := List.mem_of_getElem? (firstFree_some hk)
    rw [hu, Nat.sub_self] at this
    simp at this
  · rfl

end

/-! ## A configuration -/

/-- Two slots of one subslot, four frames, eight numbers of each kind. -/
def demoLim : Lim := ⟨2, 1, 4⟩
def demoIo : Io := ⟨0, 1, 1, 0, 4⟩

example : Conf 8 4 0x100 0x10 0x20 0x30 := ⟨by decide, by decide, by decide, by decide, by decide⟩

/-- A history with both kinds of frames in use at once, and one after which nothing is. -/
example : ∃ u, run demoLim (start 8 4 0x100 0x10 0x20 0x30) [.openP [demoIo], .openC [demoIo], .startP 0 true (fun _ => true), .startC 1 true] = some u ∧
    (u.held 0).isSome ∧ (u.held 1).isSome ∧ (u.hw.frame 0).ral (1, 0) = 0x20 ∧ (u.hw.frame 0).sram ≠ (u.hw.frame 1).sram :=
  ⟨_, rfl, rfl, rfl, by decide +kernel, by decide +kernel⟩

example : Fits demoLim demoIo ∧ demoIo.dataLength ≠ 0 := ⟨Or.inr (by decide), by decide⟩

end Verif.Lan
