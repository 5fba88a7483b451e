import Verif.Lan.Lemmas

/-! Invariant of the hardware resources over all histories of calls. -/
set_option linter.unusedSimpArgs false
set_option linter.unusedVariables false

namespace Verif.Lan

abbrev HeldMap := Nat → Option Held

/-- Who owns which number of the kind `f`. -/
def owns (f : Frame → U16) (h : Hw) (held : HeldMap) : Nat → Option U16 := fun i => if (held i).isSome then valid (f (h.frame i)) else none

def ralOwns (h : Hw) (held : HeldMap) : Nat × (Nat × Nat) → Option U16 :=
  fun x => if (held x.1).isSome then valid ((h.frame x.1).ral x.2) else none

def sramOwns (h : Hw) (held : HeldMap) : Nat → Option U16 := fun i => if (held i).isSome then some (h.frame i).sram else none

structure Inv (lim : Lim) (u : Use) (E : Prop) : Prop where
  used : ∀ i, i < lim.frames → (u.hw.frame i).used = (u.held i).isSome
  inside : ∀ i, (u.held i).isSome → i < lim.frames
  vcam : PoolInv u.hw.vcam (owns Frame.vcam u.hw u.held) True
  vlan : PoolInv u.hw.vlan (owns Frame.vlan u.hw u.held) True
  rtp : PoolInv u.hw.rtp (owns Frame.rtp u.hw u.held) True
  wal : PoolInv u.hw.wal (owns Frame.wal u.hw u.held) True
  sram : SramInv u.hw.sram (sramOwns u.hw u.held)
  ral : PoolInv u.hw.ral (ralOwns u.hw u.held) E
  fresh : ∀ i, u.held i = some (.ppm false) ∨ u.held i = some .cpm → ∀ q, (u.hw.frame i).ral q = invalid
  done : E → ∀ i, u.held i = some (.ppm true) → (u.hw.frame i).active = true ∨ ∀ q, (u.hw.frame i).ral q = invalid
  table : ∀ i, (u.held i).isSome → ∀ q, (u.hw.frame i).ral q ≠ invalid → q ∈ places lim

theorem places_nodup (lim : Lim) : (places lim).Nodup := by
  unfold places
  unfold List.Nodup
  rw [List.pairwise_flatMap]
  refine ⟨fun s _ => ?_, ?_⟩
  · rw [List.pairwise_map]
    exact (List.nodup_range (n := lim.subslots)).imp fun h e => h (by cases e; rfl)
  · refine List.Pairwise.imp ?_ (List.nodup_range (n := lim.slots))
    intro a b hab x h1 y h2 e
    simp only [List.mem_map] at h1 h2
    obtain ⟨t, _, rfl⟩ := h1
    obtain ⟨t', _, rfl⟩ := h2
    exact hab (by cases e; rfl)

/-! ### What a change of one frame means for the owners -/

theorem owns_open (f : Frame → U16) {h h' : Hw} (hf : h'.frame = h.frame) (held : HeldMap) (i : Nat) (fr : Frame) (x : Held) :
    owns f (h'.setFrame i fr) (fun j => if j = i then some x else held j) = upd (owns f h held) i (valid (f fr)) := by
  funext j
  unfold owns upd Hw.setFrame
  by_cases c : j = i
  · simp [c]
  · simp [c, hf]

theorem owns_close (f : Frame → U16) {h h' : Hw} (hf : h'.frame = h.frame) (held : HeldMap) (i : Nat) (fr : Frame) :
    owns f (h'.setFrame i fr) (fun j => if j = i then none else held j) = upd (owns f h held) i none := by
  funext j
  unfold owns upd Hw.setFrame
  by_cases c : j = i
  · simp [c]
  · simp [c, hf]

theorem owns_same (f : Frame → U16) {h h' : Hw} {held held' : HeldMap} (h1 : ∀ j, f (h'.frame j) = f (h.frame j)) (h2 : ∀ j, (held' j).isSome = (held j).isSome) :
    owns f h' held' = owns f h held := by
  funext j
  unfold owns
  rw [h1, h2]

/-! ### The loops over the read action lists -/

/-- All but the read action lists of frame `i` and their pool. -/
structure OnlyRal (i : Nat) (h h' : Hw) : Prop where
  vcam : h'.vcam = h.vcam
  vlan : h'.vlan = h.vlan
  rtp : h'.rtp = h.rtp
  wal : h'.wal = h.wal
  sram : h'.sram = h.sram
  frame : ∀ j, j ≠ i → h'.frame j = h.frame j
  rest : ∃ r, h'.frame i = { h.frame i with ral := r }

theorem startLoop_spec (i : Nat) (ok : Nat × Nat → Bool) (held : HeldMap) (hi : (held i).isSome) (E : Prop) :
    ∀ (qs : List (Nat × Nat)) (h : Hw), qs.Nodup → (∀ q ∈ qs, (h.frame i).ral q = invalid) → PoolInv h.ral (ralOwns h held) E →
      OnlyRal i h (startLoop i ok qs h).1 ∧ PoolInv (startLoop i ok qs h).1.ral (ralOwns (startLoop i ok qs h).1 held) E ∧
      (∀ q, q ∉ qs → ((startLoop i ok qs h).1.frame i).ral q = (h.frame i).ral q) ∧
      ((∀ q ∈ qs, busy (h.frame i) q = true → ok q = true) → (startLoop i ok qs h).2 = true) := by
  intro qs
  induction qs with
  | nil =>
    intro h _ _ hp
    exact ⟨⟨rfl, rfl, rfl, rfl, rfl, fun _ _ => rfl, _, rfl⟩, hp, fun _ _ => rfl, fun _ => rfl⟩
  | cons q qs ih =>
    intro h hn hq hp
    obtain ⟨hn1, hn2⟩ := List.nodup_cons.mp hn
    unfold startLoop
    by_cases c : busy (h.frame i) q = true
    · rw [if_pos c]
      simp only
      have hk : ralOwns h held (i, q) = none := by
        unfold ralOwns
        rw [if_pos hi, hq q List.mem_cons_self, valid_invalid]
      have ha := alloc_inv hp hk
      generalize h.ral.alloc = r at *
      obtain ⟨id, pr⟩ := r
      simp only at ha ⊢
      have hown : ralOwns (({ h with ral := pr } : Hw).setFrame i { h.frame i with ral := fun x => if x = q then id else (h.frame i).ral x }) held
          = upd (ralOwns h held) (i, q) (valid id) := by
        funext ⟨j, q'⟩
        unfold ralOwns upd Hw.setFrame
        by_cases cj : j = i
        · subst cj
          by_cases cq : q' = q
          · simp [cq, hi]
          · simp [cq]
        · simp [cj]
      generalize hh : (({ h with ral := pr } : Hw).setFrame i { h.frame i with ral := fun x => if x = q then id else (h.frame i).ral x }) = h1 at *
      have hf1 : h1.frame i = { h.frame i with ral := fun x => if x = q then id else (h.frame i).ral x } := by
        rw [← hh]; unfold Hw.setFrame; simp
      have hf2 : ∀ j, j ≠ i → h1.frame j = h.frame j := fun j hj => by rw [← hh]; unfold Hw.setFrame; simp [hj]
      have hr : h1.ral = pr := by rw [← hh]; rfl
      have o1 : OnlyRal i h h1 := by
        refine ⟨?_, ?_, ?_, ?_, ?_, hf2, _, hf1⟩ <;> (rw [← hh]; rfl)
      rw [← hown, ← hr] at ha
      split
      · rename_i cok
        obtain ⟨o2, p2, k2, d2⟩ := ih h1 hn2 (fun x hx => by
            rw [hf1]
            simp only
            rw [if_neg (by rintro rfl; exact hn1 hx)]
            exact hq x (List.mem_cons_of_mem _ hx)) ha
        refine ⟨⟨o2.vcam.trans o1.vcam, o2.vlan.trans o1.vlan, o2.rtp.trans o1.rtp, o2.wal.trans o1.wal, o2.sram.trans o1.sram,
          fun j hj => (o2.frame j hj).trans (hf2 j hj), ?_⟩, p2, fun x hx => ?_, fun hall => d2 fun x hx hb => ?_⟩
        · obtain ⟨r, hr⟩ := o2.rest
          exact ⟨r, by rw [hr, hf1]⟩
        · rw [k2 x (fun h => hx (List.mem_cons_of_mem _ h)), hf1]
          simp only
          rw [if_neg (by rintro rfl; exact hx List.mem_cons_self)]
        · refine hall x (List.mem_cons_of_mem _ hx) ?_
          rw [hf1] at hb
          exact hb
      · rename_i cok
        refine ⟨o1, ha, fun x hx => ?_, fun hall => absurd (hall q List.mem_cons_self c) cok⟩
        rw [hf1]
        simp only
        rw [if_neg (by rintro rfl; exact hx List.mem_cons_self)]
    · rw [if_neg c]
      obtain ⟨o2, p2, k2, d2⟩ := ih h hn2 (fun x hx => hq x (List.mem_cons_of_mem _ hx)) hp
      exact ⟨o2, p2, fun x hx => k2 x (fun h => hx (List.mem_cons_of_mem _ h)), fun hall => d2 fun x hx => hall x (List.mem_cons_of_mem _ hx)⟩

theorem stopLoop_spec (i : Nat) (f : Frame) (E : Prop) : ∀ (qs : List (Nat × Nat)) (p : Pool) (own : Nat × (Nat × Nat) → Option U16), qs.Nodup →
    (∀ q ∈ qs, own (i, q) = valid (f.ral q)) → PoolInv p own E →
    ∃ p', stopLoop f qs p = some p' ∧ PoolInv p' (fun x => if x.1 = i ∧ x.2 ∈ qs then none else own x) E := by
  intro qs
  induction qs with
  | nil => intro p own _ _ hp; exact ⟨p, rfl, by simpa using hp⟩
  | cons q qs ih =>
    intro p own hn ho hp
    obtain ⟨hn1, hn2⟩ := List.nodup_cons.mp hn
    obtain ⟨p1, e1, h1⟩ := free_inv hp (ho q List.mem_cons_self)
    obtain ⟨p2, e2, h2⟩ := ih p1 (upd own (i, q) none) hn2 (fun x hx => by
      unfold upd
      rw [if_neg (by rintro e; cases e; exact hn1 hx)]
      exact ho x (List.mem_cons_of_mem _ hx)) h1
    refine ⟨p2, by unfold stopLoop; rw [e1, Option.bind_some, e2], ?_⟩
    have : (fun x : Nat × (Nat × Nat) => if x.1 = i ∧ x.2 ∈ q :: qs then none else own x) =
        (fun x => if x.1 = i ∧ x.2 ∈ qs then none else upd own (i, q) none x) := by
      funext ⟨j, x⟩
      unfold upd
      by_cases cj : j = i
      · subst cj
        by_cases cx : x = q
        · simp [cx]
        · simp [cx]
      · simp [cj]
    rw [this]
    exact h2

end Verif.Lan
