import Verif.Scheduler.Lemmas
/-! Effect of each scheduler call on the represented lists. -/
set_option linter.unusedSimpArgs false
set_option linter.unusedVariables false
namespace Verif.Scheduler

/-- The state represents a busy list and a free list which together contain every slot once.
`E` (ghost) is the absolute expiry time of each busy slot. -/
structure Rep (N : Nat) (s : Sched) (busy free : List Nat) (E : Nat → Nat) : Prop where
  cb : Chain N s.slots s.first busy
  cf : Chain N s.slots s.free free
  perm : (busy ++ free).Perm (List.range N)
  ub : ∀ i ∈ busy, (s.slots i).inUse = true
  uf : ∀ i ∈ free, (s.slots i).inUse = false
  wh : ∀ i ∈ busy, (s.slots i).when = BitVec.ofNat 32 (E i)

theorem Rep.disj {N s busy free E} (h : Rep N s busy free E) : ∀ i ∈ busy, i ∉ free := by
  have : (busy ++ free).Nodup := h.perm.nodup_iff.2 List.nodup_range
  intro i hi hf
  exact (List.nodup_append.1 this).2.2 i hi i hf rfl

theorem Rep.mem {N s busy free E} (h : Rep N s busy free E) {i : Nat} (hi : i < N) :
    i ∈ busy ∨ i ∈ free := by
  have := h.perm.mem_iff (a := i)
  simp only [List.mem_append, List.mem_range] at this
  exact this.2 hi

theorem Rep.length {N s busy free E} (h : Rep N s busy free E) :
    busy.length + free.length = N := by
  have := h.perm.length_eq; simpa using this

/-- Initialisation. -/
theorem initLoop_spec (N : Nat) : ∀ (k : Nat) (sl : Nat → Slot) (q : Nat) (L : List Nat), k ≤ N →
    Chain N sl q L → (∀ i ∈ L, k ≤ i) → (∀ i, (sl i).inUse = false) →
    ∃ sl' q', initLoop N k sl q = some (sl', q') ∧ Chain N sl' q' (List.range k ++ L) ∧
      (∀ i, (sl' i).inUse = false) := by
  intro k
  induction k with
  | zero => intro sl q L _ hc _ hu; exact ⟨sl, q, rfl, by simpa using hc, hu⟩
  | succ k ih =>
    intro sl q L hk hc hL hu
    have hkN : k < N := by omega
    let sl1 : Nat → Slot := fun j => if j = k then { sl j with name := 0, inUse := false } else sl j
    have hc1 : Chain N sl1 q L := hc.congr (fun i hi => by
      have := hL i hi
      have : i ≠ k := by omega
      simp [sl1, this])
    have hkL : k ∉ L := fun h => by have := hL k h; omega
    obtain ⟨sl2, e2, hc2, hd2, _⟩ := linkBefore_front hc1 hkN hkL
    have hu2 : ∀ i, (sl2 i).inUse = false := by
      intro i; rw [(hd2 i).1]; by_cases h : i = k <;> simp [sl1, h, hu]
    obtain ⟨sl3, q3, e3, hc3, hu3⟩ := ih sl2 k (k :: L) (by omega) hc2
      (by intro i hi; rcases List.mem_cons.1 hi with rfl | hi
          · exact Nat.le_refl _
          · have := hL i hi; omega) hu2
    refine ⟨sl3, q3, ?_, by simpa [List.range_succ] using hc3, hu3⟩
    simp only [initLoop, initStep, wr, hkN, if_true, bind, Option.bind]
    simp only [sl1] at e2
    rw [e2]
    exact e3

theorem init_spec (N : Nat) : ∃ s, init N = some s ∧ Rep N s [] (List.range N) (fun _ => 0) := by
  obtain ⟨sl, q, e, hc, hu⟩ := initLoop_spec N N (fun _ => ⟨false, 0, 0, 0, 0, 0⟩) N []
    (Nat.le_refl _) ⟨⟨N, rfl, rfl⟩, by simp, by simp⟩ (by simp) (by simp)
  refine ⟨⟨sl, N, q⟩, by simp only [init, e, bind, Option.bind], ?_⟩
  exact ⟨⟨⟨N, rfl, rfl⟩, by simp, by simp⟩, by simpa using hc, by simp, by simp,
    fun i _ => hu i, by simp⟩

/-- "later than": the comparison the insertion search uses. -/
def laterThan (sl : Nat → Slot) (w : BitVec 32) (i : Nat) : Bool := decide (sdiff w (sl i).when > 0)

theorem add_full {N tk s busy E now d n c} (h : Rep N s busy [] E) :
    add N tk s now d n c = some (s, none) := by
  have hf : s.free = N := h.cf.head_nil
  cases s
  simp only at hf
  subst hf
  simp [add, unlink_null]

theorem takeWhile_congr' {p r : Nat → Bool} : ∀ {L : List Nat}, (∀ i ∈ L, p i = r i) →
    L.takeWhile p = L.takeWhile r ∧ L.dropWhile p = L.dropWhile r := by
  intro L
  induction L with
  | nil => intro _; simp
  | cons a L ih =>
    intro h
    have ha := h a (by simp)
    have := ih (fun i hi => h i (by simp [hi]))
    simp [List.takeWhile_cons, List.dropWhile_cons, ha, this.1, this.2]

theorem add_room {N tk s busy ix F E now d n c} (h : Rep N s busy (ix :: F) E) (e : Nat)
    (he : now + sanitizeDelay d tk = BitVec.ofNat 32 e) :
    ∃ s', add N tk s now d n c = some (s', some (ix + 1)) ∧
      Rep N s' (busy.takeWhile (laterThan s.slots (BitVec.ofNat 32 e)) ++ ix ::
          busy.dropWhile (laterThan s.slots (BitVec.ofNat 32 e))) F
        (fun i => if i = ix then e else E i) ∧
      (∀ i ∈ busy, (s'.slots i).name = (s.slots i).name ∧ (s'.slots i).cb = (s.slots i).cb) ∧
      (s'.slots ix).name = n ∧ (s'.slots ix).cb = c := by
  have hfree : s.free = ix := h.cf.head_cons
  have hixN : ix < N := h.cf.lt ix (by simp)
  obtain ⟨sl1, q1, e1, hc1, hd1, ho1⟩ := unlink_spec (A := []) (B := F) (ix := ix)
    (by simpa using h.cf)
  simp only [List.nil_append] at hc1 ho1
  have hixb : ix ∉ busy := fun hh => h.disj ix hh (by simp)
  have hixF : ix ∉ F := (List.nodup_cons.1 h.cf.nd).1
  have hFb : ∀ i ∈ busy, i ∉ F := fun i hi hf => h.disj i hi (by simp [hf])
  -- chains after unlinking
  have hcb1 : Chain N sl1 s.first busy := h.cb.congr (fun i hi => by
    rw [ho1 i (hFb i hi)]; simp)
  let w := now + sanitizeDelay d tk
  let sl2 : Nat → Slot := fun j => if j = ix then
    { sl1 j with inUse := true, name := n, cb := c, when := w } else sl1 j
  have hw2 : wr N sl1 ix (fun e => { e with inUse := true, name := n, cb := c, when := w }) =
    some sl2 := by simp [wr, hixN, sl2]
  have hl2 : ∀ i, (sl2 i).prev = (sl1 i).prev ∧ (sl2 i).next = (sl1 i).next := by
    intro i; by_cases hi : i = ix <;> simp [sl2, hi]
  have hcb2 : Chain N sl2 s.first busy := hcb1.congr (fun i _ => hl2 i)
  have hcF2 : Chain N sl2 q1 F := hc1.congr (fun i _ => hl2 i)
  have hsl2ix : (sl2 ix).when = w ∧ (sl2 ix).name = n ∧ (sl2 ix).cb = c ∧ (sl2 ix).inUse = true := by
    simp [sl2]
  have hsl2 : ∀ i, i ≠ ix → SameData (sl2 i) (s.slots i) := by
    intro i hi; simp only [sl2, if_neg hi]; exact hd1 i
  have hlt : ∀ i ∈ busy, laterThan sl2 w i = laterThan s.slots (BitVec.ofNat 32 e) i := by
    intro i hi
    have : i ≠ ix := fun hh => hixb (hh ▸ hi)
    simp only [laterThan, (hsl2 i this).2.2.2, w, he]
  have htw := takeWhile_congr' hlt
  -- it is enough to link `ix` at the right place
  suffices hmain : ∃ sl3 q3, add N tk s now d n c = some (⟨sl3, q3, q1⟩, some (ix + 1)) ∧
      Chain N sl3 q3 (busy.takeWhile (laterThan sl2 w) ++ ix :: busy.dropWhile (laterThan sl2 w)) ∧
      (∀ i, SameData (sl3 i) (sl2 i)) ∧
      (∀ i, i ∉ busy → i ≠ ix → sl3 i = sl2 i) by
    obtain ⟨sl3, q3, e3, hc3, hd3, ho3⟩ := hmain
    rw [htw.1, htw.2] at hc3
    refine ⟨_, e3, ⟨hc3, ?_, ?_, ?_, ?_, ?_⟩, ?_, ?_, ?_⟩
    · refine hcF2.congr (fun i hi => ?_)
      have h1 : i ∉ busy := fun hb => hFb i hb hi
      have h2 : i ≠ ix := fun hh => hixF (hh ▸ hi)
      show (sl3 i).prev = _ ∧ (sl3 i).next = _
      rw [ho3 i h1 h2]; simp
    · refine List.Perm.trans ?_ h.perm
      have hp : (busy.takeWhile (laterThan s.slots (BitVec.ofNat 32 e)) ++ ix ::
          busy.dropWhile (laterThan s.slots (BitVec.ofNat 32 e))).Perm (ix :: busy) := by
        refine List.perm_middle.trans ?_
        rw [List.takeWhile_append_dropWhile]
      exact (hp.append_right F).trans List.perm_middle.symm
    · intro i hi
      show (sl3 i).inUse = true
      rw [(hd3 i).1]
      by_cases hix' : i = ix
      · subst hix'; exact hsl2ix.2.2.2
      · rw [(hsl2 i hix').1]
        apply h.ub
        simp only [List.mem_append, List.mem_cons] at hi
        rcases hi with hi | hi | hi
        · exact (List.takeWhile_sublist _).subset hi
        · exact absurd hi hix'
        · exact (List.dropWhile_sublist _).subset hi
    · intro i hi
      show (sl3 i).inUse = false
      have h2 : i ≠ ix := fun hh => hixF (hh ▸ hi)
      rw [(hd3 i).1, (hsl2 i h2).1]
      exact h.uf i (by simp [hi])
    · intro i hi
      show (sl3 i).when = _
      rw [(hd3 i).2.2.2]
      by_cases hix' : i = ix
      · subst hix'; simp [hsl2ix.1, w, he]
      · rw [(hsl2 i hix').2.2.2]
        simp only [hix', if_false]
        apply h.wh
        simp only [List.mem_append, List.mem_cons] at hi
        rcases hi with hi | hi | hi
        · exact (List.takeWhile_sublist _).subset hi
        · exact absurd hi hix'
        · exact (List.dropWhile_sublist _).subset hi
    · intro i hi
      have hix' : i ≠ ix := fun hh => hixb (hh ▸ hi)
      show (sl3 i).name = _ ∧ (sl3 i).cb = _
      rw [(hd3 i).2.1, (hd3 i).2.2.1, (hsl2 i hix').2.1, (hsl2 i hix').2.2.1]
      simp
    · show (sl3 ix).name = _
      rw [(hd3 ix).2.1]; exact hsl2ix.2.1
    · show (sl3 ix).cb = _
      rw [(hd3 ix).2.2.1]; exact hsl2ix.2.2.1
  -- the three insertion cases
  have hpre : unlink N s.slots ix ix = some (sl1, q1) := by rw [← hfree]; rw [hfree]; rw [hfree] at e1; exact e1
  cases busy with
  | nil =>
    have hfirst : s.first = N := h.cb.head_nil
    obtain ⟨sl3, e3, hc3, hd3, ho3⟩ := linkBefore_null hcb2 hixN (by simp)
    refine ⟨sl3, ix, ?_, by simpa using hc3, hd3, fun i _ hi => ho3 i (by simpa using hi)⟩
    have hw2' := hw2
    simp only [w] at hw2'
    rw [hfirst] at e3
    simp [add, hfree, hpre, Nat.not_le.2 hixN, hw2', hfirst, e3]
  | cons b B =>
    have hfirst : s.first = b := h.cb.head_cons
    have hbN : b < N := h.cb.lt b (by simp)
    have hbix : b ≠ ix := fun hh => hixb (by simp [hh])
    have hw2' := hw2
    simp only [w] at hw2'
    have hwhen : (sl2 ix).when = now + sanitizeDelay d tk := hsl2ix.1
    by_cases hle : sdiff (sl2 ix).when (sl2 b).when ≤ 0
    · obtain ⟨sl3, e3, hc3, hd3, ho3⟩ := linkBefore_front hcb2 hixN (by simpa using hixb)
      refine ⟨sl3, ix, ?_, ?_, hd3, fun i hib hi => ho3 i (by
        simp only [List.mem_cons, not_or] at hib ⊢; exact ⟨hi, hib.1, hib.2⟩)⟩
      · rw [hfirst] at e3
        simp [add, hfree, hpre, Nat.not_le.2 hixN, hw2', hfirst, Nat.not_le.2 hbN, rd, hixN, hbN, hle, e3]
      · have hn : laterThan sl2 w b = false := by
          simp only [laterThan, decide_eq_false_iff_not]
          rw [hwhen] at hle
          simp only [w]; omega
        simpa [List.takeWhile_cons, List.dropWhile_cons, hn] using hc3
    · have hpos : laterThan sl2 w b = true := by
        simp only [laterThan, decide_eq_true_eq]
        rw [hwhen] at hle
        simp only [w]; omega
      obtain ⟨p', hs⟩ := hcb2.seg
      have hsB := hs.2.2
      have hfp := findPos_spec (w := (sl2 ix).when) B (fuel := N) hsB
        (fun i hi => h.cb.lt i (by simp [hi]))
        (by have := nodup_length_le h.cb.nd h.cb.lt; simp at this; omega)
      -- the position found is the last element of the prefix
      have hT : ((b :: B).takeWhile (laterThan sl2 w)) ≠ [] := by
        simp [List.takeWhile_cons, hpos]
      let T := (b :: B).takeWhile (laterThan sl2 w)
      let D := (b :: B).dropWhile (laterThan sl2 w)
      have hTD : T ++ D = b :: B := List.takeWhile_append_dropWhile
      let pos := (B.takeWhile (fun i => decide (sdiff (sl2 ix).when (sl2 i).when > 0))).getLast?.getD b
      have hposT : T = T.dropLast ++ [pos] := by
        have h1 := (List.dropLast_append_getLast hT).symm
        have h2 : T.getLast hT = pos := by
          have h3 : T = b :: B.takeWhile (laterThan sl2 w) := by
            simp [T, List.takeWhile_cons, hpos]
          have h4 : (fun i => decide (sdiff (sl2 ix).when (sl2 i).when > 0)) = laterThan sl2 w := by
            funext i; simp only [laterThan]; rw [hwhen]
          have h5 : T.getLast? = some pos := by
            rw [h3, List.getLast?_cons]; simp only [pos, h4]
          rw [List.getLast?_eq_getLast_of_ne_nil hT] at h5
          exact Option.some.inj h5
        rw [h2] at h1; exact h1
      have hchain : Chain N sl2 s.first (T.dropLast ++ pos :: D) := by
        have : T.dropLast ++ pos :: D = b :: B := by
          rw [← hTD]; conv_rhs => rw [hposT]
          simp
        rw [this]; exact hcb2
      have hmem : ∀ i, i ∈ T.dropLast ++ pos :: D ↔ i ∈ b :: B := by
        intro i
        have : T.dropLast ++ pos :: D = b :: B := by
          rw [← hTD]; conv_rhs => rw [hposT]
          simp
        rw [this]
      obtain ⟨sl3, e3, hc3, hd3, ho3⟩ := linkAfter_spec hchain hixN
        (fun hh => hixb ((hmem ix).1 hh))
      refine ⟨sl3, s.first, ?_, ?_, hd3, fun i hib hi => ho3 i (fun hh => ?_)⟩
      · rw [hfirst] at e3
        have hrd : (sl2 b).next = (sl2 b).next := rfl
        simp only [pos] at e3
        simp [add, hfree, hpre, Nat.not_le.2 hixN, hw2', hfirst, Nat.not_le.2 hbN, rd, hixN, hbN, hle, hfp, e3]
      · have : T.dropLast ++ pos :: ix :: D = T ++ ix :: D := by
          conv_rhs => rw [hposT]
          simp
        rw [this] at hc3
        exact hc3
      · have : i ∈ T.dropLast ++ pos :: D := by
          simp only [List.mem_append, List.mem_cons] at hh ⊢
          rcases hh with hh | hh | hh | hh
          · exact .inl hh
          · exact .inr (.inl hh)
          · exact absurd hh hi
          · exact .inr (.inr hh)
        exact hib ((hmem i).1 this)

/-- Moving a busy slot to the free list. -/
theorem move_spec {N s A ix B free E} (h : Rep N s (A ++ ix :: B) free E) :
    ∃ sl1 q1 sl2 q2, unlink N s.slots s.first ix = some (sl1, q1) ∧
      (sl1 ix).cb = (s.slots ix).cb ∧
      linkBefore N (fun j => if j = ix then { sl1 j with inUse := false } else sl1 j) s.free ix s.free
        = some (sl2, q2) ∧
      Rep N ⟨sl2, q1, q2⟩ (A ++ B) (ix :: free) E ∧
      (∀ i, (sl2 i).name = (s.slots i).name ∧ (sl2 i).cb = (s.slots i).cb) := by
  obtain ⟨sl1, q1, e1, hc1, hd1, ho1⟩ := unlink_spec h.cb
  have hixN : ix < N := h.cb.lt ix (by simp)
  have hixf : ix ∉ free := h.disj ix (by simp)
  have hnd := h.cb.nd
  have hixAB : ix ∉ A ++ B := by
    have := (List.perm_middle.nodup_iff).1 hnd
    exact (List.nodup_cons.1 this).1
  let slm : Nat → Slot := fun j => if j = ix then { sl1 j with inUse := false } else sl1 j
  have hlm : ∀ i, (slm i).prev = (sl1 i).prev ∧ (slm i).next = (sl1 i).next := by
    intro i; by_cases hi : i = ix <;> simp [slm, hi]
  have hcf1 : Chain N slm s.free free := h.cf.congr (fun i hi => by
    have h1 : i ∉ A ++ B := fun hh => h.disj i (by
      simp only [List.mem_append, List.mem_cons] at hh ⊢
      rcases hh with hh | hh <;> simp [hh]) hi
    rw [(hlm i).1, (hlm i).2, ho1 i h1]; simp)
  have hcb1 : Chain N slm q1 (A ++ B) := hc1.congr (fun i _ => hlm i)
  obtain ⟨sl2, e2, hc2, hd2, ho2⟩ := linkBefore_front hcf1 hixN hixf
  have hmemb : ∀ i ∈ A ++ B, i ∈ A ++ ix :: B := by
    intro i hh
    simp only [List.mem_append, List.mem_cons] at hh ⊢
    rcases hh with hh | hh <;> simp [hh]
  have hdata : ∀ i, i ≠ ix → SameData (sl2 i) (s.slots i) := by
    intro i hi
    have h1 := hd2 i
    have h2 := hd1 i
    simp only [slm, if_neg hi] at h1
    exact ⟨h1.1.trans h2.1, h1.2.1.trans h2.2.1, h1.2.2.1.trans h2.2.2.1, h1.2.2.2.trans h2.2.2.2⟩
  refine ⟨sl1, q1, sl2, ix, e1, (hd1 ix).2.2.1, e2, ⟨?_, hc2, ?_, ?_, ?_, ?_⟩, ?_⟩
  · refine hcb1.congr (fun i hi => ?_)
    have : i ∉ ix :: free := by
      intro hh
      rcases List.mem_cons.1 hh with rfl | hh
      · exact hixAB hi
      · exact h.disj i (hmemb i hi) hh
    show (sl2 i).prev = _ ∧ (sl2 i).next = _
    rw [ho2 i this]; simp
  · refine List.Perm.trans ?_ h.perm
    have : (A ++ ix :: B).Perm (ix :: (A ++ B)) := List.perm_middle
    exact List.perm_middle.trans (this.symm.append_right free)
  · intro i hi
    have : i ≠ ix := fun hh => hixAB (hh ▸ hi)
    show (sl2 i).inUse = true
    rw [(hdata i this).1]
    exact h.ub i (hmemb i hi)
  · intro i hi
    show (sl2 i).inUse = false
    by_cases hix' : i = ix
    · rw [(hd2 i).1]; simp [slm, hix']
    · rw [(hdata i hix').1]
      exact h.uf i (by rcases List.mem_cons.1 hi with rfl | hi
                       · exact absurd rfl hix'
                       · exact hi)
  · intro i hi
    have : i ≠ ix := fun hh => hixAB (hh ▸ hi)
    show (sl2 i).when = _
    rw [(hdata i this).2.2.2]
    exact h.wh i (hmemb i hi)
  · intro i
    by_cases hix' : i = ix
    · subst hix'
      rw [(hd2 i).2.1, (hd2 i).2.2.1]
      simp only [slm, if_true]
      exact ⟨(hd1 i).2.1, (hd1 i).2.2.1⟩
    · exact ⟨(hdata i hix').2.1, (hdata i hix').2.2.1⟩

theorem remove_miss {N s busy free E hd n} (h : Rep N s busy free E)
    (hm : ∀ i ∈ busy, ¬ (i + 1 = hd ∧ (s.slots i).name = n)) :
    remove N s hd n = some (s, false) := by
  unfold remove
  split
  · rfl
  · rename_i hh
    have h1 : hd - 1 < N := by omega
    simp only [rd, h1, if_true, bind, Option.bind]
    split
    · rfl
    · rename_i hn
      split
      · rfl
      · rename_i hu
        rcases h.mem h1 with hb | hf
        · exact absurd ⟨by omega, by simpa using hn⟩ (hm _ hb)
        · exact absurd (h.uf _ hf) hu

theorem remove_hit {N s A ix B free E n} (h : Rep N s (A ++ ix :: B) free E)
    (hn : (s.slots ix).name = n) :
    ∃ s', remove N s (ix + 1) n = some (s', true) ∧ Rep N s' (A ++ B) (ix :: free) E ∧
      (∀ i, (s'.slots i).name = (s.slots i).name ∧ (s'.slots i).cb = (s.slots i).cb) := by
  obtain ⟨sl1, q1, sl2, q2, e1, _, e2, hr, hd⟩ := move_spec h
  have hixN : ix < N := h.cb.lt ix (by simp)
  have hu : (s.slots ix).inUse = true := h.ub ix (by simp)
  refine ⟨_, ?_, hr, hd⟩
  have h1 : ¬ (ix + 1 = 0 ∨ ix + 1 > N) := by omega
  simp [remove, h1, rd, hixN, hn, hu, e1, wr, e2]
  omega

/-- "due": the comparison the tick uses. -/
def due (sl : Nat → Slot) (now : BitVec 32) (i : Nat) : Bool := decide (sdiff now (sl i).when ≥ 0)

theorem fireOne_none {N s busy free E now} (h : Rep N s busy free E)
    (hm : ∀ b B, busy = b :: B → due s.slots now b = false) :
    fireOne N s now = some (s, none) := by
  unfold fireOne
  split
  · rename_i hlt
    cases busy with
    | nil => have := h.cb.head_nil; omega
    | cons b B =>
      have hb : s.first = b := h.cb.head_cons
      have := hm b B rfl
      simp only [due, decide_eq_false_iff_not] at this
      rw [hb] at hlt
      simp [rd, hlt, hb, this]
  · rfl

theorem fireOne_some {N s b B free E now} (h : Rep N s (b :: B) free E)
    (hd : due s.slots now b = true) :
    ∃ s', fireOne N s now = some (s', some (b + 1, (s.slots b).cb)) ∧ Rep N s' B (b :: free) E ∧
      (∀ i, (s'.slots i).name = (s.slots i).name ∧ (s'.slots i).cb = (s.slots i).cb) := by
  obtain ⟨sl1, q1, sl2, q2, e1, hcb, e2, hr, hdd⟩ := move_spec (A := []) h
  have hbN : b < N := h.cb.lt b (by simp)
  have hf : s.first = b := h.cb.head_cons
  refine ⟨_, ?_, by simpa using hr, hdd⟩
  simp only [due, decide_eq_true_eq] at hd
  rw [hf] at e1
  simp [fireOne, hf, hbN, rd, hd, e1, wr, e2, hcb]

theorem due_congr {s s' : Sched} {L : List Nat} {E : Nat → Nat} {now}
    (h1 : ∀ i ∈ L, (s.slots i).when = BitVec.ofNat 32 (E i))
    (h2 : ∀ i ∈ L, (s'.slots i).when = BitVec.ofNat 32 (E i)) :
    ∀ i ∈ L, due s'.slots now i = due s.slots now i := by
  intro i hi; simp [due, h1 i hi, h2 i hi]

theorem tickLoop_spec {N now E} (busy : List Nat) : ∀ {s free fuel}, Rep N s busy free E →
    busy.length ≤ fuel →
    ∃ s' free', tickLoop N now fuel s =
        some (s', (busy.takeWhile (due s.slots now)).map (fun i => (i + 1, (s.slots i).cb))) ∧
      Rep N s' (busy.dropWhile (due s.slots now)) free' E ∧
      (∀ i, (s'.slots i).name = (s.slots i).name ∧ (s'.slots i).cb = (s.slots i).cb) := by
  induction busy with
  | nil =>
    intro s free fuel h _
    refine ⟨s, free, ?_, by simpa using h, by simp⟩
    unfold tickLoop
    simp [fireOne_none h (by simp)]
  | cons b B ih =>
    intro s free fuel h hf
    cases hd : due s.slots now b with
    | false =>
      refine ⟨s, free, ?_, by simpa [List.dropWhile_cons, hd] using h, by simp⟩
      unfold tickLoop
      rw [fireOne_none h (by intro b' B' e; cases e; exact hd)]
      simp [List.takeWhile_cons, hd]
    | true =>
      cases fuel with
      | zero => simp at hf
      | succ fuel =>
        obtain ⟨s1, e1, hr1, hn1⟩ := fireOne_some h hd
        obtain ⟨s2, free2, e2, hr2, hn2⟩ := ih hr1 (by simpa using hf)
        have hdue : ∀ i ∈ B, due s1.slots now i = due s.slots now i :=
          due_congr (fun i hi => h.wh i (by simp [hi])) hr1.wh
        have htw := takeWhile_congr' hdue
        refine ⟨s2, free2, ?_, ?_, fun i => ⟨(hn2 i).1.trans (hn1 i).1, (hn2 i).2.trans (hn1 i).2⟩⟩
        · unfold tickLoop
          rw [e1]
          simp only [bind, Option.bind]
          rw [e2]
          simp only [List.takeWhile_cons, hd, if_true, List.map_cons]
          rw [htw.1]
          simp [hn1]
        · simp only [List.dropWhile_cons, hd, if_true]
          rw [← htw.2]; exact hr2

theorem tick_spec {N s busy free E now} (h : Rep N s busy free E) :
    ∃ s' free', tick N s now =
        some (s', (busy.takeWhile (due s.slots now)).map (fun i => (i + 1, (s.slots i).cb))) ∧
      Rep N s' (busy.dropWhile (due s.slots now)) free' E ∧
      (∀ i, (s'.slots i).name = (s.slots i).name ∧ (s'.slots i).cb = (s.slots i).cb) :=
  tickLoop_spec busy h (by have := h.length; omega)

/-- The signed comparison of wrapped times is exact inside half the clock range. -/
theorem sdiff_abs {a b : Nat} (h1 : a < b + 2147483648) (h2 : b ≤ a + 2147483648) :
    sdiff (BitVec.ofNat 32 a) (BitVec.ofNat 32 b) = (a : Int) - b := by
  unfold sdiff
  rw [BitVec.toInt_sub, BitVec.toInt_ofNat', BitVec.toInt_ofNat']
  simp only [Int.bmod_sub_bmod, Int.sub_bmod_bmod]
  rw [Int.bmod_eq_of_le] <;> omega

end Verif.Scheduler
