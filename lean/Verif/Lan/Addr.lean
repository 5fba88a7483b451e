import Verif.Lan.Leak

/-! C134: every object has an entry and an SRAM area of its own. -/
set_option linter.unusedSimpArgs false
set_option linter.unusedVariables false

namespace Verif.Lan

/-! ## Entries -/

theorem placeAll_keep {lim : Lim} : ∀ (ds : List Io) (t t' : Nat × Nat → Option Io), placeAll lim ds t = some t' → ∀ q,
    (∀ d ∈ ds, d.dataLength ≠ 0 → rteObject lim d.slot d.subslot ≠ some q) → t' q = t q := by
  intro ds
  induction ds with
  | nil => intro t t' e q _; cases e; rfl
  | cons d ds ih =>
    intro t t' e q h
    unfold placeAll at e
    split at e
    · rename_i hl
      cases hr : rteObject lim d.slot d.subslot with
      | none => rw [hr] at e; cases e
      | some q0 =>
        rw [hr, Option.bind_some] at e
        rw [ih _ _ e q fun d hd => h d (List.mem_cons_of_mem _ hd)]
        refine if_neg fun c => ?_
        subst c
        exact h d List.mem_cons_self hl hr
    · exact ih _ _ e q fun d hd => h d (List.mem_cons_of_mem _ hd)

theorem placeAll_from {lim : Lim} : ∀ (ds : List Io) (t t' : Nat × Nat → Option Io), placeAll lim ds t = some t' → ∀ q d,
    t' q = some d → (d ∈ ds ∧ d.dataLength ≠ 0 ∧ rteObject lim d.slot d.subslot = some q) ∨ t q = some d := by
  intro ds
  induction ds with
  | nil => intro t t' e q d h; cases e; exact Or.inr h
  | cons d0 ds ih =>
    intro t t' e q d h
    unfold placeAll at e
    split at e
    · rename_i hl
      cases hr : rteObject lim d0.slot d0.subslot with
      | none => rw [hr] at e; cases e
      | some q0 =>
        rw [hr, Option.bind_some] at e
        rcases ih _ _ e q d h with ⟨a, b, c⟩ | h'
        · exact Or.inl ⟨List.mem_cons_of_mem _ a, b, c⟩
        · split at h'
          · rename_i c
            have := Option.some.inj h'
            subst this; subst c
            exact Or.inl ⟨List.mem_cons_self, hl, hr⟩
          · exact Or.inr h'
    · rcases ih _ _ e q d h with ⟨a, b, c⟩ | h'
      · exact Or.inl ⟨List.mem_cons_of_mem _ a, b, c⟩
      · exact Or.inr h'

theorem placeAll_own {lim : Lim} : ∀ (ds : List Io) (t t' : Nat × Nat → Option Io), (∀ d ∈ ds, Fits lim d) →
    (ds.Pairwise fun a b => (a.slot, a.subslot) ≠ (b.slot, b.subslot)) → placeAll lim ds t = some t' → ∀ d ∈ ds, d.dataLength ≠ 0 →
    t' (d.slot.toNat, d.subslot.toNat - 1) = some d := by
  intro ds
  induction ds with
  | nil => intro t t' _ _ _ d hd; exact absurd hd List.not_mem_nil
  | cons d0 ds ih =>
    intro t t' hf hp e d hd hl
    rw [List.pairwise_cons] at hp
    have place : ∀ x, Fits lim x → x.dataLength ≠ 0 → rteObject lim x.slot x.subslot = some (x.slot.toNat, x.subslot.toNat - 1) := by
      intro x hx hxl
      rcases hx with h | h
      · exact absurd h hxl
      · exact rteObject_fits h
    rcases List.mem_cons.mp hd with rfl | hd'
    · unfold placeAll at e
      rw [if_pos hl, place d (hf d List.mem_cons_self) hl, Option.bind_some] at e
      rw [placeAll_keep ds _ _ e _ fun x hx hxl => ?_]
      · exact if_pos rfl
      · rw [place x (hf x (List.mem_cons_of_mem _ hx)) hxl]
        intro c
        have c := Prod.mk.injEq .. ▸ Option.some.inj c
        refine hp.1 x hx ?_
        have s1 : 1 ≤ d.subslot.toNat := by rcases hf d List.mem_cons_self with h | h; exact absurd h hl; exact h.2.1
        have s2 : 1 ≤ x.subslot.toNat := by rcases hf x (List.mem_cons_of_mem _ hx) with h | h; exact absurd h hxl; exact h.2.1
        have a1 : d.slot = x.slot := BitVec.eq_of_toNat_eq c.1.symm
        have a2 : d.subslot = x.subslot := BitVec.eq_of_toNat_eq (by omega)
        rw [a1, a2]
    · have hf' : ∀ x ∈ ds, Fits lim x := fun x hx => hf x (List.mem_cons_of_mem _ hx)
      unfold placeAll at e
      split at e
      · rename_i hl0
        rw [place d0 (hf d0 List.mem_cons_self) hl0, Option.bind_some] at e
        exact ih _ _ hf' hp.2 e d hd' hl
      · exact ih _ _ hf' hp.2 e d hd' hl

section
variable {lim : Lim} {n nSram : Nat} {vcam rtp ral wal : U16} {E : Prop} {u : Use}

/-- C134: in the table of a frame that was opened, every object with data has the entry of its slot and subslot to itself, and the table has
nothing else. -/
theorem C134_own_entry_partial {u' : Use} {i : Nat} {x : Held} {descs : List Io} (o : Opened lim u u' i x descs) (hf : ∀ d ∈ descs, Fits lim d)
    (hp : descs.Pairwise fun a b => (a.slot, a.subslot) ≠ (b.slot, b.subslot)) :
    (∀ d ∈ descs, d.dataLength ≠ 0 → (u'.hw.frame i).io (d.slot.toNat, d.subslot.toNat - 1) = some d) ∧
      ∀ q d, (u'.hw.frame i).io q = some d → d ∈ descs ∧ d.dataLength ≠ 0 ∧ q = (d.slot.toNat, d.subslot.toNat - 1) := by
  refine ⟨placeAll_own descs _ _ hf hp o.io, fun q d h => ?_⟩
  rcases placeAll_from descs _ _ o.io q d h with ⟨a, b, c⟩ | h'
  · refine ⟨a, b, ?_⟩
    rcases hf d a with h | h
    · exact absurd h b
    · rw [rteObject_fits h] at c
      exact (Option.some.inj c).symm
  · cases h'

/-! ## SRAM areas -/

def AllSet (f : Frame) : Prop := ∀ q d, f.io q = some d → d.dataLength ≠ 0 → f.addr q = f.sram + f.offset + d.dataOffset

/-- Addresses are unset or right, and right for frames in operation. -/
structure AddrOk (f : Frame) : Prop where
  each : ∀ q, f.addr q = 0 ∨ ∃ d, f.io q = some d ∧ f.addr q = f.sram + f.offset + d.dataOffset
  all : f.active = true → AllSet f
  off : f.offset = 6 ∨ f.offset = 2

theorem setAddrs_ok {f : Frame} (h : AddrOk f) : AddrOk (setAddrs f) ∧ AllSet (setAddrs f) := by
  have all : AllSet (setAddrs f) := by
    intro q d hq hl
    have hq : f.io q = some d := hq
    show (match f.io q with | some d => if d.dataLength ≠ 0 ∧ f.addr q = 0 then f.sram + f.offset + d.dataOffset else f.addr q | none => f.addr q) = _
    rw [hq]
    simp only
    split
    · rfl
    · rename_i c
      rcases h.each q with h0 | ⟨d', h1, h2⟩
      · exact absurd ⟨hl, h0⟩ c
      · rw [hq] at h1
        cases h1
        exact h2
  refine ⟨⟨fun q => ?_, fun _ => all, h.off⟩, all⟩
  show (match f.io q with | some d => if d.dataLength ≠ 0 ∧ f.addr q = 0 then f.sram + f.offset + d.dataOffset else f.addr q | none => f.addr q) = 0 ∨ _
  cases hq : f.io q with
  | none =>
    rcases h.each q with h0 | ⟨d', h1, h2⟩
    · exact Or.inl h0
    · rw [hq] at h1; cases h1
  | some d =>
    simp only
    split
    · exact Or.inr ⟨d, hq, by
        show (match f.io q with | some d => if d.dataLength ≠ 0 ∧ f.addr q = 0 then f.sram + f.offset + d.dataOffset else f.addr q | none => f.addr q) = _
        rw [hq]; simp only; rw [if_pos ‹_›]; rfl⟩
    · rename_i c
      rcases h.each q with h0 | ⟨d', h1, h2⟩
      · exact Or.inl h0
      · refine Or.inr ⟨d', h1, ?_⟩
        show (match f.io q with | some d => if d.dataLength ≠ 0 ∧ f.addr q = 0 then f.sram + f.offset + d.dataOffset else f.addr q | none => f.addr q) = _
        rw [hq]; simp only; rw [if_neg c]; exact h2

theorem startLoop_frames (i : Nat) (ok : Nat × Nat → Bool) : ∀ (qs : List (Nat × Nat)) (h : Hw),
    (∀ j, j ≠ i → (startLoop i ok qs h).1.frame j = h.frame j) ∧ ∃ r, (startLoop i ok qs h).1.frame i = { h.frame i with ral := r } := by
  intro qs
  induction qs with
  | nil => intro h; exact ⟨fun _ _ => rfl, _, rfl⟩
  | cons q qs ih =>
    intro h
    unfold startLoop
    split
    · simp only
      split
      · have := ih (({ h with ral := h.ral.alloc.2 } : Hw).setFrame i { h.frame i with ral := fun x => if x = q then h.ral.alloc.1 else (h.frame i).ral x })
        refine ⟨fun j hj => (this.1 j hj).trans ?_, ?_⟩
        · unfold Hw.setFrame; simp [hj]
        · obtain ⟨r, hr⟩ := this.2
          exact ⟨r, hr.trans (by unfold Hw.setFrame; simp)⟩
      · refine ⟨fun j hj => by unfold Hw.setFrame; simp [hj], fun x => if x = q then h.ral.alloc.1 else (h.frame i).ral x, by unfold Hw.setFrame; simp⟩
    · exact ih h

theorem AddrOk.active {f : Frame} (h : AddrOk f) (a : AllSet f) (r : Nat × Nat → U16) (b : Bool) : AddrOk { f with ral := r, active := b } :=
  ⟨h.each, fun _ => a, h.off⟩

theorem step_addr {u' : Use} {o : Op} (inv : Inv lim u E) (h : ∀ i, (u.held i).isSome → AddrOk (u.hw.frame i)) (e : step lim u o = some u') :
    ∀ i, (u'.held i).isSome → AddrOk (u'.hw.frame i) := by
  have fresh : ∀ (off : U16) (x : Held) (descs : List Io) (hw : Hw) (r : Option Nat), (off = 6 ∨ off = 2) → frameAlloc lim u.hw off descs = some (hw, r) →
      (∀ k, r = some k → ∀ i, ((u.hold hw k (some x)).held i).isSome → AddrOk (hw.frame i)) ∧
        (r = none → ∀ i, (u.held i).isSome → AddrOk (hw.frame i)) := by
    intro off x descs hw r hoff e
    unfold frameAlloc at e
    cases ea : allocFrame lim u.hw with
    | none => rw [ea] at e; cases e
    | some k =>
      rw [ea, Option.bind_some] at e
      obtain ⟨hk, hku⟩ := allocFrame_spec ea
      simp only at e
      split at e
      · cases e
        refine ⟨fun k' c => (nomatch c), fun _ i hi => ?_⟩
        by_cases c : i = k
        · subst c; rw [← inv.used i hk, hku] at hi; cases hi
        · unfold Hw.setFrame
          simp only [c, if_false]
          exact h i hi
      · cases ep : placeAll lim descs (fun _ => none) with
        | none => rw [ep] at e; cases e
        | some io =>
          rw [ep, Option.bind_some] at e
          cases e
          refine ⟨fun k' c i hi => ?_, fun c => (nomatch c)⟩
          cases c
          by_cases c : i = k
          · subst c
            unfold Hw.setFrame
            simp only [if_true]
            exact ⟨fun q => Or.inl rfl, fun c => (nomatch c), hoff⟩
          · unfold Hw.setFrame
            simp only [c, if_false]
            refine h i ?_
            have hi : (if i = k then some x else u.held i).isSome := hi
            rw [if_neg c] at hi
            exact hi
  cases o with
  | openP descs =>
    unfold step at e
    simp only [Option.map_eq_some_iff] at e
    obtain ⟨⟨hw, r⟩, e1, e2⟩ := e
    have := fresh 6 (.ppm false) descs hw r (Or.inl rfl) e1
    cases r with
    | none => simp only at e2; rw [← e2]; exact this.2 rfl
    | some k => simp only at e2; rw [← e2]; exact this.1 k rfl
  | openC descs =>
    unfold step at e
    simp only [Option.map_eq_some_iff] at e
    obtain ⟨⟨hw, r⟩, e1, e2⟩ := e
    have := fresh 2 .cpm descs hw r (Or.inr rfl) e1
    cases r with
    | none => simp only at e2; rw [← e2]; exact this.2 rfl
    | some k => simp only at e2; rw [← e2]; exact this.1 k rfl
  | startP i rule ok =>
    unfold step at e
    simp only at e
    split at e
    · rename_i hh
      cases e
      have hi0 : AddrOk (u.hw.frame i) := h i (by rw [hh]; rfl)
      obtain ⟨a1, a2⟩ := setAddrs_ok hi0
      have key : (∀ j, j ≠ i → (ppmStart lim u.hw i rule ok).1.frame j = u.hw.frame j) ∧ AddrOk ((ppmStart lim u.hw i rule ok).1.frame i) := by
        unfold ppmStart
        simp only
        split
        · obtain ⟨k1, r, k2⟩ := startLoop_frames i ok (places lim) (u.hw.setFrame i (setAddrs (u.hw.frame i)))
          have s1 : ∀ j, j ≠ i → (u.hw.setFrame i (setAddrs (u.hw.frame i))).frame j = u.hw.frame j := fun j hj => if_neg hj
          have s2 : (u.hw.setFrame i (setAddrs (u.hw.frame i))).frame i = setAddrs (u.hw.frame i) := if_pos rfl
          rw [s2] at k2
          split
          · refine ⟨fun j hj => ?_, ?_⟩
            · rw [← s1 j hj, ← k1 j hj]
              unfold Hw.setFrame; simp [hj]
            · have : ((startLoop i ok (places lim) (u.hw.setFrame i (setAddrs (u.hw.frame i)))).1.setFrame i
                  { (startLoop i ok (places lim) (u.hw.setFrame i (setAddrs (u.hw.frame i)))).1.frame i with active := true }).frame i =
                  { (startLoop i ok (places lim) (u.hw.setFrame i (setAddrs (u.hw.frame i)))).1.frame i with active := true } := if_pos rfl
              rw [this, k2]
              exact a1.active a2 r true
          · refine ⟨fun j hj => (k1 j hj).trans (s1 j hj), ?_⟩
            rw [k2]
            exact a1.active a2 r _
        · exact ⟨fun j hj => if_neg hj, by unfold Hw.setFrame; simpa using a1⟩
      intro j hj
      show AddrOk ((ppmStart lim u.hw i rule ok).1.frame j)
      by_cases c : j = i
      · rw [c]; exact key.2
      · rw [key.1 j c]
        have hj : (if j = i then some (Held.ppm true) else u.held j).isSome := hj
        rw [if_neg c] at hj
        exact h j hj
    · cases e; exact h
  | startC i ok =>
    unfold step at e
    simp only at e
    split at e
    · rename_i hh
      cases e
      have hi0 : AddrOk (u.hw.frame i) := h i (by rw [hh]; rfl)
      obtain ⟨a1, a2⟩ := setAddrs_ok hi0
      intro j hj
      show AddrOk ((cpmStart u.hw i ok).1.frame j)
      have hj : (u.held j).isSome := hj
      unfold cpmStart
      simp only
      by_cases c : j = i
      · subst c
        split
        · unfold Hw.setFrame
          simp only [if_true]
          exact a1.active a2 _ true
        · unfold Hw.setFrame
          simp only [if_true]
          exact a1
      · split <;> (unfold Hw.setFrame; simp only [c, if_false]; exact h j hj)
    · cases e; exact h
  | close i =>
    have free : ∀ {hw hw' : Hw}, frameFree hw i = some hw' → ∀ j, j ≠ i → hw'.frame j = hw.frame j := by
      intro hw hw' e j hj
      unfold frameFree at e
      simp only [Option.bind_eq_some_iff] at e
      obtain ⟨p1, e1, p2, e2, p3, e3, p4, e4, e5⟩ := e
      cases e5
      unfold Hw.setFrame
      simp [hj]
    unfold step at e
    simp only at e
    split at e
    · simp only [Option.map_eq_some_iff, Option.bind_eq_some_iff] at e
      obtain ⟨hw, ⟨h1, e1, e2⟩, e3⟩ := e
      rw [← e3]
      intro j hj
      have hj : (if j = i then none else u.held j).isSome := hj
      by_cases c : j = i
      · rw [if_pos c] at hj; cases hj
      · rw [if_neg c] at hj
        show AddrOk (hw.frame j)
        rw [free e2 j c]
        unfold ppmStop at e1
        split at e1
        · simp only [Option.map_eq_some_iff] at e1
          obtain ⟨p, _, e1⟩ := e1
          rw [← e1]
          exact h j hj
        · cases e1; exact h j hj
    · simp only [Option.map_eq_some_iff] at e
      obtain ⟨hw, e2, e3⟩ := e
      rw [← e3]
      intro j hj
      have hj : (if j = i then none else u.held j).isSome := hj
      by_cases c : j = i
      · rw [if_pos c] at hj; cases hj
      · rw [if_neg c] at hj
        show AddrOk (hw.frame j)
        rw [free e2 j c]
        exact h j hj
    · cases e; exact h

theorem Reached.addr (c : Conf n nSram vcam rtp ral wal) (r : Reached lim n nSram vcam rtp ral wal E u) :
    ∀ i, (u.held i).isSome → AddrOk (u.hw.frame i) := by
  induction r with
  | init => intro i hi; cases hi
  | next r o g e ih => exact step_addr (r.inv c) ih e

/-- The object `d` is mapped by frame `i`, which is in operation, at the bytes from `a` on. -/
structure Mapped (u : Use) (i : Nat) (d : Io) (a : Nat) : Prop where
  held : (u.held i).isSome
  active : (u.hw.frame i).active = true
  io : ∃ q, (u.hw.frame i).io q = some d ∧ ((u.hw.frame i).addr q).toNat = a
  data : d.dataLength ≠ 0

/-- The SRAM area of an object: inside the SRAM frame of its frame. -/
theorem mapped_at (c : Conf n nSram vcam rtp ral wal) (r : Reached lim n nSram vcam rtp ral wal E u) {i : Nat} {d : Io} {a : Nat} (m : Mapped u i d a)
    (hs : d.dataOffset.toNat + d.dataLength.toNat ≤ 1440) :
    ∃ k off, k < nSram ∧ off ≤ 6 ∧ (u.hw.frame i).sram = sramStart k ∧ (u.hw.frame i).offset.toNat = off ∧ a = 100 + k * 1600 + off + d.dataOffset.toNat := by
  obtain ⟨q, hq, rfl⟩ := m.io
  have ok := r.addr c i m.held
  have inv := r.inv c
  have sz := r.sizes
  obtain ⟨k, hk, hks⟩ := inv.sram.mem i (u.hw.frame i).sram (by unfold sramOwns; rw [if_pos m.held])
  have hkl := lt_of_some hk
  have ht := sramStart_toNat inv.sram.range hkl
  have hr := inv.sram.range
  rw [sz.sram] at hkl hr
  have l1 : d.dataLength.toNat ≠ 0 := fun c => m.data (BitVec.eq_of_toNat_eq c)
  have o : ∃ off, off ≤ 6 ∧ (u.hw.frame i).offset.toNat = off := by
    rcases ok.off with h | h <;> rw [h]
    · exact ⟨6, by omega, rfl⟩
    · exact ⟨2, by omega, rfl⟩
  obtain ⟨off, ho, hoff⟩ := o
  refine ⟨k, off, hkl, ho, hks, hoff, ?_⟩
  rw [ok.all m.active q d hq m.data, BitVec.toNat_add, BitVec.toNat_add, hks, ht, hoff]
  have : k * 1600 + 1600 ≤ nSram * 1600 := by
    have := Nat.mul_le_mul_right 1600 hkl
    omega
  omega

/-- C134: the SRAM areas of two objects never overlap, if the objects belong to different frames or lie apart in the frame they share. -/
theorem C134_disjoint (c : Conf n nSram vcam rtp ral wal) (r : Reached lim n nSram vcam rtp ral wal False u) {i j : Nat} {d e : Io} {a b : Nat}
    (m : Mapped u i d a) (m' : Mapped u j e b) (hs : d.dataOffset.toNat + d.dataLength.toNat ≤ 1440) (hs' : e.dataOffset.toNat + e.dataLength.toNat ≤ 1440)
    (h : i ≠ j ∨ d.dataOffset.toNat + d.dataLength.toNat ≤ e.dataOffset.toNat ∨ e.dataOffset.toNat + e.dataLength.toNat ≤ d.dataOffset.toNat) :
    a + d.dataLength.toNat ≤ b ∨ b + e.dataLength.toNat ≤ a := by
  obtain ⟨k, off, h1, h2, h3, h4, h5⟩ := mapped_at c r m hs
  obtain ⟨k', off', h1', h2', h3', h4', h5'⟩ := mapped_at c r m' hs'
  rcases h with h | h
  · have hk : k ≠ k' := by
      intro ck
      refine h ((C133_apart c r).sram i j m.held m'.held ?_)
      rw [h3, h3', ck]
    rcases Nat.lt_or_gt_of_ne hk with hlt | hlt
    · have := Nat.mul_le_mul_right 1600 hlt
      omega
    · have := Nat.mul_le_mul_right 1600 hlt
      omega
  · by_cases ci : i = j
    · subst ci
      have hk : k = k' := by
        have := h3.symm.trans h3'
        have l1 : k < u.hw.sram.length := by rw [r.sizes.sram]; exact h1
        have l2 : k' < u.hw.sram.length := by rw [r.sizes.sram]; exact h1'
        exact sramStart_inj (r.inv c).sram.range l1 l2 this
      subst hk
      rw [h4] at h4'
      omega
    · have hk : k ≠ k' := by
        intro ck
        refine ci ((C133_apart c r).sram i j m.held m'.held ?_)
        rw [h3, h3', ck]
      rcases Nat.lt_or_gt_of_ne hk with hlt | hlt
      · have := Nat.mul_le_mul_right 1600 hlt
        omega
      · have := Nat.mul_le_mul_right 1600 hlt
        omega

/-- C134: the areas lie between the first SRAM frame and the end of the last. -/
theorem C134_inside (c : Conf n nSram vcam rtp ral wal) (r : Reached lim n nSram vcam rtp ral wal False u) {i : Nat} {d : Io} {a : Nat}
    (m : Mapped u i d a) (hs : d.dataOffset.toNat + d.dataLength.toNat ≤ 1440) : 100 ≤ a ∧ a + d.dataLength.toNat ≤ 100 + 1600 * nSram := by
  obtain ⟨k, off, h1, h2, h3, h4, h5⟩ := mapped_at c r m hs
  have := Nat.mul_le_mul_right 1600 h1
  omega

/-! ## Where C134 fails -/

/-- An object outside of the tables, though its submodule was accepted by the stack: the process ends or memory behind the table is changed. -/
theorem C134_outside (c : Conf n nSram vcam rtp ral wal) (r : Reached lim n nSram vcam rtp ral wal False u) (h3 : inUse lim u < nSram)
    {d : Io} {ds : List Io} (hl : d.dataLength ≠ 0) (h : lim.slots ≤ d.slot.toNat ∨ lim.slots ≤ d.subslot.toNat ∨
      (lim.subslots < d.subslot.toNat ∧ d.subslot.toNat < 0x8000) ∨ (d.subslot = 0 ∧ lim.subslots < 0x10000)) :
    step lim u (.openP (d :: ds)) = none ∧ step lim u (.openC (d :: ds)) = none := by
  have hs := sram_left (r.inv c) (by rw [r.sizes.sram]; exact h3)
  have hn : rteObject lim d.slot d.subslot = none := by
    unfold rteObject
    rcases h with h | h | h | h
    · cases subslotIndex lim d.subslot with
      | none => rfl
      | some ix =>
        rw [Option.bind_some]
        split
        · rw [if_neg (by omega)]
        · rfl
    · cases subslotIndex lim d.subslot with
      | none => rfl
      | some ix =>
        rw [Option.bind_some, if_neg (by omega)]
    · have : subslotIndex lim d.subslot = none := by
        unfold subslotIndex
        have o : (1 : U16).toNat = 1 := rfl
        have hs : (d.subslot - 1).toNat = d.subslot.toNat - 1 := by
          have : (1 : U16) ≤ d.subslot := by rw [BitVec.le_def, o]; omega
          rw [BitVec.toNat_sub_of_le this, o]
        simp only [h.2, if_true, hs]
        rw [if_neg (by omega)]
      rw [this]; rfl
    · have : subslotIndex lim d.subslot = none := by
        unfold subslotIndex
        rw [h.1]
        show (if 0xFFFF < lim.subslots then some 0xFFFF else none) = none
        rw [if_neg (by omega)]
      rw [this]; rfl
  have hp : placeAll lim (d :: ds) (fun _ => none) = none := by
    unfold placeAll
    rw [if_pos hl, hn]; rfl
  have ha : ∀ off, frameAlloc lim u.hw off (d :: ds) = none := by
    intro off
    unfold frameAlloc
    rw [hp]
    cases allocFrame lim u.hw with
    | none => rfl
    | some k => rw [Option.bind_some]; simp only; rw [if_neg hs]; rfl
  unfold step
  simp only [ha, Option.map_none, and_self]

/-- Two objects with the same slot and subslot in different APIs: only the second is mapped. -/
theorem C134_two_apis {d e : Io} (hd : d.dataLength ≠ 0) (he : e.dataLength ≠ 0) (hf : Fits lim e) (hs : d.slot = e.slot ∧ d.subslot = e.subslot)
    (ha : d.api ≠ e.api) {u' : Use} {i : Nat} {x : Held} (o : Opened lim u u' i x [d, e]) : ∀ q, (u'.hw.frame i).io q ≠ some d := by
  intro q h
  have hp := o.io
  have hr : rteObject lim e.slot e.subslot = some (e.slot.toNat, e.subslot.toNat - 1) := by
    rcases hf with hf | hf
    · exact absurd hf he
    · exact rteObject_fits hf
  unfold placeAll at hp
  rw [if_pos hd, hs.1, hs.2, hr, Option.bind_some] at hp
  unfold placeAll at hp
  rw [if_pos he, hr, Option.bind_some] at hp
  unfold placeAll at hp
  rw [← Option.some.inj hp] at h
  simp only at h
  split at h
  · exact ha (by rw [Option.some.inj h])
  · cases h

end

/-! ## A configuration -/

/-- Two objects in one frame to send and one to receive, all in operation. -/
def demoOps : List Op := [.openP [⟨0, 1, 1, 0, 4⟩, ⟨0, 0, 1, 5, 8⟩], .openC [⟨0, 1, 1, 3, 2⟩], .startP 0 true (fun _ => true), .startC 1 true]

example : ∃ u, run demoLim (start 8 4 0x100 0x10 0x20 0x30) demoOps = some u ∧ Mapped u 0 ⟨0, 1, 1, 0, 4⟩ 106 ∧ Mapped u 0 ⟨0, 0, 1, 5, 8⟩ 111 ∧
    Mapped u 1 ⟨0, 1, 1, 3, 2⟩ 1705 :=
  ⟨_, rfl, ⟨rfl, by decide +kernel, ⟨(1, 0), by decide +kernel, by decide +kernel⟩, by decide⟩,
    ⟨rfl, by decide +kernel, ⟨(0, 0), by decide +kernel, by decide +kernel⟩, by decide⟩,
    ⟨rfl, by decide +kernel, ⟨(1, 0), by decide +kernel, by decide +kernel⟩, by decide⟩⟩

end Verif.Lan
