import Verif.Lan.Props
import Mathlib.Data.List.Perm.Subperm

/-! C133 and C134: what the LAN9662 driver does with the resources of the hardware. -/
set_option linter.unusedSimpArgs false
set_option linter.unusedVariables false

namespace Verif.Lan

/-! ## Sizes of the pools -/

/-- The pools keep their sizes. -/
structure Sizes (n nSram : Nat) (h : Hw) : Prop where
  vcam : h.vcam.used.length = n
  vlan : h.vlan.used.length = n
  rtp : h.rtp.used.length = n
  wal : h.wal.used.length = n
  ral : h.ral.used.length = n
  sram : h.sram.length = nSram

theorem alloc_len (p : Pool) : p.alloc.2.used.length = p.used.length := by
  unfold Pool.alloc
  split <;> simp

theorem free_len {p p' : Pool} {id : U16} (e : p.free id = some p') : p'.used.length = p.used.length := by
  unfold Pool.free at e
  split at e
  · split at e
    · cases e; simp
    · cases e
  · cases e; rfl

theorem sramAlloc_len (l : List Bool) : (sramAlloc l).2.length = l.length := by
  unfold sramAlloc
  split <;> simp

theorem sramFree_len (l : List Bool) (a : U16) : (sramFree l a).length = l.length := by
  unfold sramFree
  split <;> simp

theorem frameAlloc_len {lim : Lim} {n m : Nat} {h h' : Hw} {off : U16} {descs : List Io} {r : Option Nat} (s : Sizes n m h)
    (e : frameAlloc lim h off descs = some (h', r)) : Sizes n m h' := by
  unfold frameAlloc at e
  cases ea : allocFrame lim h with
  | none => rw [ea] at e; cases e
  | some i =>
    rw [ea, Option.bind_some] at e
    simp only at e
    have l1 := sramAlloc_len h.sram
    have l2 := alloc_len h.vcam
    have l3 := alloc_len h.rtp
    have l4 := alloc_len h.wal
    have l5 := alloc_len h.vlan
    split at e
    · cases e
      exact ⟨s.vcam, s.vlan, s.rtp, s.wal, s.ral, l1.trans s.sram⟩
    · cases ep : placeAll lim descs (fun _ => none) with
      | none => rw [ep] at e; cases e
      | some io =>
        rw [ep, Option.bind_some] at e
        cases e
        exact ⟨l2.trans s.vcam, l5.trans s.vlan, l3.trans s.rtp, l4.trans s.wal, s.ral, l1.trans s.sram⟩

theorem startLoop_len {n m : Nat} (i : Nat) (ok : Nat × Nat → Bool) : ∀ (qs : List (Nat × Nat)) {h : Hw}, Sizes n m h → Sizes n m (startLoop i ok qs h).1 := by
  intro qs
  induction qs with
  | nil => intro h s; exact s
  | cons q qs ih =>
    intro h s
    unfold startLoop
    split
    · have l := alloc_len h.ral
      have s' : Sizes n m (({ h with ral := h.ral.alloc.2 } : Hw).setFrame i { h.frame i with ral := fun x => if x = q then h.ral.alloc.1 else (h.frame i).ral x }) :=
        ⟨s.vcam, s.vlan, s.rtp, s.wal, l.trans s.ral, s.sram⟩
      simp only
      split
      · exact ih s'
      · exact s'
    · exact ih s

theorem stopLoop_len (f : Frame) : ∀ (qs : List (Nat × Nat)) {p p' : Pool}, stopLoop f qs p = some p' → p'.used.length = p.used.length := by
  intro qs
  induction qs with
  | nil => intro p p' e; cases e; rfl
  | cons q qs ih =>
    intro p p' e
    unfold stopLoop at e
    cases ef : p.free (f.ral q) with
    | none => rw [ef] at e; cases e
    | some p1 =>
      rw [ef, Option.bind_some] at e
      exact (ih e).trans (free_len ef)

theorem frameFree_len {n m : Nat} {h h' : Hw} {i : Nat} (s : Sizes n m h) (e : frameFree h i = some h') : Sizes n m h' := by
  unfold frameFree at e
  simp only at e
  simp only [Option.bind_eq_some_iff] at e
  obtain ⟨p1, e1, p2, e2, p3, e3, p4, e4, e5⟩ := e
  cases e5
  exact ⟨(free_len e1).trans s.vcam, (free_len e2).trans s.vlan, (free_len e4).trans s.rtp, (free_len e3).trans s.wal, s.ral, (sramFree_len _ _).trans s.sram⟩

theorem step_len {lim : Lim} {n m : Nat} {u u' : Use} {o : Op} (s : Sizes n m u.hw) (e : step lim u o = some u') : Sizes n m u'.hw := by
  cases o with
  | openP descs =>
    unfold step at e
    simp only [Option.map_eq_some_iff] at e
    obtain ⟨⟨h, r⟩, e1, e2⟩ := e
    have := frameAlloc_len s e1
    cases r <;> (simp only at e2; rw [← e2]; exact this)
  | openC descs =>
    unfold step at e
    simp only [Option.map_eq_some_iff] at e
    obtain ⟨⟨h, r⟩, e1, e2⟩ := e
    have := frameAlloc_len s e1
    cases r <;> (simp only at e2; rw [← e2]; exact this)
  | startP i rule ok =>
    unfold step at e
    simp only at e
    split at e
    · cases e
      show Sizes n m (ppmStart lim u.hw i rule ok).1
      unfold ppmStart
      simp only
      have s1 : Sizes n m (u.hw.setFrame i (setAddrs (u.hw.frame i))) := ⟨s.vcam, s.vlan, s.rtp, s.wal, s.ral, s.sram⟩
      split
      · have s2 := startLoop_len i ok (places lim) s1
        split
        · exact ⟨s2.vcam, s2.vlan, s2.rtp, s2.wal, s2.ral, s2.sram⟩
        · exact s2
      · exact s1
    · cases e; exact s
  | startC i ok =>
    unfold step at e
    simp only at e
    split at e
    · cases e
      show Sizes n m (cpmStart u.hw i ok).1
      unfold cpmStart
      simp only
      split <;> exact ⟨s.vcam, s.vlan, s.rtp, s.wal, s.ral, s.sram⟩
    · cases e; exact s
  | close i =>
    unfold step at e
    simp only at e
    split at e
    · simp only [Option.map_eq_some_iff, Option.bind_eq_some_iff] at e
      obtain ⟨h, ⟨h1, e1, e2⟩, e3⟩ := e
      rw [← e3]
      refine frameFree_len ?_ e2
      unfold ppmStop at e1
      split at e1
      · simp only [Option.map_eq_some_iff] at e1
        obtain ⟨p, ep, e1⟩ := e1
        rw [← e1]
        exact ⟨s.vcam, s.vlan, s.rtp, s.wal, (stopLoop_len _ _ ep).trans s.ral, s.sram⟩
      · cases e1; exact s
    · simp only [Option.map_eq_some_iff] at e
      obtain ⟨h, e2, e3⟩ := e
      rw [← e3]
      exact frameFree_len s e2
    · cases e; exact s

/-- What can be reached from the start by calls; `good` says that no setting of the hardware failed. -/
inductive Reached (lim : Lim) (n nSram : Nat) (vcam rtp ral wal : U16) (good : Prop) : Use → Prop where
  | init : Reached lim n nSram vcam rtp ral wal good (start n nSram vcam rtp ral wal)
  | next {u u' : Use} (r : Reached lim n nSram vcam rtp ral wal good u) (o : Op) (g : good → o.Good) (e : step lim u o = some u') :
      Reached lim n nSram vcam rtp ral wal good u'

section
variable {lim : Lim} {n nSram : Nat} {vcam rtp ral wal : U16} {E : Prop} {u : Use}

theorem Reached.inv (c : Conf n nSram vcam rtp ral wal) (r : Reached lim n nSram vcam rtp ral wal E u) : Inv lim u E := by
  induction r with
  | init => exact start_inv lim c E
  | next r o g e ih => exact step_inv ih g e

theorem Reached.sizes (r : Reached lim n nSram vcam rtp ral wal E u) : Sizes n nSram u.hw := by
  induction r with
  | init => exact ⟨List.length_replicate, List.length_replicate, List.length_replicate, List.length_replicate, List.length_replicate, List.length_replicate⟩
  | next r o g e ih => exact step_len ih e

/-- The same as a list of calls. -/
theorem reached_run {ops : List Op} (hg : E → ∀ o ∈ ops, o.Good) : ∀ {u0 : Use}, Reached lim n nSram vcam rtp ral wal E u0 → run lim u0 ops = some u →
    Reached lim n nSram vcam rtp ral wal E u := by
  induction ops with
  | nil => intro u0 r e; cases e; exact r
  | cons o os ih =>
    intro u0 r e
    unfold run at e
    cases es : step lim u0 o with
    | none => rw [es] at e; cases e
    | some u1 =>
      rw [es, Option.bind_some] at e
      exact ih (fun he o ho => hg he o (List.mem_cons_of_mem _ ho)) (.next r o (fun he => hg he o List.mem_cons_self) es) e

/-! ## C133: never shared, all returned -/

/-- Frames in use share no number and no SRAM frame; 0xFFFF stands for "no number". -/
structure Apart (u : Use) : Prop where
  vcam : ∀ i j, (u.held i).isSome → (u.held j).isSome → (u.hw.frame i).vcam = (u.hw.frame j).vcam → (u.hw.frame i).vcam ≠ 0xFFFF → i = j
  vlan : ∀ i j, (u.held i).isSome → (u.held j).isSome → (u.hw.frame i).vlan = (u.hw.frame j).vlan → (u.hw.frame i).vlan ≠ 0xFFFF → i = j
  rtp : ∀ i j, (u.held i).isSome → (u.held j).isSome → (u.hw.frame i).rtp = (u.hw.frame j).rtp → (u.hw.frame i).rtp ≠ 0xFFFF → i = j
  wal : ∀ i j, (u.held i).isSome → (u.held j).isSome → (u.hw.frame i).wal = (u.hw.frame j).wal → (u.hw.frame i).wal ≠ 0xFFFF → i = j
  sram : ∀ i j, (u.held i).isSome → (u.held j).isSome → (u.hw.frame i).sram = (u.hw.frame j).sram → i = j
  ral : ∀ i j q r, (u.held i).isSome → (u.held j).isSome → (u.hw.frame i).ral q = (u.hw.frame j).ral r → (u.hw.frame i).ral q ≠ 0xFFFF → i = j ∧ q = r

theorem valid_of_ne {x : U16} (h : x ≠ 0xFFFF) : valid x = some x := by
  unfold valid invalid
  rw [if_neg h]

/-- C133: whatever the calls and whatever fails, no two frames in use share a rule, VLAN entry, protocol entry, write list, read list or SRAM
frame. -/
theorem C133_apart (c : Conf n nSram vcam rtp ral wal) (r : Reached lim n nSram vcam rtp ral wal False u) : Apart u := by
  have inv := r.inv c
  have one : ∀ (f : Frame → U16) (p : Pool), PoolInv p (owns f u.hw u.held) True →
      ∀ i j, (u.held i).isSome → (u.held j).isSome → f (u.hw.frame i) = f (u.hw.frame j) → f (u.hw.frame i) ≠ 0xFFFF → i = j := by
    intro f p h i j hi hj e hv
    refine h.inj i j (f (u.hw.frame i)) ?_ ?_
    · unfold owns; rw [if_pos hi, valid_of_ne hv]
    · unfold owns; rw [if_pos hj, ← e, valid_of_ne hv]
  refine ⟨one _ _ inv.vcam, one _ _ inv.vlan, one _ _ inv.rtp, one _ _ inv.wal, fun i j hi hj e => ?_, fun i j q r hi hj e hv => ?_⟩
  · refine inv.sram.inj i j (u.hw.frame i).sram ?_ ?_
    · unfold sramOwns; rw [if_pos hi]
    · unfold sramOwns; rw [if_pos hj, e]
  · have := inv.ral.inj (i, q) (j, r) ((u.hw.frame i).ral q) (by unfold ralOwns; simp only; rw [if_pos hi, valid_of_ne hv])
      (by unfold ralOwns; simp only; rw [if_pos hj, ← e, valid_of_ne hv])
    exact Prod.mk.injEq .. ▸ this

theorem all_false {l : List Bool} (h : ∀ i : Nat, l[i]? ≠ some true) : l = List.replicate l.length false := by
  rw [List.eq_replicate_iff]
  refine ⟨rfl, fun b hb => ?_⟩
  obtain ⟨i, hi⟩ := List.mem_iff_getElem?.mp hb
  cases b with
  | false => rfl
  | true => exact absurd hi (h i)

/-- C133: when all frames were given back, every number and SRAM frame is free again, the read lists if no setting of the hardware failed. -/
theorem C133_returned_partial (c : Conf n nSram vcam rtp ral wal) (r : Reached lim n nSram vcam rtp ral wal E u) (hn : ∀ i, u.held i = none) :
    u.hw.vcam.used = .replicate n false ∧ u.hw.vlan.used = .replicate n false ∧ u.hw.rtp.used = .replicate n false ∧ u.hw.wal.used = .replicate n false ∧
      u.hw.sram = .replicate nSram false ∧ (∀ i, i < lim.frames → (u.hw.frame i).used = false) ∧ (E → u.hw.ral.used = .replicate n false) := by
  have inv := r.inv c
  have s := r.sizes
  have one : ∀ (f : Frame → U16) (p : Pool), PoolInv p (owns f u.hw u.held) True → p.used.length = n → p.used = .replicate n false := by
    intro f p h hl
    rw [← hl]
    refine all_false fun i hi => ?_
    obtain ⟨k, id, hk, _⟩ := h.exact trivial i hi
    unfold owns at hk
    rw [hn k] at hk
    cases hk
  refine ⟨one _ _ inv.vcam s.vcam, one _ _ inv.vlan s.vlan, one _ _ inv.rtp s.rtp, one _ _ inv.wal s.wal, ?_, fun i hi => ?_, fun he => ?_⟩
  · rw [← s.sram]
    refine all_false fun i hi => ?_
    obtain ⟨k, hk⟩ := inv.sram.exact i hi
    unfold sramOwns at hk
    rw [hn k] at hk
    cases hk
  · rw [inv.used i hi, hn i]; rfl
  · rw [← s.ral]
    refine all_false fun i hi => ?_
    obtain ⟨k, id, hk, _⟩ := inv.ral.exact he i hi
    unfold ralOwns at hk
    rw [hn k.1] at hk
    cases hk

/-- C133: starting and closing never touch memory outside the tables; a closed frame is no longer in use, the others stay as they are. -/
theorem C133_safe (c : Conf n nSram vcam rtp ral wal) (r : Reached lim n nSram vcam rtp ral wal False u) (i : Nat) :
    (∃ u', step lim u (.close i) = some u' ∧ u'.held i = none ∧ ∀ j, j ≠ i → u'.held j = u.held j ∧ u'.hw.frame j = u.hw.frame j) ∧
      (∀ rule ok, (step lim u (.startP i rule ok)).isSome) ∧ (∀ ok, (step lim u (.startC i ok)).isSome) := by
  obtain ⟨u', e, _⟩ := close_inv (r.inv c) i
  refine ⟨⟨u', e, ?_⟩, fun rule ok => ?_, fun ok => ?_⟩
  · have free : ∀ {h h' : Hw}, frameFree h i = some h' → ∀ j, j ≠ i → h'.frame j = h.frame j := by
      intro h h' e j hj
      unfold frameFree at e
      simp only [Option.bind_eq_some_iff] at e
      obtain ⟨p1, e1, p2, e2, p3, e3, p4, e4, e5⟩ := e
      cases e5
      unfold Hw.setFrame
      simp [hj]
    unfold step at e
    simp only at e
    split at e
    · simp only [Option.map_eq_some_iff, Option.bind_eq_some_iff] at e
      obtain ⟨h, ⟨h1, e1, e2⟩, e3⟩ := e
      rw [← e3]
      unfold Use.hold
      refine ⟨if_pos rfl, fun j hj => ⟨if_neg hj, ?_⟩⟩
      rw [free e2 j hj]
      unfold ppmStop at e1
      split at e1
      · simp only [Option.map_eq_some_iff] at e1
        obtain ⟨p, _, e1⟩ := e1
        rw [← e1]
      · cases e1; rfl
    · simp only [Option.map_eq_some_iff] at e
      obtain ⟨h, e2, e3⟩ := e
      rw [← e3]
      unfold Use.hold
      exact ⟨if_pos rfl, fun j hj => ⟨if_neg hj, free e2 j hj⟩⟩
    · rename_i hh
      cases e
      exact ⟨hh, fun j hj => ⟨rfl, rfl⟩⟩
  · unfold step
    simp only
    split <;> rfl
  · unfold step
    simp only
    split <;> rfl

/-! ## Opening -/

/-- How many frames are in use. -/
def inUse (lim : Lim) (u : Use) : Nat := ((List.range lim.frames).filter fun i => (u.held i).isSome).length

/-- The object has no data, or the driver has a place for it. -/
def Fits (lim : Lim) (d : Io) : Prop :=
  d.dataLength = 0 ∨ (d.slot.toNat < lim.slots ∧ 1 ≤ d.subslot.toNat ∧ d.subslot.toNat ≤ lim.subslots ∧ d.subslot.toNat < lim.slots ∧ d.subslot.toNat < 0x8000)

theorem rteObject_fits {slot subslot : U16} (h : slot.toNat < lim.slots ∧ 1 ≤ subslot.toNat ∧ subslot.toNat ≤ lim.subslots ∧ subslot.toNat < lim.slots ∧ subslot.toNat < 0x8000) :
    rteObject lim slot subslot = some (slot.toNat, subslot.toNat - 1) := by
  obtain ⟨h1, h2, h3, h4, h5⟩ := h
  have o : (1 : U16).toNat = 1 := rfl
  have hs : (subslot - 1).toNat = subslot.toNat - 1 := by
    have : (1 : U16) ≤ subslot := by rw [BitVec.le_def, o]; exact h2
    rw [BitVec.toNat_sub_of_le this, o]
  unfold rteObject subslotIndex
  simp only [h5, if_true, hs]
  rw [if_pos (by omega)]
  simp only [Option.bind_some, h4, h1, if_true]

theorem placeAll_fits : ∀ (ds : List Io) (t : Nat × Nat → Option Io), (∀ d ∈ ds, Fits lim d) → ∃ t', placeAll lim ds t = some t' := by
  intro ds
  induction ds with
  | nil => intro t _; exact ⟨t, rfl⟩
  | cons d ds ih =>
    intro t h
    unfold placeAll
    split
    · rename_i hl
      rcases h d List.mem_cons_self with h0 | h0
      · exact absurd h0 hl
      · rw [rteObject_fits h0, Option.bind_some]
        exact ih _ fun d hd => h d (List.mem_cons_of_mem _ hd)
    · exact ih _ fun d hd => h d (List.mem_cons_of_mem _ hd)

theorem firstFree_full {l : List Bool} (h : firstFree l = none) (i : Nat) (hi : i < l.length) : l[i]? = some true := by
  unfold firstFree at h
  rw [List.findIdx?_eq_none_iff] at h
  rw [List.getElem?_eq_getElem hi]
  have := h l[i] (List.getElem_mem hi)
  cases hb : l[i] with
  | true => rfl
  | false => rw [hb] at this; simp at this

/-- A full pool means as many frames in use as it has numbers. -/
theorem full_le {m : Nat} (g : Nat → Nat → Prop) (hex : ∀ i, i < m → ∃ k, (u.held k).isSome ∧ k < lim.frames ∧ g k i)
    (hinj : ∀ k i i', g k i → g k i' → i = i') : m ≤ inUse lim u := by
  have hex' : ∀ i : Nat, ∃ k, i < m → ((u.held k).isSome ∧ k < lim.frames ∧ g k i) := by
    intro i
    rcases Nat.lt_or_ge i m with h | h
    · obtain ⟨k, hk⟩ := hex i h; exact ⟨k, fun _ => hk⟩
    · exact ⟨0, fun h' => absurd h' (by omega)⟩
  let pick : Nat → Nat := fun i => (hex' i).choose
  have hp : ∀ i, i < m → ((u.held (pick i)).isSome ∧ pick i < lim.frames ∧ g (pick i) i) := fun i => (hex' i).choose_spec
  have nd : ((List.range m).map pick).Nodup := by
    unfold List.Nodup
    rw [List.pairwise_map]
    refine List.Pairwise.imp_of_mem ?_ (List.nodup_range (n := m))
    intro i j hi hj ne e
    rw [List.mem_range] at hi hj
    exact ne (hinj (pick i) i j (hp i hi).2.2 (e ▸ (hp j hj).2.2))
  have sub : (List.range m).map pick ⊆ (List.range lim.frames).filter fun i => (u.held i).isSome := by
    intro k hk
    rw [List.mem_map] at hk
    obtain ⟨i, hi, rfl⟩ := hk
    rw [List.mem_range] at hi
    rw [List.mem_filter, List.mem_range]
    exact ⟨(hp i hi).2.1, (hp i hi).1⟩
  have := (List.Nodup.subperm nd sub).length_le
  simpa [inUse] using this

theorem alloc_valid {p : Pool} {f : Frame → U16} (inv : Inv lim u E) (h : PoolInv p (owns f u.hw u.held) True) (hu : inUse lim u < p.used.length) :
    p.alloc.1 ≠ 0xFFFF := by
  unfold Pool.alloc
  split
  · rename_i i hi
    have hl := lt_of_some (firstFree_some hi)
    have hr := h.range
    intro e
    have e := congrArg BitVec.toNat e
    have z : (0xFFFF : U16).toNat = 0xFFFF := rfl
    rw [BitVec.toNat_add, BitVec.toNat_ofNat, z] at e
    omega
  · rename_i hi
    exfalso
    have := full_le (lim := lim) (u := u) (m := p.used.length) (fun k i => ∃ id, owns f u.hw u.held k = some id ∧ id.toNat = p.base.toNat + i) (fun i hi' => by
      obtain ⟨k, id, h1, h2⟩ := h.exact trivial i (firstFree_full hi i hi')
      have hk : (u.held k).isSome := by
        unfold owns at h1
        split at h1
        · assumption
        · cases h1
      exact ⟨k, hk, inv.inside k hk, id, h1, h2⟩) (fun k i i' ⟨id, h1, h2⟩ ⟨id', h1', h2'⟩ => by
      rw [h1] at h1'
      cases h1'
      omega)
    omega

theorem frame_left (inv : Inv lim u E) (hu : inUse lim u < lim.frames) : ∃ i, allocFrame lim u.hw = some i := by
  cases h : allocFrame lim u.hw with
  | some i => exact ⟨i, rfl⟩
  | none =>
    exfalso
    unfold allocFrame at h
    rw [List.find?_eq_none] at h
    have := full_le (lim := lim) (u := u) (m := lim.frames) (fun k i => k = i) (fun i hi => by
      refine ⟨i, ?_, hi, rfl⟩
      have := h i (List.mem_range.mpr hi)
      rw [← inv.used i hi]
      simpa using this) (fun k i i' h h' => h.symm.trans h')
    omega

theorem sram_left (inv : Inv lim u E) (hu : inUse lim u < u.hw.sram.length) : (sramAlloc u.hw.sram).1 ≠ 0 := by
  unfold sramAlloc
  split
  · rename_i i hi
    have hl := lt_of_some (firstFree_some hi)
    intro e
    have e := congrArg BitVec.toNat e
    rw [sramStart_toNat inv.sram.range hl] at e
    have z : (0 : U16).toNat = 0 := rfl
    omega
  · rename_i hi
    exfalso
    have := full_le (lim := lim) (u := u) (m := u.hw.sram.length) (fun k i => sramOwns u.hw u.held k = some (sramStart i) ∧ i < u.hw.sram.length) (fun i hi' => by
      obtain ⟨k, h1⟩ := inv.sram.exact i (firstFree_full hi i hi')
      have hk : (u.held k).isSome := by
        unfold sramOwns at h1
        split at h1
        · assumption
        · cases h1
      exact ⟨k, hk, inv.inside k hk, h1, hi'⟩) (fun k i i' ⟨h1, h2⟩ ⟨h1', h2'⟩ => by
      rw [h1] at h1'
      exact sramStart_inj inv.sram.range h2 h2' (Option.some.inj h1'))
    omega

/-- What a successful opening gives: a frame that was not in use, with all its numbers, an SRAM frame, and the table of its objects. -/
structure Opened (lim : Lim) (u u' : Use) (i : Nat) (x : Held) (descs : List Io) : Prop where
  before : u.held i = none
  after : u'.held = fun j => if j = i then some x else u.held j
  others : ∀ j, j ≠ i → u'.hw.frame j = u.hw.frame j
  vcam : (u'.hw.frame i).vcam ≠ 0xFFFF
  vlan : (u'.hw.frame i).vlan ≠ 0xFFFF
  rtp : (u'.hw.frame i).rtp ≠ 0xFFFF
  wal : (u'.hw.frame i).wal ≠ 0xFFFF
  sram : (u'.hw.frame i).sram ≠ 0
  idle : (u'.hw.frame i).active = false ∧ u'.hw.ral = u.hw.ral
  io : placeAll lim descs (fun _ => none) = some (u'.hw.frame i).io

theorem open_ok (c : Conf n nSram vcam rtp ral wal) (r : Reached lim n nSram vcam rtp ral wal E u) {descs : List Io} (hd : ∀ d ∈ descs, Fits lim d)
    (h1 : inUse lim u < lim.frames) (h2 : inUse lim u < n) (h3 : inUse lim u < nSram) (off : U16) :
    ∃ h i, allocFrame lim u.hw = some i ∧ frameAlloc lim u.hw off descs = some (h, some i) ∧ ∀ x, Opened lim u (u.hold h i (some x)) i x descs := by
  have inv := r.inv c
  have s := r.sizes
  obtain ⟨i, hi⟩ := frame_left inv h1
  obtain ⟨hlt, hun⟩ := allocFrame_spec hi
  obtain ⟨io, hio⟩ := placeAll_fits descs (fun _ => none) hd
  have hs := sram_left inv (by rw [s.sram]; exact h3)
  have a1 := alloc_valid inv inv.vcam (by rw [s.vcam]; exact h2)
  have a2 := alloc_valid inv inv.vlan (by rw [s.vlan]; exact h2)
  have a3 := alloc_valid inv inv.rtp (by rw [s.rtp]; exact h2)
  have a4 := alloc_valid inv inv.wal (by rw [s.wal]; exact h2)
  unfold frameAlloc
  rw [hi, Option.bind_some]
  simp only
  rw [if_neg hs, hio, Option.bind_some]
  refine ⟨_, i, rfl, rfl, fun x => ⟨?_, rfl, fun j hj => ?_, ?_, ?_, ?_, ?_, ?_, ?_, ?_⟩⟩
  · have := inv.used i hlt
    rw [hun] at this
    cases hh : u.held i with
    | none => rfl
    | some y => rw [hh] at this; cases this
  · unfold Use.hold Hw.setFrame
    simp [hj]
  · unfold Use.hold Hw.setFrame; simpa using a1
  · unfold Use.hold Hw.setFrame; simpa using a2
  · unfold Use.hold Hw.setFrame; simpa using a3
  · unfold Use.hold Hw.setFrame; simpa using a4
  · unfold Use.hold Hw.setFrame; simpa using hs
  · unfold Use.hold Hw.setFrame; simp [freshFrame]
  · unfold Use.hold Hw.setFrame; simpa using hio

/-- C133: as long as fewer frames are in use than there are frames, numbers and SRAM frames, opening a connection to send or to receive
succeeds and gets resources of its own. -/
theorem C133_open_partial (c : Conf n nSram vcam rtp ral wal) (r : Reached lim n nSram vcam rtp ral wal E u) {descs : List Io} (hd : ∀ d ∈ descs, Fits lim d)
    (h1 : inUse lim u < lim.frames) (h2 : inUse lim u < n) (h3 : inUse lim u < nSram) :
    (∃ u' i, step lim u (.openP descs) = some u' ∧ Opened lim u u' i (.ppm false) descs) ∧
      ∃ u' i, step lim u (.openC descs) = some u' ∧ Opened lim u u' i .cpm descs := by
  constructor
  · obtain ⟨h, i, _, e, ho⟩ := open_ok c r hd h1 h2 h3 6
    refine ⟨_, i, ?_, ho _⟩
    unfold step
    simp only [e, Option.map_some]
  · obtain ⟨h, i, _, e, ho⟩ := open_ok c r hd h1 h2 h3 2
    refine ⟨_, i, ?_, ho _⟩
    unfold step
    simp only [e, Option.map_some]

/-! ## Where C133 fails -/

/-- All frames in use: the process ends. -/
theorem C133_no_frame_ends_process (descs : List Io) (h : ∀ i, i < lim.frames → (u.hw.frame i).used = true) :
    step lim u (.openP descs) = none ∧ step lim u (.openC descs) = none := by
  have : allocFrame lim u.hw = none := by
    unfold allocFrame
    rw [List.find?_eq_none]
    intro i hi
    rw [h i (List.mem_range.mp hi)]
    simp
  unfold step frameAlloc
  simp only [this, Option.bind_none, Option.map_none, and_self]

/-- No rule number is left, but a frame and an SRAM frame are: the connection is opened all the same, with 0xFFFF for the rule. -/
theorem C133_no_number_not_refused (c : Conf n nSram vcam rtp ral wal) (r : Reached lim n nSram vcam rtp ral wal E u) {descs : List Io}
    (hd : ∀ d ∈ descs, Fits lim d) (h1 : inUse lim u < lim.frames) (h3 : inUse lim u < nSram) (full : ∀ b ∈ u.hw.vcam.used, b = true) :
    ∃ u' i, step lim u (.openP descs) = some u' ∧ u.held i = none ∧ u'.held i = some (.ppm false) ∧ (u'.hw.frame i).vcam = 0xFFFF := by
  have inv := r.inv c
  obtain ⟨i, hi⟩ := frame_left inv h1
  obtain ⟨hlt, hun⟩ := allocFrame_spec hi
  obtain ⟨io, hio⟩ := placeAll_fits descs (fun _ => none) hd
  have hs := sram_left inv (by rw [r.sizes.sram]; exact h3)
  have hv : u.hw.vcam.alloc.1 = 0xFFFF := by
    unfold Pool.alloc
    split
    · rename_i k hk
      have := full _ (List.mem_of_getElem? (firstFree_some hk))
      cases this
    · rfl
  obtain ⟨h, e, hh⟩ : ∃ h, frameAlloc lim u.hw 6 descs = some (h, some i) ∧ (h.frame i).vcam = 0xFFFF := by
    unfold frameAlloc
    rw [hi, Option.bind_some]
    simp only
    rw [if_neg hs, hio, Option.bind_some]
    exact ⟨_, rfl, by unfold Hw.setFrame; simpa using hv⟩
  refine ⟨u.hold h i (some (.ppm false)), i, ?_, ?_, ?_, hh⟩
  · unfold step
    simp only [e, Option.map_some]
  · have := inv.used i hlt
    rw [hun] at this
    cases hh : u.held i with
    | none => rfl
    | some y => rw [hh] at this; cases this
  · unfold Use.hold; simp

end
end Verif.Lan
