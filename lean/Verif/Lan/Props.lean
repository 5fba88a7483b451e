import Verif.Lan.Inv

/-! C133: hardware resources of the LAN9662 driver. -/
set_option linter.unusedSimpArgs false
set_option linter.unusedVariables false

namespace Verif.Lan

theorem PoolInv.eq {K : Type} {p : Pool} {own own' : K → Option U16} {E : Prop} (h : PoolInv p own E) (e : own = own') : PoolInv p own' E := e ▸ h
theorem SramInv.eq {p : List Bool} {own own' : Nat → Option U16} (h : SramInv p own) (e : own = own') : SramInv p own' := e ▸ h

/-- No setting of the hardware for a single object fails. -/
def Op.Good : Op → Prop
  | .startP _ _ ok => ∀ q, ok q = true
  | _ => True

theorem allocFrame_spec {lim : Lim} {h : Hw} {i : Nat} (e : allocFrame lim h = some i) : i < lim.frames ∧ (h.frame i).used = false := by
  have h1 := List.find?_some e
  have h2 := List.mem_range.mp (List.mem_of_find?_eq_some e)
  exact ⟨h2, by simpa using h1⟩

theorem frameAlloc_inv {lim : Lim} {u : Use} {E : Prop} (inv : Inv lim u E) {off : U16} {descs : List Io} {x : Held} (hx : x = .ppm false ∨ x = .cpm)
    {h : Hw} {r : Option Nat} (e : frameAlloc lim u.hw off descs = some (h, r)) :
    match r with
    | some i => u.held i = none ∧ Inv lim (u.hold h i (some x)) E
    | none => Inv lim { u with hw := h } E := by
  unfold frameAlloc at e
  cases ea : allocFrame lim u.hw with
  | none => rw [ea] at e; cases e
  | some i =>
    rw [ea, Option.bind_some] at e
    obtain ⟨hi, hu⟩ := allocFrame_spec ea
    have hnone : u.held i = none := by
      have := inv.used i hi
      rw [hu] at this
      cases hh : u.held i with
      | none => rfl
      | some y => rw [hh] at this; cases this
    have hko : ∀ f, owns f u.hw u.held i = none := fun f => by unfold owns; rw [hnone]; rfl
    have hks : sramOwns u.hw u.held i = none := by unfold sramOwns; rw [hnone]; rfl
    rcases sramAlloc_inv inv.sram hks with ⟨z1, z2⟩ | ⟨z1, z2⟩
    · simp only [z1, if_true] at e
      cases e
      simp only
      rw [z2]
      have hfr : ∀ j, (u.held j).isSome → ((({ u.hw with sram := u.hw.sram } : Hw).setFrame i { freshFrame with used := false, sram := 0 }).frame j) = u.hw.frame j := by
        intro j hj
        unfold Hw.setFrame
        by_cases c : j = i
        · subst c; rw [hnone] at hj; cases hj
        · simp [c]
      generalize hh : (({ u.hw with sram := u.hw.sram } : Hw).setFrame i { freshFrame with used := false, sram := 0 }) = h' at *
      have g1 : h'.vcam = u.hw.vcam := by rw [← hh]; rfl
      have g2 : h'.vlan = u.hw.vlan := by rw [← hh]; rfl
      have g3 : h'.rtp = u.hw.rtp := by rw [← hh]; rfl
      have g4 : h'.wal = u.hw.wal := by rw [← hh]; rfl
      have g5 : h'.sram = u.hw.sram := by rw [← hh]; rfl
      have g6 : h'.ral = u.hw.ral := by rw [← hh]; rfl
      have ho : ∀ f, owns f h' u.held = owns f u.hw u.held := by
        intro f; funext j; unfold owns
        split
        · rename_i c; rw [hfr j c]
        · rfl
      have hs : sramOwns h' u.held = sramOwns u.hw u.held := by
        funext j; unfold sramOwns
        split
        · rename_i c; rw [hfr j c]
        · rfl
      have hr : ralOwns h' u.held = ralOwns u.hw u.held := by
        funext ⟨j, q⟩; unfold ralOwns
        simp only
        split
        · rename_i c; rw [hfr j c]
        · rfl
      refine ⟨fun j hj => ?_, inv.inside, ?_, ?_, ?_, ?_, ?_, ?_, fun j hj => ?_, fun he j hj => ?_, fun j hj => ?_⟩
      · cases hc : u.held j with
        | some y => rw [hfr j (by rw [hc]; rfl), inv.used j hj, hc]
        | none =>
          rw [← hh]
          unfold Hw.setFrame
          by_cases c : j = i
          · simp [c]
          · have := inv.used j hj
            simp [c, this, hc]
      · show PoolInv h'.vcam (owns Frame.vcam h' u.held) True
        rw [g1, ho]; exact inv.vcam
      · show PoolInv h'.vlan (owns Frame.vlan h' u.held) True
        rw [g2, ho]; exact inv.vlan
      · show PoolInv h'.rtp (owns Frame.rtp h' u.held) True
        rw [g3, ho]; exact inv.rtp
      · show PoolInv h'.wal (owns Frame.wal h' u.held) True
        rw [g4, ho]; exact inv.wal
      · show SramInv h'.sram (sramOwns h' u.held)
        rw [g5, hs]; exact inv.sram
      · show PoolInv h'.ral (ralOwns h' u.held) E
        rw [g6, hr]; exact inv.ral
      · show ∀ q, (h'.frame j).ral q = invalid
        rw [hfr j (by rcases hj with hj | hj <;> (have hj : u.held j = _ := hj; rw [hj]; rfl))]
        exact inv.fresh j hj
      · show (h'.frame j).active = true ∨ ∀ q, (h'.frame j).ral q = invalid
        rw [hfr j (by have hj : u.held j = _ := hj; rw [hj]; rfl)]
        exact inv.done he j hj
      · show ∀ q, (h'.frame j).ral q ≠ invalid → _
        rw [hfr j hj]
        exact inv.table j hj
    · simp only at e
      rw [if_neg z1] at e
      cases ep : placeAll lim descs (fun _ => none) with
      | none => rw [ep] at e; cases e
      | some io =>
        rw [ep, Option.bind_some] at e
        simp only [Option.some.injEq, Prod.mk.injEq] at e
        obtain ⟨e1, e2⟩ := e
        subst e2
        simp only
        refine ⟨hnone, ?_⟩
        have a1 := alloc_inv inv.vcam (hko Frame.vcam)
        have a2 := alloc_inv inv.vlan (hko Frame.vlan)
        have a3 := alloc_inv inv.rtp (hko Frame.rtp)
        have a4 := alloc_inv inv.wal (hko Frame.wal)
        generalize u.hw.vcam.alloc = r1 at *
        generalize u.hw.vlan.alloc = r2 at *
        generalize u.hw.rtp.alloc = r3 at *
        generalize u.hw.wal.alloc = r4 at *
        generalize sramAlloc u.hw.sram = r5 at *
        subst e1
        have hsome : ∀ j, ((u.hold (({ u.hw with vcam := r1.2, rtp := r3.2, wal := r4.2, vlan := r2.2, sram := r5.2 } : Hw).setFrame i
            { freshFrame with vcam := r1.1, rtp := r3.1, wal := r4.1, vlan := r2.1, sram := r5.1, offset := off, io := io }) i (some x)).held j) =
            if j = i then some x else u.held j := fun j => rfl
        refine ⟨fun j hj => ?_, fun j hj => ?_, ?_, ?_, ?_, ?_, ?_, ?_, fun j hj => ?_, fun he j hj => ?_, fun j hj => ?_⟩
        · unfold Use.hold Hw.setFrame
          by_cases c : j = i
          · simp [c, freshFrame]
          · simp [c, inv.used j hj]
        · by_cases c : j = i
          · rw [c]; exact hi
          · rw [hsome j, if_neg c] at hj
            exact inv.inside j hj
        · exact (owns_open Frame.vcam (h := u.hw) rfl u.held i _ x) ▸ a1
        · exact (owns_open Frame.vlan (h := u.hw) rfl u.held i _ x) ▸ a2
        · exact (owns_open Frame.rtp (h := u.hw) rfl u.held i _ x) ▸ a3
        · exact (owns_open Frame.wal (h := u.hw) rfl u.held i _ x) ▸ a4
        · refine SramInv.eq z2 ?_
          funext j
          unfold sramOwns upd Use.hold Hw.setFrame
          by_cases c : j = i
          · simp [c]
          · simp [c]
        · have : ralOwns u.hw u.held = ralOwns (({ u.hw with vcam := r1.2, rtp := r3.2, wal := r4.2, vlan := r2.2, sram := r5.2 } : Hw).setFrame i
              { freshFrame with vcam := r1.1, rtp := r3.1, wal := r4.1, vlan := r2.1, sram := r5.1, offset := off, io := io }) (fun j => if j = i then some x else u.held j) := by
            funext ⟨j, q⟩
            unfold ralOwns Hw.setFrame
            by_cases c : j = i
            · simp [c, hnone, freshFrame, valid_invalid]
            · simp [c]
          exact this ▸ inv.ral
        · intro q
          rw [hsome j] at hj
          unfold Use.hold Hw.setFrame
          by_cases c : j = i
          · simp [c, freshFrame]
          · rw [if_neg c] at hj
            simp only [c, if_false]
            exact inv.fresh j hj q
        · rw [hsome j] at hj
          unfold Use.hold Hw.setFrame
          by_cases c : j = i
          · rw [if_pos c] at hj
            rcases hx with rfl | rfl <;> cases hj
          · rw [if_neg c] at hj
            simp only [c, if_false]
            exact inv.done he j hj
        · intro q
          rw [hsome j] at hj
          unfold Use.hold Hw.setFrame
          by_cases c : j = i
          · simp [c, freshFrame]
          · rw [if_neg c] at hj
            simp only [c, if_false]
            exact inv.table j hj q

/-- Giving back a frame whose read action lists are no longer owned. -/
theorem frameFree_inv {lim : Lim} {u : Use} {E : Prop} (inv : Inv lim u E) {i : Nat} (hs : (u.held i).isSome) {p : Pool}
    (hp : PoolInv p (fun x => if x.1 = i then none else ralOwns u.hw u.held x) E) :
    ∃ h, frameFree { u.hw with ral := p } i = some h ∧ Inv lim (u.hold h i none) E := by
  have ho : ∀ f : Frame → U16, owns f u.hw u.held i = valid (f (u.hw.frame i)) := fun f => by unfold owns; rw [if_pos hs]
  have hso : sramOwns u.hw u.held i = some (u.hw.frame i).sram := by unfold sramOwns; rw [if_pos hs]
  obtain ⟨p1, e1, i1⟩ := free_inv inv.vcam (ho Frame.vcam)
  obtain ⟨p2, e2, i2⟩ := free_inv inv.vlan (ho Frame.vlan)
  obtain ⟨p3, e3, i3⟩ := free_inv inv.wal (ho Frame.wal)
  obtain ⟨p4, e4, i4⟩ := free_inv inv.rtp (ho Frame.rtp)
  have i5 := sramFree_inv inv.sram hso
  unfold frameFree
  simp only [e1, e2, e3, e4, Option.bind_some]
  refine ⟨_, rfl, fun j hj => ?_, fun j hj => ?_, ?_, ?_, ?_, ?_, ?_, ?_, fun j hj => ?_, fun he j hj => ?_, fun j hj => ?_⟩
  · unfold Use.hold Hw.setFrame
    by_cases c : j = i
    · simp [c]
    · simp [c, inv.used j hj]
  · have hj' : (if j = i then none else u.held j).isSome = true := hj
    by_cases c : j = i
    · rw [if_pos c] at hj'; cases hj'
    · rw [if_neg c] at hj'
      exact inv.inside j hj'
  · exact (owns_close Frame.vcam (h := u.hw) rfl u.held i _) ▸ i1
  · exact (owns_close Frame.vlan (h := u.hw) rfl u.held i _) ▸ i2
  · exact (owns_close Frame.rtp (h := u.hw) rfl u.held i _) ▸ i4
  · exact (owns_close Frame.wal (h := u.hw) rfl u.held i _) ▸ i3
  · refine SramInv.eq i5 ?_
    funext j
    unfold sramOwns upd Use.hold Hw.setFrame
    by_cases c : j = i
    · simp [c]
    · simp [c]
  · refine PoolInv.eq hp ?_
    funext ⟨j, q⟩
    unfold ralOwns Use.hold Hw.setFrame
    by_cases c : j = i
    · simp [c]
    · simp [c]
  · intro q
    have hj' : (if j = i then none else u.held j) = some (.ppm false) ∨ (if j = i then none else u.held j) = some .cpm := hj
    unfold Use.hold Hw.setFrame
    by_cases c : j = i
    · rw [if_pos c] at hj'; rcases hj' with h | h <;> cases h
    · rw [if_neg c] at hj'
      simp only [c, if_false]
      exact inv.fresh j hj' q
  · have hj' : (if j = i then none else u.held j) = some (.ppm true) := hj
    unfold Use.hold Hw.setFrame
    by_cases c : j = i
    · rw [if_pos c] at hj'; cases hj'
    · rw [if_neg c] at hj'
      simp only [c, if_false]
      exact inv.done he j hj'
  · intro q
    have hj' : (if j = i then none else u.held j).isSome = true := hj
    unfold Use.hold Hw.setFrame
    by_cases c : j = i
    · rw [if_pos c] at hj'; cases hj'
    · rw [if_neg c] at hj'
      simp only [c, if_false]
      exact inv.table j hj' q

theorem close_inv {lim : Lim} {u : Use} {E : Prop} (inv : Inv lim u E) (i : Nat) :
    ∃ u', step lim u (.close i) = some u' ∧ Inv lim u' E := by
  unfold step
  simp only
  have drop : (∀ q, E → (u.hw.frame i).ral q = invalid) → PoolInv u.hw.ral (fun x => if x.1 = i then none else ralOwns u.hw u.held x) E := by
    intro hq
    refine drop_inv inv.ral (fun k id h => ?_) (fun he k => ?_)
    · split at h
      · cases h
      · exact h
    · split
      · rename_i c
        unfold ralOwns
        split
        · rw [c, hq k.2 he, valid_invalid]
        · rfl
      · rfl
  split
  · rename_i s hh
    have hs : (u.held i).isSome := by rw [hh]; rfl
    unfold ppmStop
    by_cases ca : (u.hw.frame i).active = true
    · rw [if_pos ca]
      obtain ⟨p, e, hp⟩ := stopLoop_spec i (u.hw.frame i) E (places lim) u.hw.ral (ralOwns u.hw u.held) (places_nodup lim)
        (fun q _ => by unfold ralOwns; rw [if_pos hs]) inv.ral
      rw [e]
      have hp' : PoolInv p (fun x => if x.1 = i then none else ralOwns u.hw u.held x) E := by
        refine PoolInv.eq hp ?_
        funext ⟨j, q⟩
        by_cases cj : j = i
        · subst cj
          by_cases cq : q ∈ places lim
          · simp [cq]
          · have : (u.hw.frame j).ral q = invalid := by
              rcases Classical.em ((u.hw.frame j).ral q = invalid) with h | h
              · exact h
              · exact absurd (inv.table j hs q h) cq
            simp [cq, ralOwns, this, valid_invalid]
        · simp [cj]
      obtain ⟨h, e2, i2⟩ := frameFree_inv inv hs hp'
      simp only [Option.map_some, Option.bind_some]
      rw [e2]
      exact ⟨_, rfl, i2⟩
    · rw [if_neg ca, Option.bind_some]
      obtain ⟨h, e2, i2⟩ := frameFree_inv inv hs (p := u.hw.ral) (drop fun q he => by
        cases s with
        | false => exact inv.fresh i (Or.inl hh) q
        | true =>
          rcases inv.done he i hh with h | h
          · exact absurd h ca
          · exact h q)
      have e2 : frameFree u.hw i = some h := e2
      rw [e2]
      exact ⟨_, rfl, i2⟩
  · rename_i hh
    have hs : (u.held i).isSome := by rw [hh]; rfl
    obtain ⟨h, e2, i2⟩ := frameFree_inv inv hs (p := u.hw.ral) (drop fun q he => inv.fresh i (Or.inr hh) q)
    have e2 : frameFree u.hw i = some h := e2
    rw [e2]
    exact ⟨_, rfl, i2⟩
  · exact ⟨u, rfl, inv⟩

/-- A change of frame `i` that touches no numbers. -/
theorem Inv.touch {lim : Lim} {u : Use} {E : Prop} (inv : Inv lim u E) {i : Nat} (f : Frame)
    (h1 : f.used = (u.hw.frame i).used) (h2 : f.vcam = (u.hw.frame i).vcam) (h3 : f.vlan = (u.hw.frame i).vlan) (h4 : f.rtp = (u.hw.frame i).rtp)
    (h5 : f.wal = (u.hw.frame i).wal) (h6 : f.sram = (u.hw.frame i).sram) (h7 : f.ral = (u.hw.frame i).ral)
    (h8 : (u.hw.frame i).active = true → f.active = true) : Inv lim { u with hw := u.hw.setFrame i f } E := by
  have hf : ∀ j, (u.hw.setFrame i f).frame j = if j = i then f else u.hw.frame j := fun j => rfl
  have ho : ∀ g : Frame → U16, g f = g (u.hw.frame i) → owns g (u.hw.setFrame i f) u.held = owns g u.hw u.held := by
    intro g hg
    refine owns_same g (fun j => ?_) fun j => rfl
    rw [hf]
    split
    · rename_i c; rw [c, hg]
    · rfl
  refine ⟨fun j hj => ?_, inv.inside, (ho Frame.vcam h2).symm ▸ inv.vcam, (ho Frame.vlan h3).symm ▸ inv.vlan, (ho Frame.rtp h4).symm ▸ inv.rtp,
    (ho Frame.wal h5).symm ▸ inv.wal, ?_, ?_, fun j hj => ?_, fun he j hj => ?_, fun j hj => ?_⟩
  · show ((u.hw.setFrame i f).frame j).used = _
    rw [hf]
    split
    · rename_i c; rw [c, h1, inv.used i (c ▸ hj)]
    · exact inv.used j hj
  · refine SramInv.eq inv.sram ?_
    funext j
    unfold sramOwns
    rw [hf]
    split
    · split
      · rename_i c; rw [c, h6]
      · rfl
    · rfl
  · refine PoolInv.eq inv.ral ?_
    funext ⟨j, q⟩
    unfold ralOwns
    rw [hf]
    split
    · split
      · rename_i c; simp only at c; simp only [c, h7]
      · rfl
    · rfl
  · show ∀ q, ((u.hw.setFrame i f).frame j).ral q = invalid
    rw [hf]
    split
    · rename_i c; rw [h7]; exact inv.fresh i (c ▸ hj)
    · exact inv.fresh j hj
  · show ((u.hw.setFrame i f).frame j).active = true ∨ ∀ q, ((u.hw.setFrame i f).frame j).ral q = invalid
    rw [hf]
    split
    · rename_i c; rw [h7]; exact (inv.done he i (c ▸ hj)).imp h8 id
    · exact inv.done he j hj
  · show ∀ q, ((u.hw.setFrame i f).frame j).ral q ≠ invalid → _
    rw [hf]
    split
    · rename_i c; rw [h7]; exact inv.table i (c ▸ hj)
    · exact inv.table j hj

theorem startP_inv {lim : Lim} {u : Use} {E : Prop} (inv : Inv lim u E) (i : Nat) (rule : Bool) (ok : Nat × Nat → Bool)
    (good : E → ∀ q, ok q = true) (hh : u.held i = some (.ppm false)) :
    Inv lim (u.hold (ppmStart lim u.hw i rule ok).1 i (some (.ppm true))) E := by
  have hs : (u.held i).isSome := by rw [hh]; rfl
  have inv1 := inv.touch (i := i) (setAddrs (u.hw.frame i)) rfl rfl rfl rfl rfl rfl rfl (fun h => h)
  unfold ppmStart
  simp only
  generalize hu1 : ({ u with hw := u.hw.setFrame i (setAddrs (u.hw.frame i)) } : Use) = u1 at *
  have hw1 : u.hw.setFrame i (setAddrs (u.hw.frame i)) = u1.hw := by rw [← hu1]
  have hh1 : u1.held = u.held := by rw [← hu1]
  rw [hw1]
  have hold1 : ∀ h, u.hold h i (some (.ppm true)) = u1.hold h i (some (.ppm true)) := by
    intro h; unfold Use.hold; rw [hh1]
  rw [hold1]
  -- the state with the mark "started"
  have lift : ∀ v : Use, v.held i = some (.ppm false) → Inv lim v E → ∀ h', OnlyRal i v.hw h' → PoolInv h'.ral (ralOwns h' v.held) E →
      (∀ q, (h'.frame i).ral q ≠ invalid → q ∈ places lim) → (E → (h'.frame i).active = true ∨ ∀ q, (h'.frame i).ral q = invalid) →
      Inv lim (v.hold h' i (some (.ppm true))) E := by
    intro v hv iv h' o hp ht hd
    have hsome : ∀ j, ((v.hold h' i (some (.ppm true))).held j).isSome = (v.held j).isSome := by
      intro j
      show (if j = i then some (Held.ppm true) else v.held j).isSome = _
      split
      · rename_i c; rw [c, hv]; rfl
      · rfl
    obtain ⟨r, hr⟩ := o.rest
    have hfr : ∀ (g : Frame → U16), (∀ fr r, g { fr with ral := r } = g fr) → ∀ j, g (h'.frame j) = g (v.hw.frame j) := by
      intro g hg j
      by_cases c : j = i
      · rw [c, hr, hg]
      · rw [o.frame j c]
    have how : ∀ (g : Frame → U16), (∀ fr r, g { fr with ral := r } = g fr) →
        owns g h' (v.hold h' i (some (.ppm true))).held = owns g v.hw v.held := fun g hg => owns_same g (hfr g hg) hsome
    refine ⟨fun j hj => ?_, fun j hj => iv.inside j (by rw [hsome j] at hj; exact hj), ?_, ?_, ?_, ?_, ?_, ?_, fun j hj => ?_, fun he j hj => ?_, fun j hj => ?_⟩
    · rw [hsome j, ← iv.used j hj]
      show (h'.frame j).used = _
      by_cases c : j = i
      · rw [c, hr]
      · rw [o.frame j c]
    · have := how Frame.vcam (fun _ _ => rfl)
      show PoolInv h'.vcam (owns Frame.vcam h' (v.hold h' i (some (.ppm true))).held) True
      rw [this, o.vcam]; exact iv.vcam
    · have := how Frame.vlan (fun _ _ => rfl)
      show PoolInv h'.vlan (owns Frame.vlan h' (v.hold h' i (some (.ppm true))).held) True
      rw [this, o.vlan]; exact iv.vlan
    · have := how Frame.rtp (fun _ _ => rfl)
      show PoolInv h'.rtp (owns Frame.rtp h' (v.hold h' i (some (.ppm true))).held) True
      rw [this, o.rtp]; exact iv.rtp
    · have := how Frame.wal (fun _ _ => rfl)
      show PoolInv h'.wal (owns Frame.wal h' (v.hold h' i (some (.ppm true))).held) True
      rw [this, o.wal]; exact iv.wal
    · show SramInv h'.sram (sramOwns h' (v.hold h' i (some (.ppm true))).held)
      have : sramOwns h' (v.hold h' i (some (.ppm true))).held = sramOwns v.hw v.held := by
        funext j
        unfold sramOwns
        rw [hsome j, hfr Frame.sram (fun _ _ => rfl) j]
      rw [this, o.sram]; exact iv.sram
    · show PoolInv h'.ral (ralOwns h' (v.hold h' i (some (.ppm true))).held) E
      have : ralOwns h' (v.hold h' i (some (.ppm true))).held = ralOwns h' v.held := by
        funext ⟨j, q⟩
        unfold ralOwns
        rw [hsome j]
      rw [this]; exact hp
    · have hj' : (if j = i then some (Held.ppm true) else v.held j) = some (.ppm false) ∨ (if j = i then some (Held.ppm true) else v.held j) = some .cpm := hj
      by_cases c : j = i
      · rw [if_pos c] at hj'; rcases hj' with h | h <;> cases h
      · rw [if_neg c] at hj'
        show ∀ q, (h'.frame j).ral q = invalid
        rw [o.frame j c]
        exact iv.fresh j hj'
    · have hj' : (if j = i then some (Held.ppm true) else v.held j) = some (.ppm true) := hj
      show (h'.frame j).active = true ∨ ∀ q, (h'.frame j).ral q = invalid
      by_cases c : j = i
      · rw [c]; exact hd he
      · rw [if_neg c] at hj'
        rw [o.frame j c]
        exact iv.done he j hj'
    · rw [hsome j] at hj
      show ∀ q, (h'.frame j).ral q ≠ invalid → _
      by_cases c : j = i
      · rw [c]; exact ht
      · rw [o.frame j c]; exact iv.table j hj
  have hv : u1.held i = some (.ppm false) := by rw [hh1]; exact hh
  have hs1 : (u1.held i).isSome := by rw [hv]; rfl
  split
  · obtain ⟨o, p, k, d⟩ := startLoop_spec i ok u1.held hs1 E (places lim) u1.hw (places_nodup lim) (fun q _ => inv1.fresh i (Or.inl hv) q) inv1.ral
    have ht : ∀ q, ((startLoop i ok (places lim) u1.hw).1.frame i).ral q ≠ invalid → q ∈ places lim := by
      intro q hq
      rcases Classical.em (q ∈ places lim) with c | c
      · exact c
      · rw [k q c, inv1.fresh i (Or.inl hv) q] at hq
        exact absurd rfl hq
    generalize startLoop i ok (places lim) u1.hw = r at *
    obtain ⟨h', done⟩ := r
    simp only at o p k d ht ⊢
    split
    · rename_i hd
      have o' : OnlyRal i { u1.hw with frame := fun j => if j = i then { u1.hw.frame i with active := true } else u1.hw.frame j }
          (h'.setFrame i { h'.frame i with active := true }) := by
        refine ⟨o.vcam, o.vlan, o.rtp, o.wal, o.sram, fun j hj => ?_, ?_⟩
        · unfold Hw.setFrame
          simp only [hj, if_false]
          exact o.frame j hj
        · obtain ⟨r, hr⟩ := o.rest
          exact ⟨r, by unfold Hw.setFrame; simp only [if_true]; rw [hr]⟩
      have inv2 := inv1.touch (i := i) { u1.hw.frame i with active := true } rfl rfl rfl rfl rfl rfl rfl (fun _ => rfl)
      have := lift { u1 with hw := u1.hw.setFrame i { u1.hw.frame i with active := true } } hv inv2
        (h'.setFrame i { h'.frame i with active := true }) o' (by
          refine PoolInv.eq p ?_
          funext ⟨j, q⟩
          unfold ralOwns Hw.setFrame
          by_cases c : j = i
          · simp [c]
          · simp [c]) (by
          intro q
          unfold Hw.setFrame
          simp only [if_true]
          exact ht q) (fun _ => Or.inl (by unfold Hw.setFrame; simp))
      exact this
    · rename_i hd
      exact lift u1 hv inv1 h' o p ht fun he => absurd (d fun q _ _ => good he q) hd
  · exact lift u1 hv inv1 u1.hw ⟨rfl, rfl, rfl, rfl, rfl, fun _ _ => rfl, _, rfl⟩ inv1.ral (fun q hq => absurd (inv1.fresh i (Or.inl hv) q) hq)
      fun _ => Or.inr (inv1.fresh i (Or.inl hv))

theorem step_inv {lim : Lim} {u u' : Use} {E : Prop} (inv : Inv lim u E) {o : Op} (good : E → o.Good) (e : step lim u o = some u') : Inv lim u' E := by
  cases o with
  | openP descs =>
    unfold step at e
    simp only [Option.map_eq_some_iff] at e
    obtain ⟨⟨h, r⟩, e1, e2⟩ := e
    have := frameAlloc_inv inv (x := .ppm false) (Or.inl rfl) e1
    cases r with
    | none => simp only at this e2; rw [← e2]; exact this
    | some i => simp only at this e2; rw [← e2]; exact this.2
  | openC descs =>
    unfold step at e
    simp only [Option.map_eq_some_iff] at e
    obtain ⟨⟨h, r⟩, e1, e2⟩ := e
    have := frameAlloc_inv inv (x := .cpm) (Or.inr rfl) e1
    cases r with
    | none => simp only at this e2; rw [← e2]; exact this
    | some i => simp only at this e2; rw [← e2]; exact this.2
  | startP i rule ok =>
    unfold step at e
    simp only at e
    split at e
    · rename_i hh
      cases e
      exact startP_inv inv i rule ok good hh
    · cases e; exact inv
  | startC i ok =>
    unfold step at e
    simp only at e
    split at e
    · rename_i hh
      cases e
      have inv1 := inv.touch (i := i) (setAddrs (u.hw.frame i)) rfl rfl rfl rfl rfl rfl rfl (fun h => h)
      unfold cpmStart
      simp only
      split
      · have := inv1.touch (i := i) { (u.hw.setFrame i (setAddrs (u.hw.frame i))).frame i with active := true } rfl rfl rfl rfl rfl rfl rfl (fun _ => rfl)
        exact this
      · exact inv1
    · cases e; exact inv
  | close i =>
    obtain ⟨u2, e2, i2⟩ := close_inv inv i
    rw [e2] at e
    cases e
    exact i2

theorem run_inv {lim : Lim} {E : Prop} : ∀ (ops : List Op) {u u' : Use}, Inv lim u E → (E → ∀ o ∈ ops, o.Good) → run lim u ops = some u' → Inv lim u' E := by
  intro ops
  induction ops with
  | nil => intro u u' inv _ e; cases e; exact inv
  | cons o os ih =>
    intro u u' inv good e
    unfold run at e
    cases es : step lim u o with
    | none => rw [es] at e; cases e
    | some u1 =>
      rw [es, Option.bind_some] at e
      exact ih (step_inv inv (fun he => good he o List.mem_cons_self) es) (fun he o ho => good he o (List.mem_cons_of_mem _ ho)) e

/-- The numbers of the configuration: all pools lie below 0xFFFF and the SRAM frames below 2^16 (four in the code). -/
structure Conf (n nSram : Nat) (vcam rtp ral wal : U16) : Prop where
  sram : 100 + 1600 * nSram ≤ 0x10000
  vcam : vcam.toNat + n ≤ 0xFFFF
  rtp : rtp.toNat + n ≤ 0xFFFF
  ral : ral.toNat + n ≤ 0xFFFF
  wal : wal.toNat + n ≤ 0xFFFF

theorem start_inv (lim : Lim) {n nSram : Nat} {vcam rtp ral wal : U16} (c : Conf n nSram vcam rtp ral wal) (E : Prop) :
    Inv lim (start n nSram vcam rtp ral wal) E := by
  have z : (0 : U16).toNat = 0 := rfl
  refine ⟨fun _ _ => rfl, fun _ h => (nomatch h), init_inv n vcam c.vcam True, init_inv n 0 (by have := c.vcam; omega) True, init_inv n rtp c.rtp True,
    init_inv n wal c.wal True, ⟨by simpa [start, Hw.init] using c.sram, fun k a h => (nomatch h), fun k k' a h => (nomatch h), fun i hi => ?_⟩,
    init_inv n ral c.ral E, fun i h => (by rcases h with h | h <;> cases h), fun _ i h => (nomatch h), fun i h => (nomatch h)⟩
  have : true ∈ List.replicate nSram false := List.mem_of_getElem? hi
  simp at this

end Verif.Lan
