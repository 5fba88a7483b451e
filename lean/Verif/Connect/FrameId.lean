import Verif.Connect.Lemmas
/-! The loop of the frame ID assignment. -/
set_option linter.unusedSimpArgs false
set_option linter.unusedVariables false
namespace Verif.Connect

theorem searchFree_exit (maxAr : Nat) (ars : List Ar) (stop : Nat) :
    ∀ (fuel : Nat) (fid r : BitVec 16), searchFree maxAr ars stop fuel fid = some r →
      r.toNat ≤ stop → ¬ ∃ i j, UsedAt maxAr ars i j r.toNat := by
  intro fuel
  induction fuel with
  | zero => intro fid r h; simp [searchFree] at h
  | succ n ih =>
    intro fid r h hr hu
    unfold searchFree at h
    split at h
    · exact ih _ _ h hr hu
    · rename_i hc
      cases h
      exact hc ⟨hr, (verifyFree_iff _ _ _).2 hu⟩

/-- The CR waits for a frame ID chosen by the device. -/
def Waiting (cr : Cr) : Prop := cr.type = 2 ∧ cr.frameId.toNat = 0xFFFF

instance (cr : Cr) : Decidable (Waiting cr) := by unfold Waiting; infer_instance

theorem waiting_iff (cr : Cr) : Waiting cr ↔ cr.type = 2 ∧ cr.frameId = 0xFFFF := by
  unfold Waiting
  rw [← BitVec.toNat_inj (x := cr.frameId)]
  simp

/-- What one pass does. -/
theorem fixOne_cases {maxAr : Nat} {ars ars' : List Ar} {i j : Nat}
    (h : fixOne maxAr ars i j = some ars') :
    (∃ cr f, crAt ars i j = some cr ∧ Waiting cr ∧ ars' = setFid ars i j f ∧
      (¬ ∃ i' j', UsedAt maxAr ars i' j' f.toNat) ∧
      (cr.rtClass ∈ [1, 2, 3, 4] → InRange cr.rtClass f.toNat ∧
        ∀ g < f.toNat, InRange cr.rtClass g → ∃ i' j', UsedAt maxAr ars i' j' g)) ∨
    (ars' = ars ∧ ∀ cr, crAt ars i j = some cr → Waiting cr →
      (cr.rtClass ∈ [1, 2, 3, 4] → ∀ g, InRange cr.rtClass g → ∃ i' j', UsedAt maxAr ars i' j' g)) := by
  unfold fixOne at h
  cases hc : (ars[i]?).bind (fun ar => ar.crs[j]?) with
  | none =>
    rw [hc] at h; cases h
    right; refine ⟨rfl, ?_⟩
    intro cr h1; unfold crAt at h1; rw [hc] at h1; cases h1
  | some cr =>
    rw [hc] at h
    simp only at h
    have hcr : crAt ars i j = some cr := hc
    by_cases hw : cr.type = 2 ∧ cr.frameId = 0xFFFF
    · rw [if_pos hw] at h
      simp only [Option.bind_eq_some_iff] at h
      obtain ⟨fid, hs, h⟩ := h
      -- the search for the four classes with a range
      have key : cr.rtClass ∈ [1, 2, 3, 4] → ∃ lo hi, fidRange cr.rtClass = (lo, hi) ∧
          (∀ g, InRange cr.rtClass g ↔ lo ≤ g ∧ g ≤ hi) ∧ lo ≤ hi ∧ hi < 65535 := by
        intro hm
        simp only [List.mem_cons, List.not_mem_nil, or_false] at hm
        rcases hm with h | h | h | h <;> rw [h] <;> unfold fidRange InRange <;>
          simp <;> (try constructor) <;> (try intro g) <;> (try omega)
      have hsearch : cr.rtClass ∈ [1, 2, 3, 4] → (fidRange cr.rtClass).1 ≤ fid.toNat ∧
          (∀ g, InRange cr.rtClass g → g < fid.toNat → ∃ i' j', UsedAt maxAr ars i' j' g) := by
        intro hm
        obtain ⟨lo, hi, hr, hin, hlh, hhi⟩ := key hm
        rw [hr] at hs ⊢
        simp only at hs ⊢
        have hlo : (BitVec.ofNat 16 lo).toNat = lo := by
          rw [BitVec.toNat_ofNat]; omega
        obtain ⟨r, h1, h2, h3, h4, h5⟩ := searchFree_spec maxAr ars hi hhi 65537 (BitVec.ofNat 16 lo)
          (by omega) (by omega)
        rw [hs] at h1; cases h1
        rw [hlo] at h2 h4
        exact ⟨h2, fun g hg hlt => h4 g ((hin g).1 hg).1 hlt⟩
      split at h
      · rename_i hle
        cases h
        left
        refine ⟨cr, fid, hcr, (waiting_iff cr).2 hw, rfl, searchFree_exit _ _ _ _ _ _ hs hle, ?_⟩
        intro hm
        obtain ⟨lo, hi, hr, hin, hlh, hhi⟩ := key hm
        obtain ⟨h1, h2⟩ := hsearch hm
        rw [hr] at h1 hle
        exact ⟨(hin _).2 ⟨h1, hle⟩, fun g hg1 hg2 => h2 g hg2 hg1⟩
      · rename_i hle
        cases h
        right
        refine ⟨rfl, ?_⟩
        intro cr' h1 _ hm g hg
        rw [hcr] at h1; cases h1
        obtain ⟨lo, hi, hr, hin, hlh, hhi⟩ := key hm
        rw [hr] at hle
        exact (hsearch hm).2 g hg (by have := (hin g).1 hg; simp only at hle; omega)
    · rw [if_neg hw] at h
      cases h
      right
      refine ⟨rfl, ?_⟩
      intro cr' h1 h2
      rw [hcr] at h1; cases h1
      exact absurd ((waiting_iff cr).1 h2) hw

/-- Result for CR `j` of AR `i`, which asked for a frame ID: a good choice, or all are in use. -/
def Settled (maxAr : Nat) (ars : List Ar) (i j cls fid : Nat) : Prop :=
  GoodChoice maxAr ars i j cls fid ∨
  fid = 0xFFFF ∧ ∀ g, InRange cls g → ∃ i' j', UsedAt maxAr ars i' j' g

structure FixInv (maxAr : Nat) (ars0 : List Ar) (i j : Nat) (ars : List Ar) : Prop where
  len : ars.length = ars0.length
  use : ∀ i' : Nat, (∃ ar : Ar, ars[i']? = some ar ∧ ar.inUse = true) ↔ ∃ ar : Ar, ars0[i']? = some ar ∧ ar.inUse = true
  other : ∀ i' j', ¬ (i' = i ∧ j' < j) → crAt ars i' j' = crAt ars0 i' j'
  same : ∀ j' cr, crAt ars0 i j' = some cr → ¬ Waiting cr → crAt ars i j' = some cr
  done : ∀ j' < j, ∀ cr, crAt ars0 i j' = some cr → Waiting cr →
    ∃ f, crAt ars i j' = some { cr with frameId := f } ∧
      (cr.rtClass ∈ [1, 2, 3, 4] → Settled maxAr ars i j' cr.rtClass f.toNat)

theorem inRange_lt {c g : Nat} (h : InRange c g) : g < 0xFFFF := by
  unfold InRange at h; omega

theorem settled_set {maxAr : Nat} {ars : List Ar} {i j j' cls fid : Nat} {cr : Cr} {f : BitVec 16}
    (hi : i < maxAr) (hu : ∃ ar, ars[i]? = some ar ∧ ar.inUse = true)
    (hcr : crAt ars i j = some cr) (hw : Waiting cr)
    (hfree : ¬ ∃ i' j', UsedAt maxAr ars i' j' f.toNat) (hj : j' ≠ j)
    (hat : UsedAt maxAr ars i j' fid)
    (h : Settled maxAr ars i j' cls fid) : Settled maxAr (setFid ars i j f) i j' cls fid := by
  have huse : ∀ g, g < 0xFFFF → (∃ i' j', UsedAt maxAr ars i' j' g) →
      ∃ i' j', UsedAt maxAr (setFid ars i j f) i' j' g := by
    rintro g hg ⟨i', j'', hu'⟩
    refine ⟨i', j'', ?_⟩
    rw [usedAt_setFid]
    by_cases hc : i' = i ∧ j'' = j
    · obtain ⟨rfl, rfl⟩ := hc
      obtain ⟨-, -, cr', hc', he⟩ := hu'
      rw [hcr] at hc'; cases hc'
      have := hw.2; omega
    · rw [if_neg hc]; exact hu'
  rcases h with ⟨h1, h2, h3⟩ | ⟨h1, h2⟩
  · left
    refine ⟨h1, ?_, fun g hg hr => huse g (inRange_lt hr) (h3 g hg hr)⟩
    intro i' j'' hu'
    rw [usedAt_setFid] at hu'
    split at hu'
    · exfalso
      obtain ⟨he, -⟩ := hu'
      exact hfree ⟨i, j', by rw [he]; exact hat⟩
    · exact h2 i' j'' hu'
  · right
    exact ⟨h1, fun g hg => huse g (inRange_lt hg) (h2 g hg)⟩

theorem fixInv_step {maxAr : Nat} {ars0 ars ars' : List Ar} {i j : Nat} (hi : i < maxAr)
    (hu0 : ∃ ar, ars0[i]? = some ar ∧ ar.inUse = true)
    (hinv : FixInv maxAr ars0 i j ars) (h : fixOne maxAr ars i j = some ars') :
    FixInv maxAr ars0 i (j + 1) ars' := by
  have hu : ∃ ar, ars[i]? = some ar ∧ ar.inUse = true := (hinv.use i).2 hu0
  have hcr0 : crAt ars i j = crAt ars0 i j := hinv.other i j (by omega)
  rcases fixOne_cases h with ⟨cr, f, hcr, hw, rfl, hfree, hgood⟩ | ⟨rfl, hno⟩
  · refine ⟨by simp [setFid, hinv.len], ?_, ?_, ?_, ?_⟩
    · intro i'; rw [inUse_setFid]; exact hinv.use i'
    · intro i' j' hne
      rw [crAt_setFid, if_neg (by omega)]
      exact hinv.other i' j' (by omega)
    · intro j' cr' h1 h2
      rw [crAt_setFid]
      by_cases hj : j' = j
      · subst hj; rw [← hcr0, hcr] at h1; cases h1; exact absurd hw h2
      · rw [if_neg (by omega)]; exact hinv.same j' cr' h1 h2
    · intro j' hj' cr' h1 h2
      by_cases hj : j' = j
      · subst hj
        rw [← hcr0, hcr] at h1; cases h1
        refine ⟨f, by rw [crAt_setFid, if_pos ⟨rfl, rfl⟩, hcr]; rfl, ?_⟩
        intro hm
        obtain ⟨g1, g2⟩ := hgood hm
        left
        refine ⟨g1, ?_, ?_⟩
        · intro i' j'' hu'
          rw [usedAt_setFid] at hu'
          split at hu'
          · assumption
          · exact absurd ⟨i', j'', hu'⟩ hfree
        · intro g hg hr
          obtain ⟨i', j'', hu'⟩ := g2 g hg hr
          refine ⟨i', j'', ?_⟩
          rw [usedAt_setFid]
          by_cases hc : i' = i ∧ j'' = j'
          · obtain ⟨rfl, rfl⟩ := hc
            obtain ⟨-, -, cr', hc', he⟩ := hu'
            rw [hcr] at hc'; cases hc'
            have := hw.2; have := inRange_lt hr; omega
          · rw [if_neg hc]; exact hu'
      · obtain ⟨f', h3, h4⟩ := hinv.done j' (by omega) cr' h1 h2
        refine ⟨f', by rw [crAt_setFid, if_neg (by omega)]; exact h3, ?_⟩
        intro hm
        exact settled_set hi hu hcr hw hfree hj ⟨hi, hu, _, h3, rfl⟩ (h4 hm)
  · refine ⟨hinv.len, hinv.use, ?_, hinv.same, ?_⟩
    · intro i' j' hne; exact hinv.other i' j' (by omega)
    · intro j' hj' cr' h1 h2
      by_cases hj : j' = j
      · subst hj
        rw [← hcr0] at h1
        refine ⟨cr'.frameId, by rw [h1], ?_⟩
        intro hm
        exact Or.inr ⟨h2.2, hno cr' h1 h2 hm⟩
      · exact hinv.done j' (by omega) cr' h1 h2

theorem fixFrom_inv {maxAr : Nat} {ars0 : List Ar} {i : Nat} (hi : i < maxAr)
    (hu0 : ∃ ar, ars0[i]? = some ar ∧ ar.inUse = true) :
    ∀ (n j : Nat) (ars ars' : List Ar), FixInv maxAr ars0 i j ars →
      fixFrom maxAr i n j ars = some ars' → FixInv maxAr ars0 i (j + n) ars' := by
  intro n
  induction n with
  | zero => intro j ars ars' hinv h; simp [fixFrom] at h; subst h; exact hinv
  | succ n ih =>
    intro j ars ars' hinv h
    simp only [fixFrom, Option.bind_eq_some_iff] at h
    obtain ⟨a1, h1, h2⟩ := h
    have := ih (j + 1) a1 ars' (fixInv_step hi hu0 hinv h1) h2
    rwa [show j + 1 + n = j + (n + 1) by omega] at this

theorem flatMap_set_len (ars : List Ar) (i j : Nat) (f : BitVec 16) :
    ((setFid ars i j f).flatMap (·.crs)).length = (ars.flatMap (·.crs)).length := by
  rw [List.length_flatMap, List.length_flatMap]
  congr 1
  unfold setFid
  apply List.ext_getElem?
  intro k
  rw [List.getElem?_map, List.getElem?_map, List.getElem?_modify]
  cases ars[k]? with
  | none => simp
  | some a => simp; split <;> simp

theorem fixOne_term {maxAr : Nat} {ars : List Ar} (i j : Nat)
    (h : (ars.flatMap (·.crs)).length < 65536) :
    ∃ ars', fixOne maxAr ars i j = some ars' ∧ (ars'.flatMap (·.crs)).length < 65536 := by
  unfold fixOne
  cases hc : (ars[i]?).bind (fun ar => ar.crs[j]?) with
  | none => exact ⟨ars, rfl, h⟩
  | some cr =>
    simp only
    split
    · obtain ⟨f, hf⟩ := exists_free maxAr ars h
      obtain ⟨r, hr⟩ := searchFree_term maxAr ars (fidRange cr.rtClass).2 65537
        (BitVec.ofNat 16 (fidRange cr.rtClass).1) (f - BitVec.ofNat 16 (fidRange cr.rtClass).1).toNat
        (by have := (f - BitVec.ofNat 16 (fidRange cr.rtClass).1).isLt; omega)
        (by rw [BitVec.ofNat_toNat, BitVec.setWidth_eq, BitVec.add_comm, BitVec.sub_add_cancel]; exact hf)
      rw [hr]
      simp only [Option.bind_some]
      split
      · exact ⟨_, rfl, by rw [flatMap_set_len]; exact h⟩
      · exact ⟨_, rfl, h⟩
    · exact ⟨ars, rfl, h⟩

theorem fixFrom_term (maxAr i : Nat) : ∀ (n j : Nat) (ars : List Ar),
    (ars.flatMap (·.crs)).length < 65536 → ∃ ars', fixFrom maxAr i n j ars = some ars' := by
  intro n
  induction n with
  | zero => intro j ars _; exact ⟨ars, rfl⟩
  | succ n ih =>
    intro j ars h
    obtain ⟨a, ha, hl⟩ := fixOne_term (maxAr := maxAr) i j h
    obtain ⟨b, hb⟩ := ih (j + 1) a hl
    exact ⟨b, by simp [fixFrom, ha, hb]⟩

end Verif.Connect
