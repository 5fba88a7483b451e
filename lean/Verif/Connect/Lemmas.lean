import Verif.Connect.Spec
import Mathlib.Tactic.Tauto
import Mathlib.Data.Fintype.Card
set_option linter.unusedSimpArgs false
set_option linter.unusedVariables false
namespace Verif.Connect

theorem verdict_nil : Verdict [] (.ok ()) := by simp [Verdict]

theorem verdict_cons {bad p : Prop} [Decidable bad] {e : Err} {l r}
    (h : bad ↔ ¬ p) (hr : p → Verdict l r) :
    Verdict ((e, p) :: l) (if bad then .error e else r) := by
  by_cases hb : bad
  · simp only [hb, if_true]
    exact ⟨[], p, l, rfl, by simp, h.1 hb⟩
  · have hp : p := by tauto
    simp only [hb, if_false]
    have := hr hp
    match r, this with
    | .ok (), h => intro f hf; simp at hf; rcases hf with rfl | hf; exacts [hp, h f hf]
    | .error e', ⟨pre, q, post, h1, h2, h3⟩ =>
      exact ⟨(e, p) :: pre, q, post, by simp [h1], by
        intro f hf; simp at hf; rcases hf with rfl | hf; exacts [hp, h2 f hf], h3⟩

theorem verdict_ok_iff {l r} (h : Verdict l r) : r = .ok () ↔ ∀ f ∈ l, f.2 := by
  match r, h with
  | .ok (), h => exact ⟨fun _ => h, fun _ => rfl⟩
  | .error e, ⟨pre, q, post, h1, h2, h3⟩ =>
    constructor
    · intro h; cases h
    · intro h; exact absurd (h (e, q) (by simp [h1])) h3

theorem getBits_lt {b : BitVec 32} {pos len : Nat} (h0 : len ≠ 0) (h : pos + len ≤ 32)
    (h2 : len < 32) : getBits b pos len = b.toNat / 2 ^ pos % 2 ^ len := by
  unfold getBits
  rw [if_neg h0, if_neg (by omega), if_neg (by omega)]

theorem getBits16_lt {b : BitVec 16} {pos len : Nat} (h0 : len ≠ 0) (h : pos + len ≤ 32)
    (h2 : len < 32) : getBits16 b pos len = b.toNat / 2 ^ pos % 2 ^ len := by
  unfold getBits16
  rw [getBits_lt h0 h h2]
  have : (BitVec.zeroExtend 32 b).toNat = b.toNat := by
    simp [BitVec.toNat_setWidth]; have := b.isLt; omega
  rw [this]

theorem checkZero_iff (l : List Byte) : checkZero l = true ↔ ∀ b ∈ l, b = 0 := by
  induction l with
  | nil => simp [checkZero]
  | cons a l ih =>
    unfold checkZero
    by_cases h : a = 0 <;> simp [h, ih]

theorem bit0 (b : Byte) : b &&& 1 = 0 ↔ b.toNat % 2 = 0 := by
  rw [← BitVec.toNat_inj]
  simp [BitVec.toNat_and]

theorem mem_zero_iff (u : Uuid) : (∀ b ∈ u.mem, b = 0) ↔ IsNil u := by
  have e1 : u.data1.toNat = 0 ↔ u.data1.extractLsb' 0 8 = 0 ∧ u.data1.extractLsb' 8 8 = 0 ∧
      u.data1.extractLsb' 16 8 = 0 ∧ u.data1.extractLsb' 24 8 = 0 := by
    have hz : BitVec.toNat (0 : Byte) = 0 := rfl
    simp only [← BitVec.toNat_inj, BitVec.extractLsb'_toNat, hz, Nat.shiftRight_eq_div_pow]
    have := u.data1.isLt
    omega
  have e2 : ∀ d : BitVec 16, d.toNat = 0 ↔ d.extractLsb' 0 8 = 0 ∧ d.extractLsb' 8 8 = 0 := by
    intro d
    have hz : BitVec.toNat (0 : Byte) = 0 := rfl
    simp only [← BitVec.toNat_inj, BitVec.extractLsb'_toNat, hz, Nat.shiftRight_eq_div_pow]
    have := d.isLt
    omega
  have e4 : (∀ i : Fin 8, u.data4[i].toNat = 0) ↔ ∀ b ∈ u.data4.toList, b = 0 := by
    constructor
    · intro h b hb
      obtain ⟨i, hi, rfl⟩ := List.mem_iff_getElem.1 hb
      have := h ⟨i, by simpa using hi⟩
      apply BitVec.eq_of_toNat_eq; simpa using this
    · intro h i
      have := h u.data4[i] (by
        rw [Vector.mem_toList_iff]; exact Vector.getElem_mem i.isLt)
      simp [this]
  unfold IsNil
  rw [e1, e2, e2, e4]
  simp [Uuid.mem, or_imp, forall_and, and_assoc]

theorem objUuid_iff (u : Uuid) : checkObjectUuid u = true ↔ IsInitiatorObject u := by
  simp [checkObjectUuid, IsInitiatorObject, ← BitVec.toNat_inj, and_assoc]

theorem zero6_iff (v : Vector Byte 6) :
    checkZero v.toList = true ↔ ∀ i : Fin 6, v[i].toNat = 0 := by
  rw [checkZero_iff]
  constructor
  · intro h i
    have := h v[i] (by rw [Vector.mem_toList_iff]; exact Vector.getElem_mem i.isLt)
    simp [this]
  · intro h b hb
    obtain ⟨i, hi, rfl⟩ := List.mem_iff_getElem.1 hb
    have := h ⟨i, by simpa using hi⟩
    apply BitVec.eq_of_toNat_eq; simpa using this

/-! ### the visible string -/

theorem visibleLoop_spec : ∀ (s : List Byte) (h0 : (0 : Byte) ∈ s),
    ∃ r, visibleLoop s = some r ∧ (r = true ↔ ∃ k : Nat, s[k]? = some 0 ∧ ∀ i < k, ∃ c : Byte,
      s[i]? = some c ∧ 0x20 ≤ c.toNat ∧ c.toNat ≤ 0x7E) := by
  intro s
  induction s with
  | nil => intro h; simp at h
  | cons c s ih =>
    intro h0
    unfold visibleLoop
    by_cases hc : c = 0
    · refine ⟨true, by simp [hc], ?_⟩
      simp
      exact ⟨0, by rw [hc]; rfl, by intro i hi; omega⟩
    · have h0' : (0 : Byte) ∈ s := by
        simp at h0; rcases h0 with h | h
        · exact absurd h.symm hc
        · exact h
      simp only [hc, if_false]
      by_cases hp : isPrint c = true
      · obtain ⟨r, hr, hiff⟩ := ih h0'
        refine ⟨r, by simp [hp, hr], ?_⟩
        rw [hiff]
        have hcc : 0x20 ≤ c.toNat ∧ c.toNat ≤ 0x7E := by simpa [isPrint] using hp
        constructor
        · rintro ⟨k, h1, h2⟩
          refine ⟨k + 1, by simpa using h1, ?_⟩
          intro i hi
          cases i with
          | zero => exact ⟨c, by simp, hcc⟩
          | succ i => simpa using h2 i (by omega)
        · rintro ⟨k, h1, h2⟩
          cases k with
          | zero => simp at h1; exact absurd h1 hc
          | succ k =>
            exact ⟨k, by simpa using h1, fun i hi => by simpa using h2 (i + 1) (by omega)⟩
      · refine ⟨false, by simp [hp], ?_⟩
        simp only [Bool.false_eq_true, false_iff]
        rintro ⟨k, h1, h2⟩
        cases k with
        | zero => simp at h1; exact absurd h1 hc
        | succ k =>
          obtain ⟨c', hc', hb⟩ := h2 0 (by omega)
          simp at hc'; subst hc'
          exact hp (by simpa [isPrint] using hb)

theorem nameArray_get (b : ArBlock) (hlen : b.nameLen.toNat ≤ b.name.length)
    (h : b.nameLen.toNat ≤ 240) :
    b.nameArray[b.nameLen.toNat]? = some 0 ∧
    ∀ i < b.nameLen.toNat, b.nameArray[i]? = b.name[i]? := by
  have hif : (if b.nameLen.toNat > nameMax - 1 then nameMax - 1 else b.nameLen.toNat) =
      b.nameLen.toNat := if_neg (by unfold nameMax; omega)
  unfold ArBlock.nameArray
  rw [hif]
  constructor
  · rw [List.getElem?_set]
    have hl : b.nameLen.toNat < (List.take b.nameLen.toNat b.name ++ List.drop b.nameLen.toNat b.oldName.toList).length := by
      have hv : b.oldName.toList.length = 241 := by rw [Vector.length_toList]; rfl
      simp only [List.length_append, List.length_take, List.length_drop, hv]; omega
    simp only [hl, if_true]
  · intro i hi
    rw [List.getElem?_set, if_neg (by omega), List.getElem?_append_left (by simp; omega),
      List.getElem?_take, if_pos hi]

theorem visible_spec (b : ArBlock) (hlen : b.nameLen.toNat ≤ b.name.length)
    (h1 : 1 ≤ b.nameLen.toNat) (h : b.nameLen.toNat ≤ 240) :
    ∃ r, checkVisibleString b.nameArray = some r ∧ (r = true ↔ VisibleName b) := by
  obtain ⟨hz, hn⟩ := nameArray_get b hlen h
  have hmem : (0 : Byte) ∈ b.nameArray := List.mem_of_getElem? hz
  obtain ⟨r, hr, hiff⟩ := visibleLoop_spec b.nameArray hmem
  cases hs : b.nameArray with
  | nil => rw [hs] at hz; simp at hz
  | cons c s =>
    rw [hs] at hr hz hn hiff
    have hc0 : b.name[0]? = some c := by rw [← hn 0 (by omega)]; simp
    unfold checkVisibleString
    by_cases hc : c = 0
    · refine ⟨false, by simp [hc], ?_⟩
      simp only [Bool.false_eq_true, false_iff]
      rintro ⟨k, hk, -, hv, -⟩
      obtain ⟨c', hc', hb, -⟩ := hv 0 hk
      rw [hc0] at hc'; cases hc'; subst hc; simp at hb
    · refine ⟨r, by simp only [hc, if_false]; exact hr, ?_⟩
      rw [hiff]
      constructor
      · rintro ⟨k, hk, hv⟩
        have hkl : k ≤ b.nameLen.toNat := by
          by_contra hcon
          obtain ⟨c', hc', hb, -⟩ := hv b.nameLen.toNat (by omega)
          rw [hz] at hc'; cases hc'; simp at hb
        refine ⟨k, ?_, hkl, ?_, ?_⟩
        · rcases Nat.eq_zero_or_pos k with rfl | h; · simp at hk; exact absurd hk hc
          exact h
        · intro i hi
          rw [← hn i (by omega)]; exact hv i hi
        · by_cases hkn : k = b.nameLen.toNat
          · left; exact hkn
          · right; rw [← hn k (by omega)]; exact hk
      · rintro ⟨k, hk0, hkl, hv, he⟩
        refine ⟨k, ?_, ?_⟩
        · by_cases hkn : k = b.nameLen.toNat
          · rw [hkn]; exact hz
          · rcases he with h | h
            · exact absurd h hkn
            · rw [hn k (by omega)]; exact h
        · intro i hi
          rw [hn i (by omega)]; exact hv i hi

/-! ### frame IDs -/

theorem verifyFree_iff (maxAr : Nat) (ars : List Ar) (fid : BitVec 16) :
    verifyFree maxAr ars fid = false ↔ ∃ i j, UsedAt maxAr ars i j fid.toNat := by
  unfold verifyFree UsedAt crAt
  simp only [Bool.not_eq_false', List.any_eq_true, Bool.and_eq_true, beq_iff_eq]
  constructor
  · rintro ⟨ar, hm, hu, cr, hc, he⟩
    obtain ⟨i, hi⟩ := List.mem_iff_getElem?.1 hm
    obtain ⟨j, hj⟩ := List.mem_iff_getElem?.1 hc
    rw [List.getElem?_take] at hi
    split at hi
    · exact ⟨i, j, by assumption, ⟨ar, hi, hu⟩, cr, by simp [hi, hj], by rw [he]⟩
    · cases hi
  · rintro ⟨i, j, hi, ⟨ar, ha, hu⟩, cr, hc, he⟩
    rw [ha] at hc; simp at hc
    refine ⟨ar, ?_, hu, cr, List.mem_of_getElem? hc, BitVec.eq_of_toNat_eq he⟩
    apply List.mem_of_getElem? (i := i)
    rw [List.getElem?_take, if_pos hi, ha]

/-- The search, as long as the counter does not wrap: result is the first free number, or
`stop + 1`. -/
theorem searchFree_spec (maxAr : Nat) (ars : List Ar) (stop : Nat) (hs : stop < 65535) :
    ∀ (fuel : Nat) (fid : BitVec 16), fid.toNat ≤ stop + 1 → stop + 1 - fid.toNat < fuel →
    ∃ r, searchFree maxAr ars stop fuel fid = some r ∧ fid.toNat ≤ r.toNat ∧ r.toNat ≤ stop + 1 ∧
      (∀ g, fid.toNat ≤ g → g < r.toNat → ∃ i j, UsedAt maxAr ars i j g) ∧
      (r.toNat ≤ stop → ¬ ∃ i j, UsedAt maxAr ars i j r.toNat) := by
  intro fuel
  induction fuel with
  | zero => intro fid _ h; omega
  | succ n ih =>
    intro fid h1 h2
    unfold searchFree
    by_cases hc : fid.toNat ≤ stop ∧ verifyFree maxAr ars fid = false
    · rw [if_pos hc]
      have hadd : (fid + 1).toNat = fid.toNat + 1 := by
        rw [BitVec.toNat_add]; simp; omega
      obtain ⟨r, hr, h3, h4, h5, h6⟩ := ih (fid + 1) (by omega) (by omega)
      refine ⟨r, hr, by omega, h4, ?_, h6⟩
      intro g hg1 hg2
      by_cases hgf : g = fid.toNat
      · subst hgf; exact (verifyFree_iff _ _ _).1 hc.2
      · exact h5 g (by omega) hg2
    · rw [if_neg hc]
      refine ⟨fid, rfl, Nat.le_refl _, h1, by intro g h3 h4; omega, ?_⟩
      intro h3 h4
      exact hc ⟨h3, (verifyFree_iff _ _ _).2 h4⟩

/-- The search terminates if there is a free number at or behind the counter. -/
theorem searchFree_term (maxAr : Nat) (ars : List Ar) (stop : Nat) :
    ∀ (fuel : Nat) (fid : BitVec 16) (k : Nat), k < fuel →
      (¬ ∃ i j, UsedAt maxAr ars i j (fid + BitVec.ofNat 16 k).toNat) →
      ∃ r, searchFree maxAr ars stop fuel fid = some r := by
  intro fuel
  induction fuel with
  | zero => intro fid k h; omega
  | succ n ih =>
    intro fid k hk hf
    unfold searchFree
    by_cases hc : fid.toNat ≤ stop ∧ verifyFree maxAr ars fid = false
    · rw [if_pos hc]
      cases k with
      | zero =>
        exfalso; apply hf
        simp
        exact (verifyFree_iff _ _ _).1 hc.2
      | succ k =>
        apply ih (fid + 1) k (by omega)
        have : fid + 1 + BitVec.ofNat 16 k = fid + BitVec.ofNat 16 (k + 1) := by
          apply BitVec.eq_of_toNat_eq
          simp [BitVec.toNat_add, BitVec.toNat_ofNat]
          omega
        rw [this]; exact hf
    · rw [if_neg hc]; exact ⟨fid, rfl⟩

theorem getElem?_setFid (ars : List Ar) (i j : Nat) (f : BitVec 16) (i' : Nat) :
    (setFid ars i j f)[i']? = if i' = i then (ars[i']?).map (fun ar =>
      { ar with crs := ar.crs.modify j fun cr => { cr with frameId := f } }) else ars[i']? := by
  unfold setFid
  rw [List.getElem?_modify]
  by_cases h : i = i'
  · subst h; simp
  · simp [h, Ne.symm h]

theorem crAt_setFid (ars : List Ar) (i j : Nat) (f : BitVec 16) (i' j' : Nat) :
    crAt (setFid ars i j f) i' j' = if i' = i ∧ j' = j then
      (crAt ars i' j').map (fun cr => { cr with frameId := f }) else crAt ars i' j' := by
  unfold crAt
  rw [getElem?_setFid]
  by_cases h : i' = i
  · subst h
    simp only [if_true, true_and]
    cases h2 : ars[i']? with
    | none => simp
    | some ar =>
      simp [List.getElem?_modify]
      by_cases h3 : j = j'
      · subst h3; simp
      · simp [h3, Ne.symm h3]
  · simp [h]

theorem inUse_setFid (ars : List Ar) (i j : Nat) (f : BitVec 16) (i' : Nat) :
    (∃ ar, (setFid ars i j f)[i']? = some ar ∧ ar.inUse = true) ↔
      ∃ ar, ars[i']? = some ar ∧ ar.inUse = true := by
  rw [getElem?_setFid]
  by_cases h : i' = i
  · subst h
    cases h2 : ars[i']? <;> simp
  · simp [h]

/-- Use of a number after the assignment. -/
theorem usedAt_setFid (maxAr : Nat) (ars : List Ar) (i j : Nat) (f : BitVec 16) (i' j' g : Nat) :
    UsedAt maxAr (setFid ars i j f) i' j' g ↔
      if i' = i ∧ j' = j then
        f.toNat = g ∧ i' < maxAr ∧ (∃ ar, ars[i']? = some ar ∧ ar.inUse = true) ∧ (crAt ars i' j').isSome
      else UsedAt maxAr ars i' j' g := by
  unfold UsedAt
  rw [inUse_setFid, crAt_setFid]
  by_cases h : i' = i ∧ j' = j
  · simp only [h, and_self, if_true]
    cases hc : crAt ars i j with
    | none => simp
    | some cr => simp; tauto
  · simp only [h, if_false]

/-- Some number is not used if there are fewer than 2^16 CRs. -/
theorem exists_free (maxAr : Nat) (ars : List Ar)
    (h : (ars.flatMap (·.crs)).length < 65536) :
    ∃ f : BitVec 16, ¬ ∃ i j, UsedAt maxAr ars i j f.toNat := by
  by_contra hcon
  push Not at hcon
  have hall : ∀ k : Fin 65536, k.val ∈ (ars.flatMap (·.crs)).map (·.frameId.toNat) := by
    intro k
    obtain ⟨i, j, -, ⟨ar, ha, -⟩, cr, hc, he⟩ := hcon (BitVec.ofNat 16 k.val)
    unfold crAt at hc
    rw [ha] at hc; simp at hc
    rw [List.mem_map]
    refine ⟨cr, ?_, ?_⟩
    · rw [List.mem_flatMap]; exact ⟨ar, List.mem_of_getElem? ha, List.mem_of_getElem? hc⟩
    · rw [he, BitVec.toNat_ofNat, Nat.mod_eq_of_lt k.isLt]
  have hsub : (Finset.univ.image (fun k : Fin 65536 => k.val)) ⊆
      ((ars.flatMap (·.crs)).map (·.frameId.toNat)).toFinset := by
    intro x hx
    simp only [Finset.mem_image, Finset.mem_univ, true_and] at hx
    obtain ⟨k, rfl⟩ := hx
    rw [List.mem_toFinset]; exact hall k
  have hc := Finset.card_le_card hsub
  rw [Finset.card_image_of_injective _ Fin.val_injective, Finset.card_univ, Fintype.card_fin] at hc
  have := List.toFinset_card_le ((ars.flatMap (·.crs)).map (·.frameId.toNat))
  rw [List.length_map] at this
  omega

end Verif.Connect
