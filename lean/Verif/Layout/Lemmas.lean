import Verif.Layout.Model
import Mathlib.Data.List.Nodup
import Mathlib.Data.List.Perm.Subperm
/-! Helper lemmas for `Layout/Props.lean`. -/
set_option linter.unusedSimpArgs false
set_option linter.unusedVariables false
namespace Verif.Layout

/-- The descriptor of a submodule. -/
def look (descs : List IoData) (k : Key) : Option IoData := descs.find? (fun d => d.key == k)

def keys (descs : List IoData) : List Key := descs.map (·.key)

theorem look_some {descs k d} (h : look descs k = some d) : d ∈ descs ∧ d.key = k := by
  unfold look at h
  exact ⟨List.mem_of_find?_eq_some h, by have := List.find?_some h; simpa using this⟩

theorem look_isSome {descs k} : (look descs k).isSome ↔ k ∈ keys descs := by
  simp [look, keys, List.find?_isSome]

theorem look_none {descs k} : look descs k = none ↔ k ∉ keys descs := by
  rw [← look_isSome]; simp

theorem look_mem {descs d} (hn : (keys descs).Nodup) (h : d ∈ descs) : look descs d.key = some d := by
  induction descs with
  | nil => cases h
  | cons x xs ih =>
    simp only [keys, List.map_cons, List.nodup_cons] at hn
    rcases List.mem_cons.1 h with rfl | h'
    · simp [look]
    · have hne : x.key ≠ d.key := fun hh => hn.1 (hh ▸ List.mem_map_of_mem h')
      have := ih hn.2 h'
      simpa [look, hne] using this

theorem blank_key {k} : (⟨k, 0, 0, 0, 0, 0, 0⟩ : IoData).key = k := rfl

/-- `place` is a map update. -/
theorem place_spec {cap descs k f r d} (hf : ∀ d, (f d).key = d.key)
    (hn : (keys descs).Nodup) (h : place cap descs k f = some (r, d)) :
    (keys r).Nodup ∧ d = f ((look descs k).getD ⟨k, 0, 0, 0, 0, 0, 0⟩) ∧ look r k = some d ∧
    (∀ k' ≠ k, look r k' = look descs k') ∧ (∀ k', k' ∈ keys r ↔ k' ∈ keys descs ∨ k' = k) := by
  unfold place at h
  simp only at h
  split at h
  · rename_i hi
    injection h with h
    injection h with h1 h2
    subst h2
    have hk : (descs[List.findIdx (fun d => d.key == k) descs]).key = k := by
      have := List.findIdx_getElem (w := hi)
      simpa using this
    have hl : look descs k = some descs[List.findIdx (fun d => d.key == k) descs] := by
      have := look_mem hn (List.getElem_mem hi)
      rwa [hk] at this
    have hkeys : keys r = keys descs := by
      subst h1
      unfold keys
      rw [List.map_set, hf, hk]
      apply List.ext_getElem (by simp)
      intro n h1 h2
      rw [List.getElem_set]
      split
      · rename_i he
        subst he
        simp [hk]
      · rfl
    have hnr : (keys r).Nodup := hkeys ▸ hn
    have hmem : f descs[List.findIdx (fun d => d.key == k) descs] ∈ r := by
      subst h1
      exact List.mem_iff_getElem.2 ⟨_, by rw [List.length_set]; exact hi, by simp⟩
    refine ⟨hnr, by rw [hl]; rfl, ?_, ?_, ?_⟩
    · have := look_mem hnr hmem
      rwa [hf, hk] at this
    · intro k' hne
      cases hd : look descs k' with
      | none => rw [look_none] at hd ⊢; rwa [hkeys]
      | some d' =>
        obtain ⟨hd1, hd2⟩ := look_some hd
        obtain ⟨n, hn', rfl⟩ := List.mem_iff_getElem.1 hd1
        have hm : descs[n] ∈ r := by
          subst h1
          refine List.mem_iff_getElem.2 ⟨n, by simpa using hn', ?_⟩
          rw [List.getElem_set, if_neg]
          rintro rfl
          exact hne (hd2 ▸ hk)
        have := look_mem hnr hm
        rwa [hd2] at this
    · intro k'
      rw [hkeys]
      constructor
      · exact Or.inl
      · rintro (hh | rfl)
        · exact hh
        · exact look_isSome.1 (by rw [hl]; rfl)
  · rename_i hi
    split at h
    · injection h with h
      injection h with h1 h2
      subst h2
      have hnk : k ∉ keys descs := by
        intro hh
        apply hi
        rw [List.findIdx_lt_length]
        obtain ⟨d, hd, hdk⟩ := List.mem_map.1 hh
        exact ⟨d, hd, by simpa using hdk⟩
      have hl := look_none.2 hnk
      subst h1
      refine ⟨?_, by rw [hl]; rfl, ?_, ?_, ?_⟩
      · unfold keys at *
        rw [List.map_append, List.nodup_append]
        refine ⟨hn, by simp, ?_⟩
        intro a ha b hb
        simp [hf] at hb
        subst hb
        rintro rfl
        exact hnk ha
      · unfold look at *
        rw [List.find?_append, hl]
        simp [hf]
      · intro k' hne
        unfold look
        rw [List.find?_append]
        simp [hf, Ne.symm hne]
      · intro k'
        simp [keys, hf]
    · cases h

theorem place_defined {cap descs k f} (h : descs.length < cap ∨ k ∈ keys descs) : (place cap descs k f).isSome := by
  unfold place
  simp only
  split
  · rfl
  · rename_i hi
    rcases h with h | h
    · simp [h]
    · exfalso
      apply hi
      rw [List.findIdx_lt_length]
      obtain ⟨d, hd, hdk⟩ := List.mem_map.1 h
      exact ⟨d, hd, by simpa using hdk⟩

theorem fillData_key {i e dd o} (d : IoData) : (fillData i e dd o d).key = d.key := by
  unfold fillData; split <;> rfl
theorem fillIocs_key {e dd o} (d : IoData) : (fillIocs e dd o d).key = d.key := by
  unfold fillIocs; split <;> rfl

/-! ### Nodup keys and the adjacency of data and IOPS -/

/-- IOPS follows the data (or is absent). -/
def DescOk (d : IoData) : Prop := d.iopsLen = 0 ∨ d.iopsOff = (d.dataOff + d.dataLen) % 65536

def SInv (s : Setup) : Prop := (keys s.descs).Nodup ∧ ∀ d ∈ s.descs, DescOk d

theorem place_inv {cap descs k f r d} (hf : ∀ d, (f d).key = d.key)
    (hok : ∀ d, DescOk d → DescOk (f d))
    (hn : (keys descs).Nodup ∧ ∀ d ∈ descs, DescOk d) (h : place cap descs k f = some (r, d)) :
    (keys r).Nodup ∧ ∀ d ∈ r, DescOk d := by
  obtain ⟨h1, h2, h3, h4, h5⟩ := place_spec hf hn.1 h
  refine ⟨h1, fun x hx => ?_⟩
  have hl := look_mem h1 hx
  by_cases hk : x.key = k
  · rw [hk, h3] at hl
    injection hl with hl
    rw [← hl, h2]
    apply hok
    cases ho : look descs k with
    | none => exact Or.inl rfl
    | some y => exact hn.2 y (look_some ho).1
  · rw [h4 _ hk] at hl
    exact hn.2 x (look_some hl).1

theorem fillData_ok {i e dd o} (d : IoData) (h : DescOk d) : DescOk (fillData i e dd o d) := by
  unfold fillData
  split
  · exact Or.inl rfl
  · exact Or.inr rfl

theorem fillIocs_ok {e dd o} (d : IoData) (h : DescOk d) : DescOk (fillIocs e dd o d) := by
  unfold fillIocs; split <;> exact h

theorem dataStep_inv {cap e i a s fd s'} (hs : SInv s) (h : dataStep cap e i a s fd = some s') : SInv s' := by
  unfold dataStep at h
  split at h
  · injection h with h; exact h ▸ hs
  · split at h
    · injection h with h; exact h ▸ hs
    · rename_i es _ _ dd _
      cases hp : place cap s.descs ⟨a, fd.slot, fd.subslot⟩ (fillData i es dd fd.offset) with
      | none => rw [hp] at h; cases h
      | some r =>
        rw [hp] at h
        simp at h
        subst h
        exact place_inv fillData_key fillData_ok hs hp

theorem iocsStep_inv {cap e i a s fd s'} (hs : SInv s.1) (h : iocsStep cap e i a s fd = some s') : SInv s'.1 := by
  unfold iocsStep at h
  simp only at h
  split at h
  · injection h with h; exact h ▸ hs
  · split at h
    · injection h with h; exact h ▸ hs
    · rename_i es _ _ dd _
      cases hp : place cap s.1.descs ⟨a, fd.slot, fd.subslot⟩ (fillIocs es dd fd.offset) with
      | none => rw [hp] at h; cases h
      | some r =>
        rw [hp] at h
        simp at h
        subst h
        exact place_inv fillIocs_key fillIocs_ok hs hp

theorem foldlM_inv {α β} (P : β → Prop) (f : β → α → Option β) (hf : ∀ b a b', P b → f b a = some b' → P b')
    (l : List α) : ∀ b b', P b → l.foldlM f b = some b' → P b' := by
  induction l with
  | nil => intro b b' hb h; simp at h; exact h ▸ hb
  | cons a l ih =>
    intro b b' hb h
    simp only [List.foldlM_cons] at h
    cases hfa : f b a with
    | none => rw [hfa] at h; cases h
    | some b1 =>
      rw [hfa] at h
      exact ih b1 b' (hf _ _ _ hb hfa) h

theorem setupDesc_inv {cap e p s ok} (h : setupDesc cap e p = some (s, ok)) : SInv s := by
  unfold setupDesc at h
  simp only [Option.bind_eq_bind, Option.bind_eq_some_iff] at h
  obtain ⟨s1, h1, h2⟩ := h
  have hs1 : SInv s1 := by
    refine foldlM_inv SInv _ ?_ _ _ _ ?_ h1
    · intro b a b' hb hfa
      exact foldlM_inv SInv _ (fun b a b' hb h => dataStep_inv hb h) _ _ _ hb hfa
    · exact ⟨by simp [keys], by simp⟩
  have : SInv (s, ok).1 := by
    refine foldlM_inv (fun x : Setup × Bool => SInv x.1) _ ?_ _ _ _ ?_ h2
    · intro b a b' hb hfa
      exact foldlM_inv (fun x : Setup × Bool => SInv x.1) _ (fun b a b' hb h => iocsStep_inv hb h) _ _ _ hb hfa
    · exact hs1
  exact this

/-! ### The final check -/

theorem noStraddle_iff {s1 l1 s2 l2} : noStraddle s1 l1 s2 l2 = true ↔
    ∀ b, ¬ ((s1 ≤ b ∧ b < s1 + l1) ∧ (s2 ≤ b ∧ b < s2 + l2)) := by
  unfold noStraddle
  constructor
  · intro h b
    split at h
    · split at h <;> simp at h <;> omega
    · omega
  · intro h
    split
    · split
      · have := h s2; simp; omega
      · have := h s1; simp; omega
    · rfl

theorem checkDescs_spec {n} (ds : List IoData) : ∀ prev, checkDescs n prev ds = true →
    (∀ d ∈ ds, d.dataOff + d.dataLen ≤ n ∧ d.iopsOff + d.iopsLen ≤ n ∧ d.iocsOff + d.iocsLen ≤ n) ∧
    (∀ d ∈ ds, ∀ p ∈ prev, checkOverlap [p] d = true) ∧
    ds.Pairwise (fun p d => checkOverlap [p] d = true) := by
  induction ds with
  | nil => intro prev _; simp
  | cons d ds ih =>
    intro prev h
    simp only [checkDescs, Bool.and_eq_true, decide_eq_true_eq] at h
    obtain ⟨⟨⟨⟨h1, h2⟩, h3⟩, h4⟩, h5⟩ := h
    obtain ⟨i1, i2, i3⟩ := ih _ h5
    refine ⟨?_, ?_, ?_⟩
    · intro x hx
      rcases List.mem_cons.1 hx with rfl | hx
      · exact ⟨h1, h2, h3⟩
      · exact i1 x hx
    · intro x hx p hp
      rcases List.mem_cons.1 hx with rfl | hx
      · simp only [checkOverlap, Bool.and_eq_true, List.all_eq_true] at h4 ⊢
        simp only [List.mem_singleton, forall_eq]
        exact ⟨h4.1 p hp, h4.2 p hp⟩
      · exact i2 x hx p (by simp [hp])
    · rw [List.pairwise_cons]
      exact ⟨fun x hx => i2 x hx d (by simp), i3⟩

end Verif.Layout
