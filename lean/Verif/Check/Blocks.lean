import Verif.Check.Frames
/-! Lemmas: the errors of the blocks, and the last part of the checks. -/
set_option linter.unusedSimpArgs false
set_option linter.unusedVariables false
namespace Verif.Check
open Verif.Connect
open Verif.Layout (FrameDesc ApiEntry DataDescr IoData IocrType SubType Setup IocrParam)

theorem err_cons {bad : Prop} [Decidable bad] {e e' : Err} {r : Except Err Unit} {P : Err → Prop}
    (h1 : bad → P e) (h2 : ¬ bad → r = .error e' → P e') : (if bad then .error e else r) = .error e' → P e' := by
  by_cases h : bad
  · rw [if_pos h]; intro he; injection he with he; exact he ▸ h1 h
  · rw [if_neg h]; exact h2 h

theorem access_false {ar : ArBlock} (hda : ar.props.toNat / 256 % 2 = 0) : ar.deviceAccess = false := by
  unfold ArBlock.deviceAccess; rw [getBits_lt (by omega) (by omega) (by omega)]; simp [hda]

theorem holdTime_le (b : IocrBlock) : holdTime b ≤ holdMicros b := by
  unfold holdTime holdMicros
  apply Nat.div_le_div_right
  have e : ∀ x : BitVec 16, (BitVec.zeroExtend 32 x).toNat = x.toNat := by
    intro x; simp [BitVec.toNat_setWidth]; have := x.isLt; omega
  rw [BitVec.toNat_mul, BitVec.toNat_mul, BitVec.toNat_mul, e, e, e]
  simp only [Nat.mod_mul_mod, BitVec.toNat_ofNat, Nat.reduceMod, Nat.reducePow]
  exact Nat.mod_le _ _

theorem checkIocr_names {mi : Nat} {ar : ArBlock} {b : IocrBlock} (hda : ar.props.toNat / 256 % 2 = 0) {e : Err}
    (h : checkIocr mi ar b = .error e) : Names (crFields mi ar b) e := by
  obtain ⟨e1, e2, e3, e4, e5, e6, e7⟩ := fields_eq ar b
  have hda' := access_false hda
  have hht := holdTime_le b
  have ht1 := b.tag.isLt
  revert h
  unfold checkIocr
  rw [if_neg (by simp [hda'])]
  simp only [e1, e2, e3, e7, Ne]
  refine err_cons (fun h => ⟨_, List.mem_of_getElem? (i := 0) rfl, by omega⟩) fun n1 => ?_
  refine err_cons (fun h => ⟨_, List.mem_of_getElem? (i := 1) rfl, by rw [if_neg h.1]; exact h.2⟩) fun n2 => ?_
  refine err_cons (fun h => ⟨_, List.mem_of_getElem? (i := 1) rfl, by rw [if_pos h.1]; exact h.2⟩) fun n3 => ?_
  refine err_cons (fun h => ⟨_, List.mem_of_getElem? (i := 2) rfl, by
    have : ¬ ar.props.toNat / 2 ^ 30 % 2 = 1 := fun h' => by rw [← e6] at h'; simp [h'] at h
    rw [if_neg this]; omega⟩) fun n4 => ?_
  refine err_cons (fun h => ⟨_, List.mem_of_getElem? (i := 2) rfl, by rw [if_pos (e6.1 h.1)]; omega⟩) fun n5 => ?_
  refine err_cons (fun h => ⟨_, List.mem_of_getElem? (i := 3) rfl, by rw [← e4, ← e5]; omega⟩) fun n6 => ?_
  refine err_cons (fun h => ⟨_, List.mem_of_getElem? (i := 4) rfl, by
    rcases h with h | h
    · rw [if_pos h.1]; omega
    · rw [if_neg (by omega)]; omega⟩) fun n7 => ?_
  refine err_cons (fun h => ⟨_, List.mem_of_getElem? (i := 5) rfl, by unfold FrameIdOk; clear * - h; omega⟩) fun n8 => ?_
  refine err_cons (fun h => ⟨_, List.mem_of_getElem? (i := 5) rfl, by unfold FrameIdOk; clear * - h; omega⟩) fun n9 => ?_
  refine err_cons (fun h => ⟨_, List.mem_of_getElem? (i := 6) rfl, by rw [pow2_iff]; omega⟩) fun n10 => ?_
  refine err_cons (fun h => ?_) fun n11 => ?_
  · by_cases hm : mi ≤ b.scf.toNat * b.rr.toNat
    · refine ⟨_, List.mem_of_getElem? (i := 7) rfl, ?_⟩
      unfold RatioOk
      rw [if_neg (by omega)]
      intro hr
      rcases h with ⟨_, h | h | h | h⟩ <;> omega
    · exact ⟨_, List.mem_of_getElem? (i := 8) rfl, fun hh => hm (hh (by omega))⟩
  refine err_cons (fun h => ⟨_, List.mem_of_getElem? (i := 7) rfl, by
    unfold RatioOk
    rw [if_pos h.1]
    intro hr
    rcases h with ⟨_, h | h | h⟩ <;> omega⟩) fun n12 => ?_
  refine err_cons (fun h => ⟨_, List.mem_of_getElem? (i := 9) rfl, by omega⟩) fun n13 => ?_
  refine err_cons (fun h => ⟨_, List.mem_of_getElem? (i := 10) rfl, by
    have hs : b.scf.toNat ≤ 128 := by clear * - n10; omega
    clear * - h hs
    omega⟩) fun n14 => ?_
  refine err_cons (fun h => ?_) fun n15 => ?_
  · by_cases hd : b.dataHoldFactor.toNat < 1 ∨ b.dataHoldFactor.toNat > 0x1e00
    · exact ⟨_, List.mem_of_getElem? (i := 11) rfl, by omega⟩
    · refine ⟨_, List.mem_of_getElem? (i := 12) rfl, ?_⟩
      rcases h with h | h | h
      · exact absurd h hd
      · rw [if_pos h.1]; omega
      · rw [if_neg (by omega)]; omega
  refine err_cons (fun h => ⟨_, List.mem_of_getElem? (i := 13) rfl, by omega⟩) fun n16 => ?_
  refine err_cons (fun h => ⟨_, List.mem_of_getElem? (i := 13) rfl, by omega⟩) fun n17 => ?_
  refine err_cons (fun h => ⟨_, List.mem_of_getElem? (i := 14) rfl, fun hh => by have := hh h.1; omega⟩) fun n18 => ?_
  refine err_cons (fun h => ⟨_, List.mem_of_getElem? (i := 15) rfl, fun hh => hh h⟩) fun n19 => ?_
  refine err_cons (fun h => ⟨_, List.mem_of_getElem? (i := 16) rfl, fun hh => by
    have := (zero6_iff _).2 (hh h.1)
    rw [h.2] at this
    simp at this⟩) fun n20 => ?_
  refine err_cons (fun h => ⟨_, List.mem_of_getElem? (i := 17) rfl, fun hh => by have := hh h.1; omega⟩) fun n21 => ?_
  intro h
  simp at h

theorem checkIocrsFrom_names {mi : Nat} {ar : ArBlock} (hda : ar.props.toNat / 256 % 2 = 0) : ∀ (bs : List IocrBlock) (r : Except Err Unit) (e : Err),
    checkIocrsFrom mi ar r bs = .error e → r = .error e ∨ Names (bs.flatMap (crFields mi ar)) e := by
  intro bs
  induction bs with
  | nil => intro r e h; exact .inl h
  | cons b bs ih =>
    intro r e h
    unfold checkIocrsFrom at h
    have mono : ∀ {e}, Names (bs.flatMap (crFields mi ar)) e → Names ((b :: bs).flatMap (crFields mi ar)) e :=
      fun hn => hn.mono fun f hf => by rw [List.flatMap_cons]; exact List.mem_append_right _ hf
    cases hb : checkIocr mi ar b with
    | error e' =>
      rw [hb] at h
      rcases ih _ _ h with h | h
      · injection h with h
        subst h
        exact .inr ((checkIocr_names hda hb).mono fun f hf => by rw [List.flatMap_cons]; exact List.mem_append_left _ hf)
      · exact .inr (mono h)
    | ok u =>
      rw [hb] at h
      rcases ih _ _ h with h | h
      · exact .inl h
      · exact .inr (mono h)

theorem checkAlarm_names {ar : ArBlock} {b : AlarmBlock} (hda : ar.props.toNat / 256 % 2 = 0) {e : Err}
    (h : checkAlarm ar b = .error e) : Names (alarmFields b) e := by
  have hv := C17_alarm_block_verdict_partial ar b hda
  rw [h] at hv
  obtain ⟨pre, p, post, hl, _, hn⟩ := hv
  have hm : (e, p) ∈ alarmFields (clearVlan b) := by rw [hl]; simp
  have h1 := and_F0FF b.tagHigh
  have h2 := and_F0FF b.tagLow
  simp only [alarmFields, clearVlan, h1.1, h1.2, h2.1, h2.2, List.mem_cons, List.not_mem_nil, or_false, Prod.mk.injEq] at hm
  rcases hm with ⟨rfl, rfl⟩ | ⟨rfl, rfl⟩ | ⟨rfl, rfl⟩ | ⟨rfl, rfl⟩ | ⟨rfl, rfl⟩ | ⟨rfl, rfl⟩ | ⟨rfl, rfl⟩ | ⟨rfl, rfl⟩ | ⟨rfl, rfl⟩
  · exact ⟨_, List.mem_of_getElem? (i := 0) rfl, hn⟩
  · exact ⟨_, List.mem_of_getElem? (i := 1) rfl, hn⟩
  · exact ⟨_, List.mem_of_getElem? (i := 2) rfl, hn⟩
  · exact ⟨_, List.mem_of_getElem? (i := 3) rfl, hn⟩
  · exact ⟨_, List.mem_of_getElem? (i := 4) rfl, hn⟩
  · exact ⟨_, List.mem_of_getElem? (i := 5) rfl, by omega⟩
  · exact ⟨_, List.mem_of_getElem? (i := 6) rfl, hn⟩
  · exact ⟨_, List.mem_of_getElem? (i := 7) rfl, by omega⟩
  · exact ⟨_, List.mem_of_getElem? (i := 8) rfl, hn⟩

theorem rtClass_eq (b : IocrBlock) : b.rtClass = classOf b := by
  unfold IocrBlock.rtClass classOf
  rw [getBits_lt (by omega) (by omega) (by omega)]
  simp

theorem any_type (rq : Request) (n : Nat) : (rq.crs.any fun c => c.block.type.toNat == n) = true ↔ ∃ c ∈ rq.crs, c.block.type.toNat = n := by
  simp

theorem finalCheck_none {ar : ArBlock} {rq : Request} (hda : ar.props.toNat / 256 % 2 = 0) (h : finalCheck ar rq = none) :
    (∀ f ∈ wholeFields rq, f.2) ∧ ∀ b ∈ rq.alarms, checkAlarm ar b = .ok () := by
  unfold finalCheck at h
  have hda' := access_false hda
  simp only [hda', true_and, Bool.not_eq_true] at h
  split at h
  · simp at h
  rename_i h1
  split at h
  · simp at h
  rename_i h2
  split at h
  · simp at h
  rename_i h3
  rw [not_or, Bool.not_eq_false, Bool.not_eq_false, any_type, any_type] at h1
  have h2 : rq.alarms.length = 1 := by by_contra hc; exact h2 hc
  obtain ⟨b, hb⟩ := List.length_eq_one_iff.1 h2
  rw [hb] at h
  simp only [List.getLast?_singleton, Option.map_some] at h
  split at h
  · simp at h
  rename_i h4
  have hok : checkAlarm ar b = .ok () := by
    cases hc : checkAlarm ar b with
    | ok u => rfl
    | error e => exact absurd (congrArg some hc) (h4 e)
  refine ⟨?_, by rw [hb]; simpa using hok⟩
  intro f hf
  simp only [wholeFields, List.mem_cons, List.not_mem_nil, or_false] at hf
  rcases hf with rfl | rfl | rfl | rfl | rfl
  · exact h1.1
  · exact h1.2
  · exact h2
  · intro c hc hcl
    exact h3 (List.any_eq_true.2 ⟨c, hc, by simpa [rtClass_eq] using hcl⟩)
  · intro p hp
    rw [hp] at h
    simp only at h
    split at h
    · simp at h
    · omega

theorem finalCheck_some {ar : ArBlock} {rq : Request} (hda : ar.props.toNat / 256 % 2 = 0) {e : Err} (h : finalCheck ar rq = some e) :
    Names (wholeFields rq) e ∨ Names (rq.alarms.flatMap alarmFields) e := by
  unfold finalCheck at h
  have hda' := access_false hda
  simp only [hda', true_and, Bool.not_eq_true] at h
  split at h
  · rename_i h1
    have h := Option.some.inj h
    subst h
    rcases h1 with h1 | h1
    · exact .inl ⟨_, List.mem_of_getElem? (i := 0) rfl, by rw [← any_type, h1]; simp⟩
    · exact .inl ⟨_, List.mem_of_getElem? (i := 1) rfl, by rw [← any_type, h1]; simp⟩
  split at h
  · rename_i h2
    have h := Option.some.inj h
    subst h
    exact .inl ⟨_, List.mem_of_getElem? (i := 2) rfl, h2⟩
  split at h
  · rename_i h3
    have h := Option.some.inj h
    subst h
    refine .inl ⟨_, List.mem_of_getElem? (i := 3) rfl, fun hh => ?_⟩
    obtain ⟨c, hc, hr⟩ := List.any_eq_true.1 h3
    exact hh c hc (by simpa [rtClass_eq] using hr)
  split at h
  · rename_i e' h4
    have h := Option.some.inj h
    subst h
    rw [Option.map_eq_some_iff] at h4
    obtain ⟨b, hb, h4⟩ := h4
    exact .inr ((checkAlarm_names hda h4).mono fun f hf => List.mem_flatMap.2 ⟨b, List.mem_of_getLast? hb, hf⟩)
  split at h
  · rename_i p hp
    split at h
    · have h := Option.some.inj h
      subst h
      exact .inl ⟨_, List.mem_of_getElem? (i := 4) rfl, fun hh => by have := hh p hp; omega⟩
    · simp at h
  · simp at h

end Verif.Check
