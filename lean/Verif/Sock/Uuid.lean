import Verif.Wire.Model
/-!
C131: activity UUIDs of the device.
-/
set_option linter.unusedVariables false
set_option linter.unusedSimpArgs false

namespace Verif.Sock
open Verif.Wire

/-- pf_generate_uuid (src/device/pf_cmrpc_helpers.c:37-57). -/
def genUuid (timestamp session : BitVec 32) (mac : List (BitVec 8)) : Uuid :=
  ⟨timestamp, (session >>> 16).setWidth 16, (((session >>> 8) &&& 0xff).setWidth 16) ||| 0x1000,
    0x80 :: (session &&& 0xff).setWidth 8 :: mac.take 6⟩

/-- `cmrpc_session_number` and the generated UUID in pf_session_allocate (src/device/pf_cmrpc.c:502-550). -/
def nextUuid (mac : List (BitVec 8)) (session timestamp : BitVec 32) : BitVec 32 × Uuid :=
  (session + 1, genUuid timestamp session mac)

/-- Sessions allocated one after the other, at the given times. -/
def uuids (mac : List (BitVec 8)) : BitVec 32 → List (BitVec 32) → List Uuid
  | _, [] => []
  | s, t :: ts => (nextUuid mac s t).2 :: uuids mac (nextUuid mac s t).1 ts

/-- The start value in pf_cmrpc_init (src/device/pf_cmrpc.c:5187-5207). -/
def firstSession : BitVec 32 := 0x12345678

theorem low_bits {a b : BitVec 32} (h : (a &&& 0xff).setWidth 8 = (b &&& 0xff).setWidth 8) (i : Nat) (hi : i < 8) :
    a.getLsbD i = b.getLsbD i := by
  have h := congrArg (·.getLsbD i) h
  simp only [BitVec.getLsbD_setWidth, BitVec.getLsbD_and, hi, decide_true, Bool.true_and] at h
  have : (0xff : BitVec 32).getLsbD i = true := by
    have : ∀ i < 8, (0xff : BitVec 32).getLsbD i = true := by decide
    exact this i hi
  rw [this, Bool.and_true, Bool.and_true] at h
  exact h

theorem mid_bits {a b : BitVec 32} (h : (((a >>> 8) &&& 0xff).setWidth 16 ||| 0x1000 : BitVec 16) = ((b >>> 8) &&& 0xff).setWidth 16 ||| 0x1000)
    (i : Nat) (hi : i < 8) : a.getLsbD (8 + i) = b.getLsbD (8 + i) := by
  have h := congrArg (·.getLsbD i) h
  have h1 : (0xff : BitVec 32).getLsbD i = true := by
    have : ∀ i < 8, (0xff : BitVec 32).getLsbD i = true := by decide
    exact this i hi
  have h2 : (0x1000 : BitVec 16).getLsbD i = false := by
    have : ∀ i < 8, (0x1000 : BitVec 16).getLsbD i = false := by decide
    exact this i hi
  simp only [BitVec.getLsbD_or, BitVec.getLsbD_setWidth, BitVec.getLsbD_and, BitVec.getLsbD_ushiftRight, h1, h2, Bool.and_true,
    Bool.or_false, show i < 16 from by omega, decide_true, Bool.true_and] at h
  exact h

theorem high_bits {a b : BitVec 32} (h : (a >>> 16).setWidth 16 = (b >>> 16).setWidth 16) (i : Nat) (hi : i < 16) :
    a.getLsbD (16 + i) = b.getLsbD (16 + i) := by
  have h := congrArg (·.getLsbD i) h
  simp only [BitVec.getLsbD_setWidth, BitVec.getLsbD_ushiftRight, hi, decide_true, Bool.true_and] at h
  exact h

/-- A UUID determines the time, the session number and the device. -/
theorem genUuid_inj {t t' s s' : BitVec 32} {m m' : List (BitVec 8)} (hm : m.length = 6) (hm' : m'.length = 6)
    (h : genUuid t s m = genUuid t' s' m') : t = t' ∧ s = s' ∧ m = m' := by
  unfold genUuid at h
  simp only [Uuid.mk.injEq, List.cons.injEq, true_and] at h
  obtain ⟨h1, h2, h3, h4, h5⟩ := h
  refine ⟨h1, ?_, ?_⟩
  · apply BitVec.eq_of_getLsbD_eq
    intro i hi
    rcases Nat.lt_or_ge i 8 with e | e
    · exact low_bits h4 i e
    · rcases Nat.lt_or_ge i 16 with e' | e'
      · have := mid_bits h3 (i - 8) (by omega)
        rwa [show 8 + (i - 8) = i from by omega] at this
      · have := high_bits h2 (i - 16) (by omega)
        rwa [show 16 + (i - 16) = i from by omega] at this
  · rw [List.take_of_length_le (by omega), List.take_of_length_le (by omega)] at h5
    exact h5

theorem mem_uuids {mac : List (BitVec 8)} {u : Uuid} (ts : List (BitVec 32)) (s : BitVec 32) (h : u ∈ uuids mac s ts) :
    ∃ t, ∃ k < ts.length, u = genUuid t (s + BitVec.ofNat 32 k) mac := by
  induction ts generalizing s with
  | nil => exact absurd h List.not_mem_nil
  | cons t ts ih =>
    rcases List.mem_cons.1 h with e | e
    · exact ⟨t, 0, by simp, by rw [e]; simp [nextUuid]⟩
    · obtain ⟨t', k, hk, e⟩ := ih _ e
      refine ⟨t', k + 1, by simp; omega, ?_⟩
      rw [e]
      congr 1
      show s + 1 + _ = _
      apply BitVec.eq_of_toNat_eq
      have one : (1 : BitVec 32).toNat = 1 := rfl
      simp only [BitVec.toNat_add, BitVec.toNat_ofNat, one]
      omega

/-- C131: activity UUIDs that the device makes up: in whatever sequence of up to 2^32 sessions, at whatever times, no two are equal (so an
answer to an earlier request is not taken for one to a later request); two devices with different MAC addresses never make up equal ones; all are
of version 1 and variant 1 (RFC 4122). -/
theorem C131_uuids (mac : List (BitVec 8)) (hmac : mac.length = 6) (s : BitVec 32) (ts : List (BitVec 32)) (hn : ts.length ≤ 2 ^ 32) :
    (uuids mac s ts).Nodup ∧ (uuids mac s ts).length = ts.length ∧
      (∀ mac' s' ts', mac'.length = 6 → mac' ≠ mac → ∀ u ∈ uuids mac s ts, u ∉ uuids mac' s' ts') ∧
      ∀ u ∈ uuids mac s ts, u.d3 >>> 12 = 1 ∧ (∃ v, u.d4.head? = some v ∧ v >>> 6 = 2) ∧ u.d4.length = 8 := by
  refine ⟨?_, ?_, ?_, ?_⟩
  · induction ts generalizing s with
    | nil => exact List.nodup_nil
    | cons t ts ih =>
      rw [List.length_cons] at hn
      refine List.nodup_cons.2 ⟨?_, ih _ (by omega)⟩
      intro hm
      obtain ⟨t', k, hk, e⟩ := mem_uuids _ _ hm
      have := (genUuid_inj hmac hmac e).2.1
      have := congrArg BitVec.toNat this
      have one : (1 : BitVec 32).toNat = 1 := rfl
      simp only [nextUuid, BitVec.toNat_add, BitVec.toNat_ofNat, one] at this
      have := s.isLt
      omega
  · clear hn
    induction ts generalizing s with
    | nil => rfl
    | cons t ts ih => simp [uuids, ih]
  · intro mac' s' ts' hm' hne u hu hu'
    obtain ⟨t, k, _, e⟩ := mem_uuids _ _ hu
    obtain ⟨t', k', _, e'⟩ := mem_uuids _ _ hu'
    exact hne (genUuid_inj hmac hm' (e.symm.trans e')).2.2.symm
  · intro u hu
    obtain ⟨t, k, _, e⟩ := mem_uuids _ _ hu
    subst e
    refine ⟨?_, ⟨0x80, rfl, by decide⟩, by simp [genUuid, hmac]⟩
    generalize s + BitVec.ofNat 32 k = x
    show ((((x >>> 8) &&& 0xff).setWidth 16 ||| 0x1000 : BitVec 16)) >>> 12 = 1
    apply BitVec.eq_of_getLsbD_eq
    intro i hi
    simp only [BitVec.getLsbD_or, BitVec.getLsbD_setWidth, BitVec.getLsbD_and, BitVec.getLsbD_ushiftRight]
    have h1 : (0xff : BitVec 32).getLsbD (12 + i) = false := by
      have : ∀ i < 16, (0xff : BitVec 32).getLsbD (12 + i) = false := by decide
      exact this i hi
    have h2 : (0x1000 : BitVec 16).getLsbD (12 + i) = (1 : BitVec 16).getLsbD i := by
      have : ∀ i < 16, (0x1000 : BitVec 16).getLsbD (12 + i) = (1 : BitVec 16).getLsbD i := by decide
      exact this i hi
    rw [h1, h2]
    simp

/-- The conditions are met: the sessions of a device after its start. -/
theorem C131_example : (uuids [1, 2, 3, 4, 5, 6] firstSession [7, 7]) =
    [⟨7, 0x1234, 0x1056, [0x80, 0x78, 1, 2, 3, 4, 5, 6]⟩, ⟨7, 0x1234, 0x1056, [0x80, 0x79, 1, 2, 3, 4, 5, 6]⟩] := by decide

end Verif.Sock
