import Verif.Connect.FrameId
/-!
# C15 – C18: what a connect request may contain

`C15`, `C17`: acceptance and the reported field are exactly those of the lists `arFields`,
`alarmFields`. `C16`: limits of accepted IOCRs. `C18`: frame IDs chosen by the device.
-/
set_option linter.unusedSimpArgs false
set_option linter.unusedVariables false
namespace Verif.Connect

/-! ### C15 -/

theorem verdictO_cons {bad p : Prop} [Decidable bad] {e : Err} {l} {o : Option (Except Err Unit)}
    (h : bad ↔ ¬ p) (hr : p → ∃ r, o = some r ∧ Verdict l r) :
    ∃ r, (if bad then some (.error e) else o) = some r ∧ Verdict ((e, p) :: l) r := by
  by_cases hb : bad
  · refine ⟨.error e, by simp [hb], ?_⟩
    have := verdict_cons (e := e) (l := l) (r := .error e) h (by tauto)
    simpa [hb] using this
  · obtain ⟨r, h1, h2⟩ := hr (by tauto)
    refine ⟨r, by simp [hb, h1], ?_⟩
    have := verdict_cons (e := e) (l := l) (r := r) h (fun _ => h2)
    simpa [hb] using this

/-- **C15.** For every AR block: the check reads no byte outside the name array, it accepts exactly
the blocks that meet all requirements, and a refusal names the first requirement that is not met. -/
theorem C15_ar_block_verdict (b : ArBlock) (hname : b.nameLen.toNat ≤ b.name.length) :
    ∃ r, checkAr b = some r ∧ Verdict (arFields b) r := by
  unfold checkAr arFields
  refine verdictO_cons (by simp [checkArType]) fun hty => ?_
  refine verdictO_cons (by rw [checkZero_iff, mem_zero_iff]; tauto) fun _ => ?_
  refine verdictO_cons (by rw [Ne, bit0]) fun _ => ?_
  refine verdictO_cons (by rw [← objUuid_iff]; simp) fun _ => ?_
  refine verdictO_cons (by unfold ArBlock.state; rw [getBits_lt (by omega) (by omega) (by omega)]; simp) fun _ => ?_
  refine verdictO_cons (by unfold ArBlock.paramServer; rw [getBits_lt (by omega) (by omega) (by omega)]; simp) fun _ => ?_
  refine verdictO_cons (by
    unfold ArBlock.deviceAccess; rw [getBits_lt (by omega) (by omega) (by omega)]
    simp [hty]) fun _ => ?_
  refine verdictO_cons (by unfold ArBlock.companionAr; rw [getBits_lt (by omega) (by omega) (by omega)]; simp) fun _ => ?_
  refine verdictO_cons (by omega) fun _ => ?_
  refine verdictO_cons (by unfold nameMax; omega) fun hn => ?_
  obtain ⟨r, hr, hiff⟩ := visible_spec b hname hn.1 hn.2
  rw [hr]
  simp only [Option.bind_some]
  exact verdictO_cons (by rw [← hiff]; simp) fun _ => ⟨_, rfl, verdict_nil⟩

/-- **C15**, acceptance alone. -/
theorem C15_ar_block_accepted_iff (b : ArBlock) (hname : b.nameLen.toNat ≤ b.name.length) :
    checkAr b = some (.ok ()) ↔ ∀ f ∈ arFields b, f.2 := by
  obtain ⟨r, h1, h2⟩ := C15_ar_block_verdict b hname
  rw [h1, ← verdict_ok_iff h2]
  simp

/-- A typical AR block. -/
def exampleAr : ArBlock where
  arType := 1
  uuid := ⟨0x12345678, 1, 2, ⟨#[1, 2, 3, 4, 5, 6, 7, 8], rfl⟩⟩
  sessionKey := 1
  mac := ⟨#[0x02, 0, 0, 0, 0, 1], rfl⟩
  objectUuid := ⟨0xDEA00000, 0x6c97, 0x11D1, ⟨#[0x82, 0x71, 0, 1, 0, 2, 0, 3], rfl⟩⟩
  props := 0x40000011
  timeoutFactor := 600
  udpPort := 0x8892
  nameLen := 3
  name := [0x61, 0x62, 0x63]
  oldName := ⟨Array.replicate 241 0x7, by rw [Array.size_replicate]; rfl⟩

example : checkAr exampleAr = some (.ok ()) := by decide +kernel
example : checkAr { exampleAr with timeoutFactor := 1001, nameLen := 0 } =
    some (.error ⟨1, 10⟩) := by decide +kernel
example : checkAr { exampleAr with name := [0x61, 0x0a, 0x63] } = some (.error ⟨1, 13⟩) := by
  decide +kernel

/-! ### C16 -/

theorem ok_cons {bad : Prop} [Decidable bad] {e : Err} {r : Except Err Unit} :
    (if bad then .error e else r) = .ok () ↔ ¬ bad ∧ r = .ok () := by
  by_cases h : bad <;> simp [h]

/-- The 32-bit product, without the wrap. -/
theorem holdTime_exact (b : IocrBlock)
    (h : b.dataHoldFactor.toNat * b.rr.toNat * b.scf.toNat * 1000 < 2 ^ 32) :
    holdTime b = holdMicros b := by
  unfold holdTime holdMicros
  congr 1
  have e : ∀ x : BitVec 16, (BitVec.zeroExtend 32 x).toNat = x.toNat := by
    intro x; simp [BitVec.toNat_setWidth]; have := x.isLt; omega
  rw [BitVec.toNat_mul, BitVec.toNat_mul, BitVec.toNat_mul, e, e, e]
  simp only [Nat.mod_mul_mod, BitVec.toNat_ofNat, Nat.reduceMod, Nat.reducePow]
  exact Nat.mod_eq_of_lt h

/-- What acceptance guarantees: the documented limits, except that
* the C_SDU length is checked for RT class 1 and UDP only,
* reduction ratio, interval and hold time are not checked for RT class 5,
* the hold time is only right if the product fits into 32 bits,
* bit 11 of the VLAN id is ignored. -/
structure IocrGuaranteed (minInterval : Nat) (ar : ArBlock) (b : IocrBlock) : Prop where
  type : 1 ≤ b.type.toNat ∧ b.type.toNat ≤ 4
  lt : if classOf b = 4 then b.lt.toNat = 0x0800 else b.lt.toNat = 0x8892
  cls : (if ar.props.toNat / 2 ^ 30 % 2 = 1 then 2 else 1) ≤ classOf b ∧ classOf b ≤ 5
  reserved1 : b.props.toNat / 2 ^ 4 % 2 ^ 9 = 0
  reserved3 : b.props.toNat / 2 ^ 24 = 0
  cSdu : classOf b = 1 ∨ classOf b = 4 →
    (if classOf b = 4 then 12 else 40) ≤ b.cSdu.toNat ∧ b.cSdu.toNat ≤ 1440
  frameId : FrameIdOk b.type.toNat (classOf b) b.frameId.toNat
  scf : ∃ k ≤ 7, b.scf.toNat = 2 ^ k
  rr : classOf b ≠ 5 → RatioOk (if classOf b = 4 then 16384 else 512) b.scf.toNat b.rr.toNat
  interval : classOf b ≠ 5 → classOf b ≠ 4 → minInterval ≤ b.scf.toNat * b.rr.toNat
  phase : 1 ≤ b.phase.toNat ∧ b.phase.toNat ≤ b.rr.toNat
  offset : b.frameSendOffset.toNat = 0xffffffff ∨ b.frameSendOffset.toNat < b.scf.toNat * 31250
  hold : 1 ≤ b.dataHoldFactor.toNat ∧ b.dataHoldFactor.toNat ≤ 0x1e00
  holdTime : classOf b ≠ 5 → b.dataHoldFactor.toNat * b.rr.toNat * b.scf.toNat * 1000 < 2 ^ 32 →
    holdMicros b ≤ if classOf b = 4 then 61440000 else 1920000
  vlan : b.tag.toNat % 2048 = 0
  prio : b.tag.toNat / 8192 = 6
  mac : b.type.toNat = 3 ∨ b.type.toNat = 4 → b.mac[0].toNat % 2 = 1
  apis : b.nbrApis.toNat ≠ 0
  udpMac : classOf b = 4 → ∀ i : Fin 6, ar.mac[i].toNat = 0
  udpPort : classOf b = 4 → 0x0400 ≤ ar.udpPort.toNat

theorem pow2_iff (n : Nat) : (∃ k ≤ 7, n = 2 ^ k) ↔
    n = 1 ∨ n = 2 ∨ n = 4 ∨ n = 8 ∨ n = 16 ∨ n = 32 ∨ n = 64 ∨ n = 128 := by
  constructor
  · rintro ⟨k, hk, rfl⟩
    have : k = 0 ∨ k = 1 ∨ k = 2 ∨ k = 3 ∨ k = 4 ∨ k = 5 ∨ k = 6 ∨ k = 7 := by omega
    rcases this with rfl | rfl | rfl | rfl | rfl | rfl | rfl | rfl <;> simp
  · rintro (rfl | rfl | rfl | rfl | rfl | rfl | rfl | rfl)
    exacts [⟨0, by simp⟩, ⟨1, by simp⟩, ⟨2, by simp⟩, ⟨3, by simp⟩, ⟨4, by simp⟩, ⟨5, by simp⟩,
      ⟨6, by simp⟩, ⟨7, by simp⟩]

theorem fields_eq (ar : ArBlock) (b : IocrBlock) :
    b.rtClass = classOf b ∧ b.vlanId = b.tag.toNat % 2048 ∧ b.priority = b.tag.toNat / 8192 ∧
    (b.reserved1 = 0 ↔ b.props.toNat / 2 ^ 4 % 2 ^ 9 = 0) ∧
    (b.reserved3 = 0 ↔ b.props.toNat / 2 ^ 24 = 0) ∧
    (ar.startupMode = true ↔ ar.props.toNat / 2 ^ 30 % 2 = 1) ∧
    (b.mac[0] &&& 1 = 0 ↔ b.mac[0].toNat % 2 = 0) := by
  have h1 := b.tag.isLt
  have h2 := b.props.isLt
  refine ⟨?_, ?_, ?_, ?_, ?_, ?_, bit0 _⟩
  · unfold IocrBlock.rtClass classOf; rw [getBits_lt (by omega) (by omega) (by omega)]; simp
  · unfold IocrBlock.vlanId; rw [getBits16_lt (by omega) (by omega) (by omega)]; simp
  · unfold IocrBlock.priority; rw [getBits16_lt (by omega) (by omega) (by omega)]; simp; omega
  · unfold IocrBlock.reserved1; rw [getBits_lt (by omega) (by omega) (by omega)]; simp
  · unfold IocrBlock.reserved3; rw [getBits_lt (by omega) (by omega) (by omega)]
    simp only [ite_eq_right_iff, Nat.one_ne_zero, imp_false, Decidable.not_not]; omega
  · unfold ArBlock.startupMode; rw [getBits_lt (by omega) (by omega) (by omega)]; simp

theorem checkIocr_guaranteed {mi : Nat} {ar : ArBlock} {b : IocrBlock}
    (h : checkIocr mi ar b = .ok ()) : IocrGuaranteed mi ar b := by
  obtain ⟨e1, e2, e3, e4, e5, e6, e7⟩ := fields_eq ar b
  unfold checkIocr at h
  simp only [ok_cons, e1, e2, e3, e4, e5, e7, Ne] at h
  obtain ⟨h0, h1, h2, h3, h4, h5, h6, h7, h8, h9, h10, h11, h12, h13, h14, h15, h16, h17, h18, h19, h20, h21, -⟩ := h
  have hcls : (if ar.props.toNat / 2 ^ 30 % 2 = 1 then 2 else 1) ≤ classOf b ∧ classOf b ≤ 5 := by
    by_cases hs : ar.startupMode = true
    · rw [if_pos (e6.1 hs)]; simp [hs] at h5; omega
    · rw [if_neg (fun hc => hs (e6.2 hc))]; simp [hs] at h4; omega
  have hc1 : 1 ≤ classOf b := by
    clear * - hcls; split at hcls <;> omega
  have hc5 := hcls.2
  exact
  { type := by clear * - h1; omega
    lt := by clear * - h2 h3; split <;> omega
    cls := hcls
    reserved1 := by clear * - h6; omega
    reserved3 := by clear * - h6; omega
    cSdu := by clear * - h7; intro h; split <;> omega
    frameId := by
      unfold FrameIdOk
      constructor
      · clear * - h9; omega
      · clear * - h8; omega
    scf := by rw [pow2_iff]; clear * - h10; omega
    rr := by
      intro h
      unfold RatioOk
      clear * - h hc1 hc5 h11 h12
      split
      · clear h11; refine ⟨by omega, by omega, by omega, by omega⟩
      · clear h12; refine ⟨by omega, by omega, by omega, by omega⟩
    interval := by
      intro h h'
      by_contra hc
      exact h11 ⟨by clear * - h h' hc1 hc5; omega, Or.inr (Or.inr (Or.inr (by clear * - hc; omega)))⟩
    phase := by clear * - h13; omega
    offset := by
      have := b.frameSendOffset.isLt
      clear * - h14 this; omega
    hold := by clear * - h15; omega
    holdTime := by
      intro h h'
      rw [holdTime_exact b h'] at h15
      clear * - h15 h hc1 hc5
      split <;> omega
    vlan := by clear * - h16; omega
    prio := by clear * - h17; omega
    mac := by clear * - h18; omega
    apis := h19
    udpMac := by
      intro h
      rw [← zero6_iff]
      simpa [h] using h20
    udpPort := by clear * - h21; omega }

theorem checkIocr_documented {mi : Nat} {ar : ArBlock} {b : IocrBlock}
    (hda : ar.props.toNat / 256 % 2 = 0)
    (h : IocrDocumented mi ar b) : checkIocr mi ar b = .ok () := by
  obtain ⟨e1, e2, e3, e4, e5, e6, e7⟩ := fields_eq ar b
  have hda' : ar.deviceAccess = false := by
    unfold ArBlock.deviceAccess; rw [getBits_lt (by omega) (by omega) (by omega)]; simp [hda]
  have d1 := h.type
  have d2 := h.lt
  have d3 := h.cls
  have d4 := h.reserved1
  have d5 := h.reserved3
  have d6 := h.cSdu
  have d7 := h.frameId
  have d8 := (pow2_iff _).1 h.scf
  have d9 := h.rr
  have d10 := h.interval
  have d11 := h.phase
  have d12 := h.offset
  have d13 := h.hold
  have d14 := h.holdTime
  have d15 := h.vlan
  have d16 := h.prio
  have d17 := h.mac
  have d18 := h.apis
  have d19 := h.udpMac
  have d20 := h.udpPort
  have hprod : b.dataHoldFactor.toNat * b.rr.toNat * b.scf.toNat * 1000 < 2 ^ 32 := by
    unfold holdMicros at d14; split at d14 <;> omega
  have hht := holdTime_exact b hprod
  have hc1 : 1 ≤ classOf b := by split at d3 <;> omega
  have hoff := b.frameSendOffset.isLt
  unfold FrameIdOk at d7
  unfold RatioOk at d9
  unfold checkIocr
  simp only [ok_cons, e1, e2, e3, e4, e5, e7, Ne, hht, hda', ← Bool.not_eq_true]
  refine ⟨by simp, by clear * - d1; omega, ?_, ?_, ?_, ?_, by clear * - d4 d5; omega, ?_,
    by clear * - d7; omega, by clear * - d7; omega, by clear * - d8; omega, ?_, ?_,
    by clear * - d11; omega, ?_, ?_, by clear * - d15; omega, by clear * - d16; omega,
    by clear * - d17; omega, d18, ?_, by clear * - d20; omega, trivial⟩
  · clear * - d2; split at d2 <;> omega
  · clear * - d2; split at d2 <;> omega
  · rintro ⟨h1, h2⟩; rw [e6] at h1; rw [if_neg h1] at d3; clear * - d3 h2; omega
  · rintro ⟨h1, h2⟩; rw [e6] at h1; rw [if_pos h1] at d3; clear * - d3 h2; omega
  · clear * - d6; split at d6 <;> omega
  · rintro ⟨h1, h2⟩
    rw [if_neg (by clear * - h1; omega)] at d9
    have := d10 (by clear * - h1; omega)
    clear * - h2 d9 this
    rcases h2 with h2 | h2 | h2 | h2 <;> omega
  · rintro ⟨h1, h2⟩
    rw [if_pos h1] at d9
    clear * - h2 d9
    omega
  · clear * - d8 d12 hoff
    rintro ⟨h1, h2⟩
    rcases d12 with h | h
    · omega
    · omega
  · clear * - d13 d14; split at d14 <;> omega
  · rintro ⟨h1, h2⟩
    exact h2 ((zero6_iff _).2 (d19 h1))

theorem checkIocrsFrom_ok (mi : Nat) (ar : ArBlock) : ∀ (bs : List IocrBlock) (r : Except Err Unit),
    checkIocrsFrom mi ar r bs = .ok () ↔ r = .ok () ∧ ∀ b ∈ bs, checkIocr mi ar b = .ok () := by
  intro bs
  induction bs with
  | nil => intro r; simp [checkIocrsFrom]
  | cons b bs ih =>
    intro r
    unfold checkIocrsFrom
    cases hb : checkIocr mi ar b with
    | error e => simp [ih, hb]
    | ok u => simp [ih, hb]

/-- **C16 (partial).** Every IOCR of an accepted request is inside the limits, with the four
exceptions listed at `IocrGuaranteed`; the witnesses below show that each exception is real.
Missing: the documented limits without exceptions, which the code does not enforce. -/
theorem C16_accepted_within_limits_partial (mi : Nat) (ar : ArBlock) (bs : List IocrBlock)
    (h : checkIocrs mi ar bs = .ok ()) : ∀ b ∈ bs, IocrGuaranteed mi ar b := by
  intro b hb
  exact checkIocr_guaranteed (((checkIocrsFrom_ok mi ar bs _).1 h).2 b hb)

/-- **C16**, other direction: IOCRs inside the documented limits are accepted. -/
theorem C16_documented_accepted (mi : Nat) (ar : ArBlock) (bs : List IocrBlock)
    (har : checkAr ar = some (.ok ())) (hname : ar.nameLen.toNat ≤ ar.name.length)
    (h : ∀ b ∈ bs, IocrDocumented mi ar b) : checkIocrs mi ar bs = .ok () := by
  have hda := (C15_ar_block_accepted_iff ar hname).1 har (⟨1, 9⟩, ar.props.toNat / 256 % 2 = 0)
    (by simp [arFields])
  exact (checkIocrsFrom_ok mi ar bs _).2 ⟨rfl, fun b hb => checkIocr_documented hda (h b hb)⟩

/-- For RT class 1 and UDP, if the product of the hold factors fits and the VLAN id has at most 11
bits: accepted exactly when inside the documented limits. -/
theorem C16_iff_partial (mi : Nat) (ar : ArBlock) (b : IocrBlock)
    (har : checkAr ar = some (.ok ())) (hname : ar.nameLen.toNat ≤ ar.name.length)
    (hcls : classOf b = 1 ∨ classOf b = 4)
    (hprod : b.dataHoldFactor.toNat * b.rr.toNat * b.scf.toNat * 1000 < 2 ^ 32)
    (hvlan : b.tag.toNat % 4096 < 2048) :
    checkIocrs mi ar [b] = .ok () ↔ IocrDocumented mi ar b := by
  constructor
  · intro h
    have g := C16_accepted_within_limits_partial mi ar [b] h b (by simp)
    exact ⟨g.type, g.lt, g.cls, g.reserved1, g.reserved3, g.cSdu hcls, g.frameId, g.scf,
      g.rr (by omega), g.interval (by omega), g.phase, g.offset, g.hold,
      g.holdTime (by omega) hprod, by have := g.vlan; omega, g.prio, g.mac, g.apis, g.udpMac, g.udpPort⟩
  · intro h
    exact C16_documented_accepted mi ar [b] har hname (by simpa using h)

/-- A typical input IOCR of RT class 1. -/
def exampleIocr : IocrBlock where
  type := 1
  reference := 1
  lt := 0x8892
  props := 1
  cSdu := 40
  frameId := 0xC001
  scf := 32
  rr := 32
  phase := 1
  sequence := 0
  frameSendOffset := 0xffffffff
  watchdogFactor := 3
  dataHoldFactor := 3
  tag := 0xC000
  mac := ⟨#[0, 0, 0, 0, 0, 0], rfl⟩
  nbrApis := 1

/-- The same AR with legacy startup mode, which allows RT class 1. -/
def exampleArLegacy : ArBlock := { exampleAr with props := 0x11 }

example : checkAr exampleArLegacy = some (.ok ()) := by decide +kernel
example : checkIocrs 32 exampleArLegacy [exampleIocr] = .ok () := by decide +kernel
example : classOf exampleIocr = 1 ∧
    exampleIocr.dataHoldFactor.toNat * exampleIocr.rr.toNat * exampleIocr.scf.toNat * 1000 < 2 ^ 32 ∧
    exampleIocr.tag.toNat % 4096 < 2048 := by decide +kernel

/-- Negation of C16, C_SDU length: an IOCR of RT class 2 may announce 65535 bytes. -/
theorem C16_csdu_unchecked :
    checkAr exampleArLegacy = some (.ok ()) ∧
    checkIocrs 32 exampleArLegacy
      [{ exampleIocr with props := 2, frameId := 0x8001, cSdu := 65535 }] = .ok () ∧
    ¬ IocrDocumented 32 exampleArLegacy
      { exampleIocr with props := 2, frameId := 0x8001, cSdu := 65535 } := by
  refine ⟨by decide +kernel, by decide +kernel, fun h => ?_⟩
  have := h.cSdu.2
  revert this; decide +kernel

/-- Negation of C16, hold time: the product wraps, and a hold time of 134.6 s is accepted although
the limit is 1.92 s. -/
theorem C16_hold_time_wraps :
    checkIocrs 32 exampleArLegacy [{ exampleIocr with rr := 512, dataHoldFactor := 263 }] = .ok () ∧
    holdMicros { exampleIocr with rr := 512, dataHoldFactor := 263 } = 134656000 := by
  decide +kernel

/-- Negation of C16, VLAN: id 2048 is accepted. -/
theorem C16_vlan_2048_accepted :
    checkIocrs 32 exampleArLegacy [{ exampleIocr with tag := 0xC800 }] = .ok () ∧
    ¬ IocrDocumented 32 exampleArLegacy { exampleIocr with tag := 0xC800 } := by
  refine ⟨by decide +kernel, fun h => ?_⟩
  have := h.vlan
  revert this; decide +kernel

/-- Negation of C16, RT class 5: no limit for the reduction ratio and the hold time. -/
theorem C16_class5_unchecked :
    checkIocrs 32 exampleArLegacy
      [{ exampleIocr with props := 5, rr := 65535, dataHoldFactor := 7680 }] = .ok () ∧
    ¬ IocrDocumented 32 exampleArLegacy
      { exampleIocr with props := 5, rr := 65535, dataHoldFactor := 7680 } := by
  refine ⟨by decide +kernel, fun h => ?_⟩
  have := h.rr.2.1
  revert this; decide +kernel

/-! ### C17 -/

/-- The upper four bits of the VLAN id cleared. -/
def clearVlan (b : AlarmBlock) : AlarmBlock :=
  { b with tagHigh := b.tagHigh &&& 0xF0FF, tagLow := b.tagLow &&& 0xF0FF }

theorem and_F0FF (t : BitVec 16) : (t &&& 0xF0FF).toNat % 4096 = t.toNat % 256 ∧
    (t &&& 0xF0FF).toNat / 8192 = t.toNat / 8192 := by
  have h : ∀ n < 65536, (n &&& 0xF0FF) % 4096 = n % 256 ∧ (n &&& 0xF0FF) / 8192 = n / 8192 := by
    intro n hn
    have e1 : (n &&& 0xF0FF) % 2 ^ 12 = n % 2 ^ 8 := by
      rw [Nat.and_mod_two_pow]
      show n % 2 ^ 12 &&& 2 ^ 8 - 1 = _
      rw [Nat.and_two_pow_sub_one_eq_mod]
      omega
    have e2 : (n &&& 0xF0FF) / 2 ^ 13 = n / 2 ^ 13 := by
      rw [Nat.and_div_two_pow]
      show n / 2 ^ 13 &&& 2 ^ 3 - 1 = _
      rw [Nat.and_two_pow_sub_one_eq_mod]
      omega
    exact ⟨by simpa using e1, by simpa using e2⟩
  rw [BitVec.toNat_and]
  exact h _ t.isLt

/-- **C17 (partial).** For every alarm CR block: it is accepted exactly when the block with the
upper four bits of both VLAN ids cleared meets all requirements, and a refusal names the first
requirement that this block does not meet. Missing: the upper four bits of the VLAN ids are
ignored (`C17_vlan_256_accepted`). -/
theorem C17_alarm_block_verdict_partial (ar : ArBlock) (b : AlarmBlock)
    (hda : ar.props.toNat / 256 % 2 = 0) :
    Verdict (alarmFields (clearVlan b)) (checkAlarm ar b) := by
  have hda' : ar.deviceAccess = false := by
    unfold ArBlock.deviceAccess; rw [getBits_lt (by omega) (by omega) (by omega)]; simp [hda]
  have hh := and_F0FF b.tagHigh
  have hl := and_F0FF b.tagLow
  have b1 := b.tagHigh.isLt
  have b2 := b.tagLow.isLt
  unfold checkAlarm alarmFields
  rw [if_neg (show ¬ ar.deviceAccess = true by simp [hda'])]
  refine verdict_cons (by have e : (clearVlan b).type = b.type := rfl; rw [e]) fun _ => ?_
  refine verdict_cons (by
    unfold AlarmBlock.transportUdp; rw [getBits_lt (by omega) (by omega) (by omega)]
    simp only [bne_iff_ne, ne_eq, bne_eq_false_iff_eq, Nat.pow_one]
    have e1 : (clearVlan b).props = b.props := rfl
    have e2 : (clearVlan b).lt = b.lt := rfl
    rw [e1, e2]
    split <;> omega) fun _ => ?_
  refine verdict_cons (by have e : (clearVlan b).timeoutFactor = b.timeoutFactor := rfl; rw [e]; omega) fun _ => ?_
  refine verdict_cons (by have e : (clearVlan b).retries = b.retries := rfl; rw [e]; omega) fun _ => ?_
  refine verdict_cons (by have e : (clearVlan b).maxLen = b.maxLen := rfl; rw [e]; omega) fun _ => ?_
  refine verdict_cons (by
    unfold AlarmBlock.vlanHigh; rw [getBits16_lt (by omega) (by omega) (by omega)]
    have e1 : (clearVlan b).tagHigh = b.tagHigh &&& 0xF0FF := rfl
    have e2 : (clearVlan b).tagLow = b.tagLow &&& 0xF0FF := rfl
    simp only [e1, e2]; omega) fun _ => ?_
  refine verdict_cons (by
    unfold AlarmBlock.prioHigh; rw [getBits16_lt (by omega) (by omega) (by omega)]
    have e1 : (clearVlan b).tagHigh = b.tagHigh &&& 0xF0FF := rfl
    have e2 : (clearVlan b).tagLow = b.tagLow &&& 0xF0FF := rfl
    simp only [e1, e2]; omega) fun _ => ?_
  refine verdict_cons (by
    unfold AlarmBlock.vlanLow; rw [getBits16_lt (by omega) (by omega) (by omega)]
    have e1 : (clearVlan b).tagHigh = b.tagHigh &&& 0xF0FF := rfl
    have e2 : (clearVlan b).tagLow = b.tagLow &&& 0xF0FF := rfl
    simp only [e1, e2]; omega) fun _ => ?_
  refine verdict_cons (by
    unfold AlarmBlock.prioLow; rw [getBits16_lt (by omega) (by omega) (by omega)]
    have e1 : (clearVlan b).tagHigh = b.tagHigh &&& 0xF0FF := rfl
    have e2 : (clearVlan b).tagLow = b.tagLow &&& 0xF0FF := rfl
    simp only [e1, e2]; omega) fun _ => ?_
  exact verdict_nil

/-- **C17**, for blocks whose VLAN ids fit into eight bits: accepted exactly when all requirements
are met. -/
theorem C17_alarm_accepted_iff_partial (ar : ArBlock) (b : AlarmBlock)
    (hda : ar.props.toNat / 256 % 2 = 0)
    (hh : b.tagHigh.toNat % 4096 < 256) (hl : b.tagLow.toNat % 4096 < 256) :
    checkAlarm ar b = .ok () ↔ ∀ f ∈ alarmFields b, f.2 := by
  rw [verdict_ok_iff (C17_alarm_block_verdict_partial ar b hda)]
  have h1 := and_F0FF b.tagHigh
  have h2 := and_F0FF b.tagLow
  have h3 : b.tagHigh.toNat % 256 = b.tagHigh.toNat % 4096 := by omega
  have h4 : b.tagLow.toNat % 256 = b.tagLow.toNat % 4096 := by omega
  simp only [alarmFields, clearVlan, h1.1, h1.2, h2.1, h2.2, h3, h4]
  exact Iff.rfl

/-- **C17**, blocks inside the documented limits are accepted (no restriction on the VLAN ids). -/
theorem C17_documented_accepted (ar : ArBlock) (b : AlarmBlock)
    (hda : ar.props.toNat / 256 % 2 = 0) (h : ∀ f ∈ alarmFields b, f.2) :
    checkAlarm ar b = .ok () := by
  have a1 : b.tagHigh.toNat % 4096 = 0 := by
    have := h (⟨4, 11⟩, b.tagHigh.toNat % 4096 = 0) (by simp [alarmFields]); exact this
  have a2 : b.tagLow.toNat % 4096 = 0 := by
    have := h (⟨4, 12⟩, b.tagLow.toNat % 4096 = 0) (by simp [alarmFields]); exact this
  exact (C17_alarm_accepted_iff_partial ar b hda (by omega) (by omega)).2 h

/-- A typical alarm CR block. -/
def exampleAlarm : AlarmBlock where
  type := 1
  lt := 0x8892
  props := 0
  timeoutFactor := 1
  retries := 3
  localRef := 1
  maxLen := 200
  tagHigh := 0xC000
  tagLow := 0xA000

example : exampleArLegacy.props.toNat / 256 % 2 = 0 ∧
    checkAlarm exampleArLegacy exampleAlarm = .ok () := by decide +kernel
example : checkAlarm exampleArLegacy { exampleAlarm with retries := 2, maxLen := 0 } =
    .error ⟨4, 8⟩ := by decide +kernel

/-- Negation of C17: VLAN id 256 is accepted, because the field is stored in eight bits. -/
theorem C17_vlan_256_accepted :
    checkAlarm exampleArLegacy { exampleAlarm with tagHigh := 0xC100 } = .ok () ∧
    ¬ ∀ f ∈ alarmFields { exampleAlarm with tagHigh := 0xC100 }, f.2 := by
  refine ⟨by decide +kernel, fun h => ?_⟩
  have := h (⟨4, 11⟩, _) (List.mem_of_getElem? (i := 5) rfl)
  revert this; decide +kernel

/-! ### C18 -/

/-- The assignment terminates. (There are far fewer than 2^16 CRs: PNET_MAX_AR * PNET_MAX_CR.) -/
theorem C18_terminates (maxAr : Nat) (ars : List Ar) (i : Nat)
    (h : (ars.flatMap (·.crs)).length < 65536) : (fixFrameIds maxAr ars i).isSome := by
  unfold fixFrameIds
  cases ars[i]? with
  | none => rfl
  | some ar =>
    obtain ⟨a, ha⟩ := fixFrom_term maxAr i ar.crs.length 0 ars h
    simp [ha]

/-- **C18 (partial).** After the assignment for the connection at index `i`, every output CR of it
which asked for a frame ID (0xFFFF) and has RT class 1, 2, 3 or UDP has one that is in the range of
its class, differs from the frame ID of every other CR of every connection, and is the smallest
such number; or it still has 0xFFFF and all numbers of the range are used. Nothing else changes.
Missing: RT class 5 (`C18_class5_gets_zero`). -/
theorem C18_frame_ids_partial (maxAr : Nat) (ars ars' : List Ar) (i : Nat) (ar : Ar)
    (hi : i < maxAr) (har : ars[i]? = some ar) (huse : ar.inUse = true)
    (h : fixFrameIds maxAr ars i = some ars') :
    (∀ j cr, crAt ars i j = some cr → cr.type = 2 → cr.frameId.toNat = 0xFFFF →
      ∃ f, crAt ars' i j = some { cr with frameId := f } ∧
        (cr.rtClass ∈ [1, 2, 3, 4] →
          GoodChoice maxAr ars' i j cr.rtClass f.toNat ∨
          f.toNat = 0xFFFF ∧ ∀ g, InRange cr.rtClass g → ∃ i' j', UsedAt maxAr ars' i' j' g)) ∧
    (∀ i' j' cr, crAt ars i' j' = some cr → ¬ (i' = i ∧ cr.type = 2 ∧ cr.frameId.toNat = 0xFFFF) →
      crAt ars' i' j' = some cr) ∧
    ars'.length = ars.length := by
  unfold fixFrameIds at h
  rw [har] at h
  simp only at h
  have hu : ∃ ar, ars[i]? = some ar ∧ ar.inUse = true := ⟨ar, har, huse⟩
  have h0 : FixInv maxAr ars i 0 ars :=
    ⟨rfl, fun _ => Iff.rfl, fun _ _ _ => rfl, fun _ _ h _ => h, fun j' hj' => absurd hj' (by omega)⟩
  have hinv := fixFrom_inv hi hu ar.crs.length 0 ars ars' h0 h
  rw [Nat.zero_add] at hinv
  refine ⟨?_, ?_, hinv.len⟩
  · intro j cr hcr h1 h2
    have hj : j < ar.crs.length := by
      unfold crAt at hcr; rw [har] at hcr; simp at hcr
      exact (List.getElem?_eq_some_iff.1 hcr).1
    exact hinv.done j hj cr hcr ⟨h1, h2⟩
  · intro i' j' cr hcr hne
    by_cases hii : i' = i
    · subst hii
      exact hinv.same j' cr hcr (by intro hw; exact hne ⟨rfl, hw⟩)
    · rw [hinv.other i' j' (by omega)]; exact hcr

/-- Two connections; the second one asks for two frame IDs. -/
def exampleArs : List Ar :=
  [⟨true, [⟨1, 1, 0xC010⟩, ⟨2, 1, 0xC000⟩]⟩, ⟨false, [⟨2, 1, 0xC001⟩]⟩,
   ⟨true, [⟨1, 1, 0xC002⟩, ⟨2, 1, 0xFFFF⟩, ⟨2, 4, 0xFFFF⟩, ⟨2, 2, 0xFFFF⟩]⟩]

example : fixFrameIds 3 exampleArs 2 = some
  [⟨true, [⟨1, 1, 0xC010⟩, ⟨2, 1, 0xC000⟩]⟩, ⟨false, [⟨2, 1, 0xC001⟩]⟩,
   ⟨true, [⟨1, 1, 0xC002⟩, ⟨2, 1, 0xC001⟩, ⟨2, 4, 0xC003⟩, ⟨2, 2, 0x8000⟩]⟩] := by decide +kernel

/-- Negation of C18 for RT class 5 (which the parameter check accepts, `C16_class5_unchecked`): the
search starts at 0xFFFF, which is used by the CR itself; the counter wraps to 0, and the CR gets
frame ID 0. -/
theorem C18_class5_gets_zero :
    fixFrameIds 1 [⟨true, [⟨2, 5, 0xFFFF⟩]⟩] 0 = some [⟨true, [⟨2, 5, 0⟩]⟩] := by decide +kernel

end Verif.Connect
