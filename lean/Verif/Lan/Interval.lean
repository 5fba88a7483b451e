import Verif.Connect.Props

/-! C135: cycle times of the hardware (LAN9662 driver). -/

namespace Verif.Lan.Interval

open Verif.Connect

/-! ## Model -/

/-- pf_mera_ppm_alloc (src/drivers/lan9662/src/pf_lan9662_mera.c:1259-1326), line 1304: the factors are `uint16_t`, the product is a signed
`int`; `none` if it does not fit.  The interval is in nanoseconds. -/
def ppmInterval (scf rr : BitVec 16) : Option (BitVec 32) :=
  if 1000000 * scf.toNat * rr.toNat < 2 ^ 31 then some (BitVec.ofNat 32 (1000000 * scf.toNat * rr.toNat / 32)) else none

/-- The control interval of pf_cpm_activate_req (src/common/pf_cpm.c:212-308), in microseconds. -/
def controlInterval (scf rr : BitVec 16) : BitVec 32 := scf.zeroExtend 32 * rr.zeroExtend 32 * 1000#32 / 32#32

/-- pf_mera_cpm_activate_rte_dht (src/drivers/lan9662/src/pf_lan9662_mera.c:2338-2374): the interval in nanoseconds and the number of intervals
after which the hardware applies the default values.  The same interval is set by pf_mera_cpm_start_rte (2153-2245). -/
def holdSetting (scf rr dhf : BitVec 16) : BitVec 32 × Nat := (controlInterval scf rr * 1000#32, dhf.toNat)

/-! ## Specification: the time between two frames is send clock factor times reduction ratio times 31.25 µs -/

def exactNs (scf rr : BitVec 16) : Nat := scf.toNat * rr.toNat * 31250

/-! ## Proofs -/

theorem ppmInterval_exact {scf rr : BitVec 16} (h : scf.toNat * rr.toNat ≤ 2147) :
    ∃ i, ppmInterval scf rr = some i ∧ i.toNat = exactNs scf rr := by
  have e : 1000000 * scf.toNat * rr.toNat = 32 * (scf.toNat * rr.toNat * 31250) := by rw [Nat.mul_assoc]; omega
  refine ⟨BitVec.ofNat 32 (1000000 * scf.toNat * rr.toNat / 32), ?_, ?_⟩
  · unfold ppmInterval
    rw [if_pos (by rw [e]; omega)]
  · rw [e, BitVec.toNat_ofNat, Nat.mul_div_cancel_left _ (by omega)]
    unfold exactNs
    omega

theorem ppmInterval_none {scf rr : BitVec 16} (h : 2148 ≤ scf.toNat * rr.toNat) : ppmInterval scf rr = none := by
  have e : 1000000 * scf.toNat * rr.toNat = 32 * (scf.toNat * rr.toNat * 31250) := by rw [Nat.mul_assoc]; omega
  unfold ppmInterval
  rw [if_neg (by rw [e]; omega)]

theorem control_exact {scf rr : BitVec 16} (h : scf.toNat * rr.toNat ≤ 4294967) :
    (controlInterval scf rr).toNat = scf.toNat * rr.toNat * 1000 / 32 := by
  have z : ∀ x : BitVec 16, (BitVec.zeroExtend 32 x).toNat = x.toNat := by
    intro x; simp [BitVec.toNat_setWidth]; have := x.isLt; omega
  have k : (1000#32).toNat = 1000 := rfl
  have d : (32#32).toNat = 32 := rfl
  unfold controlInterval
  rw [BitVec.toNat_udiv, BitVec.toNat_mul, BitVec.toNat_mul, z, z, k, d, Nat.mod_mul_mod, Nat.mod_eq_of_lt (by omega)]

/-- The product for parameters of the real-time classes 1 to 3 that a connect request may have. -/
theorem product_le {scf rr : Nat} (hs : ∃ k ≤ 7, scf = 2 ^ k) (hr : RatioOk 512 scf rr) : scf * rr ≤ 32704 := by
  obtain ⟨k, hk, rfl⟩ := hs
  obtain ⟨h1, h2, h3, h4⟩ := hr
  have hc : k = 0 ∨ k = 1 ∨ k = 2 ∨ k = 3 ∨ k = 4 ∨ k = 5 ∨ k = 6 ∨ k = 7 := by omega
  rcases hc with rfl | rfl | rfl | rfl | rfl | rfl | rfl | rfl <;> simp at * <;> omega

/-- C135, restricted: the hardware sends in exactly the requested time, for products of the two factors up to 2147 (67 ms). -/
theorem C135_send_partial {scf rr : BitVec 16} (h : scf.toNat * rr.toNat ≤ 2147) : ∃ i, ppmInterval scf rr = some i ∧ i.toNat = exactNs scf rr :=
  ppmInterval_exact h

/-- C135: for every accepted connection of the real-time classes 1 to 3 the hardware supervises the received frames with the requested time,
rounded down to microseconds, and the requested number of missed frames. -/
theorem C135_receive {mi : Nat} {ar : ArBlock} {bs : List IocrBlock} (hacc : checkIocrs mi ar bs = .ok ()) {b : IocrBlock} (hb : b ∈ bs)
    (hc : classOf b ≤ 3) :
    let s := holdSetting b.scf b.rr b.dataHoldFactor
    s.1.toNat ≤ exactNs b.scf b.rr ∧ exactNs b.scf b.rr < s.1.toNat + 1000 ∧ s.1.toNat % 1000 = 0 ∧ s.2 = b.dataHoldFactor.toNat := by
  have g := C16_accepted_within_limits_partial mi ar bs hacc b hb
  have hr := g.rr (by omega)
  rw [if_neg (by omega)] at hr
  have hp := product_le g.scf hr
  have hci := control_exact (scf := b.scf) (rr := b.rr) (by omega)
  have k : (1000#32).toNat = 1000 := rfl
  have he : (holdSetting b.scf b.rr b.dataHoldFactor).1.toNat = b.scf.toNat * b.rr.toNat * 1000 / 32 * 1000 := by
    show (controlInterval b.scf b.rr * 1000#32).toNat = _
    rw [BitVec.toNat_mul, hci, k]
    omega
  intro s
  show s.1.toNat ≤ _ ∧ _ < s.1.toNat + 1000 ∧ _
  rw [he]
  unfold exactNs
  refine ⟨by omega, by omega, by omega, rfl⟩

/-- C135 fails: every accepted connection whose factors have a product of 2148 or more overflows the computation of the send interval, ... -/
theorem C135_send_overflows {scf rr : BitVec 16} (h : 2148 ≤ scf.toNat * rr.toNat) : ppmInterval scf rr = none := ppmInterval_none h

/-- ... and there are such connections, for example with a send clock of 1 ms and a reduction ratio of 128. -/
theorem C135_overflow_accepted : checkAr exampleArLegacy = some (.ok ()) ∧
    checkIocrs 32 exampleArLegacy [{ exampleIocr with rr := 128 }] = .ok () ∧ ppmInterval 32 128 = none := by decide +kernel

/-- The usual parameters are inside the limits of the theorems. -/
example : (32 : BitVec 16).toNat * (32 : BitVec 16).toNat ≤ 2147 ∧ (ppmInterval 32 32).map (·.toNat) = some 32000000 ∧
    holdSetting 32 32 3 = (32000000, 3) := by decide +kernel
example : checkIocrs 32 exampleArLegacy [exampleIocr] = .ok () ∧ classOf exampleIocr ≤ 3 := by decide +kernel

end Verif.Lan.Interval
