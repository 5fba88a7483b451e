import Mathlib.Data.Nat.Bitwise
import Mathlib.Tactic.Tauto
/-!
# C34 Accepted IP settings are well-formed

Model of the IP validation in `src/device/pf_cmina.c`, the specification in terms of prefix lengths and
plain arithmetic, and the proof that they agree on all 2^96 inputs.
-/
namespace Verif.Validate

/-! ## Model -/

/-- `PNAL_MAKEU32` as used in `pf_cmina_is_ipaddress_valid` (src/device/pf_cmina.c:1704-1743): four octets, most significant first. -/
def makeU32 (a b c d : Nat) : BitVec 32 := BitVec.ofNat 32 (a * 0x1000000 + b * 0x10000 + c * 0x100 + d)

/-- `pf_cmina_is_netmask_valid` (src/device/pf_cmina.c:1755-1765). -/
def netmaskValid (m : BitVec 32) : Bool := decide (m &&& ((~~~m) >>> 1) = 0)

/-- `pf_cmina_is_ipaddress_valid` (src/device/pf_cmina.c:1704-1743). -/
def ipaddressValid (netmask ip : BitVec 32) : Bool :=
  let host := ip &&& ~~~netmask
  if netmask = 0 ∧ ip = 0 then true
  else if netmaskValid netmask = false then false
  else if host = 0 ∨ host = ~~~netmask then false
  else if ip ≤ makeU32 0 255 255 255 then false
  else if makeU32 127 0 0 0 ≤ ip ∧ ip ≤ makeU32 127 255 255 255 then false
  else if makeU32 224 0 0 0 ≤ ip ∧ ip ≤ makeU32 239 255 255 255 then false
  else if makeU32 240 0 0 0 ≤ ip ∧ ip ≤ makeU32 255 255 255 255 then false
  else true

/-- `pf_cmina_is_gateway_valid` (src/device/pf_cmina.c:1779-1789). -/
def gatewayValid (ip netmask gateway : BitVec 32) : Bool :=
  if gateway ≠ 0 ∧ ip &&& netmask ≠ gateway &&& netmask then false else true

/-- `pf_cmina_is_ipsuite_valid` (src/device/pf_cmina.c:1649-1669). -/
def ipsuiteValid (ip netmask gateway : BitVec 32) : Bool :=
  if netmaskValid netmask = false then false
  else if ipaddressValid netmask ip = false then false
  else if gatewayValid ip netmask gateway = false then false
  else true

/-! ## Specification -/

/-- The netmask with prefix length `n`: `n` one bits followed by `32 - n` zero bits, as a number. -/
def prefixMask (n : Nat) : Nat := 2 ^ 32 - 2 ^ (32 - n)

/-- The first octet of an address. -/
def octet1 (ip : Nat) : Nat := ip / 2 ^ 24

/-- A usable unicast host address in a subnet with prefix length `n`: the host number is neither all
zeros nor all ones, and the address is outside 0/8, 127/8 (loopback) and 224/3 (multicast, reserved). -/
def UsableHost (n ip : Nat) : Prop :=
  ip % 2 ^ (32 - n) ≠ 0 ∧ ip % 2 ^ (32 - n) ≠ 2 ^ (32 - n) - 1 ∧
  octet1 ip ≠ 0 ∧ octet1 ip ≠ 127 ∧ octet1 ip < 224

/-- Both addresses are in the same subnet of prefix length `n`. -/
def SameSubnet (n a b : Nat) : Prop := a / 2 ^ (32 - n) = b / 2 ^ (32 - n)

/-! ## Proof -/

/-- Monotone bits have a threshold. -/
theorem threshold (b : Nat → Bool) (N : Nat) (h : ∀ i, i + 1 < N → b i = true → b (i + 1) = true) :
    ∃ k, k ≤ N ∧ ∀ i, i < N → (b i = true ↔ k ≤ i) := by
  induction N with
  | zero => exact ⟨0, Nat.le_refl _, fun i hi => absurd hi (by omega)⟩
  | succ N ih =>
    obtain ⟨k, hk, hb⟩ := ih fun i hi => h i (by omega)
    by_cases hN : b N = true
    · refine ⟨k, by omega, fun i hi => ?_⟩
      by_cases hiN : i = N
      · subst hiN; exact ⟨fun _ => hk, fun _ => hN⟩
      · exact hb i (by omega)
    · have hkN : k = N := by
        by_contra hne
        have h1 : b (N - 1) = true := (hb (N - 1) (by omega)).2 (by omega)
        have h2 := h (N - 1) (by omega) h1
        rw [show N - 1 + 1 = N by omega] at h2
        exact hN h2
      subst hkN
      refine ⟨k + 1, Nat.le_refl _, fun i hi => ?_⟩
      by_cases hiN : i = k
      · subst hiN; constructor
        · intro h; exact absurd h hN
        · intro h; omega
      · rw [hb i (by omega)]; omega

theorem testBit_prefix (k i : Nat) (hk : k ≤ 32) :
    (2 ^ 32 - 2 ^ k).testBit i = (decide (k ≤ i) && decide (i < 32)) := by
  have e : 2 ^ 32 - 2 ^ k = (2 ^ (32 - k) - 1) <<< k := by
    rw [Nat.shiftLeft_eq, Nat.sub_mul, ← Nat.pow_add, one_mul, show 32 - k + k = 32 by omega]
  rw [e, Nat.testBit_shiftLeft, Nat.testBit_two_pow_sub_one]
  by_cases h : k ≤ i
  · simp only [h, decide_true, Bool.true_and]
    congr 1
    exact propext ⟨fun _ => by omega, fun _ => by omega⟩
  · simp [h]

theorem netmask_prefix (m : BitVec 32) :
    netmaskValid m = true ↔ ∃ n, n ≤ 32 ∧ m.toNat = prefixMask n := by
  have hlt : m.toNat < 2 ^ 32 := m.isLt
  constructor
  · intro h
    have h0 : m &&& ((~~~m) >>> 1) = 0 := by simpa [netmaskValid] using h
    have hb : ∀ i, i + 1 < 32 → m.getLsbD i = true → m.getLsbD (i + 1) = true := by
      intro i hi hm
      have := congrArg (fun v => v.getLsbD i) h0
      simp only [BitVec.getLsbD_and, BitVec.getLsbD_ushiftRight, BitVec.getLsbD_not, BitVec.ofNat_eq_ofNat,
        BitVec.getLsbD_zero] at this
      rw [hm, show 1 + i = i + 1 by omega] at this
      simpa [hi] using this
    obtain ⟨k, hk, hkb⟩ := threshold (fun i => m.getLsbD i) 32 hb
    refine ⟨32 - k, by omega, ?_⟩
    unfold prefixMask
    rw [show 32 - (32 - k) = k by omega]
    apply Nat.eq_of_testBit_eq
    intro i
    rw [testBit_prefix k i hk]
    by_cases hi : i < 32
    · have := hkb i hi
      have e : m.toNat.testBit i = m.getLsbD i := rfl
      rw [e]
      cases hm : m.getLsbD i with
      | true => rw [this.1 hm |> decide_eq_true]; simp [hi]
      | false =>
        have : ¬ k ≤ i := fun h => by have h2 := this.2 h; simp only [hm] at h2; cases h2
        simp [this]
    · rw [Nat.testBit_lt_two_pow (Nat.lt_of_lt_of_le hlt (Nat.pow_le_pow_right (by decide) (by omega)))]
      simp [hi]
  · rintro ⟨n, hn, hm⟩
    have hbit : ∀ i, m.getLsbD i = (decide (32 - n ≤ i) && decide (i < 32)) := by
      intro i
      have : m.getLsbD i = m.toNat.testBit i := rfl
      rw [this, hm]
      exact testBit_prefix (32 - n) i (by omega)
    have : m &&& ((~~~m) >>> 1) = 0 := by
      apply BitVec.eq_of_getLsbD_eq
      intro i hi
      simp only [BitVec.getLsbD_and, BitVec.getLsbD_ushiftRight, BitVec.getLsbD_not, BitVec.ofNat_eq_ofNat,
        BitVec.getLsbD_zero, hbit]
      by_cases h1 : 32 - n ≤ i
      · by_cases h2 : 1 + i < 32
        · simp [h1, h2]; omega
        · simp [h2]
      · simp [h1]
    simp [netmaskValid, this]

section
variable {n : Nat} {m : BitVec 32} (hn : n ≤ 32) (hm : m.toNat = prefixMask n)
include hn hm

theorem not_mask : (~~~m).toNat = 2 ^ (32 - n) - 1 := by
  rw [BitVec.toNat_not, hm, prefixMask]
  have h1 : 2 ^ (32 - n) ≤ 2 ^ 32 := Nat.pow_le_pow_right (by decide) (by omega)
  have h2 : 0 < 2 ^ (32 - n) := Nat.pow_pos (by decide)
  omega

theorem host_eq (ip : BitVec 32) : (ip &&& ~~~m).toNat = ip.toNat % 2 ^ (32 - n) := by
  rw [BitVec.toNat_and, not_mask hn hm, Nat.and_two_pow_sub_one_eq_mod]

theorem subnet_eq (a b : BitVec 32) : a &&& m = b &&& m ↔ SameSubnet n a.toNat b.toNat := by
  have hbit : ∀ i, m.getLsbD i = (decide (32 - n ≤ i) && decide (i < 32)) := by
    intro i
    have : m.getLsbD i = m.toNat.testBit i := rfl
    rw [this, hm]
    exact testBit_prefix (32 - n) i (by omega)
  unfold SameSubnet
  rw [← Nat.shiftRight_eq_div_pow, ← Nat.shiftRight_eq_div_pow]
  constructor
  · intro h
    apply Nat.eq_of_testBit_eq
    intro j
    rw [Nat.testBit_shiftRight, Nat.testBit_shiftRight]
    by_cases hj : 32 - n + j < 32
    · have := congrArg (fun v => v.getLsbD (32 - n + j)) h
      simp only [BitVec.getLsbD_and, hbit, hj, decide_true, Bool.and_true, Nat.le_add_right] at this
      exact this
    · have hle : ∀ x : BitVec 32, x.toNat.testBit (32 - n + j) = false := fun x =>
        Nat.testBit_lt_two_pow (Nat.lt_of_lt_of_le x.isLt (Nat.pow_le_pow_right (by decide) (by omega)))
      rw [hle, hle]
  · intro h
    apply BitVec.eq_of_getLsbD_eq
    intro i hi
    rw [BitVec.getLsbD_and, BitVec.getLsbD_and, hbit]
    by_cases h1 : 32 - n ≤ i
    · have := congrArg (fun v => v.testBit (i - (32 - n))) h
      simp only [Nat.testBit_shiftRight] at this
      rw [show 32 - n + (i - (32 - n)) = i by omega] at this
      have e : ∀ x : BitVec 32, x.getLsbD i = x.toNat.testBit i := fun _ => rfl
      rw [e, e, this]
    · simp [h1]

end

theorem makeU32_toNat (a b c d : Nat) (ha : a < 256) (hb : b < 256) (hc : c < 256) (hd : d < 256) :
    (makeU32 a b c d).toNat = a * 0x1000000 + b * 0x10000 + c * 0x100 + d := by
  unfold makeU32
  rw [BitVec.toNat_ofNat, Nat.mod_eq_of_lt (by omega)]

theorem ranges (ip : BitVec 32) :
    (¬ ip ≤ makeU32 0 255 255 255 ∧ ¬ (makeU32 127 0 0 0 ≤ ip ∧ ip ≤ makeU32 127 255 255 255) ∧
     ¬ (makeU32 224 0 0 0 ≤ ip ∧ ip ≤ makeU32 239 255 255 255) ∧
     ¬ (makeU32 240 0 0 0 ≤ ip ∧ ip ≤ makeU32 255 255 255 255)) ↔
    (octet1 ip.toNat ≠ 0 ∧ octet1 ip.toNat ≠ 127 ∧ octet1 ip.toNat < 224) := by
  have hlt : ip.toNat < 2 ^ 32 := ip.isLt
  simp only [BitVec.le_def, octet1]
  rw [makeU32_toNat 0 255 255 255 (by decide) (by decide) (by decide) (by decide),
    makeU32_toNat 127 0 0 0 (by decide) (by decide) (by decide) (by decide),
    makeU32_toNat 127 255 255 255 (by decide) (by decide) (by decide) (by decide),
    makeU32_toNat 224 0 0 0 (by decide) (by decide) (by decide) (by decide),
    makeU32_toNat 239 255 255 255 (by decide) (by decide) (by decide) (by decide),
    makeU32_toNat 240 0 0 0 (by decide) (by decide) (by decide) (by decide),
    makeU32_toNat 255 255 255 255 (by decide) (by decide) (by decide) (by decide)]
  generalize ip.toNat = x at hlt
  have : (2 : Nat) ^ 24 = 16777216 := by decide
  omega

/-- The address check for a mask of prefix length `n`. -/
theorem ipaddress_iff {n : Nat} {m : BitVec 32} (hn : n ≤ 32) (hm : m.toNat = prefixMask n) (ip : BitVec 32) :
    ipaddressValid m ip = true ↔ (n = 0 ∧ ip.toNat = 0) ∨ UsableHost n ip.toNat := by
  have hv : netmaskValid m = true := (netmask_prefix m).2 ⟨n, hn, hm⟩
  have hm0 : m = 0 ↔ n = 0 := by
    constructor
    · intro h
      rw [h] at hm
      have h0 : (0 : BitVec 32).toNat = 0 := rfl
      rw [h0, prefixMask] at hm
      by_contra hne
      have : 2 ^ (32 - n) < 2 ^ 32 := Nat.pow_lt_pow_right (by decide) (by omega)
      omega
    · intro h
      apply BitVec.eq_of_toNat_eq
      rw [hm, h]; rfl
  have hip0 : ip = 0 ↔ ip.toNat = 0 := by
    constructor
    · intro h; rw [h]; rfl
    · intro h; exact BitVec.eq_of_toNat_eq h
  have hh0 : ip &&& ~~~m = 0 ↔ ip.toNat % 2 ^ (32 - n) = 0 := by
    rw [← host_eq hn hm]
    constructor
    · intro h; rw [h]; rfl
    · intro h; exact BitVec.eq_of_toNat_eq h
  have hh1 : ip &&& ~~~m = ~~~m ↔ ip.toNat % 2 ^ (32 - n) = 2 ^ (32 - n) - 1 := by
    rw [← host_eq hn hm, ← not_mask hn hm]
    constructor
    · intro h; rw [h]
    · intro h; exact BitVec.eq_of_toNat_eq h
  have hr := ranges ip
  unfold ipaddressValid UsableHost
  simp only [hv]
  rw [← hm0, ← hip0, ← hr, ne_eq, ne_eq, ← hh0, ← hh1]
  by_cases h1 : m = 0 ∧ ip = 0
  · simp [h1]
  · rw [if_neg h1, if_neg (by simp)]
    clear hm0 hip0 hh0 hh1 hr hv
    generalize (m = 0 ∧ ip = 0) = A at *
    split_ifs with a b c d e
    · simp only [Bool.false_eq_true, false_iff]; rintro (h | ⟨h, h', _⟩)
      · exact h1 h
      · exact a.elim h h'
    · simp only [Bool.false_eq_true, false_iff]; rintro (h | ⟨_, _, h, _⟩)
      · exact h1 h
      · exact h b
    · simp only [Bool.false_eq_true, false_iff]; rintro (h | ⟨_, _, _, h, _⟩)
      · exact h1 h
      · exact h c
    · simp only [Bool.false_eq_true, false_iff]; rintro (h | ⟨_, _, _, _, h, _⟩)
      · exact h1 h
      · exact h d
    · simp only [Bool.false_eq_true, false_iff]; rintro (h | ⟨_, _, _, _, _, h⟩)
      · exact h1 h
      · exact h e
    · simp only [true_iff]
      exact Or.inr ⟨fun h => a (Or.inl h), fun h => a (Or.inr h), b, c, d, e⟩

/-- **C34 (partial)** An IP suite is accepted exactly if the netmask is a prefix mask, the address is a usable
host address in that subnet or mask and address are zero, and the gateway is zero or in the same subnet.

Partial: the English claim wants *everything* to be zero in the second case; the code does not check the
gateway then (`C34_zero_with_gateway`). -/
theorem C34_accepted_iff_partial (ip netmask gateway : BitVec 32) :
    ipsuiteValid ip netmask gateway = true ↔
      ∃ n, n ≤ 32 ∧ netmask.toNat = prefixMask n ∧
        ((n = 0 ∧ ip.toNat = 0) ∨ UsableHost n ip.toNat) ∧
        (gateway.toNat = 0 ∨ SameSubnet n ip.toNat gateway.toNat) := by
  have hinj : ∀ n n', n ≤ 32 → n' ≤ 32 → prefixMask n = prefixMask n' → n = n' := by
    intro n n' h1 h2 h
    unfold prefixMask at h
    have a1 : 2 ^ (32 - n) ≤ 2 ^ 32 := Nat.pow_le_pow_right (by decide) (by omega)
    have a2 : 2 ^ (32 - n') ≤ 2 ^ 32 := Nat.pow_le_pow_right (by decide) (by omega)
    have : 2 ^ (32 - n) = 2 ^ (32 - n') := by omega
    have := Nat.pow_right_injective (Nat.le_refl 2) this
    omega
  unfold ipsuiteValid
  by_cases hv : netmaskValid netmask = true
  · obtain ⟨n, hn, hm⟩ := (netmask_prefix netmask).1 hv
    have h1 := ipaddress_iff hn hm ip
    have h2 : gatewayValid ip netmask gateway = true ↔ gateway.toNat = 0 ∨ SameSubnet n ip.toNat gateway.toNat := by
      rw [← subnet_eq hn hm]
      have : gateway = 0 ↔ gateway.toNat = 0 :=
        ⟨fun h => by rw [h]; rfl, fun h => BitVec.eq_of_toNat_eq h⟩
      rw [← this]
      unfold gatewayValid
      split_ifs with h
      · simp; tauto
      · simp; tauto
    rw [hv, if_neg (by simp)]
    constructor
    · intro h
      split_ifs at h with h3 h4
      exact ⟨n, hn, hm, h1.1 (by simpa using h3), h2.1 (by simpa using h4)⟩
    · rintro ⟨n', hn', hm', h3, h4⟩
      have := hinj n n' hn hn' (hm.symm.trans hm')
      subst this
      rw [h1.2 h3, h2.2 h4]; rfl
  · have hf : netmaskValid netmask = false := by simpa using hv
    rw [if_pos hf]
    simp only [Bool.false_eq_true, false_iff, not_exists]
    rintro n ⟨hn, hm, _⟩
    exact hv ((netmask_prefix netmask).2 ⟨n, hn, hm⟩)

/-- **C34 (finding)** With address and netmask zero ("no address set"), any gateway is accepted. -/
theorem C34_zero_with_gateway (gateway : BitVec 32) : ipsuiteValid 0 0 gateway = true := by
  have h1 : netmaskValid 0 = true := by decide
  have h2 : ipaddressValid 0 0 = true := by decide
  have h3 : gatewayValid 0 0 gateway = true := by simp [gatewayValid]
  unfold ipsuiteValid
  rw [h1, h2, h3]; rfl

/-- Concrete cases: 192.168.0.50/24 with gateway 192.168.0.1 is accepted; the broadcast address, a
gateway in another subnet and a mask with a hole are not. -/
theorem C34_example :
    ipsuiteValid (makeU32 192 168 0 50) (makeU32 255 255 255 0) (makeU32 192 168 0 1) = true ∧
    ipsuiteValid (makeU32 192 168 0 255) (makeU32 255 255 255 0) 0 = false ∧
    ipsuiteValid (makeU32 192 168 0 50) (makeU32 255 255 255 0) (makeU32 192 168 1 1) = false ∧
    ipsuiteValid (makeU32 192 168 0 50) (makeU32 255 0 255 0) 0 = false := by decide

end Verif.Validate
