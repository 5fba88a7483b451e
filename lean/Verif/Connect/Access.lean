import Verif.Connect.Props
/-! C16, C17: a device access connection has neither IOCRs nor an alarm CR. -/
namespace Verif.Connect

theorem deviceAccess_of {ar : ArBlock} (h : ar.props.toNat / 256 % 2 = 1) : ar.deviceAccess = true := by
  unfold ArBlock.deviceAccess
  rw [getBits_lt (by omega) (by omega) (by omega)]; simp [h]

theorem checkIocrsFrom_access (mi : Nat) (ar : ArBlock) (h : ar.deviceAccess = true) :
    ∀ (bs : List IocrBlock) (r : Except Err Unit), bs ≠ [] →
      checkIocrsFrom mi ar r bs = .error ⟨0x40, 1⟩ := by
  intro bs
  induction bs with
  | nil => intro r h; exact absurd rfl h
  | cons b rest ih =>
    intro r _
    have e : checkIocr mi ar b = .error ⟨0x40, 1⟩ := by
      unfold checkIocr; rw [if_pos h]; rfl
    simp only [checkIocrsFrom, e]
    cases rest with
    | nil => rfl
    | cons b' rest' => exact ih _ (by simp)

/-- **C16**, device access: a request for a device access connection (bit 8 of the AR properties) that
has an IOCR block is refused with code 0x40 (RPC), 1 (unknown blocks), whatever the blocks hold. -/
theorem C16_device_access_refused (mi : Nat) (ar : ArBlock) (bs : List IocrBlock)
    (h : ar.props.toNat / 256 % 2 = 1) (hb : bs ≠ []) :
    checkIocrs mi ar bs = .error ⟨0x40, 1⟩ :=
  checkIocrsFrom_access mi ar (deviceAccess_of h) bs _ hb

/-- **C17**, device access: the same for an alarm CR block. -/
theorem C17_device_access_refused (ar : ArBlock) (b : AlarmBlock)
    (h : ar.props.toNat / 256 % 2 = 1) : checkAlarm ar b = .error ⟨0x40, 1⟩ := by
  unfold checkAlarm; rw [if_pos (deviceAccess_of h)]; rfl

/-- Blocks that would be fine in an IO connection. -/
theorem C16_C17_device_access_example :
    checkIocrs 32 { exampleArLegacy with props := exampleArLegacy.props ||| 0x100 } [exampleIocr] =
      .error ⟨0x40, 1⟩ ∧
    checkIocrs 32 exampleArLegacy [exampleIocr] = .ok () ∧
    checkAlarm { exampleArLegacy with props := exampleArLegacy.props ||| 0x100 } exampleAlarm =
      .error ⟨0x40, 1⟩ ∧
    checkAlarm exampleArLegacy exampleAlarm = .ok () := by decide +kernel

end Verif.Connect
