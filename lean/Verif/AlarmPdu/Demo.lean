import Verif.AlarmPdu.Receive

/-! Concrete cases that meet the hypotheses of C105 - C112. -/
set_option linter.unusedVariables false

namespace Verif.AlarmPdu
open Verif.Wire (Status U16 U32)
open Verif.Diag (Op exec init exStd exManuf listing)
open Verif.DiagRead (Plugged)

/-- A device with a module 0x30 in slot 1 and submodules in subslots 1 (identification 0x131) and 2 (0x20131). -/
def demoDev : Device.Dev :=
  [⟨true, 0, [⟨true, 1, 0x30, [⟨true, 1, 0x131, none, ⟨0, 0, 0⟩, false⟩, ⟨true, 2, 0x20131, none, ⟨0, 0, 0⟩, false⟩]⟩]⟩]

def demoLim : Lim := ⟨1408, 1420⟩
def demoConn : Conn := ⟨true, 200, true⟩
def demoApmx (h : Bool) : Apmx := ⟨[1, 2, 3, 4, 5, 6], [7, 8, 9, 10, 11, 12], 1, 0x22, h, 0xffff, 0xfffe⟩

theorem demo_plugged : Plugged demoDev (0, 1, 1) 0x30 0x131 := ⟨_, _, rfl, rfl, rfl, rfl⟩
theorem demo_plugged2 : Plugged demoDev (0, 1, 2) 0x30 0x20131 := ⟨_, _, rfl, rfl, rfl, rfl⟩

/-- C105, C107: a process alarm is accepted and has a meaning. -/
example : demoLim.maxPayload ≤ 1408 ∧ Call.Ok (.process 0 1 1 0x10 [0xaa, 0xbb]) ∧
    (∃ p, ask demoLim demoConn demoDev (.process 0 1 1 0x10 [0xaa, 0xbb]) = some p ∧ (demoApmx true).Wf ∧ (demoApmx true).high = p.high ∧
      (notificationFrame (demoApmx true) (init 1) 0 5 p.alarm).isSome = true) := by
  refine ⟨by decide, trivial, _, rfl, by simp [Apmx.Wf, demoApmx], rfl, by decide +kernel⟩

/-- C105: the submodule with the large identification. -/
example : ∃ p y, ask demoLim demoConn demoDev (.process 0 1 2 0x10 [0xaa]) = some p ∧
    Means demoDev demoConn.pullModule (.process 0 1 2 0x10 [0xaa]) y ∧ 65536 ≤ y.subIdent ∧ y.subIdent < 2 ^ 32 :=
  ⟨_, _, rfl, .process demo_plugged2, by decide, by decide⟩

/-- C105: a diagnosis in standard format, with a structure small enough. -/
example : Call.Ok (.diagnosis 0 1 1 ⟨true, 0x8002, .std ⟨⟨1, false, 0, 3, 0⟩, 0, 0, 1, 0, 0⟩, 0⟩) ∧
    (ask ⟨1408, 100⟩ demoConn demoDev (.diagnosis 0 1 1 ⟨true, 0x8002, .std ⟨⟨1, false, 0, 3, 0⟩, 0, 0, 1, 0, 0⟩, 0⟩)).isSome = true := by
  constructor
  · right
    exact ⟨by decide, _, rfl⟩
  · rfl

/-- C107: the structure is larger than the limit of the controller. -/
example : demoConn.maxData < demoLim.itemSize := by decide

/-- C106: a history with a standard and a manufacturer diagnosis. -/
example : ∃ st, exec 16 (init 4) [.plug (0, 1, 1) none, .add (exStd (0, 1, 1) 3 1 0 0x8000) true,
    .add (exManuf (0, 1, 1) 5 [1]) true] = some st ∧ (listing st (0, 1, 1)).length = 2 ∧
    summary st 0 (0, 1, 1) = some (⟨true, true, true, false⟩, 1) := by
  refine ⟨(exec 16 (init 4) _).get (by rfl), (Option.some_get _).symm, ?_, ?_⟩
  · decide +kernel
  · decide +kernel

/-- C109, C111: fields of a notification. -/
example : Told.Wf ⟨4, 0, 1, 1, 0x30, 0x131, 2047, ⟨true, false, false, true⟩⟩ := by simp [Told.Wf]

/-- C108: an acknowledgement of a plug alarm (type 4) for API 0 with an error status is told as a status with bytes 0, 4, 0, 0. -/
example : receive false 0 ([0xFE, 0x01] ++ encRta 1 2 3 4 (encAck false ⟨0, 1, 1, 4, 7, ⟨false, false, false, false⟩⟩ ⟨0xda, 0x81, 0x3c, 5⟩)) =
    some (some (.status ⟨0, 4, 0, 0⟩)) := by
  have := C108_status_wrong (high := false) (pre := [0xFE, 0x01]) (pad := []) (dst := 1) (src := 2) (send := 3) (ack := 4)
    (a := ⟨0, 1, 1, 4, 7, ⟨false, false, false, false⟩⟩) (s := ⟨0xda, 0x81, 0x3c, 5⟩) (k := 0) rfl (by decide) (by decide)
  rw [List.append_nil] at this
  exact this

/-- C110, C112: a table with one active endpoint. -/
example : dispatch [⟨false, none⟩, ⟨true, some 3⟩] 0xFC01 0 [0xFC, 0x01, 0, 2, 0, 0] = some (some (3, true)) := by decide +kernel

end Verif.AlarmPdu
