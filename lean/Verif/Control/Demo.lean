import Verif.Control.Props

/-! Concrete release, DControl and CControl messages that meet the hypotheses of the theorems. -/

namespace Verif.Control
open Verif.Wire
open Verif.Read (Result Fit noResult)

def demoU : Uuid := ⟨1, 2, 3, [4, 5, 6, 7, 8, 9, 10, 11]⟩

/-- One connection, 7. -/
def demoE : Env Nat := ⟨fun u => if u = demoU then some 7 else none, fun _ r => r, fun _ r => r, fun _ _ r => some r⟩

def demoNdr : Ndr := ⟨200, 32, 200, 0, 32⟩

theorem demo_release : Fit (msg 0x0114 ⟨demoU, 5, 0, 4, 0⟩) ∧ Releases demoE (msg 0x0114 ⟨demoU, 5, 0, 4, 0⟩) ⟨demoU, 5, 0, 4, 0⟩ 7 ∧
    Read.Ready demoW ∧ demoW.pos + 52 ≤ demoW.cap ∧ (releaseInd demoE demoNdr noResult (msg 0x0114 ⟨demoU, 5, 0, 4, 0⟩) demoW).map (fun x => x.2.2) = some ⟨0, 0, 0, 0⟩ :=
  ⟨(msg_ok _ rfl).1, ⟨(msg_ok _ rfl).2, rfl, rfl⟩, demoW_ok.1, demoW_ok.2, by decide +kernel⟩

theorem demo_dcontrol : Fit (msg 0x0110 ⟨demoU, 5, 0, 1, 0⟩) ∧ Asks demoNdr (msg 0x0110 ⟨demoU, 5, 0, 1, 0⟩) 0x0110 ⟨demoU, 5, 0, 1, 0⟩ ∧
    Message (msg 0x0110 ⟨demoU, 5, 0, 1, 0⟩) 0x0110 ⟨demoU, 5, 0, 1, 0⟩ ∧ noLast.seq ≠ 3 ∧
    demoE.find demoU = some 7 := by
  obtain ⟨h1, h2⟩ := msg_ok 0x0110 (c := ⟨demoU, 5, 0, 1, 0⟩) rfl
  exact ⟨h1, (C115_one_block (ndr := demoNdr) rfl h2 h1 (Or.inl rfl) rfl).1, h2, by decide, rfl⟩

def isSent : Reply → Bool
  | .sent _ s => s.code = 0
  | .lost => false

/-- The first request, and the same again after the connection is gone. -/
theorem demo_repetition : (dcontrolInd demoE demoNdr 3 noLast noResult (msg 0x0110 ⟨demoU, 5, 0, 1, 0⟩) demoW).map
      (fun x => (isSent x.1, x.2.1.length, x.2.2)) = some (true, 1, ⟨3, noResult⟩) ∧
    (dcontrolInd { demoE with find := fun _ => none } demoNdr 3 ⟨3, noResult⟩ noResult (msg 0x0110 ⟨demoU, 5, 0, 1, 0⟩) demoW).map
      (fun x => (isSent x.1, x.2.1.length, x.2.2)) = some (true, 0, ⟨3, noResult⟩) := by decide +kernel

theorem demo_confirmation : Fit (msg 0x8112 ⟨demoU, 5, 0, 8, 0⟩) ∧ Message (msg 0x8112 ⟨demoU, 5, 0, 8, 0⟩) 0x8112 ⟨demoU, 5, 0, 8, 0⟩ ∧
    (readyCnf ⟨true, true, true⟩ demoNdr 7 noResult (msg 0x8112 ⟨demoU, 5, 0, 8, 0⟩)).map (fun x => (x.1.length, x.2)) = some (1, true, true) :=
  ⟨(msg_ok _ rfl).1, (msg_ok _ rfl).2, by decide +kernel⟩

end Verif.Control
