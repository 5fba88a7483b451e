import Verif.LogBook.Record
/-!
Concrete bytes of a log book record (C160).
-/
namespace Verif.LogBook

open Verif.Wire

def demoEvs : List Ev := [⟨1500000, some demoUuid, ⟨0, 0, 0, 0⟩, 1⟩, ⟨1600000, none, ⟨0, 0, 0, 0⟩, 3⟩, ⟨2 ^ 32 + 7, some demoUuid, ⟨0, 0, 0, 0⟩, 2⟩]

/-- Concrete bytes: two events (a third is for no connection), the second after 71.6 minutes. -/
theorem C160_example : ((runLog (Log.init 4) demoEvs).bind fun l => putLog l ⟨List.replicate 80 0, 80, 0⟩).map (fun w => w.buf.take w.pos) =
    some ([0, 0x19, 0, 0x4C, 1, 0] ++ List.replicate 8 0 ++ [0, 2] ++
      [0, 0, 0, 1, 0x1D, 0xCD, 0x65, 0, 0, 0, 0, 1, 0, 2, 0, 3, 4, 5, 6, 7, 8, 9, 10, 11, 0, 0, 0, 0, 0, 0, 0, 1] ++
      [0, 0, 0, 0, 0, 0, 0x1B, 0x58, 0, 0, 0, 1, 0, 2, 0, 3, 4, 5, 6, 7, 8, 9, 10, 11, 0, 0, 0, 0, 0, 0, 0, 2]) := by decide +kernel

end Verif.LogBook
