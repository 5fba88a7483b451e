import Verif.Rx.Model
import Verif.Connect.Spec

/-!
Specification of reception (C144, C145): who should get which frame, and what a history must fulfil.
-/
namespace Verif.Rx

open Verif.Connect (crAt)

/-- CR `k` of the connection at index `i`, which is running, is an output CR with frame ID `f`. -/
def OutputCr (st : St) (i k : Nat) (f : BitVec 16) : Prop :=
  st.started i = true ∧ ∃ c, crAt st.ars i k = some c ∧ c.type = 2 ∧ c.frameId = f

/-- The frame IDs of DCP. -/
def dcpIds : List (BitVec 16 × Handler) := [(0xFEFC, .hello), (0xFEFD, .getSet), (0xFEFE, .identify)]

/-- The frame IDs of alarms. -/
def alarmIds : List (BitVec 16 × Handler) := [(0xFE01, .alarm), (0xFC01, .alarm)]

/-- Who should get the frames with ID `f`. -/
def Owner (st : St) (f : BitVec 16) (h : Handler) : Prop :=
  (f, h) ∈ dcpIds ∨
  ((∃ i, st.started i = true) ∧ (f, h) ∈ alarmIds) ∨
  ∃ i k, OutputCr st i k f ∧ h = .output i k

/-- No two output CRs of running connections share a frame ID, and none has an ID of DCP or alarms. -/
def Distinct (st : St) : Prop :=
  (∀ i k i' k' f, OutputCr st i k f → OutputCr st i' k' f → i = i' ∧ k = k') ∧
  (∀ i k f, OutputCr st i k f → f.toNat ∉ [0xFEFC, 0xFEFD, 0xFEFE, 0xFE01, 0xFC01])

/-- All entries for connections are in use. -/
def TableFull (n : Nat) (st : St) : Prop := ∀ i < n, ∃ a, st.ars[i]? = some a ∧ a.inUse = true

/-- What is assumed of each operation: at most `maxCr` CRs (PNET_MAX_CR, checked when the request is
parsed); an IO connection finds a free alarm endpoint; the start does not fail. -/
def StepOk (n maxCr : Nat) (st : St) : Op → Prop
  | .io crs => crs.length ≤ maxCr ∧ (TableFull n st ∨ ∃ e ∈ st.eps, e.1 = none)
  | .access => True
  | .refused crs => crs.length ≤ maxCr
  | .failed _ _ => False
  | .close _ => True

/-- A history as assumed, in which frame IDs stay distinct. -/
def Good (n maxCr : Nat) : St → List Op → Prop
  | _, [] => True
  | st, o :: os => StepOk n maxCr st o ∧ ∀ st', step n st o = some st' → Distinct st' ∧ Good n maxCr st' os

/-- The controllers leave the choice of all output frame IDs to the device, and there are only IO
connections, none of which is refused by the application or fails to start. -/
def Auto (maxCr : Nat) : Op → Prop
  | .io crs => crs.length ≤ maxCr ∧ ∀ c ∈ crs, c.type = 2 → c.frameId = 0xFFFF ∧ c.rtClass ∈ [1, 2, 3, 4]
  | .close _ => True
  | _ => False

end Verif.Rx
