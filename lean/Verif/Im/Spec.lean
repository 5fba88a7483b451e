import Verif.Im.Model
/-!
What the I&M records look like from outside: which there are, how long they are, and their contents.
-/
namespace Verif.Im
open Verif.Wire

/-- The index, support and length of the writable I&M records. -/
def RecordLen (sup : Supp) (index : U16) (len : Nat) : Prop :=
  (index = 0xaff1 ∧ sup.im1 = true ∧ len = 32 + 22) ∨ (index = 0xaff2 ∧ sup.im2 = true ∧ len = 16) ∨
    (index = 0xaff3 ∧ sup.im3 = true ∧ len = 54) ∨ (index = 0xaff4 ∧ sup.im4 = true ∧ len = 54)

instance (sup : Supp) (i : U16) (n : Nat) : Decidable (RecordLen sup i n) := by unfold RecordLen; infer_instance

/-- The stored contents of a record. -/
def contents (index : U16) (im : Im) : List Byte :=
  if index = 0xaff1 then im.fn.take 32 ++ im.loc.take 22
  else if index = 0xaff2 then im.date.take 16
  else if index = 0xaff3 then im.desc.take 54
  else if index = 0xaff4 then im.sig
  else []

/-- The type of the block that holds a record. -/
def blockType (index : U16) : U16 :=
  if index = 0xaff1 then 0x0021 else if index = 0xaff2 then 0x0022 else if index = 0xaff3 then 0x0023 else 0x0024

/-- The block that holds the bytes `d`. -/
def block (index : U16) (d : List Byte) : List Byte :=
  encBlockHeader true ⟨blockType index, BitVec.ofNat 16 (d.length + 2), 1, 0⟩ ++ d

/-- A terminated text of `n` characters. -/
def Text (n : Nat) (a : List Byte) : Prop := a.length = n + 1 ∧ a[n]? = some 0

/-- All texts are terminated. -/
structure Wf (im : Im) : Prop where
  fn : Text 32 im.fn
  loc : Text 22 im.loc
  date : Text 16 im.date
  desc : Text 54 im.desc
  sig : im.sig.length = 54

end Verif.Im
