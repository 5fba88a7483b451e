import Verif.Snmp.Model
import Verif.Im.Props
/-! What is expected of the name, the contact and the location that SNMP shows. -/
set_option linter.unusedVariables false

namespace Verif.Snmp
open Verif.Wire

/-- The text in an array with room for `n` characters. -/
def str (n : Nat) (a : List Byte) : List Byte := (a.take n).takeWhile (· ≠ 0)

/-- A text of at most 22 characters as it stands in I&M record 1: filled up with blanks. -/
def field22 (t : List Byte) : List Byte := (t ++ List.replicate 22 0x20).take 22

/-- What SNMP is told, and which of the values were set through SNMP (and are to be kept). -/
structure Told where
  contact : List Byte
  name : List Byte
  location : List Byte
  contactSet : Bool
  nameSet : Bool
  locationSet : Bool
  im : Im.St

/-- The location in I&M record 1. -/
def Told.tag (t : Told) : List Byte := Im.shown t.im.im.loc

/-- What an operation means for the I&M data. -/
def imOps : Op → List Im.Op
  | .setLocation a _ => [.location (str 255 a)]
  | .imWrite i n mem fs => [.write i n mem fs]
  | .reset m => if m = 0 ∨ m = 2 then [] else [.clear]
  | .job fs => [.job fs]
  | .restart b => [.restart b.imRead b.imSave]
  | _ => []

/-- What an operation does to what is told, `t` with the new I&M data: a value that is set replaces the old one; a new
I&M record 1 replaces the location; a reset removes the three values; at a start, values that were set through SNMP stay,
otherwise the contact is empty, the name is that of the host, the location is that of I&M record 1. -/
def Told.next (sup : Im.Supp) (t : Told) : Op → Told
  | .setName a _ => { t with name := str 63 a, nameSet := true }
  | .setContact a _ => { t with contact := str 255 a, contactSet := true }
  | .setLocation a _ => { t with location := str 255 a, locationSet := true }
  | .imWrite i n _ _ =>
    if i = 0xaff1 ∧ sup.im1 = true ∧ n = 54 then { t with location := t.tag, locationSet := false } else t
  | .reset m => if m = 0 then t else ⟨[], [], [], false, false, false, t.im⟩
  | .job _ => t
  | .restart b =>
    { t with contact := if t.contactSet then t.contact else []
             name := if t.nameSet then t.name else ((b.host.map (str 63)).getD [])
             location := if t.locationSet then t.location else t.tag }

def Told.step (sup : Im.Supp) (cfg : Im.Im) (t : Told) (o : Op) : Option Told :=
  (Im.run sup cfg t.im (imOps o)).map fun im => Told.next sup { t with im := im } o

def Told.run (sup : Im.Supp) (cfg : Im.Im) (t : Told) : List Op → Option Told
  | [] => some t
  | o :: l => (t.step sup cfg o).bind fun t => Told.run sup cfg t l

/-- Objects of the right size: the caller passes terminated texts, the data of a record are there. -/
def OpOk : Op → Prop
  | .setName a d => Im.Text 63 a ∧ ∀ l x, d = .fails l → l = some x → x.length = 64
  | .setContact a d => Im.Text 255 a ∧ ∀ l x, d = .fails l → l = some x → x.length = 256
  | .setLocation a d => Im.Text 255 a ∧ ∀ l x, d = .fails l → l = some x → x.length = 256
  | .imWrite _ n mem _ => n ≤ mem.length
  | .restart b => b.junk.contact.length = 256 ∧ b.junk.name.length = 64 ∧ b.junk.location.length = 256 ∧
      ∀ h, b.host = some h → h.length = 64
  | _ => True

/-- The files of SNMP can be written and read. -/
def Works : Op → Prop
  | .setName _ d => d = .works
  | .setContact _ d => d = .works
  | .setLocation _ d => d = .works
  | .restart b => b.contact = true ∧ b.name = true ∧ b.location = true
  | _ => True

/-- A device on which nothing was saved. -/
def Fresh (s : St) : Prop := s.nvm = ⟨none, none, none⟩

/-- Arrays and files have the right size, texts are terminated. -/
structure Wf (s : St) : Prop where
  im : Im.WfSt s.im
  contact : Im.Text 255 s.mem.contact
  name : Im.Text 63 s.mem.name
  location : Im.Text 255 s.mem.location
  fcontact : ∀ a, s.nvm.contact = some a → a.length = 256
  fname : ∀ a, s.nvm.name = some a → a.length = 64
  flocation : ∀ a, s.nvm.location = some a → a.length = 256

end Verif.Snmp
