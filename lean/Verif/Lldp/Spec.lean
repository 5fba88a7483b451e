import Verif.Lldp.Safe
/-! What an LLDP frame says (IEEE 802.1AB and the PROFINET and IEEE 802.3 extensions), and what a neighbour is seen to be. -/

namespace Verif.Lldp

open Verif.Wire

/-- A field: type and value. -/
abbrev Tlv := Nat × List Byte

/-- A field in a frame: 7 bits type, 9 bits length, the value. -/
def encTlv (x : Tlv) : List Byte := enc16 true (BitVec.ofNat 16 (x.1 * 512 + x.2.length)) ++ x.2

/-- A field of type 0 ends the frame (it should have the length 0). -/
def endMark (n : Nat) : List Byte := enc16 true (BitVec.ofNat 16 n)

/-- The bytes of a list of fields. -/
def encAll (l : List Tlv) : List Byte := l.flatMap encTlv

/-- A frame consists of the fields `l`, then the mark, then anything. -/
def Framed (l : List Tlv) (buf : List Byte) : Prop := ∃ n rest, n < 512 ∧ buf = encAll l ++ (endMark n ++ rest)

/-- A frame is cut off after the fields `l`: at most one byte is left, or a field of type `t` with fewer bytes than
announced. -/
def CutOff (l : List Tlv) (buf : List Byte) (t : Nat) : Prop :=
  (∃ b, b.length ≤ 1 ∧ buf = encAll l ++ b ∧ t = 0) ∨
  (∃ n v, 0 < t ∧ t < 128 ∧ n < 512 ∧ v.length < n ∧ buf = encAll l ++ (enc16 true (BitVec.ofNat 16 (t * 512 + n)) ++ v))

/-- A number, first byte first. -/
def num (l : List Byte) : Nat := l.foldl (fun a b => 256 * a + b.toNat) 0

/-- What is known of a neighbour. -/
structure View where
  chassis : Option (Byte × List Byte)
  port : Option (Byte × List Byte)
  ttl : Nat
  desc : Option (List Byte)
  mgmt : Option (List Byte × Byte × Nat)
  delay : Option (Nat × Nat × Nat × Nat × Nat)
  status : List Byte
  mac : List Byte
  link : Option (Bool × Bool × Nat × Nat)
deriving DecidableEq

/-- Nothing is known. -/
def View.empty : View := ⟨none, none, 0, none, none, none, List.replicate 4 0, List.replicate 6 0, none⟩

/-- Bytes `i .. i + n - 1` of a value. -/
def part (v : List Byte) (i n : Nat) : List Byte := (v.drop i).take n

/-- What a field of an organisation says: PROFINET (signal delays, port status, address of the device) and IEEE 802.3
(state of the link). -/
def saysOrg (org : List Byte) (kind : Nat) (v : List Byte) (w : View) : Option View :=
  if org = [0x00, 0x0e, 0xcf] then
    if kind = 1 then
      if v.length = 24 then some { w with delay := some (num (part v 4 4), num (part v 8 4), num (part v 12 4),
          num (part v 16 4), num (part v 20 4)) } else none
    else if kind = 2 then if v.length = 8 then some { w with status := part v 4 4 } else none
    else if kind = 5 then if v.length = 10 then some { w with mac := part v 4 6 } else none
    else some w
  else if org = [0x00, 0x12, 0x0f] then
    if kind = 1 then
      if v.length = 9 then some { w with link := some ((v.getD 4 0).toNat % 2 = 1, (v.getD 4 0).toNat / 2 % 2 = 1,
        num (part v 5 2), num (part v 7 2)) } else none
    else some w
  else some w

/-- What one field says; `none`: the frame is refused.  Names that do not fit are ignored, as is every other field. -/
def says (z : Nat) (x : Tlv) (w : View) : Option View :=
  let v := x.2
  match x.1 with
  | 1 => some (if v.length = 0 ∨ 241 < v.length then w else { w with chassis := some (v.getD 0 0, v.drop 1) })
  | 2 => some (if v.length = 0 ∨ 256 < v.length then w else { w with port := some (v.getD 0 0, v.drop 1) })
  | 3 => if v.length = 2 then some { w with ttl := num v } else none
  | 4 => some (if v.length < z then { w with desc := some v } else w)
  | 8 => some (if v.getD 0 0 = 5 ∧ v.getD 1 0 = 1 then
      { w with mgmt := some (part v 2 4, v.getD 6 0, num (part v 7 4)) } else w)
  | 127 => saysOrg (v.take 3) (v.getD 3 0).toNat v w
  | _ => some w

/-- What all the fields say. -/
def saysAll (z : Nat) : List Tlv → View → Option View
  | [], w => some w
  | x :: l, w => (says z x w).bind (saysAll z l)

/-- The lengths inside a management address (address, object identifier) add up to that of the field. -/
def fits (v : List Byte) : Prop :=
  let l := (v.getD 0 0).toNat
  0 < v.length ∧ (2 ≤ l → l ≤ 32 → l + 7 ≤ v.length ∧ v.length = l + 7 + (v.getD (l + 6) 0).toNat)

/-- A field of a correct sender. -/
def Regular (x : Tlv) : Prop :=
  0 < x.1 ∧ x.1 < 128 ∧ x.2.length < 512 ∧ (x.1 = 8 → fits x.2) ∧ (x.1 = 127 → 4 ≤ x.2.length)

/-- Not two names of which one is too long. -/
def oneName (t size : Nat) (l : List Tlv) : Prop :=
  (l.filter fun x => x.1 = t).length ≤ 1 ∨ ∀ x ∈ l, x.1 = t → x.2.length ≤ size

/-- What a record says: name and length only if it is marked as valid. -/
def viewId (x : Id) : Option (Byte × List Byte) := if x.valid then some (x.subtype, x.str.take x.len) else none

def view (p : Peer) : View where
  chassis := viewId p.chassis
  port := viewId p.port
  ttl := p.ttl.toNat
  desc := if p.desc.valid then some (p.desc.str.take p.desc.len) else none
  mgmt := if p.mgmt.valid then some (p.mgmt.value.take p.mgmt.len, p.mgmt.ifSubtype, p.mgmt.ifNumber.toNat) else none
  delay := if p.delay.valid then some (p.delay.rxLocal.toNat, p.delay.rxRemote.toNat, p.delay.txLocal.toNat,
    p.delay.txRemote.toNat, p.delay.cable.toNat) else none
  status := p.status
  mac := p.mac
  link := if p.link.valid then some (p.link.autoSupported, p.link.autoEnabled, p.link.caps.toNat, p.link.mau.toNat) else none

end Verif.Lldp
