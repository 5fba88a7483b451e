import Verif.Im.Model
import Verif.Lldp.Expiry
/-!
Model of the values kept for SNMP: system name, contact and location with their files, and what is told about the
neighbour on a port.
Source: src/common/pf_snmp.c, src/common/pf_lldp.c, src/device/pf_fspm.c, src/device/pf_cmina.c.

Simplified: mutexes and log output are left out, each call is one step; what a file operation does is part of the
operation; a file holds the whole object or cannot be read (see the area Store); the I&M data are those of the area Im.
-/
set_option linter.unusedVariables false

namespace Verif.Snmp
open Verif.Wire

/-! ## Name, contact, location -/

/-- The characters of an array up to the first zero, as `%s` prints them.  The array has to be terminated. -/
def text (a : List Byte) : List Byte := a.takeWhile (· ≠ 0)

/-- `snprintf (dst, size, "%s", s)`. -/
def sprint (size : Nat) (dst s : List Byte) : List Byte :=
  s.take (size - 1) ++ [0] ++ dst.drop ((s.take (size - 1)).length + 1)

/-- `%-22s`. -/
def left22 (s : List Byte) : List Byte := s ++ List.replicate (22 - s.length) 0x20

/-- `pf_snmp_data_t` (src/pf_types.h:2919-2924): 256, 64 and 256 characters. -/
structure Vars where
  contact : List Byte
  name : List Byte
  location : List Byte
deriving DecidableEq

/-- The three files. -/
structure Files where
  contact : Option (List Byte)
  name : Option (List Byte)
  location : Option (List Byte)
deriving DecidableEq

structure St where
  im : Im.St
  mem : Vars
  nvm : Files
deriving DecidableEq

/-- What a write to the file does: it succeeds, or it fails and leaves something. -/
inductive Disk where
  | works
  | fails (left : Option (List Byte))

/-- pf_file_save_if_modified (src/common/pf_file.c:271-306): the file afterwards, and whether the result is not -1. -/
def saveIfModified (f : Option (List Byte)) (a : List Byte) : Disk → Option (List Byte) × Bool
  | .works => (some a, true)
  | .fails l => if f = some a then (f, true) else (l, false)

/-- pf_snmp_set_system_name (src/common/pf_snmp.c:362-390); true for 0. -/
def setName (a : List Byte) (d : Disk) (s : St) : Bool × St :=
  let x := saveIfModified s.nvm.name a d
  (x.2, { s with mem := { s.mem with name := sprint 64 s.mem.name (text a) }, nvm := { s.nvm with name := x.1 } })

/-- pf_snmp_set_system_contact (src/common/pf_snmp.c:405-429). -/
def setContact (a : List Byte) (d : Disk) (s : St) : Bool × St :=
  let x := saveIfModified s.nvm.contact a d
  (x.2, { s with mem := { s.mem with contact := sprint 256 s.mem.contact (text a) },
                 nvm := { s.nvm with contact := x.1 } })

/-- pf_snmp_set_system_location (src/common/pf_snmp.c:444-471), with pf_fspm_save_im_location
(src/device/pf_fspm.c:408-412). -/
def setLocation (a : List Byte) (d : Disk) (s : St) : Bool × St :=
  let x := saveIfModified s.nvm.location a d
  (x.2, { im := { s.im with im := Im.setLocation (text a) s.im.im },
          mem := { s.mem with location := sprint 256 s.mem.location (text a) },
          nvm := { s.nvm with location := x.1 } })

/-- pf_snmp_get_system_name (src/common/pf_snmp.c:351-360), into an array of 64 characters. -/
def getName (out : List Byte) (s : St) : List Byte := sprint 64 out (text s.mem.name)

/-- pf_snmp_get_system_contact (src/common/pf_snmp.c:392-403). -/
def getContact (out : List Byte) (s : St) : List Byte := sprint 256 out (text s.mem.contact)

/-- pf_snmp_get_system_location (src/common/pf_snmp.c:431-442). -/
def getLocation (out : List Byte) (s : St) : List Byte := sprint 256 out (text s.mem.location)

/-- pf_fspm_get_im_location (src/device/pf_fspm.c:397-406), into `dst`. -/
def imLocation (dst : List Byte) (im : Im.Im) : List Byte := sprint 23 dst (left22 (text im.loc))

/-- pf_snmp_fspm_im_location_ind (src/common/pf_snmp.c:328-349). -/
def locationInd (s : St) : St :=
  { s with mem := { s.mem with location := (imLocation s.mem.location s.im.im).set 255 0 },
           nvm := { s.nvm with location := none } }

/-- pf_snmp_data_clear (src/common/pf_snmp.c:309-326), with pf_snmp_remove_data_files
(src/common/pf_snmp.c:302-307). -/
def clear (s : St) : St :=
  { s with mem := ⟨List.replicate 256 0, List.replicate 64 0, List.replicate 256 0⟩, nvm := ⟨none, none, none⟩ }

/-- What the outside does at a start: which files can be read, what is left in memory by a read that failed, the name
of the host (the whole array, `none` if there is none). -/
structure Boot where
  contact : Bool
  name : Bool
  location : Bool
  junk : Vars
  host : Option (List Byte)
  imRead : Bool
  imSave : Bool

/-- pf_file_load (src/common/pf_file.c:140-217): the object, or `none` for an error. -/
def load (rd : Bool) (f : Option (List Byte)) : Option (List Byte) := if rd then f else none

/-- pf_snmp_data_init (src/common/pf_snmp.c:240-300). -/
def init (b : Boot) (s : St) : St :=
  { s with mem :=
    { contact := ((load b.contact s.nvm.contact).getD (b.junk.contact.set 0 0)).set 255 0
      name := ((load b.name s.nvm.name).getD (b.host.getD (b.junk.name.set 0 0))).set 63 0
      location := ((load b.location s.nvm.location).getD (imLocation b.junk.location s.im.im)).set 255 0 } }

/-- What can happen: SNMP sets a value, an I&M record is written, the device is reset, the background job saves the I&M
data, the device starts. -/
inductive Op where
  | setName (a : List Byte) (d : Disk)
  | setContact (a : List Byte) (d : Disk)
  | setLocation (a : List Byte) (d : Disk)
  | imWrite (index : U16) (len : Nat) (mem : List Byte) (fs : Bool)
  | reset (mode : Nat)
  | job (fs : Bool)
  | restart (b : Boot)

/-- The part of pf_fspm_cm_write_ind (src/device/pf_fspm.c:848-1144) for I&M records, with the location for SNMP. -/
def imWrite (sup : Im.Supp) (i : U16) (n : Nat) (mem : List Byte) (fs : Bool) (s : St) : Option St :=
  (Im.cmWrite sup i n mem s.im.im).map fun x =>
    let s1 : St := { s with im := { s.im with im := x.2 } }
    if x.1 then
      let s2 := if i = 0xaff1 then locationInd s1 else s1
      { s2 with im := Im.save fs s2.im }
    else s1

/-- The part of pf_cmina_set_default_cfg (src/device/pf_cmina.c:159-375) for the I&M data and SNMP. -/
def reset (mode : Nat) (s : St) : St :=
  let s1 := if mode = 1 ∨ mode ≥ 3 then clear { s with im := { s.im with im := Im.cleared } } else s
  if mode = 2 ∨ mode ≥ 3 then clear s1 else s1

/-- pf_fspm_init (src/device/pf_fspm.c:414-454), then pf_snmp_data_init (src/common/pf_snmp.c:240-300), in
pnet_init_only (src/device/pnet_api.c:38-101). -/
def restart (cfg : Im.Im) (b : Boot) (s : St) : St :=
  init b { s with im := Im.save b.imSave { s.im with im := Im.loaded b.imRead cfg s.im.nvm } }

def step (sup : Im.Supp) (cfg : Im.Im) (s : St) : Op → Option St
  | .setName a d => some (setName a d s).2
  | .setContact a d => some (setContact a d s).2
  | .setLocation a d => some (setLocation a d s).2
  | .imWrite i n mem fs => imWrite sup i n mem fs s
  | .reset m => some (reset m s)
  | .job fs => some { s with im := Im.save fs s.im }
  | .restart b => some (restart cfg b s)

def run (sup : Im.Supp) (cfg : Im.Im) (s : St) : List Op → Option St
  | [] => some s
  | o :: l => (step sup cfg s o).bind fun s => run sup cfg s l

/-! ## Link, address, delays -/

/-- pf_snmp_bit_reversed_byte (src/common/pf_snmp.c:147-164). -/
def reversed (b : Byte) : Byte :=
  ((((((((b &&& 0x80) >>> 7) ||| ((b &&& 0x01) <<< 7)) ||| ((b &&& 0x40) >>> 5)) ||| ((b &&& 0x02) <<< 5)) |||
    ((b &&& 0x20) >>> 3)) ||| ((b &&& 0x04) <<< 3)) ||| ((b &&& 0x10) >>> 1)) ||| ((b &&& 0x08) <<< 1)

/-- `pf_snmp_link_status_t` (src/common/pf_snmp.h:241-253). -/
structure LinkAnswer where
  supported : Nat
  enabled : Nat
  cap0 : Byte
  cap1 : Byte
  mau : U16
deriving DecidableEq

/-- pf_snmp_encode_link_status (src/common/pf_snmp.c:172-199). -/
def encLink (l : Lldp.Link) : LinkAnswer :=
  ⟨if l.autoSupported then 1 else 2, if l.autoEnabled then 1 else 2,
    reversed ((l.caps &&& 0xff).setWidth 8), reversed (((l.caps >>> 8) &&& 0xff).setWidth 8), l.mau⟩

/-- `pf_snmp_management_address_t` (src/common/pf_snmp.h:223-233): an array of 32 bytes. -/
structure AddrAnswer where
  value : List Byte
  subtype : Byte
  len : Nat
deriving DecidableEq

/-- pf_snmp_encode_management_address (src/common/pf_snmp.c:207-223); `none`: outside one of the arrays. -/
def encAddr (out : AddrAnswer) (m : Lldp.Mgmt) : Option AddrAnswer :=
  (writeAt out.value 0 [BitVec.ofNat 8 m.len]).bind fun v =>
    (slice m.value 0 m.len).bind fun d => (writeAt v 1 d).map fun v => ⟨v, m.subtype, m.len + 1⟩

/-- `pf_snmp_signal_delay_t` (src/common/pf_snmp.h:267-272): sending, receiving, line. -/
structure DelayAnswer where
  tx : U32
  rx : U32
  line : U32
deriving DecidableEq

/-- pf_snmp_encode_signal_delays (src/common/pf_snmp.c:231-238). -/
def encDelay (d : Lldp.Delay) : DelayAnswer := ⟨d.txLocal, d.rxLocal, d.cable⟩

/-- pf_lldp_get_peer_chassis_id (src/common/pf_lldp.c:632-644), pf_snmp_get_peer_chassis_id
(src/common/pf_snmp.c:511-517): the answer and the object that is filled. -/
def peerChassis (p : Lldp.Port) : Bool × Lldp.Id := (p.peer.chassis.valid, p.peer.chassis)

/-- pf_lldp_get_peer_port_id (src/common/pf_lldp.c:692-704), pf_snmp_get_peer_port_id (src/common/pf_snmp.c:527-533). -/
def peerPort (p : Lldp.Port) : Bool × Lldp.Id := (p.peer.port.valid, p.peer.port)

/-- pf_lldp_get_peer_port_description (src/common/pf_lldp.c:722-734), pf_snmp_get_peer_port_description
(src/common/pf_snmp.c:543-549). -/
def peerDesc (p : Lldp.Port) : Bool × Lldp.Desc := (p.peer.desc.valid, p.peer.desc)

/-- pf_lldp_get_peer_management_address (src/common/pf_lldp.c:754-766), pf_snmp_get_peer_management_address
(src/common/pf_snmp.c:561-577). -/
def peerAddr (out : AddrAnswer) (p : Lldp.Port) : Option (Bool × AddrAnswer) :=
  if p.peer.mgmt.valid then (encAddr out p.peer.mgmt).map fun x => (true, x) else some (false, out)

/-- pf_snmp_get_peer_management_port_index (src/common/pf_snmp.c:589-605): kind and number of the interface. -/
def peerIndex (out : Byte × U32) (p : Lldp.Port) : Bool × Byte × U32 :=
  if p.peer.mgmt.valid then (true, p.peer.mgmt.ifSubtype, p.peer.mgmt.ifNumber) else (false, out)

/-- pf_lldp_get_peer_signal_delays (src/common/pf_lldp.c:880-892), pf_snmp_get_peer_signal_delays
(src/common/pf_snmp.c:645-660). -/
def peerDelay (out : DelayAnswer) (p : Lldp.Port) : Bool × DelayAnswer :=
  if p.peer.delay.valid then (true, encDelay p.peer.delay) else (false, out)

/-- pf_lldp_get_peer_link_status (src/common/pf_lldp.c:912-924), pf_snmp_get_peer_link_status
(src/common/pf_snmp.c:673-688). -/
def peerLink (out : LinkAnswer) (p : Lldp.Port) : Bool × LinkAnswer :=
  if p.peer.link.valid then (true, encLink p.peer.link) else (false, out)

/-- pf_lldp_get_management_address (src/common/pf_lldp.c:736-752), pf_snmp_get_management_address
(src/common/pf_snmp.c:551-559), of the device itself. -/
def ownAddr (out : AddrAnswer) (o : Lldp.Own) : Option AddrAnswer := encAddr out (Lldp.ownMgmt o)

end Verif.Snmp
