import Verif.Lan.Sram

/-! Hardware resources of the LAN9662 driver: frames, SRAM frames and the numbers of rules, VLAN entries, real-time protocol entries and
action lists.  The registers of the hardware and the scripts that set rules are not modelled; whether such a call succeeds is an argument. -/

namespace Verif.Lan

abbrev U16 := BitVec 16

/-- PF_MERA_INVALID_ID (src/drivers/lan9662/src/pf_lan9662_mera.c:35). -/
def invalid : U16 := 0xFFFF

/-- The members `vcam_id`, `vlan_index`, `rtp`, `ral` and `wal` of pf_mera_t (src/drivers/lan9662/src/pf_lan9662_mera.c:133-181). -/
structure Pool where
  base : U16
  used : List Bool

/-- The first entry that is not in use. -/
def firstFree (l : List Bool) : Option Nat := l.findIdx? (· == false)

/-- pf_mera_vcam_id_alloc (src/drivers/lan9662/src/pf_lan9662_mera.c:497-511), and the same code for VLAN indices, RTP, RAL and WAL numbers (532-654). -/
def Pool.alloc (p : Pool) : U16 × Pool :=
  match firstFree p.used with
  | some i => (p.base + BitVec.ofNat 16 i, { p with used := p.used.set i true })
  | none => (invalid, p)

/-- pf_mera_vcam_id_free (src/drivers/lan9662/src/pf_lan9662_mera.c:518-525), and the same code for the other numbers; `none` if the access is
outside the array. -/
def Pool.free (p : Pool) (id : U16) : Option Pool :=
  if id ≠ invalid then
    if p.base.toNat ≤ id.toNat ∧ id.toNat - p.base.toNat < p.used.length then
      some { p with used := p.used.set (id.toNat - p.base.toNat) false }
    else none
  else some p

/-- Start of the SRAM frame, set by pf_sram_init (src/drivers/lan9662/src/pf_sram_uio.c:191-208). -/
def sramStart (i : Nat) : U16 := BitVec.ofNat 16 (100 + i * 1600)

/-- pf_sram_frame_alloc (src/drivers/lan9662/src/pf_sram_uio.c:210-224); the list has the members `used`, 0 is PF_SRAM_INVALID_ADDRESS. -/
def sramAlloc (l : List Bool) : U16 × List Bool :=
  match firstFree l with
  | some i => (sramStart i, l.set i true)
  | none => (0, l)

/-- pf_sram_frame_free (src/drivers/lan9662/src/pf_sram_uio.c:226-243). -/
def sramFree (l : List Bool) (a : U16) : List Bool :=
  match (List.range l.length).find? fun i => sramStart i == a with
  | some i => l.set i false
  | none => l

/-- What the driver uses of pf_iodata_object_t. -/
structure Io where
  api : BitVec 32
  slot : U16
  subslot : U16
  dataOffset : U16
  dataLength : U16
deriving DecidableEq

/-- PNET_MAX_SLOTS, PNET_MAX_SUBSLOTS and PNET_LAN9662_MAX_FRAMES. -/
structure Lim where
  slots : Nat
  subslots : Nat
  frames : Nat

/-- get_subslot_index (src/drivers/lan9662/src/pf_lan9662_mera.c:237-252); `none` if the assertion fails. -/
def subslotIndex (lim : Lim) (subslot : U16) : Option Nat :=
  let ix := if subslot.toNat < 0x8000 then subslot - 1 else subslot - 0x8000 + 1
  if ix.toNat < lim.subslots then some ix.toNat else none

/-- get_rte_object (src/drivers/lan9662/src/pf_lan9662_mera.c:254-265): the place in the table; `none` if an assertion fails or the place is
outside the table. -/
def rteObject (lim : Lim) (slot subslot : U16) : Option (Nat × Nat) :=
  (subslotIndex lim subslot).bind fun ix =>
    if subslot.toNat < lim.slots then
      if slot.toNat < lim.slots then some (slot.toNat, ix) else none
    else none

/-- pf_mera_frame_t (src/drivers/lan9662/src/pf_lan9662_mera.c:85-131).  `wal` is `internal_wal_id` for frames to send and `ob_wal_id` for
frames to receive; `io`, `ral` and `addr` are the members `iodata`, `ib_ral_id` and `sram_address` of `rte_object`. -/
structure Frame where
  used : Bool
  active : Bool
  vcam : U16
  vlan : U16
  rtp : U16
  wal : U16
  sram : U16
  offset : U16
  io : Nat × Nat → Option Io
  ral : Nat × Nat → U16
  addr : Nat × Nat → U16

/-- The frames (an index below `Lim.frames`), the numbers and the SRAM frames. -/
structure Hw where
  frame : Nat → Frame
  vcam : Pool
  vlan : Pool
  rtp : Pool
  ral : Pool
  wal : Pool
  sram : List Bool

def Hw.setFrame (h : Hw) (i : Nat) (f : Frame) : Hw := { h with frame := fun j => if j = i then f else h.frame j }

/-- The frame as pf_mera_alloc_frame (src/drivers/lan9662/src/pf_lan9662_mera.c:1199-1237) leaves it. -/
def freshFrame : Frame := ⟨true, false, 0, 0, 0, 0, 0, 0, fun _ => none, fun _ => invalid, fun _ => 0⟩

/-- The loop of pf_mera_ppm_alloc over the io data objects (src/drivers/lan9662/src/pf_lan9662_mera.c:1307-1316), also in
pf_mera_cpm_alloc. -/
def placeAll (lim : Lim) : List Io → (Nat × Nat → Option Io) → Option (Nat × Nat → Option Io)
  | [], t => some t
  | d :: ds, t =>
    if d.dataLength ≠ 0 then
      (rteObject lim d.slot d.subslot).bind fun q => placeAll lim ds fun x => if x = q then some d else t x
    else placeAll lim ds t

/-- pf_mera_alloc_frame (src/drivers/lan9662/src/pf_lan9662_mera.c:1199-1237): the index; `none` when the process ends. -/
def allocFrame (lim : Lim) (h : Hw) : Option Nat := (List.range lim.frames).find? fun i => !(h.frame i).used

/-- pf_mera_ppm_alloc (src/drivers/lan9662/src/pf_lan9662_mera.c:1259-1326) and pf_mera_cpm_alloc (2247-2310).  The order in which the
numbers are taken differs between the two, without effect.  Returns the frame, if there is one. -/
def frameAlloc (lim : Lim) (h : Hw) (offset : U16) (descs : List Io) : Option (Hw × Option Nat) :=
  (allocFrame lim h).bind fun i =>
    let (a, sram) := sramAlloc h.sram
    if a = 0 then some (({ h with sram := sram }).setFrame i { freshFrame with used := false, sram := a }, none)
    else
      (placeAll lim descs fun _ => none).bind fun io =>
        let (vcam, pv) := h.vcam.alloc
        let (rtp, pr) := h.rtp.alloc
        let (wal, pw) := h.wal.alloc
        let (vlan, pl) := h.vlan.alloc
        some (({ h with vcam := pv, rtp := pr, wal := pw, vlan := pl, sram := sram }).setFrame i
          { freshFrame with vcam := vcam, rtp := rtp, wal := wal, vlan := vlan, sram := a, offset := offset, io := io }, some i)

/-- pf_mera_ppm_free (src/drivers/lan9662/src/pf_lan9662_mera.c:1328-1345) and pf_mera_cpm_free (2376-2393). -/
def frameFree (h : Hw) (i : Nat) : Option Hw :=
  let f := h.frame i
  (h.vcam.free f.vcam).bind fun pv => (h.vlan.free f.vlan).bind fun pl => (h.wal.free f.wal).bind fun pw => (h.rtp.free f.rtp).bind fun pr =>
    some (({ h with vcam := pv, vlan := pl, wal := pw, rtp := pr, sram := sramFree h.sram f.sram }).setFrame i { f with used := false })

/-- The places of the table in the order of the loops. -/
def places (lim : Lim) : List (Nat × Nat) := (List.range lim.slots).flatMap fun s => (List.range lim.subslots).map fun t => (s, t)

/-- The object is in the table and has data. -/
def busy (f : Frame) (q : Nat × Nat) : Bool := match f.io q with
  | some d => d.dataLength != 0
  | none => false

/-- pf_mera_ppm_config (src/drivers/lan9662/src/pf_lan9662_mera.c:1354-1414) and pf_mera_cpm_config (2080-2143): the SRAM addresses.
The numbers of read actions and data groups and the QSPI addresses set by the application are left out. -/
def setAddrs (f : Frame) : Frame :=
  { f with addr := fun q =>
      match f.io q with
      | some d => if d.dataLength ≠ 0 ∧ f.addr q = 0 then f.sram + f.offset + d.dataOffset else f.addr q
      | none => f.addr q }

/-- The loop of pf_mera_ppm_start_rte (src/drivers/lan9662/src/pf_lan9662_mera.c:1035-1115) with pf_mera_add_ib_entry (883-967); `ok` says for
which objects the settings of the hardware succeed.  The return value is whether all did. -/
def startLoop (i : Nat) (ok : Nat × Nat → Bool) : List (Nat × Nat) → Hw → Hw × Bool
  | [], h => (h, true)
  | q :: qs, h =>
    if busy (h.frame i) q then
      let (id, pr) := h.ral.alloc
      let f := h.frame i
      let h' := ({ h with ral := pr }).setFrame i { f with ral := fun x => if x = q then id else f.ral x }
      if ok q then startLoop i ok qs h' else (h', false)
    else startLoop i ok qs h

/-- pf_mera_ppm_start (src/drivers/lan9662/src/pf_lan9662_mera.c:1416-1457); `rule` says whether the rule and the general settings of
pf_mera_ppm_start_rte (1035-1115) succeed. -/
def ppmStart (lim : Lim) (h : Hw) (i : Nat) (rule : Bool) (ok : Nat × Nat → Bool) : Hw × Bool :=
  let h := h.setFrame i (setAddrs (h.frame i))
  if rule then
    let (h', done) := startLoop i ok (places lim) h
    if done then (h'.setFrame i { h'.frame i with active := true }, true) else (h', false)
  else (h, false)

/-- pf_mera_cpm_start (src/drivers/lan9662/src/pf_lan9662_mera.c:2312-2336) with pf_mera_cpm_start_rte (2153-2245); no numbers are taken. -/
def cpmStart (h : Hw) (i : Nat) (ok : Bool) : Hw × Bool :=
  let h := h.setFrame i (setAddrs (h.frame i))
  if ok then (h.setFrame i { h.frame i with active := true }, true) else (h, false)

/-- The loop of pf_mera_ppm_stop. -/
def stopLoop (f : Frame) : List (Nat × Nat) → Pool → Option Pool
  | [], p => some p
  | q :: qs, p => (p.free (f.ral q)).bind (stopLoop f qs)

/-- pf_mera_ppm_stop (src/drivers/lan9662/src/pf_lan9662_mera.c:1737-1766).  pf_mera_cpm_stop (2395-2416) takes back no numbers. -/
def ppmStop (lim : Lim) (h : Hw) (i : Nat) : Option Hw :=
  if (h.frame i).active then (stopLoop (h.frame i) (places lim) h.ral).map fun p => { h with ral := p } else some h

/-- pf_driver_init (src/drivers/lan9662/src/pf_lan9662_mera.c:1117-1190) and pf_sram_init (src/drivers/lan9662/src/pf_sram_uio.c:191-208);
`n` is PNET_LAN9662_MAX_IDS, the base of the VLAN indices is not set (0). -/
def Hw.init (n nSram : Nat) (vcam rtp ral wal : U16) : Hw :=
  ⟨fun _ => ⟨false, false, 0, 0, 0, 0, 0, 0, fun _ => none, fun _ => 0, fun _ => 0⟩, ⟨vcam, .replicate n false⟩, ⟨0, .replicate n false⟩, ⟨rtp, .replicate n false⟩,
    ⟨ral, .replicate n false⟩, ⟨wal, .replicate n false⟩, .replicate nSram false⟩

/-- What the cyclic part of the stack holds of a frame: to send (and whether it was started) or to receive. -/
inductive Held where
  | ppm (started : Bool)
  | cpm
deriving DecidableEq

/-- Calls of the cyclic part of the stack: pf_ppm_drv_lan9662_create, pf_cpm_drv_lan9662_create, the two activate_req and the delayed closes. -/
inductive Op where
  | openP (descs : List Io)
  | openC (descs : List Io)
  | startP (i : Nat) (rule : Bool) (ok : Nat × Nat → Bool)
  | startC (i : Nat) (ok : Bool)
  | close (i : Nat)

/-- The hardware and who holds what. -/
structure Use where
  hw : Hw
  held : Nat → Option Held

def Use.hold (u : Use) (h : Hw) (i : Nat) (x : Option Held) : Use := ⟨h, fun j => if j = i then x else u.held j⟩

/-- One call: pf_ppm_drv_lan9662_create (src/drivers/lan9662/src/pf_ppm_driver_lan9662.c:28-64), pf_ppm_drv_lan9662_activate_req (66-87),
pf_ppm_drv_lan9662_delayed_close (98-106), pf_cpm_drv_lan9662_create (src/drivers/lan9662/src/pf_cpm_driver_lan9662.c:239-278),
pf_cpm_drv_lan9662_activate_req (324-377) and pf_cpm_drv_lan9662_delayed_close (289-297).  A frame is started at most once to send
(pf_ppm_activate_req, src/common/pf_ppm.c:349-392), and only frames that are held are closed; other calls are not made and are left out
here by changing nothing.  The delay of the closes is in the order of the calls. -/
def step (lim : Lim) (u : Use) : Op → Option Use
  | .openP descs => (frameAlloc lim u.hw 6 descs).map fun (h, r) => match r with
    | some i => u.hold h i (some (.ppm false))
    | none => { u with hw := h }
  | .openC descs => (frameAlloc lim u.hw 2 descs).map fun (h, r) => match r with
    | some i => u.hold h i (some .cpm)
    | none => { u with hw := h }
  | .startP i rule ok =>
    if u.held i = some (.ppm false) then some (u.hold (ppmStart lim u.hw i rule ok).1 i (some (.ppm true))) else some u
  | .startC i ok => if u.held i = some .cpm then some { u with hw := (cpmStart u.hw i ok).1 } else some u
  | .close i =>
    match u.held i with
    | some (.ppm _) => ((ppmStop lim u.hw i).bind fun h => frameFree h i).map fun h => u.hold h i none
    | some .cpm => (frameFree u.hw i).map fun h => u.hold h i none
    | none => some u

def run (lim : Lim) : Use → List Op → Option Use
  | u, [] => some u
  | u, o :: os => (step lim u o).bind fun u' => run lim u' os

def start (n nSram : Nat) (vcam rtp ral wal : U16) : Use := ⟨.init n nSram vcam rtp ral wal, fun _ => none⟩

end Verif.Lan
