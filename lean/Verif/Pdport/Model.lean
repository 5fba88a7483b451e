import Verif.Lldp.Props
/-!
Model of the supervision of the physical ports: peer check, adjust of LLDP sending, reading and writing of the records,
storage, and the list of ports.
Source: src/device/pf_pdport.c, src/device/pf_port.c, src/common/pf_lldp.c.

Not modelled: log output, mutexes (each call is one step), statistics, the Ethernet status (the state of the link that is
found is part of the event), failures to send or to write a file.  The diagnosis of a port is kept as three marks, one for
each of the three entries that the port can have; whether an entry can be added (the submodule of the port is plugged, the
diagnosis store has room) is part of the event.
A result `none` is an access outside an array, a failed assertion or an endless loop.
-/
set_option linter.unusedVariables false

namespace Verif.Pdport

open Verif.Wire

/-! ## The list of ports -/

/-- `pf_port_iterator_t` (src/pf_types.h). -/
structure Iter where
  next : Nat
  count : Nat
deriving DecidableEq

/-- pf_port_init_iterator_over_ports (src/device/pf_port.c:103-110). -/
def Iter.init (n : Nat) : Iter := ⟨1, n⟩

/-- pf_port_get_next (src/device/pf_port.c:112-133): 0 at the end. -/
def Iter.getNext (it : Iter) : Nat × Iter :=
  if it.next = it.count ∨ it.next = 0 then (it.next, { it with next := 0 })
  else if it.next > it.count then (0, { it with next := 0 })
  else (it.next, { it with next := it.next + 1 })

/-- pf_port_get_next_repeat_cyclic (src/device/pf_port.c:135-156). -/
def Iter.cyclic (it : Iter) : Nat × Iter :=
  let a := if it.next > it.count then 1 else it.next
  (a, { it with next := if a = it.count then 1 else a + 1 })

/-- pf_port_is_valid (src/device/pf_port.c:197-203). -/
def isValid (n : Nat) (port : Int) : Bool := decide (port > 0 ∧ port ≤ n)

/-- pf_port_loc_port_num_to_dap_subslot (src/device/pf_port.c:170-177). -/
def portSubslot (n : Nat) (port : Nat) : Option U16 :=
  if isValid n port then some (BitVec.ofNat 16 (0x8001 + port - 1)) else none

/-- pf_port_dap_subslot_to_local_port (src/device/pf_port.c:179-189): 0 for a subslot that is not that of a port. -/
def subslotPort (n : Nat) (subslot : U16) : Nat :=
  let p : Int := 1 + subslot.toNat - 0x8001
  if isValid n p then p.toNat else 0

/-- pf_port_get_list_of_ports (src/device/pf_port.c:86-101): the bits in bytes, the assertion for two bytes. -/
def listOfPorts (n : Nat) : Option (List Byte) :=
  let rec go : Nat → Nat → List Byte → Option (List Byte)
    | 0, _, l => some l
    | k + 1, port, l =>
      let i := (port - 1) / 8
      (l[i]?).bind fun b => go k (port + 1) (l.set i (b ||| BitVec.ofNat 8 (2 ^ (7 - (port - 1) % 8))))
  go n 1 [0, 0]

/-! ## A port -/

/-- `pf_check_peer_t` (src/pf_types.h:2764-2770): the names that are wanted; the rest of their arrays is zero. -/
structure Wanted where
  port : List Byte
  station : List Byte
deriving DecidableEq

/-- `pf_adjust_peer_to_peer_boundary_t`: `do_not_send_LLDP_frames` and the other two marks, `adjust_properties`. -/
structure Boundary where
  noLldp : Bool
  noPtcp : Bool
  noPath : Bool
  props : U16
deriving DecidableEq

/-- The parts of `pf_port_t` in use: LLDP (with `pdport.lldp_peer_info_updated`), `pdport.check`, `pdport.adjust`, the
diagnosis entries, the time at which `lldp.tx_timeout` is due; and how many frames were sent on the port. -/
structure Port where
  net : Lldp.Port
  check : Option Wanted
  adjust : Option Boundary
  noPeer : Bool
  badPort : Bool
  badStation : Bool
  txAt : Option Nat
  sent : Nat
deriving DecidableEq

/-- What a call finds outside: the time, the period of the stack, whether a timer can be started, whether a diagnosis can be
added. -/
structure Env where
  now : Nat
  tick : U32
  armed : Bool
  diagOk : Bool

def Env.lldp (e : Env) : Lldp.Env := ⟨e.now, e.tick, e.armed⟩

/-- `strncmp (a, b, n) == 0` for two arrays. -/
def strncmpEq : List Byte → List Byte → Nat → Option Bool
  | _, _, 0 => some true
  | x :: a, y :: b, n + 1 => if x ≠ y then some false else if x = 0 then some true else strncmpEq a b n
  | _, _, _ + 1 => none

/-- The array of `size` bytes with a name. -/
def arr (size : Nat) (s : List Byte) : List Byte := s ++ List.replicate (size - s.length) 0

/-- pf_pdport_check_no_peer_detected (src/device/pf_pdport.c:757-797). -/
def checkNoPeer (e : Env) (p : Port) : Port :=
  if p.net.received then { p with noPeer := false } else { p with noPeer := p.noPeer || e.diagOk }

/-- pf_pdport_check_peer_port_name (src/device/pf_pdport.c:889-948). -/
def checkPort (e : Env) (w : Wanted) (p : Port) : Option Port :=
  if p.net.peer.port.valid then
    (strncmpEq p.net.peer.port.str (arr 256 w.port) w.port.length).map fun ok =>
      if ok then { p with badPort := false } else { p with badPort := p.badPort || e.diagOk }
  else some p

/-- pf_pdport_check_peer_station_name (src/device/pf_pdport.c:813-873).  The name of the peer is in an array of 241 bytes, with its length. -/
def checkStation (e : Env) (w : Wanted) (p : Port) : Option Port :=
  let s := Lldp.peerStation p.net.peer
  if s.length ≠ 0 then
    (strncmpEq (arr 241 s) (arr 241 w.station) s.length).map fun ok =>
      if ok then { p with badStation := false } else { p with badStation := p.badStation || e.diagOk }
  else some p

/-- pf_pdport_run_peer_check (src/device/pf_pdport.c:964-982). -/
def runCheck (e : Env) (p : Port) : Option Port :=
  match p.check with
  | some w => (checkPort e w (checkNoPeer e p)).bind (checkStation e w)
  | none => some p

/-- pf_lldp_send_enable (src/common/pf_lldp.c:1170-1178), pf_lldp_tx_restart (src/common/pf_lldp.c:1122-1145): the timer is started and a frame is sent at once. -/
def sendEnable (e : Env) (p : Port) : Port :=
  { p with
    txAt := if e.armed then some (e.now + (Scheduler.sanitizeDelay 5000000 e.tick).toNat) else none
    sent := p.sent + 1 }

/-- pf_lldp_send_disable (src/common/pf_lldp.c:1180-1190). -/
def sendDisable (p : Port) : Port := { p with txAt := none }

/-- pf_lldp_trigger_sending (src/common/pf_lldp.c:1089-1111), called by the scheduler when the time is over. -/
def tickTx (e : Env) (p : Port) : Port :=
  match p.txAt with
  | some t => if t ≤ e.now then sendEnable e p else p
  | none => p

/-- The part that pf_pdport_load (src/device/pf_pdport.c:78-160), pf_pdport_ar_connect_ind (src/device/pf_pdport.c:415-443), pf_pdport_lldp_restart_transmission (src/device/pf_pdport.c:445-478),
pf_pdport_write_data_adj (src/device/pf_pdport.c:1249-1317) have in common: sending as the boundary says. -/
def sendAs (e : Env) (b : Boundary) (p : Port) : Port := if b.noLldp then sendDisable p else sendEnable e p

/-- pf_pdport_ar_connect_ind (src/device/pf_pdport.c:415-443) for one port. -/
def connectInd (e : Env) (p : Port) : Port :=
  match p.adjust with
  | some b => sendAs e b p
  | none => p

/-- pf_pdport_lldp_restart_transmission (src/device/pf_pdport.c:445-478) for one port. -/
def restartTx (e : Env) (p : Port) : Port :=
  match p.adjust with
  | some b => sendAs e b p
  | none => sendEnable e p

/-- pf_pdport_reset_all (src/device/pf_pdport.c:382-402) for one port, with pf_pdport_remove_all_diag (src/device/pf_pdport.c:320-350). -/
def reset (p : Port) : Port :=
  { p with check := none, adjust := none, net := { p.net with updated := false }, noPeer := false, badPort := false,
           badStation := false }

/-- pf_pdport_periodic (src/device/pf_pdport.c:1111-1132) for one port. -/
def periodic (e : Env) (p : Port) : Option Port :=
  if p.net.updated then runCheck e { p with net := { p.net with updated := false } } else some p

/-- What is stored of a port. -/
abbrev Saved := Option Wanted × Option Boundary

/-- pf_pdport_load (src/device/pf_pdport.c:78-160) for one port whose LLDP part is as after pf_lldp_init (src/common/pf_lldp.c:1147-1168); `f` is the file if it can be read. -/
def load (e : Env) (z : Nat) (f : Option Saved) : Port :=
  let p : Port := ⟨Lldp.Port.init z, none, none, false, false, false, none, 0⟩
  match f with
  | some s =>
    let p := { p with check := s.1, adjust := s.2 }
    restartTx e (if s.1.isSome then { p with net := Lldp.restartTimer e.lldp p.net 0 } else p)
  | none => sendEnable e p

/-! ## Records -/

/-- The reader at the start of the data of a record, without its block header. -/
def atData (d : List Byte) : Rd := ⟨d, false, d.length, true, .ok, 0⟩

/-- pf_pdport_write_data_check (src/device/pf_pdport.c:1149-1232) up to the result: inner `none` for -1.  The names have arrays of 256 and 241 bytes. -/
def parseCheck (d : List Byte) : Option (Option Wanted) :=
  (getPortData (atData d)).bind fun x =>
    if x.1.2.2.type = 0x020a then
      (getCheckPeers 256 241 1 x.2).map fun y =>
        if y.2.err = .ok then y.1.head?.map fun q => ⟨q.1, q.2⟩ else none
    else some none

/-- pf_pdport_write_data_adj (src/device/pf_pdport.c:1249-1317) up to the result. -/
def parseAdjust (d : List Byte) : Option (Option Boundary) :=
  (getPortData (atData d)).bind fun x =>
    if x.1.2.2.type = 0x0224 then
      (getBoundary x.2).map fun y =>
        if y.2.err = .ok then some ⟨y.1.1, y.1.2.1, y.1.2.2.1, y.1.2.2.2⟩ else none
    else some none

/-- pf_put_pdport_data_check (src/device/pf_block_writer.c:3787-3860). -/
def putCheck (slot subslot : U16) (c : Wanted) : W := fun w =>
  putBlock true 0x0200
    (putPadding 2 ;; putU16 true slot ;; putU16 true subslot ;;
      putBlockHeader true 0x020a (BitVec.ofNat 16 (5 + c.port.length + c.station.length)) 1 0 ;;
      putByte 1 ;; putByte (BitVec.ofNat 8 c.port.length) ;; putMem c.port ;;
      putByte (BitVec.ofNat 8 c.station.length) ;; putMem c.station ;; putPaddingAlign w.pos 4) w

/-- The flags of a boundary in 32 bits, with `pf_put_bits`. -/
def boundaryBits (b : Boundary) : U32 :=
  putBits (bit b.noPath) 1 2 (putBits (bit b.noPtcp) 1 1 (putBits (bit b.noLldp) 1 0 0))

/-- pf_put_peer_to_peer_boundary (src/device/pf_block_writer.c:4267-4328). -/
def putBoundary (b : Boundary) : W :=
  putBlock true 0x0224 (putPadding 2 ;; putU32 true (boundaryBits b) ;; putU16 true b.props ;; putPadding 2)

/-- pf_put_pdport_data_adj (src/device/pf_block_writer.c:4330-4371). -/
def putAdjust (subslot : U16) (b : Boundary) : W :=
  putBlock true 0x0202 (putPadding 2 ;; putU16 true 0 ;; putU16 true subslot ;; putBoundary b)

/-- pf_put_pd_interface_adj (src/device/pf_block_writer.c:4373-4411); the mode is 1 for standard, 0 for legacy. -/
def putIntf (standard : Bool) : W := fun w =>
  putBlock true 0x0250 (putPadding 2 ;; putU32 true (putBits (bit standard) 1 0 0) ;; putPaddingAlign w.pos 4) w

/-! ## The device -/

/-- The ports, `name_of_device_mode`, the files, whether `PF_BGJOB_SAVE_PDPORT_NVM_DATA` is waiting. -/
structure Dev where
  ports : List Port
  standard : Bool
  modeActive : Bool
  files : List (Option Saved)
  saving : Bool
deriving DecidableEq

/-- A loop over all ports with an iterator, as in pf_pdport_periodic (src/device/pf_pdport.c:1111-1132): `f` changes one port.
`none` for a port that is not valid, and if the loop has not ended after `fuel` rounds. -/
def forPorts (f : Port → Option Port) : Nat → Iter → List Port → Option (List Port)
  | 0, _, _ => none
  | fuel + 1, it, l =>
    let (port, it') := it.getNext
    if port = 0 then some l
    else (l[port - 1]?).bind fun p => (f p).bind fun p' => forPorts f fuel it' (l.set (port - 1) p')

/-- Rounds of a loop over `n` ports. -/
abbrev rounds (n : Nat) : Nat := n + 2

def Dev.forAll (d : Dev) (f : Port → Option Port) : Option Dev :=
  (forPorts f (rounds d.ports.length) (Iter.init d.ports.length) d.ports).map fun l => { d with ports := l }

/-- `PF_IDX_SUB_PDPORT_DATA_CHECK`, `PF_IDX_SUB_PDPORT_DATA_ADJ`, `PF_IDX_SUB_PDINTF_ADJUST` and the rest. -/
inductive Index where
  | check | adjust | intf | other
deriving DecidableEq

/-- pf_pdport_write_req (src/device/pf_pdport.c:1368-1432): the slot of the request is not looked at.  The result is true for 0. -/
def write (e : Env) (slot subslot : U16) (i : Index) (data : List Byte) (d : Dev) : Option (Bool × Dev) :=
  let port := subslotPort d.ports.length subslot
  if port > 0 then
    match i with
    | .check =>
      (parseCheck data).bind fun c =>
        match c with
        | some c => (d.ports[port - 1]?).bind fun p => (runCheck e { p with check := some c }).map fun p' =>
            (true, { d with ports := d.ports.set (port - 1) p', saving := true })
        | none => some (false, d)
    | .adjust =>
      (parseAdjust data).bind fun b =>
        match b with
        | some b => (d.ports[port - 1]?).map fun p =>
            (true, { d with ports := d.ports.set (port - 1) (sendAs e b { p with adjust := some b }), saving := true })
        | none => some (false, d)
    | _ => some (false, d)
  else
    match i with
    | .intf => (getIntfAdjust (atData data)).bind fun m =>
        ({ d with standard := m.1, modeActive := true } : Dev).forAll (fun p => some (restartTx e p)) |>.map fun d' => (true, d')
    | _ => some (false, d)

/-- The loop of pf_pdport_read_ind (src/device/pf_pdport.c:480-746) for the check records of the whole module: the port does not change. -/
def readAllChecks (d : Dev) (slot subslot : U16) : Nat → Nat → Wr → Option Wr
  | 0, _, _ => none
  | fuel + 1, port, w =>
    if port = 0 then some w
    else (d.ports[port - 1]?).bind fun p =>
      (match p.check with
        | some c => putCheck slot subslot c w
        | none => some w).bind fun w' => readAllChecks d slot subslot fuel port w'

/-- pf_pdport_read_ind (src/device/pf_pdport.c:480-746) for the three records that can be written: whether it succeeds, and the answer.
`fuel` bounds the rounds of the loop. -/
def read (fuel : Nat) (slot subslot : U16) (i : Index) (d : Dev) (w : Wr) : Option (Bool × Wr) :=
  let port := subslotPort d.ports.length subslot
  match i with
  | .check =>
    if slot = 0 then
      if port ≠ 0 then (d.ports[port - 1]?).bind fun p =>
        match p.check with
        | some c => (putCheck slot subslot c w).map fun x => (true, x)
        | none => some (true, w)
      else if subslot = 0 then
        (readAllChecks d slot subslot fuel (Iter.init d.ports.length).getNext.1 w).map fun x => (true, x)
      else some (false, w)
    else some (false, w)
  | .adjust =>
    if slot = 0 ∧ port ≠ 0 then (d.ports[port - 1]?).bind fun p =>
      match p.adjust with
      | some b => (putAdjust subslot b w).map fun x => (true, x)
      | none => some (true, w)
    else some (false, w)
  | .intf =>
    if slot = 0 ∧ subslot = 0x8000 then
      if d.modeActive then (putIntf d.standard w).map fun x => (true, x) else some (true, w)
    else some (false, w)
  | .other => some (false, w)

/-! ## Histories -/

/-- What happens to the ports: a frame on a port, the link of a port, pnet_handle_periodic (src/device/pnet_api.c:129-175) (timers, then the checks),
a record written, a connect request that passes pf_cmdev_check_apdu (src/device/pf_cmdev.c:4154-4262), a connect answered with success, a DCP Get or Set that was
answered, pnet_factory_reset (src/device/pnet_api.c:509-530) (or a reset by DCP), the background job, a restart. -/
inductive Ev where
  | frame (port : Nat) (data : List Byte)
  | link (port : Nat) (up : Bool)
  | periodic
  | write (slot subslot : U16) (i : Index) (data : List Byte)
  | connect
  | connected
  | dcp
  | factoryReset
  | save
  | restart
deriving DecidableEq

/-- One port is changed. -/
def Dev.onPort (d : Dev) (port : Nat) (f : Port → Option Port) : Option Dev :=
  if isValid d.ports.length port then
    (d.ports[port - 1]?).bind fun p => (f p).map fun p' => { d with ports := d.ports.set (port - 1) p' }
  else none

/-- One step; `z` is `PNET_MAX_PORT_DESCRIPTION_SIZE`.  pf_pdport_get_filename (src/device/pf_pdport.c:41-62) has names of files for four
ports and fails an assertion for more. -/
def step (z : Nat) (e : Env) (d : Dev) : Ev → Option Dev
  | .frame port data => d.onPort port fun p => (Lldp.recv z e.lldp p.net data).map fun n => { p with net := n }
  | .link port up => d.onPort port fun p => some { p with net := Lldp.monitorLink up p.net }
  | .periodic =>
    (d.forAll fun p => some (tickTx e { p with net := Lldp.tickRx e.now p.net })).bind fun d => d.forAll (periodic e)
  | .write slot subslot i data => (write e slot subslot i data d).map (·.2)
  | .connect => (d.forAll fun p => some (reset p)).bind fun d =>
      ({ d with saving := true } : Dev).forAll fun p => some (connectInd e p)
  | .connected => d.forAll fun p => some (restartTx e p)
  | .dcp => d.forAll fun p => some (restartTx e p)
  | .factoryReset => (d.forAll fun p => some (reset p)).map fun d => { d with saving := true }
  | .save =>
    if d.saving then
      if d.ports.length ≤ 4 then some { d with files := d.ports.map fun p => some (p.check, p.adjust), saving := false }
      else none
    else some d
  | .restart =>
    if d.ports.length ≤ 4 then
      some { d with
        ports := (List.range d.ports.length).map fun i => load e z (d.files.getD i none)
        files := (List.range d.ports.length).map fun i => some ((d.files.getD i none).getD (none, none))
        standard := true, modeActive := false, saving := false }
    else none

def run (z : Nat) (d : Dev) : List (Env × Ev) → Option Dev
  | [] => some d
  | x :: l => (step z x.1 d x.2).bind fun d' => run z d' l

end Verif.Pdport
