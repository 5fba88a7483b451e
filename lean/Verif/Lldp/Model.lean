import Verif.Wire.Codec
import Verif.Scheduler.Model
/-!
Model of the LLDP part: frames that describe the device to its neighbours, and what is known of the neighbour on
each port.
Source: src/common/pf_lldp.c, src/common/pf_lldp.h.

Not modelled: log output, the mutex (each call is one step), sending failures, the text of the system description
(a parameter).  Padding inside `pf_lldp_peer_info_t` is taken as zero.
A result `none` is an access outside an array or an endless loop.
-/
set_option linter.unusedVariables false

namespace Verif.Lldp

open Verif.Wire

/-! ## What is known of a neighbour -/

/-- `pf_lldp_chassis_id_t`, `pf_lldp_port_id_t` (src/common/pf_lldp.h:106-143): the whole array, the kind of the name, whether it is
valid, its length. -/
structure Id where
  str : List Byte
  subtype : Byte
  valid : Bool
  len : Nat
deriving DecidableEq

/-- `pf_lldp_port_description_t` (src/common/pf_lldp.h:61-66). -/
structure Desc where
  str : List Byte
  valid : Bool
  len : Nat
deriving DecidableEq

/-- `pf_lldp_management_address_t` (src/common/pf_lldp.h:171-178).  The interface number as 32 bits. -/
structure Mgmt where
  value : List Byte
  subtype : Byte
  len : Nat
  ifSubtype : Byte
  ifNumber : U32
  valid : Bool
deriving DecidableEq

/-- `pf_lldp_signal_delay_t` (src/common/pf_lldp.h:217-225). -/
structure Delay where
  rxLocal : U32
  rxRemote : U32
  txLocal : U32
  txRemote : U32
  cable : U32
  valid : Bool
deriving DecidableEq

/-- `pf_lldp_link_status_t` (src/common/pf_lldp.h:40-47). -/
structure Link where
  autoSupported : Bool
  autoEnabled : Bool
  caps : U16
  mau : U16
  valid : Bool
deriving DecidableEq

/-- `pf_lldp_peer_info_t` (src/common/pf_lldp.h:248-262).  `line_delay` is never written. -/
structure Peer where
  chassis : Id
  port : Id
  ttl : U16
  desc : Desc
  mgmt : Mgmt
  delay : Delay
  status : List Byte
  mac : List Byte
  link : Link
deriving DecidableEq

/-- `PNET_LLDP_CHASSIS_ID_MAX_SIZE`, `PNET_STATION_NAME_MAX_SIZE` (include/pnet_api.h:1243-1252). -/
notation "chassisSize" => (241 : Nat)
/-- `PNET_LLDP_PORT_ID_MAX_SIZE` (include/pnet_api.h:1255-1256). -/
notation "portIdSize" => (256 : Nat)
/-- `PNET_PORT_NAME_MAX_SIZE` (include/pnet_api.h:1249). -/
notation "portNameSize" => (15 : Nat)
/-- `PF_ALIAS_NAME_MAX_SIZE` -/
notation "aliasSize" => (256 : Nat)

/-- `memset (lldp_peer_info, 0, …)`.  `z` is `PNET_MAX_PORT_DESCRIPTION_SIZE`. -/
def Peer.empty (z : Nat) : Peer where
  chassis := ⟨List.replicate chassisSize 0, 0, false, 0⟩
  port := ⟨List.replicate portIdSize 0, 0, false, 0⟩
  ttl := 0
  desc := ⟨List.replicate z 0, false, 0⟩
  mgmt := ⟨List.replicate 31 0, 0, 0, 0, 0, false⟩
  delay := ⟨0, 0, 0, 0, 0, false⟩
  status := List.replicate 4 0
  mac := List.replicate 6 0
  link := ⟨false, false, 0, 0, false⟩

/-! ## Reading a frame -/

/-- `*offset += n - k` on a 16 bit position. -/
def skip (n k : Nat) : P Unit := fun r => some ((), { r with pos := (r.pos + n + 65536 - k) % 65536 })

/-- `pf_get_mem` into the array `a` (nothing is copied after an error), then `a[n] = '\0'`. -/
def fill (a : List Byte) (d : Option (List Byte)) (n : Nat) : P (List Byte) := fun r =>
  ((writeAt a 0 (d.getD [])).bind fun b => writeAt b n [0]).map fun b => (b, r)

/-- `pf_get_mem` into the array `a`. -/
def copy (a : List Byte) (d : Option (List Byte)) : P (List Byte) := fun r =>
  (writeAt a 0 (d.getD [])).map fun b => (b, r)

/-- pf_lldp_get_tlv_from_packet (src/common/pf_lldp.c:157-176): type and length; the end mark after an error. -/
def getTlv : P (Nat × Nat) := do
  let h ← getU16
  if ← isOk then pure (h.toNat / 512, h.toNat % 512) else pure (0, 0)

/-- pf_lldp_get_chassis_id_from_packet (src/common/pf_lldp.c:1225-1263), pf_lldp_get_port_id_from_packet (src/common/pf_lldp.c:1278-1316): the same
code with arrays of different size.  The length is stored before it is compared. -/
def getId (size n : Nat) (x : Id) : P Id := do
  if n = 0 then pure x
  else if n - 1 > size - 1 then do
    skip n 0
    pure { x with len := n - 1 }
  else do
    let s ← getByte
    let d ← getMem (n - 1)
    let a ← fill x.str d (n - 1)
    pure ⟨a, s, true, n - 1⟩

/-- pf_lldp_get_ttl_from_packet (src/common/pf_lldp.c:1330-1349). -/
def getTtl (n : Nat) (x : U16) : P U16 := do
  if n ≠ 2 then do
    setErr .other
    pure x
  else getU16

/-- pf_lldp_get_port_description_from_packet (src/common/pf_lldp.c:1363-1388). -/
def getDesc (size n : Nat) (x : Desc) : P Desc := do
  if n > size - 1 then do
    skip n 0
    pure x
  else do
    let d ← getMem n
    let a ← fill x.str d n
    pure ⟨a, true, n⟩

/-- pf_lldp_get_management_address_from_packet (src/common/pf_lldp.c:1408-1448).  `len` is a `size_t`: from 0 it becomes huge. -/
def getMgmt (n : Nat) : P Mgmt := do
  let z : Mgmt := (Peer.empty 0).mgmt
  let l ← getByte
  if l.toNat = 0 ∨ l.toNat - 1 < 1 ∨ l.toNat - 1 > 31 then do
    skip n 1
    pure { z with len := if l.toNat = 0 then 2 ^ 64 - 1 else l.toNat - 1 }
  else do
    let s ← getByte
    let d ← getMem (l.toNat - 1)
    let a ← copy z.value d
    let is ← getByte
    let i ← getU32
    let o ← getByte
    skip o.toNat 0
    pure ⟨a, s, l.toNat - 1, is, i, true⟩

/-- pf_lldp_management_address_is_ipv4 (src/common/pf_lldp.c:562-566). -/
def Mgmt.isV4 (m : Mgmt) : Bool := m.valid && decide (m.subtype = 1) && decide (m.len = 4)

/-- pf_lldp_get_signal_delay_from_packet (src/common/pf_lldp.c:1468-1487). -/
def getDelay (n : Nat) (x : Delay) : P Delay := do
  if n ≠ 24 then do
    setErr .other
    pure x
  else do
    let a ← getU32
    let b ← getU32
    let c ← getU32
    let d ← getU32
    let e ← getU32
    pure ⟨a, b, c, d, e, true⟩

/-- pf_lldp_get_port_status_from_packet (src/common/pf_lldp.c:1504-1519). -/
def getStatus (n : Nat) (x : List Byte) : P (List Byte) := do
  if n ≠ 8 then do
    setErr .other
    pure x
  else do
    let d ← getMem 4
    copy x d

/-- pf_lldp_get_chassis_mac_from_packet (src/common/pf_lldp.c:1535-1553). -/
def getMac (n : Nat) (x : List Byte) : P (List Byte) := do
  if n ≠ 10 then do
    setErr .other
    pure x
  else do
    let d ← getMem 6
    copy x d

/-- pf_lldp_get_link_status_from_packet (src/common/pf_lldp.c:1572-1601). -/
def getLink (n : Nat) : P Link := do
  if n ≠ 9 then do
    setErr .other
    pure ⟨false, false, 0, 0, false⟩
  else do
    let s ← getByte
    let c ← getU16
    let m ← getU16
    pure ⟨s.toNat % 2 = 1, s.toNat / 2 % 2 = 1, c, m, true⟩

/-- `org_id_pnio`, `org_id_ieee_8023` (src/common/pf_lldp.c:96-97). -/
def orgPnio : List Byte := [0x00, 0x0e, 0xcf]
def orgIeee : List Byte := [0x00, 0x12, 0x0f]

/-- pf_lldp_get_org_header_from_packet (src/common/pf_lldp.c:1203-1210).  After an error the header is not set; which of the cases is taken then makes
no difference, the frame is refused. -/
def getOrg : P (List Byte × Byte) := do
  let d ← getMem 3
  let s ← getByte
  pure (d.getD [], s)

/-- The case `LLDP_TYPE_ORG_SPEC` of pf_lldp_parse_packet (src/common/pf_lldp.c:1613-1749). -/
def getOrgSpec (n : Nat) (p : Peer) : P Peer := do
  let h ← getOrg
  if h.1 = orgPnio then
    if h.2 = 1 then do
      let x ← getDelay n p.delay
      pure { p with delay := x }
    else if h.2 = 2 then do
      let x ← getStatus n p.status
      pure { p with status := x }
    else if h.2 = 5 then do
      let x ← getMac n p.mac
      pure { p with mac := x }
    else do
      skip n 4
      pure p
  else if h.1 = orgIeee then
    if h.2 = 1 then do
      let x ← getLink n
      pure { p with link := x }
    else do
      skip n 4
      pure p
  else do
    skip n 4
    pure p

/-- The body of the loop in pf_lldp_parse_packet (src/common/pf_lldp.c:1613-1749): one field of type `t` with the announced length `n`. -/
def getField (z t n : Nat) (p : Peer) : P Peer :=
  if t = 1 then do
    let x ← getId chassisSize n p.chassis
    pure { p with chassis := x }
  else if t = 2 then do
    let x ← getId portIdSize n p.port
    pure { p with port := x }
  else if t = 3 then do
    let x ← getTtl n p.ttl
    pure { p with ttl := x }
  else if t = 4 then do
    let x ← getDesc z n p.desc
    pure { p with desc := x }
  else if t = 8 then do
    let x ← getMgmt n
    pure (if x.isV4 then { p with mgmt := x } else p)
  else if t = 127 then getOrgSpec n p
  else do
    skip n 0
    pure p

/-- The loop in pf_lldp_parse_packet (src/common/pf_lldp.c:1613-1749); `none` if it has not ended after `fuel` fields. -/
def fields (z : Nat) : Nat → Nat × Nat → Peer → P Peer
  | 0, _, _ => outside
  | fuel + 1, tn, p =>
    if tn.1 = 0 then pure p
    else do
      let p' ← getField z tn.1 tn.2 p
      let tn' ← getTlv
      fields z fuel tn' p'

/-- More rounds than there are positions. -/
notation "manyFields" => (65537 : Nat)

/-- pf_lldp_parse_packet (src/common/pf_lldp.c:1613-1749) as a reader. -/
def parseP (z : Nat) : P Peer := do
  let tn ← getTlv
  fields z manyFields tn (Peer.empty z)

/-- The reader at the start of a frame. -/
def atStart (buf : List Byte) : Rd := ⟨buf, false, buf.length, true, .ok, 0⟩

/-- pf_lldp_parse_packet (src/common/pf_lldp.c:1613-1749): outer `none` see above, inner `none` for -1. -/
def parse (z : Nat) (buf : List Byte) : Option (Option Peer) :=
  (parseP z (atStart buf)).map fun x => if x.2.err = .ok then some x.1 else none

/-! ## Writing a frame -/

/-- pf_lldp_add_tlv_header (src/common/pf_lldp.c:134-142): the length is passed in 8 bits. -/
def putTlv (t n : Nat) : W := putU16 true (BitVec.ofNat 16 (t * 512 + n % 256))

/-- pf_lldp_add_ethernet_header (src/common/pf_lldp.c:186-207) with the address of the LLDP multicast group. -/
def putEth (src : List Byte) : W :=
  putMem [0x01, 0x80, 0xc2, 0x00, 0x00, 0x0e] ;; putMem src ;; putU16 true 0x88cc

/-- pf_lldp_add_chassis_id_tlv (src/common/pf_lldp.c:263-280), pf_lldp_add_port_id_tlv (src/common/pf_lldp.c:289-302). -/
def putId (t : Nat) (subtype : Byte) (s : List Byte) : W := putTlv t (1 + s.length) ;; putByte subtype ;; putMem s

/-- pf_lldp_add_ttl_tlv (src/common/pf_lldp.c:310-314): `PF_LLDP_TTL` is 20. -/
def putTtl : W := putTlv 3 2 ;; putU16 true 20

/-- pf_lldp_add_pnio_header (src/common/pf_lldp.c:221-230), pf_lldp_add_ieee_header (src/common/pf_lldp.c:244-253). -/
def putOrg (org : List Byte) (n : Nat) : W :=
  putTlv 127 (n + 3) ;; putByte (org.getD 0 0) ;; putByte (org.getD 1 0) ;; putByte (org.getD 2 0)

/-- pf_lldp_add_port_status (src/common/pf_lldp.c:326-341) as called. -/
def putStatus : W := putOrg orgPnio 5 ;; putByte 2 ;; putU16 true 0 ;; putU16 true 0

/-- pf_lldp_add_chassis_mac (src/common/pf_lldp.c:352-366) (with `memcpy`, which has no limit). -/
def putMac (mac : List Byte) : W := putOrg orgPnio 7 ;; putByte 5 ;;
  fun w => (writeAt w.buf w.pos mac).map fun b => { w with buf := b, pos := w.pos + mac.length }

/-- pf_lldp_add_ieee_mac_phy (src/common/pf_lldp.c:380-413). -/
def putLink (l : Link) : W :=
  putOrg orgIeee 6 ;; putByte 1 ;;
    putByte ((if l.autoSupported then 1 else 0) ||| (if l.autoEnabled then 2 else 0)) ;;
    putU16 true l.caps ;; putU16 true l.mau

/-- pf_lldp_add_management (src/common/pf_lldp.c:426-458). -/
def putMgmt (m : Mgmt) : W :=
  putTlv 8 12 ;; putByte (BitVec.ofNat 8 (1 + m.len)) ;; putByte m.subtype ;; putMem (m.value.take m.len) ;;
    putByte m.ifSubtype ;; putU32 true m.ifNumber ;; putByte 0

/-- What a frame says of the device and of the port: `name_of_device_mode`, station name, text of the system
description, name of the port, addresses, state of the link, address of the device, number of the interface. -/
structure Own where
  legacy : Bool
  station : List Byte
  sysDesc : List Byte
  portName : List Byte
  portMac : List Byte
  deviceMac : List Byte
  link : Link
  ip : U32
  ifNumber : U32

/-- Upper case hexadecimal digit. -/
def hex (n : Nat) : Byte := if n < 10 then BitVec.ofNat 8 (48 + n) else BitVec.ofNat 8 (55 + n)

def hex2 (b : Byte) : List Byte := [hex (b.toNat / 16), hex (b.toNat % 16)]

/-- pf_lldp_mac_address_to_string (src/common/pf_lldp.c:951-966) (the arrays of the callers have room for it). -/
def macString (m : List Byte) : List Byte :=
  hex2 (m.getD 0 0) ++ [45] ++ hex2 (m.getD 1 0) ++ [45] ++ hex2 (m.getD 2 0) ++ [45] ++ hex2 (m.getD 3 0) ++ [45] ++
    hex2 (m.getD 4 0) ++ [45] ++ hex2 (m.getD 5 0)

/-- pf_lldp_get_chassis_id (src/common/pf_lldp.c:584-630): kind and bytes.  Simplification: the text of the system description is a parameter, at most 80
bytes long. -/
def ownChassis (o : Own) : Byte × List Byte :=
  if o.legacy then
    if o.station.length = 0 ∨ o.station.length ≥ chassisSize then (4, o.deviceMac) else (7, o.station)
  else (7, o.sysDesc)

/-- pf_lldp_get_port_id (src/common/pf_lldp.c:646-690); `snprintf` cuts at the size of the array. -/
def ownPort (o : Own) : List Byte :=
  if o.legacy then o.portName.take (portIdSize - 1)
  else (o.portName ++ [46] ++ (if o.station.length = 0 then macString o.deviceMac else o.station)).take (portIdSize - 1)

/-- pf_lldp_get_management_address (src/common/pf_lldp.c:736-752). -/
def ownMgmt (o : Own) : Mgmt :=
  ⟨enc32 true o.ip ++ List.replicate 27 0, 1, 4, 2, o.ifNumber, true⟩

/-- pf_lldp_construct_frame (src/common/pf_lldp.c:979-1047) into a buffer of `PF_FRAME_BUFFER_SIZE` bytes. -/
def construct (o : Own) : W :=
  putEth o.portMac ;;
  putId 1 (ownChassis o).1 (ownChassis o).2 ;;
  putId 2 7 (ownPort o) ;;
  putTtl ;;
  putStatus ;;
  putMac o.deviceMac ;;
  putLink o.link ;;
  putMgmt (ownMgmt o) ;;
  putTlv 0 0

/-! ## What is asked about a neighbour -/

/-- The C string at the start of an array. -/
def cstr (a : List Byte) : List Byte := a.takeWhile (· ≠ 0)

/-- pf_lldp_get_peer_station_name (src/common/pf_lldp.c:768-828): the name, empty for -1. -/
def peerStation (p : Peer) : List Byte :=
  if p.port.valid ∧ (46 : Byte) ∈ cstr p.port.str then
    (((cstr p.port.str).dropWhile (· ≠ 46)).drop 1).take (chassisSize - 1)
  else if p.chassis.valid then
    if p.chassis.subtype ≠ 4 then (cstr p.chassis.str).take (chassisSize - 1) else macString p.chassis.str
  else []

/-- pf_lldp_get_peer_port_name (src/common/pf_lldp.c:830-864): the name, empty for -1. -/
def peerPortName (p : Peer) : List Byte :=
  if p.port.valid then
    ((p.port.str.take p.port.len).takeWhile fun b => b ≠ 0 ∧ b ≠ 46).take (portNameSize - 1)
  else []

/-- pf_lldp_generate_alias_name (src/common/pf_lldp.c:1764-1806) into an array of `len` bytes: `none` for -1. -/
def genAlias (port chassis : List Byte) (len : Nat) : Option (List Byte) :=
  if (46 : Byte) ∈ cstr port then
    if (cstr port).length ≥ len then none else some (cstr port)
  else if (cstr port).length + (cstr chassis).length + 1 ≥ len then none
  else some (cstr port ++ [46] ++ cstr chassis)

/-! ## A port -/

/-- The parts of `pf_port_t` that LLDP uses: `lldp.peer_info`, `lldp.is_peer_info_received`, the time at which
`lldp.rx_timeout` is due, `pdport.lldp_peer_info_updated`, `netif.previous_is_link_up`. -/
structure Port where
  peer : Peer
  received : Bool
  rxAt : Option Nat
  updated : Bool
  linkUp : Bool
deriving DecidableEq

/-- After pf_lldp_init (src/common/pf_lldp.c:1147-1168). -/
def Port.init (z : Nat) : Port := ⟨Peer.empty z, false, none, false, false⟩

/-- What a call finds outside: the time (in microseconds), the period of the stack, whether a timer can be started. -/
structure Env where
  now : Nat
  tick : U32
  armed : Bool

/-- How long a timer with `secs` seconds runs. -/
def rxDelay (e : Env) (secs : Nat) : Nat := (Scheduler.sanitizeDelay (BitVec.ofNat 32 (secs * 1000000)) e.tick).toNat

/-- pf_lldp_restart_peer_timeout (src/common/pf_lldp.c:508-545): no timer above 60 seconds. -/
def restartTimer (e : Env) (p : Port) (secs : Nat) : Port :=
  { p with rxAt := if secs > 60 then none else if e.armed then some (e.now + rxDelay e secs) else none }

/-- pf_lldp_invalidate_peer_info (src/common/pf_lldp.c:460-474). -/
def invalidate (p : Port) : Port :=
  { p with
    received := false
    peer := { p.peer with
      chassis := { p.peer.chassis with valid := false }
      port := { p.peer.port with valid := false }
      desc := { p.peer.desc with valid := false }
      mgmt := { p.peer.mgmt with valid := false }
      delay := { p.peer.delay with valid := false }
      link := { p.peer.link with valid := false }
      ttl := 0 } }

/-- pf_lldp_receive_timeout (src/common/pf_lldp.c:490-506), called by the scheduler, and pf_pdport_peer_indication (src/device/pf_pdport.c:1434-1438). -/
def tickRx (now : Nat) (p : Port) : Port :=
  match p.rxAt with
  | some t => if t ≤ now then { invalidate { p with rxAt := none } with updated := true } else p
  | none => p

/-- pf_lldp_update_peer (src/common/pf_lldp.c:1882-1958), pf_lldp_store_peer_info (src/common/pf_lldp.c:1854-1869). -/
def updatePeer (e : Env) (p : Port) (q : Peer) : Port :=
  let p1 := restartTimer e p q.ttl.toNat
  if q = p1.peer then p1
  else { p1 with received := true, peer := q, updated := true }

/-- pf_lldp_recv (src/common/pf_lldp.c:1960-2036) on a valid port; the frame from the LLDP data on. -/
def recv (z : Nat) (e : Env) (p : Port) (data : List Byte) : Option Port :=
  (parse z data).map fun x =>
    match x with
    | some q => updatePeer e p q
    | none => p

/-- pf_pdport_handle_link_down (src/device/pf_pdport.c:994-1004). -/
def linkDown (p : Port) : Port := { invalidate { p with rxAt := none } with updated := true }

/-- pf_pdport_monitor_link (src/device/pf_pdport.c:1033-1048) with the state of the link that is found. -/
def monitorLink (up : Bool) (p : Port) : Port :=
  if p.linkUp = true ∧ up = false then { linkDown p with linkUp := up } else { p with linkUp := up }

/-- pf_lldp_is_alias_matching (src/common/pf_lldp.c:1808-1838) over all ports. -/
def isAlias (ports : List Port) (name : List Byte) : Bool :=
  ports.any fun p => p.received && decide (genAlias p.peer.port.str p.peer.chassis.str aliasSize = some (cstr name))

end Verif.Lldp
