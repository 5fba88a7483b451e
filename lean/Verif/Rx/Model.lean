import Verif.Eth.Props
import Verif.Connect.Model
import Verif.Device.Model

/-!
Which frames reach which part of the stack: the frame ID map (area Eth) together with everything that
enters and removes handlers - DCP at start-up, the consumers of the output CRs and the alarm handlers
when a connection starts and ends.
Sources: src/common/pf_eth.c, src/common/pf_dcp.c, src/common/pf_cpm_driver_sw.c,
src/common/pf_alarm.c, src/device/pf_cmsu.c, src/device/pf_cmdev.c.

Not modelled: the checks of the connect request (areas Connect, Device, Wire).  Their outcome is the
kind of operation: accepted, refused by the application, not able to start.
-/
namespace Verif.Rx

open Verif.Connect (Cr Ar)
open Verif.Device (modFirst)

/-- The functions entered in the frame ID map, with their arguments: `pf_dcp_hello_ind`,
`pf_dcp_get_set`, `pf_dcp_identify_req`, `pf_alarm_apmr_frame_handler`, and `pf_cpm_c_data_ind` for CR
`k` of the connection at index `i` (`&net->cmrpc_ar[i].iocrs[k]`). -/
inductive Handler where
  | hello | getSet | identify | alarm
  | output (i k : Nat)
deriving DecidableEq

/-- `alarm_endpoint[]`: the connection (`ar`) and `active`. -/
abbrev Eps := List (Option Nat × Bool)

/-- `cmrpc_ar` (PNET_MAX_AR entries and one more), `cmsu_state != IDLE` per entry, `alarm_endpoint`,
`eth_id_map`. -/
structure St where
  ars : List Ar
  started : Nat → Bool
  eps : Eps
  map : Eth.Map Handler

/-- pf_dcp_init (src/common/pf_dcp.c:2007-2029): the handlers of the frame IDs 0xFEFC, 0xFEFD and 0xFEFE. -/
def dcpInit (m : Eth.Map Handler) : Eth.Map Handler :=
  Eth.add (Eth.add (Eth.add m 0xFEFC .hello) 0xFEFD .getSet) 0xFEFE .identify

/-- State after start-up: pf_eth_init (src/common/pf_eth.c:102-159), pf_dcp_init (src/common/pf_dcp.c:2007-2029); `size` is PF_ETH_MAX_MAP, `n`
PNET_MAX_AR. -/
def init (n size : Nat) : St :=
  ⟨List.replicate (n + 1) ⟨false, []⟩, fun _ => false, List.replicate n (none, false),
   dcpInit (Eth.init size .hello)⟩

/-- pf_alarm_allocate_endpoint (src/common/pf_alarm.c:684-698) -/
def allocEp (eps : Eps) (i : Nat) : Eps := modFirst (fun e => e.1.isNone) (fun _ => (some i, false)) eps

/-- pf_alarm_free_endpoint (src/common/pf_alarm.c:700-713) -/
def freeEp (eps : Eps) (i : Nat) : Eps := modFirst (fun e => e.1 == some i) (fun _ => (none, false)) eps

/-- The loop over the endpoints in pf_alarm_apmx_activate (src/common/pf_alarm.c:974-1088) and pf_alarm_apmx_close (src/common/pf_alarm.c:1576-1679) that writes
`active` in the first endpoint of the connection. -/
def setActive (eps : Eps) (i : Nat) (v : Bool) : Eps :=
  modFirst (fun e => e.1 == some i) (fun e => (e.1, v)) eps

/-- pf_alarm_apmx_activate (src/common/pf_alarm.c:974-1088), the part that enters the alarm handlers. -/
def alarmActivate (m : Eth.Map Handler) (eps : Eps) : Eth.Map Handler :=
  if eps.any (·.2) then m else Eth.add (Eth.add m 0xFE01 .alarm) 0xFC01 .alarm

/-- pf_alarm_apmx_close (src/common/pf_alarm.c:1576-1679), the part that removes the alarm handlers; `eps` after `active` of the
connection has been cleared. -/
def alarmClose (m : Eth.Map Handler) (eps : Eps) : Eth.Map Handler :=
  if eps.any (·.2) then m else Eth.remove (Eth.remove m 0xFC01) 0xFE01

/-- The loop of pf_cmsu_start_req (src/device/pf_cmsu.c:179-274) over the CRs with index `k`, ...: for an output CR
pf_cpm_activate_req (src/common/pf_cpm.c:212-308) and pf_cpm_driver_sw_activate_req (src/common/pf_cpm_driver_sw.c:402-442) enter its frame ID (there is one per CR). -/
def startCrs (i : Nat) : Nat → List Cr → Eth.Map Handler → Eth.Map Handler
  | _, [], m => m
  | k, c :: cs, m => startCrs i (k + 1) cs (if c.type = 2 then Eth.add m c.frameId (.output i k) else m)

/-- The loop of pf_cmsu_cmdev_state_ind (src/device/pf_cmsu.c:94-177) for ABORT: pf_cpm_close_req (src/common/pf_cpm.c:149-179) and
pf_cpm_driver_sw_close_req (src/common/pf_cpm_driver_sw.c:149-174) remove the frame IDs of the output CRs. -/
def closeCrs : List Cr → Eth.Map Handler → Eth.Map Handler
  | [], m => m
  | c :: cs, m => closeCrs cs (if c.type = 2 then Eth.remove m c.frameId else m)

/-- What happens to the connections. -/
inductive Op where
  /-- An IO connection is accepted and started. -/
  | io (crs : List Cr)
  /-- A connection for device access (records only) is accepted. -/
  | access
  /-- The application refuses a connection in its connect callback. -/
  | refused (crs : List Cr)
  /-- pf_cmsu_start_req (src/device/pf_cmsu.c:179-274) fails: no timer for the consumer of CR `k`. -/
  | failed (crs : List Cr) (k : Nat)
  /-- The connection at index `i` ends, for whatever reason. -/
  | close (i : Nat)

/-- The entry taken by pf_ar_allocate (src/device/pf_cmrpc.c:704-751), if a connection can be accepted with it (pf_cmrpc_rm_connect_ind (src/device/pf_cmrpc.c:1974-2117)
refuses the last entry), with the CRs of the request. -/
def take (n : Nat) (st : St) (crs : List Cr) : Option (Nat × List Ar) :=
  match st.ars.findIdx? (fun a => !a.inUse) with
  | none => none
  | some i => if i < n then some (i, st.ars.set i ⟨true, crs⟩) else none

def crsOf (ars : List Ar) (i : Nat) : List Cr := (ars[i]?).elim [] Ar.crs

/-- An IO connection (pf_cmdev_rm_connect_ind (src/device/pf_cmdev.c:4822-4891)): the frame IDs are chosen, an endpoint is taken,
the protocol machines are started (pf_cmsu_start_req (src/device/pf_cmsu.c:179-274)).  `none`: endless loop in the choice. -/
def connectIo (n : Nat) (st : St) (i : Nat) (ars : List Ar) : Option St :=
  (Connect.fixFrameIds n ars i).map fun ars' =>
    let eps := allocEp st.eps i
    { ars := ars'
      started := fun j => if j = i then true else st.started j
      eps := setActive eps i true
      map := alarmActivate (startCrs i 0 (crsOf ars' i) st.map) eps }

/-- A connection that gets an endpoint but is never started: refused by the application
(pf_cmdev_cm_connect_rsp_neg (src/device/pf_cmdev.c:4712-4730) and the caller release the entry), or for device access
(pf_cmdev_cm_connect_rsp_pos (src/device/pf_cmdev.c:4741-4799), `keep`). -/
def connectOther (n : Nat) (st : St) (i : Nat) (ars : List Ar) (keep : Bool) : Option St :=
  (Connect.fixFrameIds n ars i).map fun ars' =>
    { st with ars := if keep then ars' else ars'.set i ⟨false, []⟩, eps := allocEp st.eps i }

/-- The start fails at CR `k` because no timer is left: the frame ID has been entered before
(pf_cpm_driver_sw_activate_req (src/common/pf_cpm_driver_sw.c:402-442)); pf_cmsu_cpm_error_ind (src/device/pf_cmsu.c:287-296) aborts, but CMSU is still idle, so nothing is closed
(pf_cmsu_cmdev_state_ind (src/device/pf_cmsu.c:94-177)), and the entry is released. -/
def connectFailed (n : Nat) (st : St) (i : Nat) (ars : List Ar) (k : Nat) : Option St :=
  (Connect.fixFrameIds n ars i).map fun ars' =>
    { st with
      ars := ars'.set i ⟨false, []⟩
      eps := allocEp st.eps i
      map := startCrs i 0 ((crsOf ars' i).take (k + 1)) st.map }

/-- The end of a connection (pf_cmdev_state_ind (src/device/pf_cmdev.c:1394-1435) with ABORT): if it was started
pf_cmsu_cmdev_state_ind (src/device/pf_cmsu.c:94-177) closes the consumers, the alarm machines (pf_alarm_close (src/common/pf_alarm.c:2796-2827)) and frees the endpoint;
then the entry is released (pf_ar_release (src/device/pf_cmrpc.c:758-802)). -/
def closeConn (st : St) (i : Nat) : St :=
  match st.ars[i]? with
  | none => st
  | some a =>
    if a.inUse then
      if st.started i then
        let eps := setActive st.eps i false
        { ars := st.ars.set i ⟨false, []⟩
          started := fun j => if j = i then false else st.started j
          eps := freeEp eps i
          map := alarmClose (closeCrs a.crs st.map) eps }
      else { st with ars := st.ars.set i ⟨false, []⟩ }
    else st

def step (n : Nat) (st : St) : Op → Option St
  | .io crs => match take n st crs with
    | none => some st
    | some (i, ars) => connectIo n st i ars
  | .access => match take n st [] with
    | none => some st
    | some (i, ars) => connectOther n st i ars true
  | .refused crs => match take n st crs with
    | none => some st
    | some (i, ars) => connectOther n st i ars false
  | .failed crs k => match take n st crs with
    | none => some st
    | some (i, ars) => connectFailed n st i ars k
  | .close i => some (closeConn st i)

def exec (n : Nat) : St → List Op → Option St
  | st, [] => some st
  | st, o :: os => (step n st o).bind fun st' => exec n st' os

end Verif.Rx
