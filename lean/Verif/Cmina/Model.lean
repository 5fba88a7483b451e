import Verif.Common.Bytes
import Verif.Validate.Ip
import Verif.Validate.Name
/-!
Model of the station name and IP settings of the device and of the part of the DCP Set service that changes
them.
Source: src/device/pf_cmina.c, src/common/pf_dcp.c.

Modelled: the values in use and the values to be stored, the file with the stored values, the request to
the background worker to store them, the state of the machine, the call that hands the values to the
network interface, the number of connections.

Not modelled: the fields of the settings that never change after start (they are in `Dcp.Cfg`), DHCP (not
implemented in the code), log output, error decode fields that nothing reads.  The reset of other
data (I&M, SNMP, port data, diagnosis file) is an output event.  A connection that is aborted is gone
afterwards: `pf_cmdev_state_ind` with `ABORT` frees it (src/device/pf_cmrpc.c, see the area Startup).
-/
set_option linter.unusedVariables false

namespace Verif.Cmina

/-- `pf_ip_suite_t` (src/pf_types.h:819-825), numbers in the byte order of the machine. -/
structure Ip where
  addr : BitVec 32
  mask : BitVec 32
  gw : BitVec 32
deriving DecidableEq

def Ip.zero : Ip := ⟨0, 0, 0⟩

/-- The fields of `pf_cmina_dcp_ase_t` (src/pf_types.h:1160-1191) that change.  A name is the text before the
terminator. -/
structure Ase where
  name : List Byte
  ip : Ip
  dns : List (BitVec 32)
deriving DecidableEq

def dnsZero : List (BitVec 32) := List.replicate 4 0

/-- `memset` of the settings at start. -/
def Ase.zero : Ase := ⟨[], .zero, dnsZero⟩

/-- `pf_cmina_state_values_t`. -/
inductive St where
  | setup | setName | setIp | wConnect
deriving DecidableEq

/-- The values from the configuration of the user that are used if nothing is stored. -/
structure Defaults where
  name : List Byte
  ip : Ip
  dhcp : Bool
deriving DecidableEq

/-- What other parts see. -/
inductive Ev where
  /-- `pnal_set_ip_suite` with the last argument. -/
  | setIp (ip : Ip) (name : List Byte) (permanent : Bool)
  /-- All connections are aborted, with the reason. -/
  | abort (reason : Byte)
  /-- I&M data and data of the application are reset. -/
  | clearApp
  /-- Files and port data of the communication are reset. -/
  | clearComm
  /-- `pf_fspm_reset_ind`. -/
  | resetInd (app : Bool) (mode : Nat)
deriving DecidableEq

structure Dev where
  cur : Ase
  nv : Ase
  st : St
  /-- `cmina_commit_ip_suite` -/
  commit : Bool
  /-- The file with the stored settings. -/
  file : Option Ase
  /-- The background worker has been asked to store the settings and has not done so. -/
  job : Bool
  /-- Number of connections. -/
  ars : Nat
  /-- The timer of the Hello messages runs. -/
  hello : Bool
deriving DecidableEq

/-- The part of pf_cmina_set_default_cfg (src/device/pf_cmina.c:159-375) that changes the settings to be stored,
before the settings in use are replaced. -/
def loadNv (c : Defaults) (d : Dev) (mode : Nat) : Ase :=
  if mode = 0 then
    match d.file with
    | some f => ⟨f.name, f.ip, d.nv.dns⟩
    | none => ⟨c.name, c.ip, d.nv.dns⟩
  else if mode = 2 ∨ mode ≥ 3 then ⟨[], .zero, d.nv.dns⟩
  else d.nv

/-- pf_cmina_set_default_cfg (src/device/pf_cmina.c:159-375).  The file is cleared when the communication
parameters are reset. -/
def setDefault (c : Defaults) (d : Dev) (mode : Nat) : Dev × List Ev :=
  let nv := loadNv c d mode
  ({ d with nv := nv, cur := nv, job := true,
            file := if mode = 2 ∨ mode ≥ 3 then none else d.file },
   (if mode = 1 ∨ mode ≥ 3 then [.clearApp] else []) ++
   (if mode = 2 ∨ mode ≥ 3 then [.setIp .zero [] true, .clearComm] else []) ++
   (if mode > 0 then [.resetInd (decide (mode = 1 ∨ mode ≥ 3)) mode] else []))

/-- pf_cmina_dcp_set_commit (src/device/pf_cmina.c:377-449). -/
def setCommit (d : Dev) : Dev × List Ev :=
  if d.commit = false then (d, [])
  else ({ d with commit := false },
    [.setIp d.cur.ip d.cur.name (decide (d.cur.ip = d.nv.ip ∧ d.cur.name = d.nv.name))])

def haveIp (d : Dev) : Bool := decide (d.cur.ip ≠ .zero)
def haveName (d : Dev) : Bool := decide (d.cur.name ≠ [])

/-- The state that pf_cmina_init (src/device/pf_cmina.c:451-578) chooses, and whether the values are handed to the network
interface. -/
def startState (c : Defaults) (a : Ase) : St × Bool :=
  if a.name = [] then
    (.setName, if c.dhcp then false else true)
  else if a.ip = .zero then
    (.setIp, if c.dhcp then false else true)
  else (.wConnect, true)

/-- pf_cmina_init (src/device/pf_cmina.c:451-578) after the power was off: only the file is left.  `hello`: the configuration
asks for Hello messages. -/
def restart (c : Defaults) (hello : Bool) (file : Option Ase) : Dev × List Ev :=
  let d0 : Dev := ⟨.zero, .zero, .setup, false, file, false, 0, false⟩
  let d1 := (setDefault c d0 0).1
  let s := startState c d1.cur
  setCommit { d1 with st := s.1, commit := s.2, hello := decide (s.1 = .wConnect) && hello }

/-! ## One block of a Set request -/

/-- Block error codes (src/common/pf_dcp.h:97-102). -/
abbrev errNone : Byte := 0
abbrev errOption : Byte := 1
abbrev errSuboption : Byte := 2
abbrev errNotSet : Byte := 3

abbrev optIp : Byte := 1
abbrev optProps : Byte := 2
abbrev optDhcp : Byte := 3
abbrev optControl : Byte := 5
abbrev optInitiative : Byte := 6
abbrev optAll : Byte := 0xff

abbrev subIpMac : Byte := 1
abbrev subIpPar : Byte := 2
abbrev subIpSuite : Byte := 3
abbrev subVendor : Byte := 1
abbrev subName : Byte := 2
abbrev subId : Byte := 3
abbrev subRole : Byte := 4
abbrev subOptions : Byte := 5
abbrev subAlias : Byte := 6
abbrev subInstance : Byte := 7
abbrev subOemId : Byte := 8
abbrev subGateway : Byte := 9
abbrev subStart : Byte := 1
abbrev subStop : Byte := 2
abbrev subSignal : Byte := 3
abbrev subResponse : Byte := 4
abbrev subFactoryReset : Byte := 5
abbrev subResetToFactory : Byte := 6

/-- `PNET_ERROR_CODE_2_ABORT_DCP_STATION_NAME_CHANGED`, `PNET_ERROR_CODE_2_ABORT_DCP_RESET_TO_FACTORY`. -/
abbrev abortName : Byte := 0x1f
abbrev abortReset : Byte := 0x20

/-- The local variables of pf_cmina_dcp_set_ind (src/device/pf_cmina.c:628-1103) after its first `switch`: success, block
error if one was written, and what is changed. -/
structure Parsed where
  dev : Dev
  ok : Bool
  err : Option Byte
  chIp : Bool
  chName : Bool
  reset : Bool
  mode : Nat
deriving DecidableEq

def refuse (d : Dev) (e : Option Byte) : Parsed := ⟨d, false, e, false, false, false, 0⟩

/-- A new IP suite pf_cmina_dcp_set_ind (src/device/pf_cmina.c:628-1103), first `switch`, `PF_DCP_SUB_IP_PAR`: the length was checked. -/
def parseIpPar (d : Dev) (temp : Bool) (v : Ip) : Parsed :=
  if Validate.ipsuiteValid v.addr v.mask v.gw then
    let cur := { d.cur with ip := v }
    ⟨{ d with cur := cur, nv := if temp then { d.nv with ip := .zero } else { d.nv with ip := v } }, true, none,
      decide (d.cur.ip ≠ v), false, false, 0⟩
  else refuse d (some errNotSet)

/-- pf_cmina_dcp_set_ind (src/device/pf_cmina.c:628-1103), first `switch`, `PF_DCP_SUB_IP_SUITE`, for a value of twelve bytes (the only length
that `pf_dcp_set_req` passes on): the DNS addresses in use are left as they are. -/
def parseIpSuite (d : Dev) (temp : Bool) (v : Ip) : Parsed :=
  if Validate.ipsuiteValid v.addr v.mask v.gw then
    let cur := { d.cur with ip := v }
    ⟨{ d with cur := cur,
              nv := if temp then { d.nv with ip := .zero, dns := dnsZero } else { d.nv with ip := v, dns := cur.dns } },
      true, none, decide (d.cur.ip ≠ v), false, false, 0⟩
  else refuse d (some errNotSet)

/-- `strncmp (name, value, n) != 0 || strlen (name) != n` for a value of `n` bytes without zeros is inequality of
texts. pf_cmina_dcp_set_ind (src/device/pf_cmina.c:628-1103), first `switch`, `PF_DCP_SUB_DEV_PROP_NAME`.  `len` is the length that was
announced, `v` the bytes. -/
def parseName (d : Dev) (temp : Bool) (len : Nat) (v : List Byte) : Parsed :=
  if len < 241 then
    if Validate.stationnameValid v then
      ⟨{ d with cur := { d.cur with name := v },
                nv := if temp then { d.nv with name := [] } else { d.nv with name := v } },
        true, none, false, decide (d.cur.name ≠ v), false, 0⟩
    else refuse d (some errNotSet)
  else refuse d (some errNotSet)

/-- The second part of pf_cmina_dcp_set_ind (src/device/pf_cmina.c:628-1103) for a request that was parsed: what to do in
each state.  The values: new device, success, events. -/
def evaluate (p : Parsed) : Dev × Bool × List Ev :=
  let d := { p.dev with job := true }
  match d.st with
  | .setup => (d, false, [])
  | .setName | .setIp =>
    if p.chName || p.chIp then
      if haveName d && haveIp d then ({ d with commit := true, st := .wConnect }, true, [])
      else if haveName d = false then ({ d with st := .setName }, true, [])
      else ({ d with st := .setIp }, true, [])
    else (d, true, [])
  | .wConnect =>
    if !p.chName && !p.chIp && !p.reset then (d, true, [])
    else if haveName d = false || p.reset then
      ({ d with ars := 0 }, true, if d.ars = 0 then [] else [.abort (if p.reset then abortReset else abortName)])
    else if (haveName d && p.chName) || haveIp d = false then
      ({ d with ars := 0, commit := if d.ars = 0 then true else d.commit, st := .setIp }, true,
        if d.ars = 0 then [] else [.abort abortName])
    else if haveIp d && p.chIp then
      if d.ars = 0 then ({ d with commit := true }, true, [])
      else (d, false, [])
    else (d, false, [])

/-- The check after the evaluation pf_cmina_dcp_set_ind (src/device/pf_cmina.c:628-1103) ("Do_Check"); the flags are only set if the request
was parsed. -/
def doCheck (d : Dev) : Dev :=
  if (d.st = .setIp ∨ d.st = .setName) ∧ haveName d = true ∧ haveIp d = true then { d with st := .wConnect } else d

/-- pf_cmina_dcp_set_ind (src/device/pf_cmina.c:628-1103) from the end of its first `switch`. -/
def finish (c : Defaults) (p : Parsed) : Dev × Bool × Option Byte × List Ev :=
  if p.ok then
    let r := evaluate p
    let d := doCheck r.1
    if p.reset then
      let s := setDefault c d p.mode
      (s.1, true, p.err, r.2.2 ++ s.2)
    else (d, r.2.1, p.err, r.2.2)
  else (p.dev, false, p.err, [])

/-- Stopping the Hello messages at the start of pf_cmina_dcp_set_ind (src/device/pf_cmina.c:628-1103). -/
def noHello (d : Dev) : Dev := { d with hello := false }

/-- A big-endian number of four bytes. -/
def be32 (b : List Byte) (i : Nat) : BitVec 32 :=
  (b.getD i 0 ++ b.getD (i + 1) 0) ++ (b.getD (i + 2) 0 ++ b.getD (i + 3) 0)

/-- The IP suite in a request: three numbers in network byte order. -/
def ipOf (b : List Byte) : Ip := ⟨be32 b 0, be32 b 4, be32 b 8⟩

/-- Result of handling one block: the device, success, the block error that is sent, events, and whether the
LED flashes are requested. -/
structure BlockRes where
  dev : Dev
  ok : Bool
  err : Byte
  evs : List Ev
  led : Bool
  /-- New value of `dcp_global_block_qualifier`. -/
  qual : BitVec 16

def BlockRes.refused (d : Dev) (e : Byte) (q : BitVec 16) : BlockRes := ⟨d, false, e, [], false, q⟩

/-- The result of pf_cmina_dcp_set_ind turned into the answer pf_dcp_set_req (src/common/pf_dcp.c:690-903): the error is zero on success and
the error that was there before if none was written. -/
def answer (e0 : Byte) (q : BitVec 16) (r : Dev × Bool × Option Byte × List Ev) : BlockRes :=
  ⟨r.1, r.2.1, if r.2.1 then errNone else r.2.2.1.getD e0, r.2.2.2, false, q⟩

/-- pf_dcp_set_req (src/common/pf_dcp.c:690-903) without writing the answer.  `len` is the length that is passed, `v` the
bytes of the value (for `len ≤ 1500` these are `len` bytes).  `gq` is `dcp_global_block_qualifier`. -/
def setReq (c : Defaults) (d : Dev) (gq : BitVec 16) (opt sub : Byte) (qual : BitVec 16) (len : Nat) (v : List Byte) :
    BlockRes :=
  let temp := decide (qual.toNat % 2 = 0)
  if opt = optIp then
    if sub = subIpPar then
      if len = 12 then answer errSuboption gq (finish c (parseIpPar (noHello d) temp (ipOf v)))
      else .refused d errSuboption gq
    else if sub = subIpSuite then
      if len = 12 then answer errSuboption gq (finish c (parseIpSuite (noHello d) temp (ipOf v)))
      else .refused d errSuboption gq
    else .refused d errSuboption gq
  else if opt = optProps then
    if sub = subName then answer errSuboption gq (finish c (parseName (noHello d) temp len v))
    else .refused d errSuboption gq
  else if opt = optDhcp then .refused d errSuboption gq
  else if opt = optControl then
    if sub = subStart then ⟨d, true, errNone, [], false, qual⟩
    else if sub = subStop then ⟨d, true, errNone, [], false, gq⟩
    else if sub = subSignal then ⟨d, true, errNone, [], true, gq⟩
    else if sub = subFactoryReset then
      answer errSuboption gq (finish c ⟨noHello d, true, none, false, false, true, 99⟩)
    else if sub = subResetToFactory then
      answer errSuboption gq (finish c ⟨noHello d, true, none, false, false, true, qual.toNat / 2⟩)
    else .refused d errSuboption gq
  else .refused d errOption gq

/-! ## Histories -/

/-- What happens to the device. -/
inductive Op where
  /-- A block of a Set request. -/
  | block (opt sub : Byte) (qual : BitVec 16) (len : Nat) (v : List Byte)
  /-- The end of a Set request: `pf_cmina_dcp_set_commit`. -/
  | commit
  /-- The background worker stores the settings: pf_cmina_save_ase (src/device/pf_cmina.c:83-157), without a fault. -/
  | save
  /-- A connection is opened or closed. -/
  | open
  | close
  /-- The power is switched off and on. -/
  | power
deriving DecidableEq

/-- `hello`, `c`: the configuration. -/
def step (c : Defaults) (hello : Bool) (d : Dev) : Op → Dev × List Ev
  | .block opt sub qual len v => let r := setReq c d 0 opt sub qual len v; (r.dev, r.evs)
  | .commit => setCommit d
  | .save => (if d.job then { d with file := some d.nv, job := false } else d, [])
  | .open => ({ d with ars := d.ars + 1 }, [])
  | .close => ({ d with ars := d.ars - 1 }, [])
  | .power => restart c hello d.file

def run (c : Defaults) (hello : Bool) : Dev → List Op → Dev
  | d, [] => d
  | d, o :: os => run c hello (step c hello d o).1 os

end Verif.Cmina
