import Verif.Common.Bytes
/-!
# Starting the stack (pnet_init)

What pnet_init decides: whether the configuration is accepted, which network interfaces are opened with
which receive filter, and whether a stack is returned. `none` is undefined behaviour.

Not modelled: the initialisation of the single parts once the configuration is accepted (they have no
failing path), the log output.
-/
namespace Verif.Init

/-- The part of pnet_cfg_t that pf_fspm_validate_configuration looks at. -/
structure Cfg where
  tickUs : Nat
  /-- `if_cfg.main_netif_name`, `none` for a NULL pointer. -/
  netif : Option (List Byte)
  ports : Nat
  minInterval : Nat
  imSupported : BitVec 16
deriving DecidableEq

/-- `PNET_SUPPORTED_IM1` to `PNET_SUPPORTED_IM4` (include/pnet_api.h:1100-1105). -/
def imMask : BitVec 16 := ~~~(0x0002#16 ||| 0x0004#16 ||| 0x0008#16 ||| 0x0010#16)

/-- pf_fspm_validate_configuration (src/device/pf_fspm.c:206-284): `true` for 0. `cfg = none` is a NULL
pointer, `maxPorts` is PNET_MAX_PHYSICAL_PORTS; `strlen` of a NULL pointer is undefined. -/
def validate (maxPorts : Nat) (cfg : Option Cfg) : Option Bool :=
  match cfg with
  | none => some false
  | some c =>
    if c.tickUs = 0 then some false
    else
      match c.netif with
      | none => none
      | some name =>
        if name.length = 0 then some false
        else if c.ports = 0 ∨ c.ports > maxPorts then some false
        else if c.minInterval = 0 then some false
        else if c.minInterval > 0x1000 then some false
        else if c.imSupported &&& imMask > 0 then some false
        else some true

/-- Frames an interface is opened for (`pnal_ethertype_t`). -/
inductive Rx where
  | all
  | profinet
  | lldp
deriving DecidableEq

/-- What the platform sees. Interface 0 is the main interface, `k` the one of physical port `k`. -/
inductive Ev where
  | alloc
  /-- The memory of the stack is returned. -/
  | free
  /-- pnal_eth_init succeeded: from now on the platform calls pf_eth_recv with the stack as argument for
  frames of interface `k`. -/
  | opened (k : Nat) (rx : Rx)
deriving DecidableEq

/-- What the platform answers. -/
structure Env where
  malloc : Bool
  /-- pnal_eth_init -/
  eth : Nat → Bool
  /-- pnal_get_macaddress -/
  mac : Nat → Bool
  /-- pnal_snmp_init; `true` if built without SNMP. -/
  snmp : Bool

/-- pf_eth_init_netif (src/common/pf_eth.c:48-100) -/
def initNetif (e : Env) (k : Nat) (rx : Rx) (tr : List Ev) : List Ev × Bool :=
  if e.eth k then
    let tr := tr ++ [.opened k rx]
    if e.mac k then (tr, true) else (tr, false)
  else (tr, false)

/-- The loop over the physical ports in pf_eth_init (src/common/pf_eth.c:102-159). -/
def initPorts (e : Env) (ports : Nat) : List Nat → List Ev → List Ev × Bool
  | [], tr => (tr, true)
  | k :: ks, tr =>
    if ports > 1 then
      let r := initNetif e k .lldp tr
      if r.2 then initPorts e ports ks r.1 else (r.1, false)
    else initPorts e ports ks tr

/-- pf_eth_init (src/common/pf_eth.c:102-159). The iterator over the ports gives 1, 2, ... (src/device/pf_port.c). -/
def ethInit (e : Env) (ports : Nat) (tr : List Ev) : List Ev × Bool :=
  let r := initNetif e 0 (if ports = 1 then .all else .profinet) tr
  if r.2 then initPorts e ports (List.range' 1 ports) r.1 else (r.1, false)

/-- pnet_init_only (src/device/pnet_api.c:38-101) with pf_fspm_init (src/device/pf_fspm.c:414-454), in which the check of the configuration
comes first. -/
def initOnly (maxPorts : Nat) (cfg : Option Cfg) (e : Env) (tr : List Ev) : Option (List Ev × Bool) :=
  match validate maxPorts cfg with
  | none => none
  | some false => some (tr, false)
  | some true =>
    match cfg with
    | none => none
    | some c =>
      let r := ethInit e c.ports tr
      if r.2 then (if e.snmp then some (r.1, true) else some (r.1, false)) else some (r.1, false)

/-- pnet_init (src/device/pnet_api.c:103-127): what the platform sees and whether a stack is returned. -/
def pnetInit (maxPorts : Nat) (cfg : Option Cfg) (e : Env) : Option (List Ev × Bool) :=
  if e.malloc then
    match initOnly maxPorts cfg e [.alloc] with
    | none => none
    | some (tr, true) => some (tr, true)
    | some (tr, false) => some (tr ++ [.free], false)
  else some ([], false)

end Verif.Init
