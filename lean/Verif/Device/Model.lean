import Verif.Device.Table

/-!
Model of the table of plugged modules and submodules, of the table of connections (ARs) as far as
submodule ownership and connect handling need it, and of the module difference.
Source: src/device/pf_cmdev.c, src/device/pf_cmrpc.c, src/common/pf_alarm.c.
-/
set_option linter.unusedVariables false

namespace Verif.Device

/-! ## Tables of APIs, slots and subslots -/

/-- Data direction and lengths given when a submodule is plugged (members `direction`,
`length_input`, `length_output` of `pf_subslot_t`, src/pf_types.h:2293-2317). -/
structure Info where
  dir : Nat
  lenIn : Nat
  lenOut : Nat
deriving DecidableEq

/-- `pf_subslot_t` (src/pf_types.h:2293-2317).  `owner = some i` stands for
`ownsm_state == PF_OWNSM_STATE_IOC` with `owner` pointing to `cmrpc_ar[i]`; `none` stands for
`PF_OWNSM_STATE_FREE` (no code sets the other two states).  `summary` stands for "some flag of
`diag_summary` is set".  The diagnosis list is in area Diag. -/
structure Sub where
  inUse : Bool
  number : Nat
  ident : Nat
  owner : Option Nat
  info : Info
  summary : Bool
deriving DecidableEq

/-- `pf_slot_t` (src/pf_types.h:2320-2326). -/
structure Slot where
  inUse : Bool
  number : Nat
  ident : Nat
  subs : List Sub
deriving DecidableEq

/-- `pf_api_t` (src/pf_types.h:2329-2334). -/
structure Api where
  inUse : Bool
  id : Nat
  slots : List Slot
deriving DecidableEq

/-- A zeroed table entry. -/
def Sub.zero : Sub := ⟨false, 0, 0, none, ⟨0, 0, 0⟩, false⟩
def Slot.zero (maxSubs : Nat) : Slot := ⟨false, 0, 0, List.replicate maxSubs Sub.zero⟩
def Api.zero (maxSlots maxSubs : Nat) : Api :=
  ⟨false, 0, List.replicate maxSlots (Slot.zero maxSubs)⟩

/-- `cmdev_device.real_ident.api`. -/
abbrev Dev := List Api

def isApi (a : Nat) (x : Api) : Bool := x.inUse && x.id == a
def isSlot (s : Nat) (x : Slot) : Bool := x.inUse && x.number == s
def isSub (ss : Nat) (x : Sub) : Bool := x.inUse && x.number == ss

/-- pf_cmdev_get_api (src/device/pf_cmdev.c:127-151) -/
def getApi (d : Dev) (a : Nat) : Option Api := d.find? (isApi a)

/-- pf_cmdev_get_slot (src/device/pf_cmdev.c:162-190) -/
def findSlot (x : Api) (s : Nat) : Option Slot := x.slots.find? (isSlot s)

/-- pf_cmdev_get_subslot (src/device/pf_cmdev.c:201-229) -/
def findSub (x : Slot) (ss : Nat) : Option Sub := x.subs.find? (isSub ss)

/-- pf_cmdev_get_slot_full (src/device/pf_cmdev.c:256-274) -/
def getSlot (d : Dev) (a s : Nat) : Option Slot := (getApi d a).bind (findSlot · s)

/-- pf_cmdev_get_subslot_full (src/device/pf_cmdev.c:231-254) -/
def getSub (d : Dev) (a s ss : Nat) : Option Sub := (getSlot d a s).bind (findSub · ss)

/-- Change through the pointer returned by `pf_cmdev_get_api`. -/
def updApi (d : Dev) (a : Nat) (f : Api → Api) : Dev := modFirst (isApi a) f d

/-- Change through the pointer returned by `pf_cmdev_get_slot`. -/
def updSlot (d : Dev) (a s : Nat) (f : Slot → Slot) : Dev :=
  updApi d a (fun x => { x with slots := modFirst (isSlot s) f x.slots })

/-- Change through the pointer returned by `pf_cmdev_get_subslot`. -/
def updSub (d : Dev) (a s ss : Nat) (f : Sub → Sub) : Dev :=
  updSlot d a s (fun x => { x with subs := modFirst (isSub ss) f x.subs })

/-- pf_cmdev_new_api (src/device/pf_cmdev.c:414-456) -/
def newApi (d : Dev) (a : Nat) : Dev × Bool :=
  match getApi d a with
  | some _ => (d, false)
  | none =>
    match d.find? (fun x => !x.inUse) with
    | none => (d, false)
    | some x =>
      (modFirst (fun x => !x.inUse) (fun x =>
        { inUse := true, id := a,
          slots := x.slots.map (fun y => Slot.zero y.subs.length) }) d, true)

/-- pf_cmdev_new_slot (src/device/pf_cmdev.c:470-515), with the assignment of `ident_number` at its only call site
(src/device/pf_cmdev.c:623). -/
def newSlot (d : Dev) (a s ident : Nat) : Dev × Bool :=
  match getApi d a with
  | none => (d, false)
  | some x =>
    match findSlot x s with
    | some _ => (d, false)
    | none =>
      match x.slots.find? (fun y => !y.inUse) with
      | none => (d, false)
      | some _ =>
        (updApi d a (fun x =>
          { x with slots := modFirst (fun y => !y.inUse) (fun y =>
              ⟨true, s, ident, List.replicate y.subs.length Sub.zero⟩) x.slots }), true)

/-- pf_cmdev_plug_module (src/device/pf_cmdev.c:575-629).  Result `true` for return value 0. -/
def plugModule (d : Dev) (a s ident : Nat) : Dev × Bool :=
  match getApi d a with
  | none => (d, false)
  | some x =>
    match findSlot x s with
    | some y => (d, y.ident == ident)
    | none => newSlot d a s ident

/-- pf_cmdev_pull_submodule (src/device/pf_cmdev.c:631-685).  `alarm` is the result of `pf_alarm_send_pull`
(`true` for 0).  The subslot is marked unused even if the result is -1, which is the case for every
submodule without owner. -/
def pullSub (d : Dev) (a s ss : Nat) (alarm : Bool) : Dev × Bool :=
  match getSub d a s ss with
  | none => (d, false)
  | some y =>
    (updSub d a s ss (fun y => { y with inUse := false }), y.owner.isSome && alarm)

/-- pf_cmdev_new_subslot (src/device/pf_cmdev.c:527-573), with the assignments of the caller
(src/device/pf_cmdev.c:791-814). -/
def newSub (d : Dev) (a s ss ident : Nat) (info : Info) (who : Option Nat) : Dev × Bool :=
  match getSlot d a s with
  | none => (d, false)
  | some x =>
    match findSub x ss with
    | some _ => (d, false)
    | none =>
      match x.subs.find? (fun y => !y.inUse) with
      | none => (d, false)
      | some _ =>
        let z : Sub := ⟨true, ss, ident, who, info, false⟩
        (updSlot d a s (fun x =>
          { x with subs := modFirst (fun y => !y.inUse) (fun _ => z) x.subs }), true)

/-- First part of pf_cmdev_plug_submodule (src/device/pf_cmdev.c:687-864) (src/device/pf_cmdev.c:714-761): auto-plug of the module,
pull of the old submodule if `update`.  The flag is `already_plugged`. -/
def plugPrepare (d : Dev) (a s ss mident ident : Nat) (update alarm : Bool) : Dev × Bool :=
  match getApi d a with
  | none => (d, false)
  | some x =>
    match findSlot x s with
    | none => ((plugModule d a s mident).1, false)
    | some y =>
      match findSub y ss with
      | none => (d, false)
      | some z =>
        if update then ((pullSub d a s ss alarm).1, false)
        else (d, z.ident == ident)

/-- pf_cmdev_plug_submodule (src/device/pf_cmdev.c:687-864).  `who` is the first connection, in order of connection, that expects
a submodule there (src/device/pf_cmdev.c:802-839), `alarm` the result of sending the plug alarm.  The
API function `pnet_plug_submodule` always passes `update == false`. -/
def plugSub (d : Dev) (a s ss mident ident : Nat) (info : Info) (update : Bool)
    (who : Option Nat) (alarm : Bool) : Dev × Bool :=
  let (d1, already) := plugPrepare d a s ss mident ident update alarm
  if already then (d1, true)
  else
    let (d2, ok) := newSub d1 a s ss ident info who
    (d2, ok && (who.isNone || alarm))

/-- Loop of pf_cmdev_pull_module (src/device/pf_cmdev.c:866-925) over the subslot table: `i` entries left to look at. -/
def pullLoop (a s : Nat) (alarm : Nat → Bool) : List Nat → Dev → Dev × Bool
  | [], d => (d, true)
  | i :: rest, d =>
    match getSlot d a s with
    | none => (d, true)
    | some x =>
      match x.subs[i]? with
      | none => pullLoop a s alarm rest d
      | some y =>
        if y.inUse then
          match pullSub d a s y.number (alarm y.number) with
          | (d1, true) => pullLoop a s alarm rest d1
          | (d1, false) => (d1, false)
        else pullLoop a s alarm rest d

/-- pf_cmdev_pull_module (src/device/pf_cmdev.c:866-925).  `alarm` gives the result of the pull alarm per subslot number. -/
def pullModule (d : Dev) (a s : Nat) (alarm : Nat → Bool) : Dev × Bool :=
  match getSlot d a s with
  | none => (d, false)
  | some x =>
    match pullLoop a s alarm (List.range x.subs.length) d with
    | (d1, true) => (updSlot d1 a s (fun x => { x with inUse := false }), true)
    | (d1, false) => (d1, false)

/-- Taking ownership of a free submodule in a connect request (src/device/pf_cmdev.c:3740-3752). -/
def claim (d : Dev) (a s ss i : Nat) : Dev :=
  updSub d a s ss (fun z => if z.owner.isNone then { z with owner := some i } else z)

/-! ## Histories of table operations -/

/-- Operations on the tables: the four API functions, creation of an API by a connect request
(src/device/pf_cmdev.c:3944-3946), taking ownership of a submodule by a connect request, and any change
of the owner of any subslot table entry at the end of a connection. -/
inductive TOp where
  | plugModule (a s ident : Nat)
  | plugSub (a s ss mident ident : Nat) (info : Info) (who : Option Nat) (alarm : Bool)
  | pullSub (a s ss : Nat) (alarm : Bool)
  | pullModule (a s : Nat) (alarm : Nat → Bool)
  | newApi (a : Nat)
  | claim (a s ss i : Nat)
  | own (f : Nat → Nat → Nat → Sub → Option Nat)

/-- Give every subslot table entry the owner `f api slot_index entry`, nothing else changes. -/
def setOwners (f : Nat → Nat → Nat → Sub → Option Nat) (d : Dev) : Dev :=
  d.map (fun x => { x with slots := x.slots.map (fun y =>
    { y with subs := y.subs.map (fun z => { z with owner := f x.id y.number z.number z }) }) })

def tstep (d : Dev) : TOp → Dev × Bool
  | .plugModule a s ident => plugModule d a s ident
  | .plugSub a s ss m i info who al => plugSub d a s ss m i info false who al
  | .pullSub a s ss al => pullSub d a s ss al
  | .pullModule a s al => pullModule d a s al
  | .newApi a => newApi d a
  | .claim a s ss i => (claim d a s ss i, true)
  | .own f => (setOwners f d, true)

def texec : Dev → List TOp → Dev
  | d, [] => d
  | d, o :: os => texec (tstep d o).1 os

/-- Tables after pf_cmdev_init (src/device/pf_cmdev.c:1312-1338): zeroed, with API 0. -/
def dev0 (maxApi maxSlots maxSubs : Nat) : Dev :=
  (newApi (List.replicate maxApi (Api.zero maxSlots maxSubs)) 0).1

end Verif.Device
