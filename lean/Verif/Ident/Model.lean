import Verif.DiagRead.Model

/-!
Model of the answers to reads of identification records: real and expected identification data, list of APIs,
I&M0 filter data.
Source: src/device/pf_block_writer.c:1627-2320, src/device/pf_cmrdr.c:159-165 and 237-352.

The tables of plugged submodules and the expected configuration are those of area Device.  All answers are
big-endian.  `none` is the access through a null pointer.
-/
set_option linter.unusedVariables false

namespace Verif.Ident
open Verif.Device hiding St
open Verif.Wire hiding ExpApi ExpMod ExpSub
open Verif.DiagRead hiding readIndex

/-- The pattern `count_pos = *pos; put (0); for (..) { ++count; put (..) } put (count) at count_pos` of
pf_put_slot_data (src/device/pf_block_writer.c:1669-1731), pf_put_api_data (src/device/pf_block_writer.c:1749-1820) and pf_put_real_device_data (src/device/pf_block_writer.c:1822-1927).  `ws`: what is put for the entries that are found. -/
def counted (ws : List W) : W := fun w =>
  (n16 0 w).bind fun w1 =>
    (each id ws w1).bind fun w2 =>
      (n16 ws.length { w2 with pos := w.pos }).map fun w3 => { w3 with pos := w2.pos }

/-- The pattern "insert the block length into the block header" for blocks that are never given up. -/
def block (t : U16) (vh vl : Byte) (body : W) : W := fun w =>
  (putBlockHeader true t 0 vh vl w).bind fun w1 =>
    (body w1).bind fun w2 =>
      (putU16 true (BitVec.ofNat 16 w2.pos - BitVec.ofNat 16 (w.pos + 4)) { w2 with pos := w.pos + 2 }).map
        fun w3 => { w3 with pos := w2.pos }

/-! ## Real identification -/

/-- pf_put_subslot_data (src/device/pf_block_writer.c:1644-1653) -/
def putSubData (z : Sub) : W := n16 z.number ;; n32 z.ident

/-- pf_put_slot_data (src/device/pf_block_writer.c:1669-1731).  `z`, `m`: the arguments `subslot` and `exp_module`, `none` for a null pointer. -/
def putSlotData (y : Slot) (z : Option Sub) (m : Option ExpMod) : W :=
  n16 y.number ;; n32 y.ident ;;
  match m with
  | some m => counted (m.subs.filterMap (fun e => (findSub y e.number).map putSubData))
  | none =>
    match z with
    | some z => n16 1 ;; putSubData z
    | none => counted ((y.subs.filter Sub.inUse).map putSubData)

/-- pf_put_api_data (src/device/pf_block_writer.c:1749-1820) -/
def putApiData (x : Api) (y : Option Slot) (z : Option Sub) (e : Option ExpApi) : W :=
  n32 x.id ;;
  match e with
  | some e => counted (e.mods.filterMap (fun m => (findSlot x m.slot).map (fun y => putSlotData y none (some m))))
  | none =>
    match y with
    | some y => n16 1 ;; putSlotData y z none
    | none => counted ((x.slots.filter Slot.inUse).map (fun y => putSlotData y none none))

/-- `pf_record_data_scope_t` (src/device/pf_block_writer.h), with the place in the request. -/
inductive Scope where
  | subslot (a s ss : Nat)
  | slot (a s : Nat)
  | ar
  | api (a : Nat)
  | device
deriving DecidableEq

/-- pf_put_real_device_data (src/device/pf_block_writer.c:1822-1927). `e`: the argument `exp_ident`. -/
def putDevData (d : Dev) (e : Option (List ExpApi)) : Scope → W
  | .ar =>
    match e with
    | none => skip
    | some e => counted (e.filterMap (fun ea => (getApi d ea.api).map (fun x => putApiData x none none (some ea))))
  | .device => counted ((d.filter Api.inUse).map (fun x => n32 x.id))
  | .api a =>
    match getApi d a with
    | none => skip
    | some x => n16 1 ;; putApiData x none none none
  | .slot a s =>
    match getApi d a with
    | none => skip
    | some x =>
      match findSlot x s with
      | none => skip
      | some y => n16 1 ;; putApiData x (some y) none none
  | .subslot a s ss =>
    match getApi d a with
    | none => skip
    | some x =>
      match findSlot x s with
      | none => skip
      | some y =>
        match findSub y ss with
        | none => skip
        | some z => n16 1 ;; putApiData x (some y) (some z) none

/-- A connection, as far as it matters here: type `PF_ART_IOSAR` or not, expected configuration. -/
structure Conn where
  supervisor : Bool
  exp : List ExpApi

/-- The part of pf_put_real_ident_data (src/device/pf_block_writer.c:1929-2013) between header and length. -/
def realBody (d : Dev) (ar : Option Conn) : Scope → W
  | .ar =>
    match ar with
    | none => skip
    | some c => if c.supervisor then skip else putDevData d (some c.exp) .ar
  | sc => putDevData d none sc

/-- pf_put_real_ident_data (src/device/pf_block_writer.c:1929-2013).  `sc`: the scope with the place; `ar`: null for all scopes but `ar`. -/
def realIdent (d : Dev) (vl : Byte) (ar : Option Conn) (sc : Scope) : W := fun w =>
  (putBlockHeader true (if sc = .device then 0x001A else 0x0013) 0 1 vl w).bind fun w1 =>
    (realBody d ar sc w1).bind fun w2 =>
      if w2.pos > w1.pos then
        (putU16 true (BitVec.ofNat 16 w2.pos - BitVec.ofNat 16 (w.pos + 4)) { w2 with pos := w.pos + 2 }).map
          fun w3 => { w3 with pos := w2.pos }
      else some { w2 with pos := w.pos }

/-- pf_put_im_0_filter_data (src/device/pf_block_writer.c:2242-2320) -/
def imFilter (d : Dev) : W :=
  block 0x0030 1 0 (putDevData d none (.subslot 0 0 1)) ;; block 0x0032 1 0 (putDevData d none (.subslot 0 0 1))

/-! ## Expected identification -/

/-- pf_put_exp_submodule_data (src/device/pf_block_writer.c:2027-2036) -/
def putExpSub (z : ExpSub) : W := n16 z.number ;; n32 z.ident

/-- pf_put_exp_module_data (src/device/pf_block_writer.c:2051-2081) -/
def putExpMod (m : ExpMod) (z : Option ExpSub) : W :=
  n16 m.slot ;; n32 m.ident ;;
  match z with
  | some z => n16 1 ;; putExpSub z
  | none => n16 m.subs.length ;; each putExpSub m.subs

/-- pf_put_exp_api_data (src/device/pf_block_writer.c:2097-2128) -/
def putExpApi (e : ExpApi) (m : Option ExpMod) (z : Option ExpSub) : W :=
  n32 e.api ;;
  match m with
  | some m => n16 1 ;; putExpMod m z
  | none => n16 e.mods.length ;; each (fun m => putExpMod m none) e.mods

/-- The part of pf_put_exp_ident_data (src/device/pf_block_writer.c:2130-2240) between header and length. -/
def expBody (e : List ExpApi) : Scope → W
  | .ar => n16 e.length ;; each (fun x => putExpApi x none none) e
  | .slot a s =>
    match e.find? (fun x => x.api == a) with
    | none => n16 0
    | some x =>
      match x.mods.find? (fun m => m.slot == s) with
      | none => n16 0
      | some m => n16 1 ;; putExpApi x (some m) none
  | .subslot a s ss =>
    match e.find? (fun x => x.api == a) with
    | none => n16 0
    | some x =>
      match x.mods.find? (fun m => m.slot == s) with
      | none => n16 0
      | some m =>
        match m.subs.find? (fun z => z.number == ss) with
        | none => n16 0
        | some z => n16 1 ;; putExpApi x (some m) (some z)
  | _ => n16 0

/-- pf_put_exp_ident_data (src/device/pf_block_writer.c:2130-2240): the pointer to the connection is dereferenced without a check. -/
def expIdent (vl : Byte) (ar : Option Conn) (sc : Scope) : W :=
  match ar with
  | none => fun _ => none
  | some c => block 0x0012 1 vl (expBody c.exp sc)

/-! ## Index of the read request -/

/-- Record data by the index of the request: the cases at src/device/pf_cmrdr.c:237-352 in
pf_cmrdr_rm_read_ind (src/device/pf_cmrdr.c:39-850), `none` for the other indices.  `a`, `s`, `ss`: API, slot and subslot of the request. -/
def readIndex (d : Dev) (ar : Option Conn) (a s ss : Nat) : Nat → Option W
  | 0x8000 => some (expIdent 1 ar (.subslot a s ss))
  | 0x8001 => some (realIdent d 1 none (.subslot a s ss))
  | 0xC000 => some (expIdent 1 ar (.slot a s))
  | 0xC001 => some (realIdent d 1 none (.slot a s))
  | 0xE000 => some (expIdent 1 ar .ar)
  | 0xE001 => some (realIdent d 1 ar .ar)
  | 0xF000 => some (realIdent d 1 none (.api a))
  | 0xF821 => some (realIdent d 0 none .device)
  | 0xF840 => some (imFilter d)
  | _ => none

end Verif.Ident
