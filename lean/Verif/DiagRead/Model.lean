import Verif.Diag.Model
import Verif.Device.Conn
import Verif.Wire.Model

/-!
Model of the answers to diagnosis read requests.
Source: src/device/pf_block_writer.c:2681-3380, src/device/pf_cmdev.c:368-400,
src/device/pf_cmrdr.c:463-735.

The tables of plugged submodules are those of area Device, the diagnosis lists those of area Diag: the
member `diag_list` of a subslot is the head of the list that area Diag has for its place.  Loops over linked
lists have fuel; running out of fuel is the result `none`, an endless loop.  Reading the wrong member of the
union in a diagnosis item is the result `none` as well.  All answers are big-endian.
-/
set_option linter.unusedVariables false

namespace Verif.DiagRead
open Verif.Diag
open Verif.Device hiding St
open Verif.Wire hiding ExpApi ExpMod ExpSub

/-! ## One item -/

/-- `ch_properties` as composed by pf_diag_add (src/device/pf_diag.c:283-583) with the macros at src/pf_types.h:111-183.  Simplified:
the bit fields do not overlap, as the arguments are values of their enumerations, so or is addition. -/
def chProps (s : Std) : U16 :=
  BitVec.ofNat 16 (s.typ + 0x100 * s.chan.group.toNat + 0x200 * s.maint + 0x800 * s.spec + 0x2000 * s.chan.dir)

def n16 (n : Nat) : W := putU16 true (BitVec.ofNat 16 n)
def n32 (n : Nat) : W := putU32 true (BitVec.ofNat 32 n)

/-- The members that the three standard formats share. -/
def putStd (s : Std) : W := n16 s.chan.ch ;; putU16 true (chProps s) ;; n16 s.chan.err

/-- pf_put_diag_item (src/device/pf_block_writer.c:2701-2821), without the identifier (`insert_usi == false`) -/
def putItem (it : Item) : W :=
  if it.usi = 0x8000 then
    match it.fmt with
    | .std s => putStd s
    | .manuf _ => fun _ => none
  else if it.usi = 0x8002 then
    match it.fmt with
    | .std s => putStd s ;; n16 s.chan.ext ;; n32 s.addValue
    | .manuf _ => fun _ => none
  else if it.usi = 0x8003 then
    match it.fmt with
    | .std s => putStd s ;; n16 s.chan.ext ;; n32 s.addValue ;; n32 s.qualifier
    | .manuf _ => fun _ => none
  else
    match it.fmt with
    | .std _ => fun _ => none
    | .manuf d => putMem (d.map (BitVec.ofNat 8))

/-! ## One block -/

/-- `pf_diag_filter_level_t` (src/pf_types.h:2275-2282). -/
inductive Filter where
  | faultStd | faultAll | all | mReq | mDem
deriving DecidableEq

/-- `PF_DIAG_CH_PROP_MAINT_GET (p_item->fmt.std.ch_properties)` -/
def maintOf (it : Item) : Option Nat :=
  match it.fmt with
  | .std s => some s.maint
  | .manuf _ => none

/-- The condition `usi < PF_USI_CHANNEL_DIAGNOSIS || MAINT_GET (..) == m`. -/
def manufOr (m : Nat) (it : Item) : Option Bool :=
  if it.usi < 0x8000 then some true else (maintOf it).map (fun x => x == m)

/-- The filter in pf_put_diag_list (src/device/pf_block_writer.c:2844-2980) -/
def passes (f : Filter) (it : Item) : Option Bool :=
  match f with
  | .faultStd => some (decide (0x8000 ≤ it.usi))
  | .faultAll => manufOr 0 it
  | .all => some true
  | .mReq => manufOr 1 it
  | .mDem => manufOr 2 it

/-- The loop of pf_put_diag_list (src/device/pf_block_writer.c:2844-2980) -/
def putItems (items : List Item) (f : Filter) (usi : Nat) : Nat → Nat → W
  | 0, _ => fun _ => none
  | fuel + 1, ix =>
    match items[ix]? with
    | none => fun w => some w
    | some it =>
      match passes f it with
      | none => fun _ => none
      | some b =>
        (if b && it.usi == usi then putItem it else fun w => some w) ;; putItems items f usi fuel it.next

/-- The fields before the items in pf_put_diag_list (src/device/pf_block_writer.c:2844-2980): block header of type `PF_BT_DIAGNOSIS_DATA`, version 1.1,
the place, channel `PNET_CHANNEL_WHOLE_SUBMODULE`, properties "appears", identifier. -/
def putHead (usi api slot sub : Nat) : W :=
  putBlockHeader true 0x0010 0 1 1 ;; n32 api ;; n16 slot ;; n16 sub ;; n16 0x8000 ;; n16 0x0800 ;; n16 usi

/-- pf_put_diag_list (src/device/pf_block_writer.c:2844-2980) -/
def putList (items : List Item) (f : Filter) (usi api slot sub head : Nat) : W := fun w =>
  match items[head]? with
  | none => some w
  | some _ =>
    (putHead usi api slot sub w).bind fun w1 =>
      (putItems items f usi (items.length + 1) head w1).bind fun w2 =>
        if w2.pos > w1.pos then
          (putU16 true (BitVec.ofNat 16 w2.pos - BitVec.ofNat 16 (w.pos + 4)) { w2 with pos := w.pos + 2 }).map
            fun w3 => { w3 with pos := w2.pos }
        else some { w2 with pos := w.pos }

/-! ## One submodule -/

/-- The loop of pf_cmdev_get_next_diagnosis_usi (src/device/pf_cmdev.c:368-400) -/
def nextLoop (items : List Item) (low : Nat) : Nat → Nat → Nat → Option Nat
  | 0, _, _ => none
  | fuel + 1, ix, best =>
    match items[ix]? with
    | none => some best
    | some it => nextLoop items low fuel it.next (if low < it.usi ∧ it.usi < best then it.usi else best)

/-- pf_cmdev_get_next_diagnosis_usi (src/device/pf_cmdev.c:368-400): `some none` if there is no larger identifier. -/
def nextUsi (items : List Item) (head low : Nat) : Option (Option Nat) :=
  (nextLoop items low (items.length + 1) head 0xFFFF).map fun r => if r = 0xFFFF then none else some r

/-- The loop of pf_put_diag_subslot (src/device/pf_block_writer.c:2996-3030): `usi` is the last identifier found. -/
def putUsis (items : List Item) (f : Filter) (api slot sub head : Nat) : Nat → Nat → W
  | 0, _ => fun _ => none
  | fuel + 1, usi =>
    match nextUsi items head usi with
    | none => fun _ => none
    | some none => fun w => some w
    | some (some u) => putList items f u api slot sub head ;; putUsis items f api slot sub head fuel u

/-- Head of the list of a subslot (member `diag_list`). -/
def headOf (st : St) (p : Place) : Nat :=
  match st.subs p with
  | none => nul
  | some s => s.head

/-- pf_put_diag_subslot (src/device/pf_block_writer.c:2996-3030) -/
def putSub (st : St) (f : Filter) (api slot sub : Nat) : W :=
  putUsis st.items f api slot sub (headOf st (api, slot, sub)) (st.items.length + 1) 0

/-! ## Slots, APIs, connections -/

/-- A `for` loop that writes something for each table entry. -/
def each {α : Type} (f : α → W) : List α → W
  | [] => fun w => some w
  | a :: l => f a ;; each f l

def skip : W := fun w => some w

/-- pf_put_diag_slot (src/device/pf_block_writer.c:3045-3075) -/
def putSlot (st : St) (f : Filter) (api : Nat) (y : Slot) : W :=
  each (fun z => if z.inUse then putSub st f api y.number z.number else skip) y.subs

/-- pf_put_diag_ar_slot (src/device/pf_block_writer.c:3091-3126) -/
def putArSlot (st : St) (f : Filter) (api : Nat) (y : Slot) (m : ExpMod) : W :=
  each (fun e =>
    match findSub y e.number with
    | none => skip
    | some z => if z.ident = e.ident then putSub st f api y.number z.number else skip) m.subs

/-- pf_put_diag_api (src/device/pf_block_writer.c:3140-3168) -/
def putApi (st : St) (f : Filter) (x : Api) : W :=
  each (fun y => if y.inUse then putSlot st f x.id y else skip) x.slots

/-- pf_put_diagnosis_subslot (src/device/pf_block_writer.c:3170-3228).  `ar`: the expected configuration of the connection, `none` for a null
pointer (implicit read). -/
def readSubslot (d : Dev) (st : St) (f : Filter) (ar : Option (List ExpApi)) (a s ss : Nat) : W :=
  match getSlot d a s with
  | none => skip
  | some y =>
    match findSub y ss with
    | none => skip
    | some z =>
      match ar with
      | none => putSub st f a s z.number
      | some e =>
        match expMod e a s, expSub e a s ss with
        | some m, some es =>
          if m.ident ≠ y.ident ∨ es.ident ≠ z.ident then skip else putSub st f a s z.number
        | _, _ => putSub st f a s z.number

/-- pf_put_diagnosis_slot (src/device/pf_block_writer.c:3230-3275) -/
def readSlot (d : Dev) (st : St) (f : Filter) (ar : Option (List ExpApi)) (a s : Nat) : W :=
  match getSlot d a s with
  | none => skip
  | some y =>
    match ar.bind (fun e => expMod e a s) with
    | none => putSlot st f a y
    | some m => if m.ident = y.ident then putArSlot st f a y m else skip

/-- pf_put_diagnosis_ar (src/device/pf_block_writer.c:3277-3325) -/
def readAr (d : Dev) (st : St) (f : Filter) (ar : Option (List ExpApi)) : W :=
  match ar with
  | none => skip
  | some e =>
    each (fun ea =>
      match getApi d ea.api with
      | none => skip
      | some x =>
        each (fun m =>
          match findSlot x m.slot with
          | none => skip
          | some y => if y.ident ≠ m.ident then skip else putArSlot st f x.id y m) ea.mods) e

/-- pf_put_diagnosis_api (src/device/pf_block_writer.c:3327-3349) -/
def readApi (d : Dev) (st : St) (f : Filter) (a : Nat) : W :=
  match getApi d a with
  | none => skip
  | some x => putApi st f x

/-- pf_put_diagnosis_device (src/device/pf_block_writer.c:3351-3380) -/
def readDevice (d : Dev) (st : St) (f : Filter) : W :=
  each (fun x => if x.inUse then putApi st f x else skip) d

/-! ## Index of the read request -/

/-- Record data of a diagnosis read, by the index of the request: the cases at src/device/pf_cmrdr.c:463-735 in
pf_cmrdr_rm_read_ind (src/device/pf_cmrdr.c:39-850), `none` for the other indices.  `a`, `s`, `ss`: API, slot and subslot of the request. -/
def readIndex (d : Dev) (st : St) (ar : Option (List ExpApi)) (a s ss : Nat) : Nat → Option W
  | 0x800A => some (readSubslot d st .faultStd ar a s ss)
  | 0x800B => some (readSubslot d st .faultAll ar a s ss)
  | 0x800C => some (readSubslot d st .all ar a s ss)
  | 0x8010 => some (readSubslot d st .mReq ar a s ss)
  | 0x8012 => some (readSubslot d st .mReq ar a s ss)
  | 0x8011 => some (readSubslot d st .mDem ar a s ss)
  | 0x8013 => some (readSubslot d st .mDem ar a s ss)
  | 0xC00A => some (readSlot d st .faultStd ar a s)
  | 0xC00B => some (readSlot d st .faultAll ar a s)
  | 0xC00C => some (readSlot d st .all ar a s)
  | 0xC010 => some (readSlot d st .mReq ar a s)
  | 0xC012 => some (readSlot d st .mReq ar a s)
  | 0xC011 => some (readSlot d st .mDem ar a s)
  | 0xC013 => some (readSlot d st .mDem ar a s)
  | 0xF00A => some (readApi d st .faultStd a)
  | 0xF00B => some (readApi d st .faultAll a)
  | 0xF00C => some (readApi d st .all a)
  | 0xF010 => some (readApi d st .mReq a)
  | 0xF012 => some (readApi d st .mReq a)
  | 0xF011 => some (readApi d st .mDem a)
  | 0xF013 => some (readApi d st .mDem a)
  | 0xE00A => some (readAr d st .faultStd ar)
  | 0xE00B => some (readAr d st .faultAll ar)
  | 0xE00C => some (readAr d st .all ar)
  | 0xE010 => some (readAr d st .mReq ar)
  | 0xE012 => some (readAr d st .mReq ar)
  | 0xE011 => some (readAr d st .mDem ar)
  | 0xE013 => some (readAr d st .mDem ar)
  | 0xF80C => some (readDevice d st .all)
  | _ => none

end Verif.DiagRead
