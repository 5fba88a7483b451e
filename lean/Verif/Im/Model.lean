import Verif.Wire.Codec
/-!
Model of the I&M records 1 to 4: writing, reading, clearing, and their copy in the file.
Source: src/device/pf_fspm.c, src/device/pf_cmrdr.c, src/device/pf_block_writer.c.

Simplified: I&M 0 is read-only and left out except for the refusal to write it; whether a file operation succeeds
is part of the operation; the second location string kept by SNMP is left out; saving that is started in the
background is a separate operation.  A result `none` is an access outside an array.
-/
set_option linter.unusedVariables false

namespace Verif.Im
open Verif.Wire

/-- `pnet_im_1_t` to `pnet_im_4_t` (include/pnet_api.h:1151-1199): the character arrays, with terminators. -/
structure Im where
  fn : List Byte
  loc : List Byte
  date : List Byte
  desc : List Byte
  sig : List Byte
deriving DecidableEq

/-- `im_supported` of I&M 0. -/
structure Supp where
  im1 : Bool
  im2 : Bool
  im3 : Bool
  im4 : Bool
deriving DecidableEq

/-- pf_get_im_1 (src/device/pf_block_reader.c:856-870) into the stored data: a field that was not read stays, and its last
character is cleared. -/
def setIm1 (x : Option (List Byte) × Option (List Byte)) (im : Im) : Im :=
  { im with fn := (x.1.map (· ++ [0])).getD (im.fn.set 32 0), loc := (x.2.map (· ++ [0])).getD (im.loc.set 22 0) }

/-- The part of pf_fspm_cm_write_ind (src/device/pf_fspm.c:848-1144) for an I&M record.  `mem` is the memory at the record, `len` the length
that is passed.  The answer says whether the record was accepted. -/
def cmWrite (sup : Supp) (index : U16) (len : Nat) (mem : List Byte) (im : Im) : Option (Bool × Im) :=
  if index = 0xaff1 then
    if sup.im1 then
      (getIm1 33 23 ⟨mem, false, len, true, .ok, 0⟩).map fun x =>
        (x.2.err == .ok && x.2.pos == len, setIm1 x.1 im)
    else some (false, im)
  else if index = 0xaff2 then
    if sup.im2 && len == 16 then (slice mem 0 16).map fun d => (true, { im with date := d ++ [0] })
    else some (false, im)
  else if index = 0xaff3 then
    if sup.im3 && len == 54 then (slice mem 0 54).map fun d => (true, { im with desc := d ++ [0] })
    else some (false, im)
  else if index = 0xaff4 then
    if sup.im4 && len == 54 then (slice mem 0 54).map fun d => (true, { im with sig := d })
    else some (false, im)
  else some (false, im)

/-- `strlen` of an array. -/
def strlen (a : List Byte) : Option Nat := if (0 : Byte) ∈ a then some (a.takeWhile (· ≠ 0)).length else none

/-- `n` bytes of the same value, as put by a loop over pf_put_byte. -/
def putRep (v : Byte) : Nat → W
  | 0 => fun w => some w
  | n + 1 => putByte v ;; putRep v n

/-- pf_put_str (src/device/pf_block_writer.c:101-129).  The `memcpy` is a `putMem`: there is room for it. -/
def putStr (a : List Byte) : W := fun w =>
  (strlen a).bind fun n =>
    if w.pos + a.length > w.cap then some w
    else (putMem (a.take n) ;; putRep 0x20 (a.length - 1 - n)) w

/-- The part of pf_fspm_cm_read_ind (src/device/pf_fspm.c:659-846) and pf_cmrdr_rm_read_ind (src/device/pf_cmrdr.c:39-850) for the I&M records 1 to 4, with pf_put_im_1
(src/device/pf_block_writer.c:2395-2434), pf_put_im_2 (src/device/pf_block_writer.c:2436-2464), pf_put_im_3 (src/device/pf_block_writer.c:2466-2494) and pf_put_record_data_read
(src/device/pf_block_writer.c:1547-1577).  The answer says whether there is a record. -/
def cmRead (sup : Supp) (index : U16) (im : Im) (w : Wr) : Option (Bool × Wr) :=
  if index = 0xaff1 then
    if sup.im1 && decide (w.pos + 56 < w.cap) then
      (putBlock true 0x0021 (putStr im.fn ;; putStr im.loc) w).map fun w => (true, w)
    else some (false, w)
  else if index = 0xaff2 then
    if sup.im2 && decide (w.pos + 17 < w.cap) then (putBlock true 0x0022 (putStr im.date) w).map fun w => (true, w)
    else some (false, w)
  else if index = 0xaff3 then
    if sup.im3 && decide (w.pos + 55 < w.cap) then (putBlock true 0x0023 (putStr im.desc) w).map fun w => (true, w)
    else some (false, w)
  else if index = 0xaff4 then
    if sup.im4 && decide (w.pos + 54 < w.cap) then (putBlock true 0x0024 (putMem im.sig) w).map fun w => (true, w)
    else some (false, w)
  else some (false, w)

/-- pf_fspm_clear_im_data (src/device/pf_fspm.c:505-543). -/
def cleared : Im :=
  ⟨List.replicate 32 0x20 ++ [0], List.replicate 22 0x20 ++ [0], List.replicate 16 0x20 ++ [0],
    List.replicate 54 0x20 ++ [0], List.replicate 54 0⟩

/-- pf_fspm_set_im_location (src/device/pf_fspm.c:386-395): the name filled up to 22 characters and cut off there. -/
def setLocation (l : List Byte) (im : Im) : Im :=
  { im with loc := (l ++ List.replicate 22 0x20).take 22 ++ [0] }

/-- The I&M data of a device: in memory, and in the file. -/
structure St where
  im : Im
  nvm : Option Im
deriving DecidableEq

/-- pf_fspm_save_im (src/device/pf_fspm.c:325-373); `fs`: the file system works. -/
def save (fs : Bool) (s : St) : St := if fs then { s with nvm := some s.im } else s

/-- pf_fspm_load_im (src/device/pf_fspm.c:292-323) after the configuration was copied. -/
def loaded (rd : Bool) (cfg : Im) (nvm : Option Im) : Im := if rd then nvm.getD cfg else cfg

/-- What happens to the I&M data.  `fs` says whether the file can be written, `rd` whether it can be read. -/
inductive Op where
  | write (index : U16) (len : Nat) (mem : List Byte) (fs : Bool)
  | clear
  | location (l : List Byte)
  | job (fs : Bool)
  | restart (rd fs : Bool)

/-- One operation: pf_fspm_cm_write_ind (src/device/pf_fspm.c:848-1144), pf_fspm_clear_im_data (src/device/pf_fspm.c:505-543), pf_fspm_save_im_location (src/device/pf_fspm.c:408-412), the
background job, and pf_fspm_init (src/device/pf_fspm.c:414-454) with the configuration `cfg` of the application. -/
def step (sup : Supp) (cfg : Im) (s : St) : Op → Option St
  | .write i n mem fs =>
    (cmWrite sup i n mem s.im).map fun x => if x.1 then save fs { s with im := x.2 } else { s with im := x.2 }
  | .clear => some { s with im := cleared }
  | .location l => some { s with im := setLocation l s.im }
  | .job fs => some (save fs s)
  | .restart rd fs => some (save fs { s with im := loaded rd cfg s.nvm })

def run (sup : Supp) (cfg : Im) (s : St) : List Op → Option St
  | [] => some s
  | o :: l => (step sup cfg s o).bind fun s => run sup cfg s l

end Verif.Im
