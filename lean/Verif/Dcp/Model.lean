import Verif.Cmina.Model
import Verif.Wire.Codec
import Verif.Scheduler.Model
import Verif.Signal.Props
/-!
Model of the DCP services Get, Set and Identify: from the received frame to the response frame.
Source: src/common/pf_dcp.c, `pf_cmina_dcp_get_req` in src/device/pf_cmina.c.

A frame is a part of memory: `Mem` gives the byte at a distance from the start of the frame, `none` where
nothing may be read.  Positions are 16-bit numbers as in the code.  `none` as a result of a function means
that the code reads where nothing may be read, or does not come to an end.

The settings that can be changed are `Cmina.Dev`; what a block of a Set request does is `Cmina.setReq`.

Not modelled: DCP Hello in both directions, log output, the timer of the LED (area Signal), transmission of
LLDP frames after a response.  A failure to send the response has no effect in the code and is not modelled.
-/
set_option linter.unusedVariables false

namespace Verif.Dcp

open Cmina (Dev Ip Ev optIp optProps optDhcp optControl optInitiative optAll subIpMac subIpPar subIpSuite subVendor
  subName subId subRole subOptions subAlias subInstance subOemId subGateway errOption errSuboption)

/-- Bytes of a received frame and what is behind it. -/
abbrev Mem := Nat → Option Byte

/-- `n` bytes from position `i`. -/
def rdN (m : Mem) (i : Nat) : Nat → Option (List Byte)
  | 0 => some []
  | n + 1 => (m i).bind fun b => (rdN m (i + 1) n).bind fun bs => some (b :: bs)

/-- `ntohs` of the two bytes at position `i`. -/
def rd16 (m : Mem) (i : Nat) : Option Nat :=
  (m i).bind fun a => (m (i + 1)).bind fun b => some (be16 a b)

/-- What does not change after start: values of the configuration, and whether the machine is little-endian. -/
structure Cfg where
  defaults : Cmina.Defaults
  mac : List Byte
  /-- Text before the terminator in an array of 26 bytes that is filled with zeros. -/
  product : List Byte
  devId : List Byte
  oemId : List Byte
  hello : Bool
  le : Bool

/-- The fields of the stack that DCP uses. -/
structure Net where
  dev : Dev
  /-- `dcp_global_block_qualifier` -/
  gq : BitVec 16
  /-- `dcp_sam`: the station that has the device; all zeros for none. -/
  sam : List Byte
  /-- When the timer that clears it is due. -/
  samAt : Option Nat
  /-- `dcp_delayed_response_waiting` -/
  waiting : Bool

/-- What a call finds outside: the time, the period of the stack, whether a buffer can be had, whether a timer can be
started, the alias names that follow from the neighbours on the ports, and what is behind the terminator
in the array with the station name. -/
structure Env where
  now : Nat
  tick : BitVec 32
  alloc : Bool
  armed : Bool
  aliases : List (List Byte)
  nameTail : List Byte

/-- `mac_nil` -/
def macNil : List Byte := [0, 0, 0, 0, 0, 0]

/-- `device_options` (src/common/pf_dcp.c:132-164). -/
def deviceOptions : List (Byte × Byte) :=
  [(1, 2), (1, 1), (2, 1), (2, 2), (2, 3), (2, 4), (2, 5), (2, 6), (5, 1), (5, 2), (5, 3), (5, 5), (5, 6), (0xff, 0xff)]

/-! ## Values of the device -/

/-- Result of pf_cmina_dcp_get_req (src/device/pf_cmina.c:1105-1245): a length and the memory from the value on, or
success without a value, or an error. -/
inductive Got where
  | val (len : Nat) (mem : List Byte)
  | nothing
  | err (e : Byte)

/-- The three numbers of an IP suite as they are in memory (`be`: big-endian). -/
def encIp (be : Bool) (a : Ip) : List Byte := Wire.enc32 be a.addr ++ Wire.enc32 be a.mask ++ Wire.enc32 be a.gw

def encDns (be : Bool) (l : List (BitVec 32)) : List Byte := l.flatMap (Wire.enc32 be)

/-- `device_initiative`: 1 if Hello messages are sent. -/
def initiative (c : Cfg) : BitVec 16 := if c.hello then 1 else 0

/-- The array with the station name. -/
def nameMem (d : Dev) (tail : List Byte) : List Byte := (d.cur.name ++ 0 :: tail).take 241

/-- pf_cmina_dcp_get_req (src/device/pf_cmina.c:1105-1245).  The memory of `device_role` is given with the byte behind
it, which is the first one of `device_initiative`. -/
def got (c : Cfg) (d : Dev) (tail : List Byte) (opt sub : Byte) : Got :=
  if opt = optAll then .nothing
  else if opt = optIp then
    if sub = subIpMac then .val 6 c.mac
    else if sub = subIpPar then .val 12 (encIp (!c.le) d.cur.ip)
    else if sub = subIpSuite then .val 28 (encIp (!c.le) d.cur.ip ++ encDns (!c.le) d.cur.dns)
    else .err errSuboption
  else if opt = optProps then
    if sub = subVendor then .val 25 (c.product ++ List.replicate (26 - c.product.length) 0)
    else if sub = subName then .val 241 (nameMem d tail)
    else if sub = subId then .val 4 c.devId
    else if sub = subRole then .val 1 (1 :: Wire.enc16 (!c.le) (initiative c))
    else if sub = subInstance then .val 2 [0, 0]
    else if sub = subOemId then .val 4 c.oemId
    else if sub = subGateway then .val 2 [0, 0]
    else .err errSuboption
  else if opt = optDhcp then .err errSuboption
  else if opt = optControl then .err errOption
  else if opt = optInitiative then
    if sub = 1 then .val 2 (Wire.enc16 (!c.le) (initiative c)) else .err errSuboption
  else .err errOption

/-! ## Blocks of a response -/

structure Blk where
  opt : Byte
  sub : Byte
  /-- The block info, if there is one. -/
  info : Option (BitVec 16)
  value : List Byte
deriving DecidableEq

/-- The block that says what became of an option. -/
def resBlk (opt sub err : Byte) : Blk := ⟨5, 4, none, [opt, sub, err]⟩

/-- The block info of an IP suite. -/
def ipInfo (a : Ip) : BitVec 16 := if a = .zero then 0 else 1

/-- pf_dcp_get_req (src/common/pf_dcp.c:363-568) without the writing: the block that is put into the response, `none` if there is none.
`htonl` and `htons` are applied, so numbers are big-endian. -/
def getBlk (c : Cfg) (d : Dev) (tail : List Byte) (opt sub : Byte) (identify : Bool) (ali : Option (List Byte)) :
    Option Blk :=
  if opt = optIp then
    if sub = subIpPar then some ⟨opt, sub, some (ipInfo d.cur.ip), encIp true d.cur.ip⟩
    else if sub = subIpSuite then some ⟨opt, sub, some (ipInfo d.cur.ip), encIp true d.cur.ip ++ encDns true d.cur.dns⟩
    else if sub = subIpMac then if identify then none else some ⟨opt, sub, some 0, c.mac⟩
    else some (resBlk opt sub errSuboption)
  else if opt = optProps then
    if sub = subOptions then some ⟨opt, sub, some 0, deviceOptions.flatMap fun p => [p.1, p.2]⟩
    else if sub = subGateway then some ⟨opt, sub, some 0, [0, 0]⟩
    else if sub = subName then some ⟨opt, sub, some 0, (nameMem d tail).takeWhile (· ≠ 0)⟩
    else if sub = subAlias then ali.map fun a => ⟨opt, sub, some 0, a⟩
    else if sub = subVendor then
      some ⟨opt, sub, some 0, (c.product ++ List.replicate (26 - c.product.length) 0).takeWhile (· ≠ 0)⟩
    else if sub = subRole then some ⟨opt, sub, some 0, (1 :: Wire.enc16 (!c.le) (initiative c)).take 2⟩
    else
      match got c d tail opt sub with
      | .val n mem => some ⟨opt, sub, some 0, mem.take n⟩
      | .nothing => some ⟨opt, sub, some 0, []⟩
      | .err e => some (resBlk opt sub e)
  else if opt = optInitiative then
    if sub = 1 then some ⟨opt, sub, some 0, Wire.enc16 true (initiative c)⟩ else some (resBlk opt sub errSuboption)
  else if opt = optControl then none
  else if opt = optAll then none
  else
    match got c d tail opt sub with
    | .val n mem => some ⟨opt, sub, some 0, mem.take n⟩
    | .nothing => some ⟨opt, sub, some 0, []⟩
    | .err e => some (resBlk opt sub e)

/-- Where the blocks of a response start: behind Ethernet header, frame id and DCP header. -/
notation "dstStart" => (26 : Nat)

/-- `PF_FRAME_BUFFER_SIZE` (src/pf_types.h). -/
notation "dstMax" => (1500 : Nat)

/-- pf_put_mem (src/device/pf_block_writer.c:182-201) and the functions for numbers: `out` is what has been written from
position `dstStart` on. -/
def app (out bs : List Byte) : List Byte := if dstStart + out.length + bs.length > dstMax then out else out ++ bs

/-- pf_dcp_put_block (src/common/pf_dcp.c:302-346): the padding (a loop while the position is odd).  One byte that fits makes the position
even; if it does not fit the loop does not end. -/
def pad (out : List Byte) : Option (List Byte) :=
  if (dstStart + out.length) % 2 = 0 then some out
  else if (dstStart + (app out [0]).length) % 2 = 0 then some (app out [0]) else none

/-- The length that is written into the header of a block. -/
def Blk.len (b : Blk) : Nat := b.value.length + (if b.info.isSome then 2 else 0)

def putInfo (out : List Byte) : Option (BitVec 16) → List Byte
  | none => out
  | some i => app (app out [(i >>> 8).setWidth 8]) [i.setWidth 8]

/-- pf_dcp_put_block (src/common/pf_dcp.c:302-346). -/
def putBlk (out : List Byte) (b : Blk) : Option (List Byte) :=
  if dstStart + out.length + b.value.length ≥ dstMax then some out
  else
    let o1 := app (app out [b.opt]) [b.sub]
    let o2 := app (app o1 [BitVec.ofNat 8 (b.len / 256)]) [BitVec.ofNat 8 b.len]
    let o3 := putInfo o2 b.info
    pad (if b.value = [] then o3 else app o3 b.value)

/-- Put several blocks. -/
def putAll : List Byte → List Blk → Option (List Byte)
  | out, [] => some out
  | out, b :: bs => (putBlk out b).bind fun o => putAll o bs

/-- Put the block if there is one. -/
def putOpt (out : List Byte) : Option Blk → Option (List Byte)
  | none => some out
  | some b => putBlk out b

/-! ## Get and Set -/

/-- pf_dcp_check_sam (src/common/pf_dcp.c:257-261). -/
def samOk (n : Net) (src : List Byte) : Bool := decide (n.sam = macNil) || decide (n.sam = src)

/-- pf_dcp_check_destination_address (src/common/pf_dcp.c:278-285). -/
def destOk (c : Cfg) (dest : List Byte) : Bool := decide ((dest.getD 0 0).toNat % 2 = 0) && decide (dest = c.mac)

/-- The period after which `dcp_sam` is cleared: `PF_DCP_SAM_TIMEOUT` as the scheduler rounds it. -/
def hold (tick : BitVec 32) : Nat := (Scheduler.sanitizeDelay 3000000 tick).toNat

/-- pf_dcp_restart_sam_timeout (src/common/pf_dcp.c:228-244).  If no timer can be started the old one is gone all the same. -/
def restartSam (e : Env) (n : Net) (src : List Byte) : Net :=
  { n with sam := src, samAt := if e.armed then some (e.now + hold e.tick) else none }

/-- pf_dcp_clear_sam (src/common/pf_dcp.c:209-217), called by the scheduler at time `now`. -/
def tickSam (now : Nat) (n : Net) : Net :=
  match n.samAt with
  | some t => if t ≤ now then { n with sam := macNil, samAt := none } else n
  | none => n

/-- How many bytes from the value on are read for a block of a Set request pf_dcp_set_req (src/common/pf_dcp.c:690-903): an IP suite of
twelve bytes is copied with a length of 28. -/
def needed (opt sub : Byte) (len : Nat) : Nat :=
  if opt = optIp ∧ sub = subIpPar ∧ len = 12 then 12
  else if opt = optIp ∧ sub = subIpSuite ∧ len = 12 then 28
  else if opt = optProps ∧ sub = subName ∧ len < 241 then len
  else 0

/-- What is produced while a Set request is handled. -/
structure Acc where
  net : Net
  out : List Byte
  evs : List Ev
  led : Bool

/-- One block of a Set request: pf_dcp_set_req (src/common/pf_dcp.c:690-903). -/
def setBlk (c : Cfg) (a : Acc) (opt sub : Byte) (qual len : Nat) (v : List Byte) : Option Acc :=
  let r := Cmina.setReq c.defaults a.net.dev a.net.gq opt sub (BitVec.ofNat 16 qual) len v
  (putBlk a.out (resBlk opt sub r.err)).bind fun out =>
    some ⟨{ a.net with dev := r.dev, gq := r.qual }, out, a.evs ++ r.evs, a.led || r.led⟩

/-- Next even position. -/
def even (p : Nat) : Nat := if p % 2 = 0 then p else (p + 1) % 65536

/-- The loop over the blocks of a Set request in pf_dcp_get_set (src/common/pf_dcp.c:924-1124).  `hp` is the position of the header of the
block, `dcplen` the end of the data. -/
def setLoop (c : Cfg) (m : Mem) (dcplen : Nat) : Nat → Nat → Acc → Option Acc
  | 0, _, _ => none
  | fuel + 1, hp, a =>
    (rd16 m (hp + 2)).bind fun bl =>
      let p := (hp + 4) % 65536
      if dcplen ≥ p + bl then
        (rd16 m p).bind fun qual =>
          let p1 := (p + 2) % 65536
          let len := (bl + 65534) % 65536
          (m hp).bind fun opt => (m (hp + 1)).bind fun sub =>
          (rdN m p1 (needed opt sub len)).bind fun v =>
          (setBlk c a opt sub qual len v).bind fun a' =>
            setLoop c m dcplen fuel (even ((p1 + len) % 65536)) a'
      else some a

/-- The loop over the options of a Get request in pf_dcp_get_set (src/common/pf_dcp.c:924-1124). -/
def getLoop (c : Cfg) (d : Dev) (tail : List Byte) (m : Mem) (dcplen : Nat) : Nat → Nat → List Byte → Option (List Byte)
  | 0, _, _ => none
  | fuel + 1, p, out =>
    if dcplen ≥ p + 2 then
      (m p).bind fun opt => (m (p + 1)).bind fun sub =>
      (putOpt out (getBlk c d tail opt sub false none)).bind fun o =>
        getLoop c d tail m dcplen fuel ((p + 2) % 65536) o
    else some out

/-- The first 26 bytes of a response: Ethernet header, frame id, DCP header.  `hdr` is the DCP header of the request
(ten bytes), of which the service id and the transaction number are kept. -/
def frameHead (c : Cfg) (src : List Byte) (id1 id0 : Byte) (hdr : List Byte) (type : Byte) (n : Nat) : List Byte :=
  src ++ c.mac ++ [0x88, 0x92, id1, id0] ++ [hdr.getD 0 0, type] ++ (hdr.drop 2).take 4 ++ [0, 0] ++
    [BitVec.ofNat 8 (n / 256), BitVec.ofNat 8 n]

/-- What handling a frame produces. -/
structure Out where
  /-- The response that is sent. -/
  resp : Option (List Byte)
  evs : List Ev
  led : Bool

def Out.nil : Out := ⟨none, [], false⟩

def getSetFuel : Nat := 65537

/-- pf_dcp_get_set (src/common/pf_dcp.c:924-1124) behind the checks. -/
def serve (c : Cfg) (e : Env) (n : Net) (m : Mem) (src hdr : List Byte) (pos dcplen : Nat) : Option (Net × Out) :=
  if hdr.getD 0 0 = 4 then
    (setLoop c m dcplen getSetFuel pos ⟨n, [], [], false⟩).bind fun a =>
      let r := Cmina.setCommit a.net.dev
      some ({ restartSam e a.net src with dev := r.1 },
        ⟨some (frameHead c src 0xfe 0xfd hdr 1 a.out.length ++ a.out), a.evs ++ r.2, a.led⟩)
  else if hdr.getD 0 0 = 3 then
    (getLoop c n.dev e.nameTail m dcplen getSetFuel pos []).bind fun out =>
      some (restartSam e n src, ⟨some (frameHead c src 0xfe 0xfd hdr 1 out.length ++ out), [], false⟩)
  else some (n, ⟨some (frameHead c src 0xfe 0xfd hdr 5 0), [], false⟩)

/-- pf_dcp_get_set (src/common/pf_dcp.c:924-1124) for a frame of `len` bytes with the frame id at position `pos`.  The DCP header and the addresses
are read as a whole at the start. -/
def getSet (c : Cfg) (e : Env) (n : Net) (m : Mem) (len pos : Nat) : Option (Net × Out) :=
  (rdN m (pos + 2) 10).bind fun hdr => (rdN m 0 6).bind fun dest => (rdN m 6 6).bind fun src =>
    let p := pos + 12
    let dcplen := (p + be16 (hdr.getD 8 0) (hdr.getD 9 0)) % 65536
    if dcplen > len then some (n, .nil)
    else if e.alloc = false then some (n, .nil)
    else if samOk n src = false then some (n, .nil)
    else if destOk c dest = false then some (n, .nil)
    else serve c e n m src hdr p dcplen

/-! ## Identify -/

/-- The local variables of the loop in pf_dcp_identify_req (src/common/pf_dcp.c:1445-1998). -/
structure Id where
  first : Bool
  filter : Bool
  isMatch : Bool
  /-- `ret` is 0. -/
  ok : Bool
  /-- The array `alias`, and whether `p_req_alias_name` points to it. -/
  ali : List Byte
  useAlias : Bool

/-- A comparison with `memcmp` of `value_length` bytes and of the lengths; done only behind a name. -/
def cmpBlk (m : Mem) (p bl : Nat) (s : Id) (len : Nat) (mem : List Byte) : Option Id :=
  if s.filter then
    (rdN m p len).bind fun v => some { s with isMatch := s.isMatch && (decide (v = mem.take len) && decide (bl = len)) }
  else some { s with ok := false }

/-- The comparison with the station name: `memcmp` of as many bytes as the block has, and a zero behind them.  Outside of
the array nothing may be read. -/
def cmpName (m : Mem) (p bl : Nat) (s : Id) (mem : List Byte) : Option Id :=
  if bl < mem.length then
    (rdN m p bl).bind fun v =>
      if v = mem.take bl ∧ mem.getD bl 0 = 0 then some { s with filter := if s.first then true else s.filter }
      else some { s with isMatch := false }
  else none

/-- The comparison with the alias names pf_lldp_is_alias_matching (src/common/pf_lldp.c:1808-1838); `PF_ALIAS_NAME_MAX_SIZE` is 256. -/
def cmpAlias (aliases : List (List Byte)) (m : Mem) (p bl : Nat) (s : Id) : Option Id :=
  if bl < 256 then
    (rdN m p bl).bind fun v =>
      let a := v.takeWhile (· ≠ 0)
      if a ∈ aliases then
        some { s with ali := a, useAlias := s.useAlias || s.first, filter := if s.first then true else s.filter }
      else some { s with ali := a, isMatch := false }
  else some { s with isMatch := false }

/-- One round of the loop in pf_dcp_identify_req (src/common/pf_dcp.c:1445-1998).  (The filter for the role also adds one to the
length in the header of the block; nothing reads it afterwards.) -/
def idBlk (c : Cfg) (e : Env) (d : Dev) (m : Mem) (opt sub : Byte) (p bl : Nat) (s : Id) : Option Id :=
  match got c d e.nameTail opt sub with
  | .nothing =>
    if sub = 0xff ∧ s.first = true ∧ (bl = 2 ∨ bl = 0) then some { s with filter := false }
    else some { s with ok := false }
  | .val len mem =>
    if opt = optIp then
      if sub = subIpMac ∨ sub = subIpPar then cmpBlk m p bl s len mem else some { s with ok := false }
    else if opt = optProps then
      if sub = subName then cmpName m p bl s mem
      else cmpBlk m p bl s len mem
    else some { s with ok := false }
  | .err _ =>
    if opt = optProps ∧ sub = subAlias then cmpAlias e.aliases m p bl s else some { s with ok := false }

/-- The loop in pf_dcp_identify_req (src/common/pf_dcp.c:1445-1998). -/
def idLoop (c : Cfg) (e : Env) (d : Dev) (m : Mem) (dcplen : Nat) : Nat → Nat → Id → Option Id
  | 0, _, _ => none
  | fuel + 1, hp, s =>
    (rd16 m (hp + 2)).bind fun bl =>
      let p := (hp + 4) % 65536
      if s.ok = true ∧ (s.first = true ∨ (s.filter = true ∧ s.isMatch = true)) ∧ dcplen ≥ p + bl then
        (m hp).bind fun opt => (m (hp + 1)).bind fun sub =>
        (idBlk c e d m opt sub p bl s).bind fun s' =>
          idLoop c e d m dcplen fuel (even ((p + bl) % 65536)) { s' with first := false }
      else some s

/-- The blocks of the response to an Identify request. -/
def idBlks (c : Cfg) (e : Env) (d : Dev) (ali : Option (List Byte)) : List Blk :=
  deviceOptions.filterMap fun p => getBlk c d e.nameTail p.1 p.2 true ali

/-- What handling an Identify request produces: a frame to be sent after a delay. -/
abbrev Later := Option (BitVec 32 × List Byte)

/-- pf_dcp_identify_req (src/common/pf_dcp.c:1445-1998) for a frame of `len` bytes with the frame id at position `pos`. -/
def identify (c : Cfg) (e : Env) (n : Net) (m : Mem) (len pos : Nat) : Option (Net × Later) :=
  (rdN m (pos + 2) 10).bind fun hdr => (rdN m 6 6).bind fun src =>
    let p := pos + 12
    let dcplen := (p + be16 (hdr.getD 8 0) (hdr.getD 9 0)) % 65536
    if dcplen > len then some (n, none)
    else if n.waiting = true then some (n, none)
    else if e.alloc = false then some (n, none)
    else
      (idLoop c e n.dev m dcplen getSetFuel p ⟨true, false, true, true, [], false⟩).bind fun s =>
        if s.ok = true ∧ s.isMatch = true then
          (putAll [] (idBlks c e n.dev (if s.useAlias then some s.ali else none))).bind fun out =>
            let delay := Signal.responseDelay (c.mac.getD 4 0) (c.mac.getD 5 0)
              (BitVec.ofNat 16 (be16 (hdr.getD 6 0) (hdr.getD 7 0)))
            if e.armed then
              some ({ n with waiting := true }, some (delay, frameHead c src 0xfe 0xff hdr 1 out.length ++ out))
            else some (n, none)
        else some (n, none)

/-- pf_dcp_responder (src/common/pf_dcp.c:176-195): the delayed response is sent. -/
def responder (n : Net) : Net := { n with waiting := false }

end Verif.Dcp
