import Verif.Device.ConnProps
import Verif.Ppm.Model
import Verif.Cpm.Model
/-!
# Cyclic data of several connections

The table of connections and plugged submodules (area Device) together with the provider (area Ppm)
and consumer (area Cpm) of every connection.  The calls of the application name a submodule; the code
finds the connection through the owner stored in the subslot.

Simplifications:
* The application makes no data calls inside the callbacks of a connect request or of the end of a
  connection.
* A connection that comes into being has its consumers activated at once (pf_cmsu_start_req (src/device/pf_cmsu.c:179-274)), and the
  memory of one that ends is cleared (pf_ar_release (src/device/pf_cmrpc.c:758-802)).
* The hardware driver is not modelled here (area Lan).
-/
namespace Verif.Shared
open Verif.Layout (Key)

/-- One IOCR of a connection, as the consumer needs it (pf_iocr_t).  `consumer`: its type is OUTPUT or
MC_CONSUMER; `descs`: `data_desc` with the submodule each belongs to. -/
structure OutCr where
  consumer : Bool
  cfg : Cpm.Cfg
  descs : List (Key × Cpm.Desc)
deriving DecidableEq

/-- What a connect request negotiates: the IOCRs. -/
structure Neg where
  ins : List Ppm.Cfg
  outs : List OutCr

/-- The cyclic part of one entry of the table of connections. -/
structure Conn where
  neg : Neg
  ppm : Ppm.St
  cpm : Nat → Cpm.Cpm

/-- A cleared entry. -/
def Conn.zero : Conn := ⟨⟨[], []⟩, fun _ => Ppm.fresh, fun _ => Cpm.fresh⟩

/-- A new connection. -/
def Conn.start (n : Neg) : Conn :=
  ⟨n, fun _ => Ppm.fresh, fun i => match n.outs[i]? with
    | some c => Cpm.start c.cfg
    | none => Cpm.fresh⟩

structure Sys where
  dev : Device.St
  conn : Nat → Conn

/-- Entry `i` of the table of connections is in use. -/
def live (st : Device.St) (i : Nat) : Bool := (st.ars[i]?).any (·.inUse)

/-- After start-up. -/
def init (maxApi maxSlots maxSubs maxAr : Nat) : Sys :=
  ⟨Device.init maxApi maxSlots maxSubs maxAr, fun _ => Conn.zero⟩

/-- Calls of the application about input data: pnet_input_set_data_and_iops, pnet_output_set_iocs,
pnet_input_get_iocs and reading back (record reads). -/
inductive InCall
  | setData (k : Key) (data : List Byte) (null : Bool) (iops : List Byte)
  | setIocs (k : Key) (iocs : List Byte)
  | getData (k : Key) (dataCap iopsCap : Nat)
  | getIocs (k : Key) (cap : Nat)
deriving DecidableEq, Repr

def InCall.key : InCall → Key
  | .setData k _ _ _ => k
  | .setIocs k _ => k
  | .getData k _ _ => k
  | .getIocs k _ => k

/-- The call as seen by one connection; `owned`: it is the owner of the submodule. -/
def InCall.toPpm (c : InCall) (owned : Bool) : Ppm.Op :=
  match c with
  | .setData k d n p => .setData k owned d n p
  | .setIocs k v => .setIocs k owned v
  | .getData k a b => .getData k owned a b
  | .getIocs k a => .getIocs k owned a

/-- Calls of the application about output data. -/
inductive OutCall
  | getData (k : Key) (dataCap iopsCap : Nat)
  | getIocs (k : Key) (cap : Nat)
deriving DecidableEq, Repr

def OutCall.key : OutCall → Key
  | .getData k _ _ => k
  | .getIocs k _ => k

def OutCall.toCpm (c : OutCall) (d : Cpm.Desc) : Cpm.Op :=
  match c with
  | .getData _ a b => .getData d a b
  | .getIocs _ a => .getIocs d a

/-- What the stack itself does with the providers of a connection. -/
inductive Provider
  | create (i : Nat) (junk : Vector Byte Ppm.bufSize)
  | activate (i : Nat) (now : BitVec 32) (addOk : Bool)
  | close (i : Nat)
  | setBit (i : Nat) (mask : Byte) (on : Bool)
  | setProblem (problem : Bool)
  | fire (i : Nat) (now : BitVec 32) (ethOk addOk : Bool)

def Provider.toPpm : Provider → Ppm.Op
  | .create i j => .create i j
  | .activate i n a => .activate i n a
  | .close i => .close i
  | .setBit i m o => .setBit i m o
  | .setProblem p => .setProblem p
  | .fire i n e a => .fire i n e a

/-- What happens to a consumer of a connection. -/
inductive Consumer
  | frame (f : Cpm.Frame)
  | tick (addOk : Bool)
  | close

def Consumer.toCpm : Consumer → Cpm.Op
  | .frame f => .frame f
  | .tick a => .tick a
  | .close => .close

/-- The searching loops of pf_cpm_get_ar_iocr_desc (src/common/pf_cpm.c:324-396): the first consumer IOCR with a descriptor of the submodule. `i`
is the index of the first IOCR in the list. -/
def findOut (k : Key) : Nat → List OutCr → Option (Nat × Cpm.Desc)
  | _, [] => none
  | i, c :: cs =>
    if c.consumer then
      match c.descs.find? (fun d => d.1 == k) with
      | some d => some (i, d.2)
      | none => findOut k (i + 1) cs
    else findOut k (i + 1) cs

def updConn (f : Nat → Conn) (i : Nat) (c : Conn) : Nat → Conn := fun j => if j = i then c else f j

/-- What a call returns. -/
inductive Out
  | dev (ok : Bool)
  | prov (o : Ppm.Out)
  | cons (o : Cpm.Out)
  | nothing
deriving DecidableEq

inductive Op
  /-- A plug or pull call, a connect request or the end of a connection. `n`: what the request
  negotiates. -/
  | dev (o : Device.Op) (n : Neg)
  | input (c : InCall)
  | output (c : OutCall)
  | provider (i : Nat) (p : Provider)
  | consumer (i crep : Nat) (c : Consumer)

/-- The owner of the submodule: pf_cmdev_get_subslot_full and the test of `ownsm_state` in
pf_ppm_get_ar_iocr_desc (src/common/pf_ppm.c:427-501) and pf_cpm_get_ar_iocr_desc (src/common/pf_cpm.c:324-396). -/
def owner (s : Sys) (k : Key) : Option Nat := Device.ownerOf s.dev k.api k.slot k.subslot

/-- pf_ppm_set_data_and_iops (src/common/pf_ppm.c:503-584), pf_ppm_set_iocs (src/common/pf_ppm.c:586-659), pf_ppm_get_data_and_iops (src/common/pf_ppm.c:661-752) and pf_ppm_get_iocs (src/common/pf_ppm.c:754-831): find the owner,
then act on its IOCR. -/
def input (s : Sys) (c : InCall) : Option (Sys × Out) :=
  match owner s c.key with
  | none => some (s, .prov (.ret (-1)))
  | some i => do
    let (st, o) ← Ppm.step (s.conn i).neg.ins (s.conn i).ppm (c.toPpm true)
    some ({ s with conn := updConn s.conn i { s.conn i with ppm := st } }, .prov o)

/-- pf_cpm_get_data_and_iops (src/common/pf_cpm.c:398-499) and pf_cpm_get_iocs (src/common/pf_cpm.c:501-584). -/
def output (s : Sys) (c : OutCall) : Option (Sys × Out) :=
  match owner s c.key with
  | none => some (s, .cons ⟨[], .err⟩)
  | some i =>
    match findOut c.key 0 (s.conn i).neg.outs with
    | none => some (s, .cons ⟨[], .err⟩)
    | some (crep, d) => do
      let (x, o) ← Cpm.step ((s.conn i).cpm crep) (c.toCpm d)
      some ({ s with conn := updConn s.conn i { s.conn i with
        cpm := fun j => if j = crep then x else (s.conn i).cpm j } }, .cons o)

/-- Entries that are not in use are cleared, entries that come into use are started. -/
def reconnect (s : Sys) (d : Device.St) (n : Neg) : Nat → Conn := fun i =>
  if live d i then (if live s.dev i then s.conn i else Conn.start n) else Conn.zero

def step (s : Sys) : Op → Option (Sys × Out)
  | .dev o n =>
    let r := Device.step s.dev o
    some (⟨r.1, reconnect s r.1 n⟩, .dev r.2)
  | .input c => input s c
  | .output c => output s c
  | .provider i p =>
    if live s.dev i then do
      let (st, o) ← Ppm.step (s.conn i).neg.ins (s.conn i).ppm p.toPpm
      some ({ s with conn := updConn s.conn i { s.conn i with ppm := st } }, .prov o)
    else some (s, .nothing)
  | .consumer i crep c =>
    if live s.dev i ∧ crep < (s.conn i).neg.outs.length then do
      let (x, o) ← Cpm.step ((s.conn i).cpm crep) c.toCpm
      some ({ s with conn := updConn s.conn i { s.conn i with
        cpm := fun j => if j = crep then x else (s.conn i).cpm j } }, .cons o)
    else some (s, .nothing)

/-- An event: what happened, and the table of connections before and after. -/
structure Event where
  before : Device.St
  op : Op
  out : Out
  after : Device.St

/-- Newest first. -/
abbrev Trace := List Event

/-- Any history. -/
def exec (s : Sys) : List Op → Trace → Option (Sys × Trace)
  | [], t => some (s, t)
  | op :: ops, t => do
    let (s', o) ← step s op
    exec s' ops (⟨s.dev, op, o, s'.dev⟩ :: t)

end Verif.Shared
