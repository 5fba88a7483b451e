import Verif.Ppm.Model
import Verif.Layout.Props
/-!
# What a provider of cyclic data is supposed to do

Written about the calls of the application, their return values, and the frames on the wire.
-/
namespace Verif.Ppm
open Verif.Layout (IoData Key Kind Covers)

/-- Where a field lies in the payload. -/
def off (d : IoData) : Kind → Nat
  | .data => d.dataOff
  | .iops => d.iopsOff
  | .iocs => d.iocsOff
def len (d : IoData) : Kind → Nat
  | .data => d.dataLen
  | .iops => d.iopsLen
  | .iocs => d.iocsLen

/-- A sound layout: what a connect request must fulfil (see C04) so that the provider can work. -/
structure Good (c : Cfg) : Prop where
  keys : (c.descs.map (·.key)).Nodup
  inside : ∀ d ∈ c.descs, ∀ k, off d k + len d k ≤ c.cSdu
  disjoint : ∀ d ∈ c.descs, ∀ d' ∈ c.descs, ∀ k k' b, Covers d k b → Covers d' k' b → d = d' ∧ k = k'
  inLen : c.inLen ≤ c.cSdu
  cSdu : c.cSdu ≤ 1476
  da : c.da.length = 6
  sa : c.sa.length = 6
  interval : 0 < c.scf * c.rr

/-- IOCR `i` is the first provider IOCR which lists submodule `k`. -/
def Target (cs : List Cfg) (k : Key) (i : Nat) : Prop :=
  (∃ c, cs[i]? = some c ∧ c.input = true ∧ k ∈ c.descs.map (·.key)) ∧
  ∀ j < i, ∀ c, cs[j]? = some c → c.input = true → k ∉ c.descs.map (·.key)

/-- What a call, together with its return value, says about the content of a field. -/
def wrote (d : IoData) (k : Kind) (e : Op × Out) : Option (List Byte) :=
  if e.2 = .ret 0 then
    match e.1, k with
    | .setData key _ x null _, .data => if key = d.key ∧ null = false then some x else none
    | .setData key _ _ _ p, .iops => if key = d.key then some p else none
    | .setIocs key _ v, .iocs => if key = d.key then some (v.take d.iocsLen) else none
    | _, _ => none
  else none

/-- The value most recently (and successfully) set by the application; zeros if there is none. -/
def lastSet (h : Hist) (d : IoData) (k : Kind) : List Byte :=
  h.foldl (fun v e => (wrote d k e).getD v) (List.replicate (len d k) 0)

/-- The value that field `k` of submodule `d` of IOCR `i` should have. -/
noncomputable def want (cs : List Cfg) (h : Hist) (i : Nat) (d : IoData) (k : Kind) : List Byte :=
  open Classical in if Target cs d.key i then lastSet h d k else List.replicate (len d k) 0

/-- Number of frames IOCR `i` has sent since it was created last. -/
def sent (h : Hist) (i : Nat) : Nat :=
  h.foldl (fun n e => match e with
    | (.create j _, o) => if j = i ∧ o = .ret 0 then 0 else n
    | (.fire j _ _ _, .fired _ _ _) => if j = i then n + 1 else n
    | _ => n) 0

/-- When IOCR `i` was activated since it was created last. -/
def actTime (h : Hist) (i : Nat) : Option (BitVec 32) :=
  h.foldl (fun t e => match e with
    | (.create j _, o) => if j = i ∧ o = .ret 0 then none else t
    | (.activate j now _, .activated _) => if j = i then some now else t
    | _ => t) none

/-- The data status byte: its history. -/
def statusOf (cs : List Cfg) (h : Hist) (i : Nat) : Byte :=
  h.foldl (fun s e => match e with
    | (.create j _, o) => if j = i ∧ o = .ret 0 then 0x25 else s
    | (.close j, o) => if j = i ∧ o = .ret 0 then 0 else s
    | (.setBit j m on, o) => if j = i ∧ o = .ret 0 then (if on then s ||| m else s &&& ~~~m) else s
    | (.setProblem p, _) => if (cs[i]?.map (·.input)) = some true then (if p then s &&& ~~~0x20 else s ||| 0x20) else s
    | _ => s) 0

/-- Is the IOCR created (and not closed since)? -/
def created (h : List Op) (i : Nat) : Bool :=
  h.foldl (fun b o => match o with
    | .create j _ => if j = i then true else b
    | .close j => if j = i then false else b
    | _ => b) false

/-- The order in which the connection machinery may call the provider: activation and closing only
of a created IOCR. -/
def Ordered (cs : List Cfg) (ops : List Op) : Prop :=
  ∀ (n : Nat) (op : Op), ops[n]? = some op → match op with
    | .activate i _ _ => i < cs.length → created (ops.take n) i = true
    | .close i => i < cs.length → created (ops.take n) i = true
    | _ => True

end Verif.Ppm
