import Verif.Shared.Model
import Verif.Ppm.Props
import Verif.Cpm.Props
/-!
# What the application may rely on when several controllers are connected

Written about histories: which connection controlled a submodule when a call was made, and what the
call returned.
-/
namespace Verif.Shared
open Verif.Layout (Key Kind IoData)

/-- Connection `i` controls the submodule: it is plugged and its owner is `i`. -/
def Controls (st : Device.St) (i : Nat) (k : Key) : Prop :=
  ∃ y, Device.getSub st.apis k.api k.slot k.subslot = some y ∧ y.owner = some i

/-- In this event connection `i` came into being. -/
def Event.starts (e : Event) (i : Nat) : Prop := (∀ x, ¬ Device.Live e.before i x) ∧ ∃ x, Device.Live e.after i x

/-- The value the application gave, in this event, to a field of a submodule controlled by `i`. -/
inductive Event.Gives (e : Event) (i : Nat) (d : IoData) : Kind → List Byte → Prop
  | data (x iops) (h : e.op = .input (.setData d.key x false iops)) (ok : e.out = .prov (.ret 0))
      (hc : Controls e.before i d.key) : e.Gives i d .data x
  | iops (x null iops) (h : e.op = .input (.setData d.key x null iops)) (ok : e.out = .prov (.ret 0))
      (hc : Controls e.before i d.key) : e.Gives i d .iops iops
  | iocs (v) (h : e.op = .input (.setIocs d.key v)) (ok : e.out = .prov (.ret 0))
      (hc : Controls e.before i d.key) : e.Gives i d .iocs (v.take d.iocsLen)

/-- The value most recently given to a field by a call made while `i` controlled the submodule, since
connection `i` exists; zeros if there is none. -/
inductive Latest (i : Nat) (d : IoData) (k : Kind) : Trace → List Byte → Prop
  | start (e t) (h : e.starts i) : Latest i d k (e :: t) (List.replicate (Ppm.len d k) 0)
  | given (e t v) (h : ¬ e.starts i) (g : e.Gives i d k v) : Latest i d k (e :: t) v
  | keep (e t v) (h : ¬ e.starts i) (g : ∀ w, ¬ e.Gives i d k w) (r : Latest i d k t v) : Latest i d k (e :: t) v

/-- The event is the delivery of a frame on output IOCR `crep` of connection `i`. -/
def Event.Delivers (e : Event) (i crep : Nat) (f : Cpm.Frame) : Prop :=
  e.op = .consumer i crep (.frame f) ∧ ∃ o, e.out = .cons o ∧ Cpm.Ev.newData ∈ o.evs

/-- The last frame delivered on output IOCR `crep` since connection `i` exists. -/
inductive LastFrame (i crep : Nat) : Trace → Option Cpm.Frame → Prop
  | start (e t) (h : e.starts i) : LastFrame i crep (e :: t) none
  | new (e t f) (h : ¬ e.starts i) (g : e.Delivers i crep f) : LastFrame i crep (e :: t) (some f)
  | keep (e t v) (h : ¬ e.starts i) (g : ∀ f, ¬ e.Delivers i crep f) (r : LastFrame i crep t v) :
      LastFrame i crep (e :: t) v

/-- Reception on output IOCR `crep` has been reported as lost or was closed, since connection `i` exists. -/
inductive Lost (i crep : Nat) : Trace → Prop
  | now (e t) (h : ¬ e.starts i) (c o) (ho : e.op = .consumer i crep c) (hr : e.out = .cons o)
      (hs : Cpm.Ev.stop ∈ o.evs ∨ c = .close) : Lost i crep (e :: t)
  | before (e t) (h : ¬ e.starts i) (r : Lost i crep t) : Lost i crep (e :: t)

/-- Output IOCR `crep` is the first consumer IOCR that lists the submodule, with descriptor `d`. -/
def OutTarget (outs : List OutCr) (k : Key) (crep : Nat) (d : Cpm.Desc) : Prop :=
  (∃ c, outs[crep]? = some c ∧ c.consumer = true ∧ (k, d) ∈ c.descs) ∧
  ∀ j < crep, ∀ c, outs[j]? = some c → c.consumer = true → ∀ d, (k, d) ∉ c.descs

/-- What a connect request must have negotiated (areas Connect and Layout), and what the Ethernet layer
guarantees about frames. -/
def Neg.Good (n : Neg) : Prop :=
  (∀ c ∈ n.ins, Ppm.Good c) ∧
  ∀ c ∈ n.outs, Cpm.CfgOk c.cfg ∧ (c.descs.map (·.1)).Nodup ∧ ∀ d ∈ c.descs,
    d.2.dataOff + d.2.dataLen ≤ c.cfg.cSduLength ∧ d.2.iopsOff + d.2.iopsLen ≤ c.cfg.cSduLength ∧
    d.2.iocsOff + d.2.iocsLen ≤ c.cfg.cSduLength

def Op.Ok : Op → Prop
  | .dev _ n => n.Good
  | .consumer _ _ (.frame f) => Cpm.ValidRx f
  | _ => True

end Verif.Shared
