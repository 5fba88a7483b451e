import Verif.Connect.Spec
import Verif.Check.Model
/-!
# What the error codes of a refused connect request mean

A list of conditions, each with the pair (block, field) by which its violation is reported: "1, f" is field `f` of the AR
block, "2, f" of an IOCR block, "3, f" of an expected submodule block, "4, f" of the alarm CR block, "7, f" of the AR RPC block, "0x40, 2" a missing IOCR,
"0x40, 3" a wrong number of blocks.
-/
namespace Verif.Check
open Verif.Connect (Err ArBlock IocrBlock AlarmBlock arFields alarmFields classOf FrameIdOk RatioOk holdMicros)
open Verif.Layout (FrameDesc ApiEntry DataDescr IoData IocrType SubType)

abbrev Conds := List (Err × Prop)

/-- The limits of an IOCR (`Connect.IocrDocumented`), each with the field it is reported by. -/
def crFields (minInterval : Nat) (ar : ArBlock) (b : IocrBlock) : Conds :=
  [ (⟨2, 4⟩, 1 ≤ b.type.toNat ∧ b.type.toNat ≤ 4),
    (⟨2, 6⟩, if classOf b = 4 then b.lt.toNat = 0x0800 else b.lt.toNat = 0x8892),
    (⟨2, 7⟩, (if ar.props.toNat / 2 ^ 30 % 2 = 1 then 2 else 1) ≤ classOf b ∧ classOf b ≤ 5),
    (⟨2, 7⟩, b.props.toNat / 2 ^ 4 % 2 ^ 9 = 0 ∧ b.props.toNat / 2 ^ 24 = 0),
    (⟨2, 8⟩, (if classOf b = 4 then 12 else 40) ≤ b.cSdu.toNat ∧ b.cSdu.toNat ≤ 1440),
    (⟨2, 9⟩, FrameIdOk b.type.toNat (classOf b) b.frameId.toNat),
    (⟨2, 10⟩, ∃ k ≤ 7, b.scf.toNat = 2 ^ k),
    (⟨2, 11⟩, RatioOk (if classOf b = 4 then 16384 else 512) b.scf.toNat b.rr.toNat),
    (⟨2, 11⟩, classOf b ≠ 4 → minInterval ≤ b.scf.toNat * b.rr.toNat),
    (⟨2, 12⟩, 1 ≤ b.phase.toNat ∧ b.phase.toNat ≤ b.rr.toNat),
    (⟨2, 14⟩, b.frameSendOffset.toNat = 0xffffffff ∨ b.frameSendOffset.toNat < b.scf.toNat * 31250),
    (⟨2, 16⟩, 1 ≤ b.dataHoldFactor.toNat ∧ b.dataHoldFactor.toNat ≤ 0x1e00),
    (⟨2, 16⟩, holdMicros b ≤ if classOf b = 4 then 61440000 else 1920000),
    (⟨2, 17⟩, b.tag.toNat % 4096 = 0 ∧ b.tag.toNat / 8192 = 6),
    (⟨2, 18⟩, b.type.toNat = 3 ∨ b.type.toNat = 4 → b.mac[0].toNat % 2 = 1),
    (⟨2, 19⟩, b.nbrApis.toNat ≠ 0),
    (⟨1, 7⟩, classOf b = 4 → ∀ i : Fin 6, ar.mac[i].toNat = 0),
    (⟨1, 11⟩, classOf b = 4 → 0x0400 ≤ ar.udpPort.toNat) ]

/-- Some IOCR names the submodule, as I/O data or as consumer status. -/
def Used (rq : Request) (api slot subslot : Nat) : Prop :=
  ∃ c ∈ rq.crs, ∃ a ∈ c.apis, a.api = api ∧ ∃ f, (f ∈ a.ioData ∨ f ∈ a.iocs) ∧ f.slot = slot ∧ f.subslot = subslot

/-- The data descriptors that belong to the type of a submodule: one for input (also without I/O), one for output, or both. -/
def DescsFit (s : Layout.ExpSub) : Prop :=
  ((s.type = .noIo ∨ s.type = .input) → ∃ d, s.descs = [d] ∧ d.dir = 1) ∧
  (s.type = .output → ∃ d, s.descs = [d] ∧ d.dir = 2) ∧
  (s.type = .io → ∃ d d', s.descs = [d, d'] ∧ (d.dir = 1 ∧ d'.dir = 2 ∨ d.dir = 2 ∧ d'.dir = 1))

/-- Submodule `k` of a module of API `api` in slot `slot`; `there`: it is plugged. -/
def subFields (rq : Request) (api slot : Nat) (there : Prop) (before : List Sub) (s : Sub) : Conds :=
  [ (⟨3, 10⟩, ∀ s' ∈ before, s'.lay.subslot ≠ s.lay.subslot),
    (⟨3, 10⟩, Used rq api slot s.lay.subslot),
    (⟨3, 10⟩, s.lay.subslot ≤ 0x9FFF),
    (⟨3, 10⟩, there),
    (⟨3, 10⟩, 0x8000 ≤ s.lay.subslot → api = 0),
    (⟨3, 12⟩, DescsFit s.lay),
    (⟨3, 12⟩, s.shared = true → s.lay.type ≠ .output),
    (⟨3, 12⟩, s.lay.reduceIn = true → s.lay.type = .noIo ∨ s.lay.type = .output),
    (⟨3, 12⟩, s.lay.reduceOut = true → s.lay.type = .noIo ∨ s.lay.type = .input),
    (⟨3, 12⟩, s.lay.discard = true → s.lay.type = .io),
    (⟨3, 13⟩, ∀ d ∈ s.lay.descs, d.dir = 1 ∧ s.lay.type ≠ .output ∨
      d.dir = 2 ∧ (s.lay.type = .output ∨ s.lay.type = .io)),
    (⟨3, 14⟩, ∀ d ∈ s.lay.descs, d.dataLen ≤ 1439 ∧ (s.lay.type = .noIo → d.dataLen = 0)),
    (⟨3, 15⟩, ∀ d ∈ s.lay.descs, d.iopsLen = 1),
    (⟨3, 16⟩, ∀ d ∈ s.lay.descs, d.iocsLen = 1) ]

/-- A module; `there`: the slot has a module. -/
def modFields (there : Prop) (before : List Mod) (m : Mod) : Conds :=
  [ (⟨3, 6⟩, ∀ m' ∈ before, m'.slot ≠ m.slot),
    (⟨3, 6⟩, m.slot ≤ 0x7FFF),
    (⟨3, 6⟩, there),
    (⟨3, 7⟩, m.ident ≠ 0),
    (⟨3, 9⟩, m.subs ≠ []) ]

/-- The conditions on the expected submodules, for the APIs the device knows or can create. -/
def expConds (env : Env) (rq : Request) : Conds :=
  (⟨3, 4⟩, rq.exp ≠ []) ::
  rq.exp.zipIdx.flatMap fun (a, i) =>
    if env.apiThere a.api then
      a.mods.zipIdx.flatMap fun (m, j) =>
        modFields (env.modThere i j = true) (a.mods.take j) m ++
        m.subs.zipIdx.flatMap fun (s, k) =>
          subFields rq a.api m.slot (env.subThere i j k = true) (m.subs.take k) s
    else []

/-- The module, and the submodule, that the request expects in a place (if it lists several, the last one). -/
def modFor (rq : Request) (api slot : Nat) : Option Mod :=
  (rq.exp.find? fun x => x.api == api).bind fun x => (x.mods.filter fun m => m.slot == slot).getLast?

def subFor (rq : Request) (api slot subslot : Nat) : Option Sub :=
  (modFor rq api slot).bind fun m => (m.subs.filter fun s => s.lay.subslot == subslot).getLast?

/-- In the frames of which CR types does a submodule have data, and in which consumer status. -/
def HasDataIn (t : IocrType) (s : SubType) : Prop :=
  match s with
  | .noIo | .input => t = .input ∨ t = .mcProvider
  | .output => t = .output ∨ t = .mcConsumer
  | .io => True

def HasStatusIn (t : IocrType) (s : SubType) : Prop :=
  match s with
  | .noIo | .input => t ≠ .input
  | .output => t ≠ .output
  | .io => True

/-- An API entry of an IOCR of type `t`. -/
def apiFields (rq : Request) (t : IocrType) (a : ApiEntry) : Conds :=
  [ (⟨2, 20⟩, ∃ x ∈ rq.exp, x.api = a.api),
    (⟨2, 21⟩, a.ioData ≠ [] ∨ a.iocs ≠ []),
    (⟨2, 23⟩, (a.ioData.map fun f => (f.slot, f.subslot)).Nodup),
    (⟨2, 22⟩, ∀ f ∈ a.ioData, ∃ m, modFor rq a.api f.slot = some m),
    (⟨2, 23⟩, ∀ f ∈ a.ioData, ∃ s, subFor rq a.api f.slot f.subslot = some s),
    (⟨2, 23⟩, ∀ f ∈ a.ioData, ∀ s, subFor rq a.api f.slot f.subslot = some s → HasDataIn t s.lay.type),
    (⟨2, 27⟩, (a.iocs.map fun f => (f.slot, f.subslot)).Nodup),
    (⟨2, 27⟩, ∀ f ∈ a.iocs, ∃ s, subFor rq a.api f.slot f.subslot = some s),
    (⟨2, 27⟩, ∀ f ∈ a.iocs, ∀ s, subFor rq a.api f.slot f.subslot = some s → HasStatusIn t s.lay.type),
    (⟨2, 28⟩, ∀ f ∈ a.iocs, ∀ s, subFor rq a.api f.slot f.subslot = some s → s.lay.type = .io → s.lay.descs.length = 2) ]

/-- The bytes of the three fields of an I/O object. -/
def InData (d : IoData) (b : Nat) : Prop := d.dataOff ≤ b ∧ b < d.dataOff + d.dataLen
def InIops (d : IoData) (b : Nat) : Prop := d.iopsOff ≤ b ∧ b < d.iopsOff + d.iopsLen
def InIocs (d : IoData) (b : Nat) : Prop := d.iocsOff ≤ b ∧ b < d.iocsOff + d.iocsLen
def InAny (d : IoData) (b : Nat) : Prop := InData d b ∨ InIops d b ∨ InIocs d b

/-- The I/O objects of a frame with `n` bytes (`Layout.C04_fields_as_requested` tells what they are): they end in the
frame, and none touches one before it. -/
def frameFields (n : Nat) (ds : List IoData) : Conds :=
  [ (⟨2, 24⟩, ∀ d ∈ ds, d.dataOff + d.dataLen ≤ n ∧ d.iopsOff + d.iopsLen ≤ n),
    (⟨2, 28⟩, ∀ d ∈ ds, d.iocsOff + d.iocsLen ≤ n),
    (⟨2, 24⟩, ds.Pairwise fun p d => ∀ b, InData d b ∨ InIops d b → ¬ InAny p b),
    (⟨2, 28⟩, ds.Pairwise fun p d => ∀ b, InIocs d b → ¬ InAny p b) ]

/-- The I/O objects that are made of an IOCR. -/
def objects (env : Env) (rq : Request) (c : Cr) : List IoData :=
  ((Layout.setupDesc env.cap rq.lay c.param).map fun s => s.1.descs).getD []

/-- The request as a whole. -/
def wholeFields (rq : Request) : Conds :=
  [ (⟨0x40, 2⟩, ∃ c ∈ rq.crs, c.block.type.toNat = 1),
    (⟨0x40, 2⟩, ∃ c ∈ rq.crs, c.block.type.toNat = 2),
    (⟨0x40, 3⟩, rq.alarms.length = 1),
    (⟨0x40, 3⟩, ∀ c ∈ rq.crs, classOf c.block ≠ 3),
    (⟨7, 4⟩, ∀ p, rq.rpcPort = some p → 0x0400 ≤ p.toNat) ]

/-- The conditions that are checked completely. -/
def strict (env : Env) (rq : Request) (ar : ArBlock) : Conds :=
  arFields ar ++ expConds env rq ++
  (rq.crs.flatMap fun c => c.apis.flatMap fun a => apiFields rq c.type a) ++
  (rq.crs.flatMap fun c => frameFields c.block.cSdu.toNat (objects env rq c)) ++ wholeFields rq

/-- The conditions that are checked with the exceptions of C16 and C17. -/
def loose (env : Env) (rq : Request) (ar : ArBlock) : Conds :=
  (rq.crs.flatMap fun c => crFields env.minInterval ar c.block) ++ rq.alarms.flatMap alarmFields

/-- `e` names something that is wrong with the request. -/
def Fault (env : Env) (rq : Request) (e : Err) : Prop :=
  ∃ ar p, rq.ar = some ar ∧ (e, p) ∈ strict env rq ar ++ loose env rq ar ∧ ¬ p

/-- The submodule that the request expects in a place (if it lists several, the first one). -/
def firstSubFor (rq : Request) (api slot subslot : Nat) : Option Sub :=
  (rq.exp.find? fun x => x.api == api).bind fun x =>
    (x.mods.find? fun m => m.slot == slot).bind fun m => m.subs.find? fun s => s.lay.subslot == subslot

/-- Every consumer status in the IOCRs is that of an expected submodule. -/
def StatusKnown (rq : Request) : Prop :=
  ∀ c ∈ rq.crs, ∀ a ∈ c.apis, ∀ f ∈ a.iocs, ∃ s, firstSubFor rq a.api f.slot f.subslot = some s

end Verif.Check
