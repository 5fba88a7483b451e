/-!
# Layout of the cyclic frames, as negotiated by a connect request

Model of the part of `src/device/pf_cmdev.c` which turns the IOCR blocks and the expected
submodules of a connect request into I/O data descriptors, and checks them.

`none` means: a write outside the array `data_desc`. (It is proved impossible.)
Log messages and the error codes of refusals are not modelled; a refusal is `false`.
-/
namespace Verif.Layout

/-- pf_frame_descriptor_t (src/pf_types.h:1432-1437). -/
structure FrameDesc where
  slot : Nat
  subslot : Nat
  offset : Nat
deriving DecidableEq, Repr

/-- pf_api_entry_t (src/pf_types.h:1439-1446). -/
structure ApiEntry where
  api : Nat
  ioData : List FrameDesc
  iocs : List FrameDesc
deriving DecidableEq, Repr

/-- Values of `iocr_type` that pass pf_cmdev_check_iocr_param (src/device/pf_cmdev.c:3004-3355). -/
inductive IocrType | input | output | mcProvider | mcConsumer
deriving DecidableEq, Repr

/-- The part of pf_iocr_param_t (src/pf_types.h:1454-1484) used here. -/
structure IocrParam where
  type : IocrType
  cSdu : Nat
  apis : List ApiEntry
deriving DecidableEq, Repr

/-- PF_DIRECTION_INPUT, PF_DIRECTION_OUTPUT; a received `data_direction` may be any 16-bit number. -/
def dirInput : Nat := 1
def dirOutput : Nat := 2

/-- `pnet_submodule_dir_t`, two bits. -/
inductive SubType | noIo | input | output | io
deriving DecidableEq, Repr

/-- pf_data_descriptor_t (src/pf_types.h:1493-1499). -/
structure DataDescr where
  dir : Nat
  dataLen : Nat
  iopsLen : Nat
  iocsLen : Nat
deriving DecidableEq, Repr

/-- The part of pf_exp_submodule_t used here. -/
structure ExpSub where
  subslot : Nat
  type : SubType
  reduceIn : Bool
  reduceOut : Bool
  discard : Bool
  descs : List DataDescr
deriving DecidableEq, Repr

structure ExpMod where
  slot : Nat
  subs : List ExpSub
deriving DecidableEq, Repr

structure ExpApi where
  api : Nat
  mods : List ExpMod
deriving DecidableEq, Repr

/-- The expected configuration `p_ar->exp_ident`. -/
abbrev Exp := List ExpApi

/-- pf_cmdev_get_exp_api (src/device/pf_cmdev.c:1824-1840). -/
def getExpApi (e : Exp) (api : Nat) : Option ExpApi := e.find? (fun a => a.api == api)

/-- pf_cmdev_get_exp_mod (src/device/pf_cmdev.c:1842-1865). -/
def getExpMod (e : Exp) (api slot : Nat) : Option ExpMod := do
  let a ← getExpApi e api
  a.mods.find? (fun m => m.slot == slot)

/-- pf_cmdev_get_exp_sub (src/device/pf_cmdev.c:1867-1893). -/
def getExpSub (e : Exp) (api slot subslot : Nat) : Option ExpSub := do
  let m ← getExpMod e api slot
  m.subs.find? (fun s => s.subslot == subslot)

inductive Status | iops | iocs
deriving DecidableEq, Repr

/-- pf_cmdev_calculate_exp_sub_data_descriptor_direction (src/device/pf_cmdev.c:1917-1967). `input` is the
direction of the IOCR (input / output). -/
def calcDir (t : SubType) (input : Bool) (st : Status) : Option Nat :=
  let inLike := (input && st == .iops) || (!input && st == .iocs)
  let outLike := (input && st == .iocs) || (!input && st == .iops)
  match t with
  | .noIo | .input => if inLike then some dirInput else none
  | .io => if inLike then some dirInput else some dirOutput
  | .output => if outLike then some dirOutput else none

/-- pf_cmdev_get_exp_sub_data_descriptor (src/device/pf_cmdev.c:1979-2013). -/
def getDescr (s : ExpSub) (input : Bool) (st : Status) : Option DataDescr := do
  let d ← calcDir s.type input st
  s.descs.find? (fun x => x.dir == d)

structure Key where
  api : Nat
  slot : Nat
  subslot : Nat
deriving DecidableEq, Repr

/-- pf_iodata_object_t (src/pf_types.h:1837-1861). -/
structure IoData where
  key : Key
  dataOff : Nat
  dataLen : Nat
  iopsOff : Nat
  iopsLen : Nat
  iocsOff : Nat
  iocsLen : Nat
deriving DecidableEq, Repr

/-- `data_desc`, `in_length`, `out_length` of pf_iocr_t. -/
structure Setup where
  descs : List IoData
  inLen : Nat
  outLen : Nat
deriving DecidableEq, Repr

/-- "Re-use existing descriptor" or "use a new one", then fill it in by `f`
(src/device/pf_cmdev.c:2115-2141, 2276-2300). `cap` is the size of the array. -/
def place (cap : Nat) (descs : List IoData) (k : Key) (f : IoData → IoData) : Option (List IoData × IoData) :=
  let iy := descs.findIdx (fun d => d.key == k)
  if h : iy < descs.length then
    let d := f descs[iy]
    some (descs.set iy d, d)
  else if descs.length < cap then
    let d := f ⟨k, 0, 0, 0, 0, 0, 0⟩
    some (descs ++ [d], d)
  else none

/-- The assignments of pf_cmdev_iocr_setup_data_iops (src/device/pf_cmdev.c:2186-2360) to one descriptor (lines 2302-2336). -/
def fillData (input : Bool) (e : ExpSub) (dd : DataDescr) (off : Nat) (d : IoData) : IoData :=
  let red := (input && e.reduceIn) || (!input && e.reduceOut)
  let dl := if red then 0 else dd.dataLen
  let doff := if red then 0 else off
  if e.discard then { d with dataLen := 0, dataOff := 0, iopsLen := 0, iopsOff := 0 }
  else { d with dataLen := dl, dataOff := doff, iopsLen := dd.iopsLen, iopsOff := (doff + dl) % 65536 }

/-- One iteration of the inner loop of pf_cmdev_iocr_setup_data_iops (src/device/pf_cmdev.c:2186-2360). -/
def dataStep (cap : Nat) (e : Exp) (input : Bool) (api : Nat) (s : Setup) (fd : FrameDesc) : Option Setup :=
  match getExpSub e api fd.slot fd.subslot with
  | none => some s
  | some es =>
    match getDescr es input .iops with
    | none => some s
    | some dd => do
      let (descs, d) ← place cap s.descs ⟨api, fd.slot, fd.subslot⟩ (fillData input es dd fd.offset)
      let n := d.dataLen + d.iopsLen + d.iocsLen
      some ⟨descs, if input then (s.inLen + n) % 65536 else s.inLen,
        if input then s.outLen else (s.outLen + n) % 65536⟩

/-- The assignments of pf_cmdev_iocr_setup_iocs (src/device/pf_cmdev.c:2026-2173) to one descriptor (lines 2143-2154). -/
def fillIocs (e : ExpSub) (dd : DataDescr) (off : Nat) (d : IoData) : IoData :=
  if e.discard then { d with iocsOff := 0, iocsLen := 0 }
  else { d with iocsOff := off, iocsLen := dd.iocsLen }

/-- One iteration of the inner loop of pf_cmdev_iocr_setup_iocs (src/device/pf_cmdev.c:2026-2173). The flag becomes
`false` for an unknown submodule. -/
def iocsStep (cap : Nat) (e : Exp) (input : Bool) (api : Nat) (sb : Setup × Bool) (fd : FrameDesc) :
    Option (Setup × Bool) :=
  let s := sb.1
  match getExpSub e api fd.slot fd.subslot with
  | none => some (s, false)
  | some es =>
    match getDescr es input .iocs with
    | none => some sb
    | some dd => do
      let (descs, d) ← place cap s.descs ⟨api, fd.slot, fd.subslot⟩ (fillIocs es dd fd.offset)
      some (⟨descs, if input then (s.inLen + d.iocsLen) % 65536 else s.inLen,
        if input then s.outLen else (s.outLen + d.iocsLen) % 65536⟩, sb.2)

/-- pf_cmdev_iocr_setup_data_iops (src/device/pf_cmdev.c:2186-2360). It never refuses. -/
def setupData (cap : Nat) (e : Exp) (input : Bool) (apis : List ApiEntry) (s : Setup) : Option Setup :=
  apis.foldlM (fun s a => a.ioData.foldlM (dataStep cap e input a.api) s) s

/-- pf_cmdev_iocr_setup_iocs (src/device/pf_cmdev.c:2026-2173). -/
def setupIocs (cap : Nat) (e : Exp) (input : Bool) (apis : List ApiEntry) (s : Setup) : Option (Setup × Bool) :=
  apis.foldlM (fun s a => a.iocs.foldlM (iocsStep cap e input a.api) s) (s, true)

/-- pf_cmdev_iocr_setup_desc (src/device/pf_cmdev.c:2372-2421). -/
def setupDesc (cap : Nat) (e : Exp) (p : IocrParam) : Option (Setup × Bool) := do
  let input := p.type == .input || p.type == .mcProvider
  let s ← setupData cap e input p.apis ⟨[], 0, 0⟩
  setupIocs cap e input p.apis s

/-- pf_cmdev_check_no_straddle (src/device/pf_cmdev.c:2445-2472). `true`: no overlap. The sums are computed as `int`. -/
def noStraddle (s1 l1 s2 l2 : Nat) : Bool :=
  if l1 > 0 ∧ l2 > 0 then
    if s1 ≤ s2 then !decide (s1 + l1 > s2) else !decide (s1 < s2 + l2)
  else true

/-- One area against the three areas of another descriptor. -/
def areaOk (start len : Nat) (d : IoData) : Bool :=
  if len > 0 then
    noStraddle start len d.dataOff d.dataLen && noStraddle start len d.iocsOff d.iocsLen &&
      noStraddle start len d.iopsOff d.iopsLen
  else true

/-- pf_cmdev_check_iocr_overlap (src/device/pf_cmdev.c:2482-2626): the areas of a descriptor against those of all
previous descriptors. -/
def checkOverlap (prev : List IoData) (d : IoData) : Bool :=
  prev.all (fun p => areaOk d.dataOff d.dataLen p && areaOk d.iopsOff d.iopsLen p) &&
    prev.all (fun p => areaOk d.iocsOff d.iocsLen p)

/-- The last loop of pf_cmdev_check_iocr_apis (src/device/pf_cmdev.c:2636-2993) (lines 2923-2982) for one IOCR. -/
def checkDescs (cSdu : Nat) : List IoData → List IoData → Bool
  | _, [] => true
  | prev, d :: ds =>
    decide (d.dataOff + d.dataLen ≤ cSdu) && decide (d.iopsOff + d.iopsLen ≤ cSdu) &&
      decide (d.iocsOff + d.iocsLen ≤ cSdu) && checkOverlap prev d && checkDescs cSdu (prev ++ [d]) ds

/-- "Within each io_data the slot/subslot combo must be unique" (lines 2687-2719, 2801-2833). -/
def combosUnique (l : List FrameDesc) : Bool :=
  l.all fun f => (l.filter fun g => g.slot == f.slot && g.subslot == f.subslot).length == 1

/-- Search for the *last* matching expected module and submodule (lines 2721-2766, 2836-2880). -/
def lastExpSub (a : ExpApi) (f : FrameDesc) : Option ExpSub := do
  let m ← (a.mods.filter fun m => m.slot == f.slot).getLast?
  (m.subs.filter fun s => s.subslot == f.subslot).getLast?

/-- Direction check of io_data (lines 2768-2797). -/
def ioDirOk (t : IocrType) (s : ExpSub) : Bool :=
  !((s.type == .noIo || s.type == .input) && (t == .output || t == .mcConsumer)) &&
  !(s.type == .output && (t == .input || t == .mcProvider))

/-- Direction and descriptor count check of iocs (lines 2882-2925). -/
def iocsDirOk (t : IocrType) (s : ExpSub) : Bool :=
  !((s.type == .noIo || s.type == .input) && t == .input) &&
  !(s.type == .output && t == .output) &&
  !(s.type == .io && s.descs.length != 2)

/-- The part of pf_cmdev_check_iocr_apis (src/device/pf_cmdev.c:2636-2993) about one API entry. -/
def checkApi (e : Exp) (t : IocrType) (a : ApiEntry) : Bool :=
  match getExpApi e a.api with
  | none => false
  | some ea =>
    !(a.ioData.isEmpty && a.iocs.isEmpty) && combosUnique a.ioData &&
    a.ioData.all (fun f => match lastExpSub ea f with | none => false | some s => ioDirOk t s) &&
    combosUnique a.iocs &&
    a.iocs.all (fun f => match lastExpSub ea f with | none => false | some s => iocsDirOk t s)

/-- pf_cmdev_check_iocr_apis (src/device/pf_cmdev.c:2636-2993) for one IOCR. -/
def checkIocr (e : Exp) (p : IocrParam) (s : Setup) : Bool :=
  p.apis.all (checkApi e p.type) && checkDescs p.cSdu [] s.descs

/-- The layout part of pf_cmdev_check_apdu (src/device/pf_cmdev.c:4154-4262): set up all IOCRs, then check all of them.
Result: the descriptors and whether the layout is accepted. (The C code stops at the first failing
IOCR; that makes no difference to acceptance.) -/
def accept (cap : Nat) (e : Exp) (ps : List IocrParam) : Option (List Setup × Bool) := do
  let ss ← ps.mapM (setupDesc cap e)
  some (ss.map (·.1), ss.all (·.2) && (ps.zip ss).all fun (p, s) => checkIocr e p s.1)

end Verif.Layout
