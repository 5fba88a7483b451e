/-!
Model of the diagnosis store: pool of items, linked lists per submodule, add / update / remove,
summary flags and station problem indicator.
Source: src/device/pf_diag.c, src/device/pf_cmdev.c, src/common/pf_alarm.c.

Not modelled here: the alarms that are sent (area Alarm); their result is an input.  The tables of
plugged submodules are a map from places to submodules (area Device shows that they are one).
Loops over linked lists have fuel; running out of fuel is the result `none`, an endless loop.
-/
set_option linter.unusedVariables false

namespace Verif.Diag

/-! ## Data -/

/-- API, slot, subslot. -/
abbrev Place := Nat × Nat × Nat

/-- What identifies an item in standard format: channel, channel group or individual, direction, error
type, extended error type. -/
structure Chan where
  ch : Nat
  group : Bool
  dir : Nat
  err : Nat
  ext : Nat
deriving DecidableEq

/-- `pf_diag_std_t` (src/pf_types.h:948-956), without the members in `Chan`.  The bit fields of
`ch_properties` are separate members (type, severity, specifier); arguments are assumed to be values
of their enumerations. -/
structure Std where
  chan : Chan
  typ : Nat
  maint : Nat
  spec : Nat
  addValue : Nat
  qualifier : Nat
deriving DecidableEq

/-- The union in `pf_diag_item_t` (src/pf_types.h:972-976). -/
inductive Fmt where
  | std (s : Std)
  | manuf (data : List Nat)
deriving DecidableEq

/-- `pf_diag_item_t` (src/pf_types.h:969-981). -/
structure Item where
  inUse : Bool
  usi : Nat
  fmt : Fmt
  next : Nat
deriving DecidableEq

/-- `pf_submod_diag_summary_t`. -/
structure Summary where
  fault : Bool
  demanded : Bool
  required : Bool
deriving DecidableEq

/-- `pf_subslot_t`, the members needed here. -/
structure Subslot where
  head : Nat
  owner : Option Nat
  summary : Summary
deriving DecidableEq

/-- `diag_items`, `diag_items_free`, the plugged submodules, and per connection the problem
indicator of its cyclic frames. -/
structure St where
  items : List Item
  free : Nat
  subs : Place → Option Subslot
  problem : Nat → Bool

/-- `PF_DIAG_IX_NULL`. -/
def nul : Nat := 65535

def usiChannel : Nat := 0x8000
def usiMultiple : Nat := 0x8001
def usiQualified : Nat := 0x8003
def maintFault : Nat := 0
def maintRequired : Nat := 1
def maintDemanded : Nat := 2
def maintQualified : Nat := 3
def specAppears : Nat := 1

/-- A zeroed item. -/
def Item.zero : Item := ⟨false, 0, .manuf [], 0⟩

/-- pf_cmdev_init (src/device/pf_cmdev.c:1312-1338): list of all items. -/
def init (n : Nat) : St :=
  ⟨(List.range n).map (fun i => { Item.zero with next := if i + 1 < n then i + 1 else nul }),
   if n = 0 then nul else 0, fun _ => none, fun _ => false⟩

/-! ## Linked lists -/

/-- pf_cmdev_get_diag_item (src/device/pf_cmdev.c:311-330) -/
def St.item (st : St) (ix : Nat) : Option Item := st.items[ix]?

/-- The loop `while (p_item != NULL)` over a list starting at `ix`: the indices it visits. -/
def walk (items : List Item) : Nat → Nat → Option (List Nat)
  | 0, _ => none
  | f + 1, ix =>
    match items[ix]? with
    | none => some []
    | some it => (walk items f it.next).map (fun l => ix :: l)

def St.walk (st : St) (ix : Nat) : Option (List Nat) := Diag.walk st.items (st.items.length + 1) ix

/-- Loop of pf_diag_find_entry (src/device/pf_diag.c:193-281): previous index and index of the first item that matches. -/
def findLoop (items : List Item) (m : Item → Bool) : Nat → Option Nat → Nat → Option (Option (Option Nat × Nat))
  | 0, _, _ => none
  | f + 1, prev, ix =>
    match items[ix]? with
    | none => some none
    | some it => if m it then some (some (prev, ix)) else findLoop items m f (some ix) it.next

/-- The comparison in pf_diag_find_entry (src/device/pf_diag.c:193-281): an item in standard format is compared by channel and
types whatever `usi` is asked for. -/
def matches? (c : Chan) (usi : Nat) (it : Item) : Bool :=
  if usiChannel ≤ it.usi then
    match it.fmt with
    | .std s => s.chan == c
    | .manuf _ => false
  else it.usi == usi

/-- Write access to a plugged submodule. -/
def setSub (st : St) (p : Place) (s : Subslot) : St :=
  { st with subs := fun q => if q = p then some s else st.subs q }

/-- Write access to the `next` member of an item. -/
def setNext (st : St) (ix nx : Nat) : St :=
  { st with items := st.items.modify ix (fun it => { it with next := nx }) }

/-- Unlinking in pf_diag_find_entry (src/device/pf_diag.c:193-281). -/
def unlink (st : St) (p : Place) (s : Subslot) (prev : Option Nat) (it : Item) : St :=
  match prev with
  | some i => setNext st i it.next
  | none => setSub st p { s with head := it.next }

/-- pf_diag_find_entry (src/device/pf_diag.c:193-281) for the plugged submodule at `p`: the index of the item, if found, and the
state with the item unlinked. -/
def findEntry (st : St) (p : Place) (s : Subslot) (c : Chan) (usi : Nat) : Option (St × Option Nat) :=
  (findLoop st.items (matches? c usi) (st.items.length + 1) none s.head).bind fun r =>
    match r with
    | none => some (st, none)
    | some (prev, ix) =>
      match st.items[ix]? with
      | none => none
      | some it => some (unlink st p s prev it, some ix)

/-- pf_cmdev_new_diag (src/device/pf_cmdev.c:332-354) -/
def newDiag (st : St) : Option (St × Option Nat) :=
  if st.free = nul then some (st, none)
  else
    match st.items[st.free]? with
    | none => none
    | some it =>
      some ({ st with free := it.next,
                      items := st.items.set st.free { Item.zero with inUse := true } }, some st.free)

/-- pf_cmdev_free_diag (src/device/pf_cmdev.c:356-366) -/
def freeDiag (st : St) (ix : Nat) : St :=
  if ix < st.items.length then
    { st with items := st.items.modify ix (fun it => { it with inUse := false, next := st.free }),
              free := ix }
  else st

/-! ## Summary and problem indicator -/

/-- Severity flags of an item as computed by pf_alarm_add_diag_item_to_summary (src/common/pf_alarm.c:2850-2978) (masks of the
qualifier: src/pf_types.h:101-105). -/
def itemFault (it : Item) : Bool :=
  if it.usi < usiChannel then true
  else
    match it.fmt with
    | .std s => s.spec == specAppears &&
        (s.maint == maintFault || (s.maint == maintQualified && s.qualifier / 2 ^ 27 % 32 != 0))
    | .manuf _ => false

def itemDemanded (it : Item) : Bool :=
  if it.usi < usiChannel then false
  else
    match it.fmt with
    | .std s => s.maint == maintDemanded ||
        (s.maint == maintQualified && s.qualifier / 2 ^ 17 % 1024 != 0)
    | .manuf _ => false

def itemRequired (it : Item) : Bool :=
  if it.usi < usiChannel then false
  else
    match it.fmt with
    | .std s => s.maint == maintRequired ||
        (s.maint == maintQualified && s.qualifier / 2 ^ 7 % 1024 != 0)
    | .manuf _ => false

/-- Items at the indices that satisfy a condition and are in use. -/
def anyItem (items : List Item) (c : Item → Bool) (l : List Nat) : Bool :=
  l.any (fun i => (items[i]?).any (fun it => it.inUse && c it))

/-- pf_diag_update_submodule_state (src/device/pf_diag.c:115-165) -/
def updateSummary (st : St) (p : Place) : Option St :=
  match st.subs p with
  | none => none
  | some s =>
    (st.walk s.head).map fun l =>
      setSub st p { s with summary :=
        ⟨anyItem st.items itemFault l, anyItem st.items itemDemanded l,
         anyItem st.items itemRequired l⟩ }

/-- The condition in pf_diag_update_station_problem_indicator (src/device/pf_diag.c:73-105). -/
def itemProblem (it : Item) : Bool :=
  it.usi < usiChannel ||
  (match it.fmt with
   | .std s => s.maint == maintFault
   | .manuf _ => false)

/-- pf_diag_update_station_problem_indicator (src/device/pf_diag.c:73-105) for the connection `ar` -/
def updateIndicator (st : St) (ar : Nat) (p : Place) : Option St :=
  match st.subs p with
  | none => none
  | some s =>
    (st.walk s.head).map fun l =>
      { st with problem := fun i => if i = ar then anyItem st.items itemProblem l else st.problem i }

/-! ## Add, update, remove -/

/-- Arguments of the three functions.  `data = none` stands for a null pointer.  `chanMax` is the check
of the channel number. -/
structure Args where
  place : Place
  chan : Chan
  typ : Nat
  maint : Nat
  addValue : Nat
  qualifier : Nat
  usi : Nat
  dataLen : Nat
  data : Option (List Nat)

/-- `qual_ch_qualifier &= PF_DIAG_QUALIFIED_SEVERITY_MASK` -/
def maskQual (q : Nat) : Nat := q - q % 8

/-- Checks common to the three functions (e.g. src/device/pf_diag.c:310-335). -/
def argsCommon (a : Args) : Bool :=
  !(usiQualified < a.usi || a.usi == usiMultiple) &&
  !(a.usi < usiChannel && a.chan.err != 0) &&
  !(a.usi ≤ usiChannel && a.chan.ext != 0) &&
  !(0x8000 < a.chan.ch)

/-- Checks of the manufacturer data (src/device/pf_diag.c:362-390, 638-667). -/
def argsData (maxData : Nat) (a : Args) : Bool :=
  !(usiChannel ≤ a.usi && (a.data.isSome || a.dataLen != 0)) &&
  !(0 < a.dataLen && a.data.isNone) &&
  !(maxData < a.dataLen)

/-- Checks of pf_diag_add (src/device/pf_diag.c:283-583). -/
def argsAdd (maxData : Nat) (a : Args) : Bool :=
  argsCommon a && argsData maxData a &&
  !(a.usi ≤ usiChannel && a.addValue != 0) &&
  !(a.usi != usiQualified && maskQual a.qualifier != 0) &&
  !(a.usi != usiQualified && a.maint == maintQualified) &&
  !(maskQual a.qualifier != 0 && a.maint != maintQualified)

/-- Checks of pf_diag_update (src/device/pf_diag.c:585-773). -/
def argsUpdate (maxData : Nat) (a : Args) : Bool :=
  argsCommon a && argsData maxData a && !(a.usi ≤ usiChannel && a.addValue != 0)

/-- The data copied by `memcpy`. -/
def copyData (a : Args) : List Nat := (a.data.getD []).take a.dataLen

/-- The item written by pf_diag_add (src/device/pf_diag.c:283-583) (src/device/pf_diag.c:440-498). -/
def fillItem (a : Args) : Fmt :=
  if a.usi < usiChannel then .manuf (copyData a)
  else .std ⟨a.chan, a.typ, a.maint, specAppears, a.addValue, maskQual a.qualifier⟩

/-- Linking an item into the list (src/device/pf_diag.c:501-502, 706-707), with its new contents. -/
def link (st : St) (p : Place) (s : Subslot) (ix usi : Nat) (f : Fmt) : St :=
  setSub { st with items := st.items.modify ix (fun it =>
      { it with usi := usi, fmt := f, next := s.head }) } p { s with head := ix }

/-- End of add and update: summary, and for an owned submodule alarms and indicator.  The flag is
`ret == 0`, `alarm` the result of the last alarm sent. -/
def finish (st : St) (p : Place) (alarm : Bool) : Option (St × Bool) :=
  (updateSummary st p).bind fun st1 =>
    match (st1.subs p).bind Subslot.owner with
    | none => some (st1, false)
    | some ar => (updateIndicator st1 ar p).map fun st2 => (st2, alarm)

/-- pf_diag_add (src/device/pf_diag.c:283-583) -/
def add (maxData : Nat) (st : St) (a : Args) (alarm : Bool) : Option (St × Bool) :=
  if !argsAdd maxData a then some (st, false)
  else
    match st.subs a.place with
    | none => some (st, false)
    | some s =>
      (findEntry st a.place s a.chan a.usi).bind fun r =>
        (match r.2 with
         | some ix => some (r.1, some ix)
         | none => newDiag r.1).bind fun q =>
          match q.2 with
          | none => some (q.1, false)
          | some ix =>
            match q.1.subs a.place with
            | none => none
            | some s1 => finish (link q.1 a.place s1 ix a.usi (fillItem a)) a.place alarm

/-- The contents written by pf_diag_update (src/device/pf_diag.c:585-773) (src/device/pf_diag.c:687-703). -/
def updItem (a : Args) (it : Item) : Fmt :=
  if it.usi < usiChannel then .manuf (copyData a)
  else
    match it.fmt with
    | .std s => .std { s with spec := specAppears, addValue := a.addValue }
    | .manuf d => .manuf d

/-- pf_diag_update (src/device/pf_diag.c:585-773) -/
def update (maxData : Nat) (st : St) (a : Args) (alarm : Bool) : Option (St × Bool) :=
  if !argsUpdate maxData a then some (st, false)
  else
    match st.subs a.place with
    | none => some (st, false)
    | some s =>
      (findEntry st a.place s a.chan a.usi).bind fun r =>
        match r.2 with
        | none => some (r.1, false)
        | some ix =>
          match r.1.items[ix]?, r.1.subs a.place with
          | some it, some s1 =>
            finish (link r.1 a.place s1 ix it.usi (updItem a it)) a.place alarm
          | _, _ => none

/-- pf_diag_remove (src/device/pf_diag.c:775-934).  The changes made to the item before the alarm is sent are left out: the item is
freed right after. -/
def remove (st : St) (a : Args) (alarm : Bool) : Option (St × Bool) :=
  if !argsCommon a then some (st, false)
  else
    match st.subs a.place with
    | none => some (st, false)
    | some s =>
      (findEntry st a.place s a.chan a.usi).bind fun r =>
        match r.2 with
        | none => some (r.1, false)
        | some ix =>
          (updateSummary r.1 a.place).bind fun st1 =>
            let st2 := freeDiag st1 ix
            match s.owner with
            | none => some (st2, false)
            | some ar => (updateIndicator st2 ar a.place).map fun st3 => (st3, alarm)

/-! ## Histories -/

/-- Diagnosis calls of the application, plugging and pulling of submodules, changes of
ownership. -/
inductive Op where
  | add (a : Args) (alarm : Bool)
  | update (a : Args) (alarm : Bool)
  | remove (a : Args) (alarm : Bool)
  | plug (p : Place) (owner : Option Nat)
  | pull (p : Place)
  | own (p : Place) (owner : Option Nat)

/-- The new submodule has an empty list (pf_cmdev_new_subslot (src/device/pf_cmdev.c:527-573)); pulling does not touch the list
(pf_cmdev_pull_submodule (src/device/pf_cmdev.c:631-685)). -/
def step (maxData : Nat) (st : St) : Op → Option (St × Bool)
  | .add a al => add maxData st a al
  | .update a al => update maxData st a al
  | .remove a al => remove st a al
  | .plug p o =>
    match st.subs p with
    | some _ => some (st, false)
    | none => some (setSub st p ⟨nul, o, ⟨false, false, false⟩⟩, true)
  | .pull p => some ({ st with subs := fun q => if q = p then none else st.subs q }, true)
  | .own p o =>
    match st.subs p with
    | none => some (st, false)
    | some s => some (setSub st p { s with owner := o }, true)

def exec (maxData : Nat) : St → List Op → Option St
  | st, [] => some st
  | st, o :: os => (step maxData st o).bind fun r => exec maxData r.1 os

end Verif.Diag
