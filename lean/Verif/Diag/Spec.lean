import Verif.Diag.Model

/-!
Specification of the diagnosis store: a map per submodule, and a number of free places.
-/
set_option linter.unusedVariables false

namespace Verif.Diag

/-- A diagnosis is identified within its submodule by channel, grouping, direction and error types
(standard format), or by its user structure identifier (manufacturer format). -/
inductive Key where
  | std (c : Chan)
  | manuf (usi : Nat)
deriving DecidableEq

/-- The rest of a diagnosis. -/
inductive Val where
  | std (usi typ maint addValue qualifier : Nat)
  | manuf (data : List Nat)
deriving DecidableEq

/-- Identification of the diagnosis a call is about. -/
def Args.key (a : Args) : Key := if a.usi < 0x8000 then .manuf a.usi else .std a.chan

/-- The diagnosis an add call asks for.  The three lowest bits of the qualifier are reserved. -/
def Args.val (a : Args) : Val :=
  if a.usi < 0x8000 then .manuf ((a.data.getD []).take a.dataLen)
  else .std a.usi a.typ a.maint a.addValue (a.qualifier / 8 * 8)

/-- What an update call changes: manufacturer data or additional value. -/
def Args.change (a : Args) : Val → Val
  | .std u t m _ q => .std u t m a.addValue q
  | .manuf _ => .manuf ((a.data.getD []).take a.dataLen)

/-- The identifier is one of the three standard formats or a manufacturer format, types that the
format does not have are zero, and the channel exists. -/
def Args.Valid (a : Args) : Prop :=
  a.chan.ch ≤ 0x8000 ∧
  ((a.usi < 0x8000 ∧ a.chan.err = 0 ∧ a.chan.ext = 0) ∨ (a.usi = 0x8000 ∧ a.chan.ext = 0) ∨
   a.usi = 0x8002 ∨ a.usi = 0x8003)

/-- Manufacturer data is given only in manufacturer format and fits. -/
def Args.ValidData (maxData : Nat) (a : Args) : Prop :=
  a.dataLen ≤ maxData ∧ (a.data = none → a.dataLen = 0) ∧
  (0x8000 ≤ a.usi → a.data = none) ∧ (a.usi ≤ 0x8000 → a.addValue = 0)

/-- Qualified severity and qualifier go with the qualified format only. -/
def Args.ValidSeverity (a : Args) : Prop :=
  (a.usi ≠ 0x8003 → a.maint ≠ 3) ∧ (a.maint ≠ 3 → a.qualifier / 8 = 0)

/-- The abstract store. -/
structure Spec where
  plugged : Place → Bool
  ent : Place → Key → Option Val
  /-- Number of diagnoses that can still be added. -/
  room : Nat

def Spec.put (sp : Spec) (p : Place) (k : Key) (v : Option Val) : Spec :=
  { sp with ent := fun q k' => if q = p ∧ k' = k then v else sp.ent q k' }

/-- Initially nothing is plugged and there is room for `n` diagnoses. -/
def Spec.init (n : Nat) : Spec := ⟨fun _ => false, fun _ _ => none, n⟩

open Classical in
/-- What each call does.  Pulling a submodule removes its diagnoses but does not give the room back. -/
noncomputable def Spec.step (maxData : Nat) (sp : Spec) : Op → Spec
  | .add a _ =>
    if sp.plugged a.place = true ∧ a.Valid ∧ a.ValidData maxData ∧ a.ValidSeverity then
      if (sp.ent a.place a.key).isSome then sp.put a.place a.key (some a.val)
      else if sp.room = 0 then sp
      else { sp.put a.place a.key (some a.val) with room := sp.room - 1 }
    else sp
  | .update a _ =>
    if sp.plugged a.place = true ∧ a.Valid ∧ a.ValidData maxData then
      sp.put a.place a.key ((sp.ent a.place a.key).map a.change)
    else sp
  | .remove a _ =>
    if sp.plugged a.place = true ∧ a.Valid ∧ (sp.ent a.place a.key).isSome then
      { sp.put a.place a.key none with room := sp.room + 1 }
    else sp
  | .plug p _ => { sp with plugged := fun q => if q = p then true else sp.plugged q }
  | .pull p =>
    { sp with plugged := fun q => if q = p then false else sp.plugged q
              ent := fun q k => if q = p then none else sp.ent q k }
  | .own _ _ => sp

noncomputable def Spec.exec (maxData : Nat) : Spec → List Op → Spec
  | sp, [] => sp
  | sp, o :: os => Spec.exec maxData (sp.step maxData o) os

/-! ## What can be seen of the implementation -/

/-- The diagnoses of a submodule as found by following its list: identifier and contents. -/
def listing (st : St) (p : Place) : List (Nat × Fmt) :=
  match st.subs p with
  | none => []
  | some s => ((st.walk s.head).getD []).filterMap (fun i => (st.items[i]?).map (fun it => (it.usi, it.fmt)))

/-- Indices of the items in the list of a submodule. -/
def indices (st : St) (p : Place) : List Nat :=
  match st.subs p with
  | none => []
  | some s => (st.walk s.head).getD []

/-- Indices of the free items. -/
def freeIndices (st : St) : List Nat := (st.walk st.free).getD []

def keyOf (e : Nat × Fmt) : Key :=
  match e with
  | (usi, .std s) => .std s.chan
  | (usi, .manuf _) => .manuf usi

def valOf (e : Nat × Fmt) : Val :=
  match e with
  | (usi, .std s) => .std usi s.typ s.maint s.addValue s.qualifier
  | (_, .manuf d) => .manuf d

/-- The diagnosis a list holds for a key. -/
def look (l : List (Nat × Fmt)) (k : Key) : Option Val := (l.find? (fun e => keyOf e == k)).map valOf

/-- The implementation seen as an abstract store. -/
def view (st : St) : Spec :=
  ⟨fun p => (st.subs p).isSome, fun p k => look (listing st p) k, (freeIndices st).length⟩

/-! ## Severity -/

/-- A diagnosis of severity fault: any manufacturer diagnosis, severity fault, or a qualified severity
with a fault bit. -/
def Val.Fault : Val → Prop
  | .manuf _ => True
  | .std _ _ m _ q => m = 0 ∨ (m = 3 ∧ q / 2 ^ 27 % 32 ≠ 0)

def Val.Demanded : Val → Prop
  | .manuf _ => False
  | .std _ _ m _ q => m = 2 ∨ (m = 3 ∧ q / 2 ^ 17 % 1024 ≠ 0)

def Val.Required : Val → Prop
  | .manuf _ => False
  | .std _ _ m _ q => m = 1 ∨ (m = 3 ∧ q / 2 ^ 7 % 1024 ≠ 0)

/-- Error type 0 is reserved: no standard diagnosis is added with it. -/
def Op.TypeGiven : Op → Prop
  | .add a _ => 0x8000 ≤ a.usi → a.chan.err ≠ 0
  | _ => True

/-- The step pulls nothing. -/
def Op.NoPull : Op → Prop
  | .pull _ => False
  | _ => True

end Verif.Diag
