import Verif.DiagRead.Model
import Verif.Diag.Spec
import Verif.Device.Slots
import Verif.Wire.Codec

/-! Specification of the answers to diagnosis read requests. -/
set_option linter.unusedVariables false

namespace Verif.DiagRead
open Verif.Diag
open Verif.Device hiding St view step exec listing Inv Op init
open Verif.Wire hiding ExpApi ExpMod ExpSub

/-! ## Encoding -/

/-- Channel properties on the wire: type (bits 0-7), accumulative (8), severity (9-10), specifier (11-12),
direction (13-15). -/
def encProps (s : Std) : U16 :=
  BitVec.ofNat 16 (s.typ + (if s.chan.group then 256 else 0) + s.maint * 512 + s.spec * 2048 + s.chan.dir * 8192)

/-- A stored diagnosis on the wire: channel, properties and error type; in the extended and qualified formats
extended error type and additional value as well; in the qualified format the qualifier as well; or the
manufacturer data. -/
def encEntry : Nat × Fmt → List Byte
  | (u, .std s) =>
    enc16 true (BitVec.ofNat 16 s.chan.ch) ++ enc16 true (encProps s) ++ enc16 true (BitVec.ofNat 16 s.chan.err) ++
    (if u = 0x8000 then [] else
      enc16 true (BitVec.ofNat 16 s.chan.ext) ++ enc32 true (BitVec.ofNat 32 s.addValue)) ++
    (if u = 0x8003 then enc32 true (BitVec.ofNat 32 s.qualifier) else [])
  | (_, .manuf d) => d.map (BitVec.ofNat 8)

/-- A block with all reported diagnoses of one submodule that have the same identifier. -/
def encDiag (p : Place) (u : Nat) (l : List (Nat × Fmt)) : List Byte :=
  let body := enc32 true (BitVec.ofNat 32 p.1) ++ enc16 true (BitVec.ofNat 16 p.2.1) ++
    enc16 true (BitVec.ofNat 16 p.2.2) ++ enc16 true 0x8000 ++ enc16 true 0x0800 ++ enc16 true (BitVec.ofNat 16 u) ++
    l.flatMap encEntry
  encBlockHeader true ⟨0x0010, BitVec.ofNat 16 (body.length + 2), 1, 1⟩ ++ body

/-! ## What is to be reported -/

/-- Severity of a diagnosis in standard format. -/
def severity : Fmt → Option Nat
  | .std s => some s.maint
  | .manuf _ => none

/-- The diagnoses a filter lets through. -/
def Shown (f : Filter) (e : Nat × Fmt) : Prop :=
  match f with
  | .faultStd => severity e.2 ≠ none
  | .faultAll => severity e.2 = none ∨ severity e.2 = some 0
  | .all => True
  | .mReq => severity e.2 = none ∨ severity e.2 = some 1
  | .mDem => severity e.2 = none ∨ severity e.2 = some 2

instance (f : Filter) (e : Nat × Fmt) : Decidable (Shown f e) := by
  unfold Shown
  cases f <;> exact inferInstance

/-- `bs` reports the diagnoses `l` of the submodule at `p`: one block per identifier, in ascending order, with
the diagnoses that pass the filter.  There is no block for identifier 0, and none if its diagnoses have no
contents. -/
def Reports (f : Filter) (p : Place) (l : List (Nat × Fmt)) (bs : List Byte) : Prop :=
  ∃ us : List Nat, us.Pairwise (· < ·) ∧
    (∀ u, u ∈ us ↔ u ≠ 0 ∧ ∃ e ∈ l, e.1 = u ∧ Shown f e ∧ encEntry e ≠ []) ∧
    bs = us.flatMap (fun u => encDiag p u (l.filter (fun e => decide (e.1 = u) && decide (Shown f e))))

/-! ## Where -/

/-- What the read request is about. -/
inductive Scope where
  | subslot (a s ss : Nat)
  | slot (a s : Nat)
  | ar
  | api (a : Nat)
  | device

/-- Module and submodule plugged at a place. -/
def Plugged (d : Dev) (p : Place) (m sm : Nat) : Prop :=
  ∃ y z, getSlot d p.1 p.2.1 = some y ∧ getSub d p.1 p.2.1 p.2.2 = some z ∧ y.ident = m ∧ z.ident = sm

/-- Module and submodule the connection expects at a place. -/
def Expected (e : List ExpApi) (p : Place) (m sm : Nat) : Prop :=
  ∃ y z, expMod e p.1 p.2.1 = some y ∧ expSub e p.1 p.2.1 p.2.2 = some z ∧ y.ident = m ∧ z.ident = sm

/-- The submodule at `p` is in the scope of a read on a connection with expected configuration `ar`. -/
def InScope (d : Dev) (ar : Option (List ExpApi)) (sc : Scope) (p : Place) : Prop :=
  match sc with
  | .subslot a s ss => p = (a, s, ss) ∧ ∃ m sm, Plugged d p m sm ∧
      ∀ e, ar = some e → ∀ m' sm', Expected e p m' sm' → m' = m ∧ sm' = sm
  | .slot a s => p.1 = a ∧ p.2.1 = s ∧ ∃ m sm, Plugged d p m sm ∧
      ∀ e, ar = some e → expMod e a s ≠ none → Expected e p m sm
  | .ar => ∃ e m sm, ar = some e ∧ Plugged d p m sm ∧ Expected e p m sm
  | .api a => p.1 = a ∧ ∃ m sm, Plugged d p m sm
  | .device => ∃ m sm, Plugged d p m sm

/-- No API, slot or subslot is expected twice. -/
def NoDuplicates (e : List ExpApi) : Prop :=
  (e.map (·.api)).Nodup ∧ ∀ x ∈ e, (x.mods.map (·.slot)).Nodup ∧ ∀ y ∈ x.mods, (y.subs.map (·.number)).Nodup

/-! ## Index -/

/-- Scopes by the upper digits of the index. -/
def scopes (a s ss : Nat) : List (Nat × Scope) :=
  [(0x8000, .subslot a s ss), (0xC000, .slot a s), (0xE000, .ar), (0xF000, .api a)]

/-- Filters by the lower digits of the index: diagnosis in channel format, in all formats, everything,
maintenance required and maintenance demanded (channel and all formats). -/
def filters : List (Nat × Filter) :=
  [(0x0A, .faultStd), (0x0B, .faultAll), (0x0C, .all), (0x10, .mReq), (0x11, .mDem), (0x12, .mReq), (0x13, .mDem)]

/-- The index asks for the diagnoses in this scope that pass this filter. -/
def Asks (a s ss idx : Nat) (sc : Scope) (f : Filter) : Prop :=
  (∃ b o, (b, sc) ∈ scopes a s ss ∧ (o, f) ∈ filters ∧ idx = b + o) ∨ (idx = 0xF80C ∧ sc = .device ∧ f = .all)

end Verif.DiagRead
