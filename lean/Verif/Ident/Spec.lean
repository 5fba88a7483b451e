import Verif.Ident.Model
import Verif.DiagRead.Emit
import Verif.Device.Slots
import Verif.Wire.Codec

/-! Specification of the identification records. -/
set_option linter.unusedVariables false

namespace Verif.Ident
open Verif.Device hiding St view step exec listing Inv Op init
open Verif.Wire hiding ExpApi ExpMod ExpSub
open Verif.DiagRead hiding readIndex

/-! ## Contents and encoding -/

/-- A configuration: APIs, each with slots and modules, each with subslots and submodules. -/
abbrev Tree := List (Nat × List (Nat × Nat × List (Nat × Nat)))

/-- Number of submodules, then subslot number and submodule identity of each. -/
def encSubs (l : List (Nat × Nat)) : List Byte :=
  enc16 true (BitVec.ofNat 16 l.length) ++
    l.flatMap (fun p => enc16 true (BitVec.ofNat 16 p.1) ++ enc32 true (BitVec.ofNat 32 p.2))

/-- Number of modules, then slot number, module identity and submodules of each. -/
def encSlots (l : List (Nat × Nat × List (Nat × Nat))) : List Byte :=
  enc16 true (BitVec.ofNat 16 l.length) ++
    l.flatMap (fun p => enc16 true (BitVec.ofNat 16 p.1) ++ enc32 true (BitVec.ofNat 32 p.2.1) ++ encSubs p.2.2)

/-- Number of APIs, then API and modules of each. -/
def encApis (l : Tree) : List Byte :=
  enc16 true (BitVec.ofNat 16 l.length) ++ l.flatMap (fun p => enc32 true (BitVec.ofNat 32 p.1) ++ encSlots p.2)

/-- A block of version 1.`vl`. -/
def encBlock (t : U16) (vl : Byte) (body : List Byte) : List Byte :=
  encBlockHeader true ⟨t, BitVec.ofNat 16 (body.length + 2), 1, vl⟩ ++ body

/-! ## Real identification -/

/-- A part of the possible places. -/
structure Part where
  api : Nat → Prop
  slot : Nat → Nat → Prop
  sub : Nat → Nat → Nat → Prop

/-- `T` has every known API, every plugged module and every plugged submodule of the part, once, and nothing else. -/
def Describes (v : View) (q : Part) (T : Tree) : Prop :=
  ((T.map (·.1)).Nodup ∧ ∀ a, a ∈ T.map (·.1) ↔ v.known a = true ∧ q.api a) ∧
  ∀ a L, (a, L) ∈ T →
    ((L.map (·.1)).Nodup ∧ ∀ s m, (∃ B, (s, m, B) ∈ L) ↔ v.mods a s = some m ∧ q.slot a s) ∧
    ∀ s m B, (s, m, B) ∈ L →
      (B.map (·.1)).Nodup ∧ ∀ ss i, (ss, i) ∈ B ↔ (v.subs a s ss).map (·.1) = some i ∧ q.sub a s ss

/-- What each scope is about; `e` is the expected configuration of the connection. -/
def partOf (e : List ExpApi) : Scope → Part
  | .subslot a s ss => ⟨fun a' => a' = a, fun _ s' => s' = s, fun _ _ ss' => ss' = ss⟩
  | .slot a s => ⟨fun a' => a' = a, fun _ s' => s' = s, fun _ _ _ => True⟩
  | .api a => ⟨fun a' => a' = a, fun _ _ => True, fun _ _ _ => True⟩
  | .device => ⟨fun _ => True, fun _ _ => True, fun _ _ _ => True⟩
  | .ar =>
    ⟨fun a => ∃ x ∈ e, x.api = a,
     fun a s => ∃ x ∈ e, x.api = a ∧ ∃ m ∈ x.mods, m.slot = s,
     fun a s ss => ∃ x ∈ e, x.api = a ∧ ∃ m ∈ x.mods, m.slot = s ∧ ∃ z ∈ m.subs, z.number = ss⟩

/-- What is asked for exists. -/
def Present (v : View) : Scope → Prop
  | .subslot a s ss => v.subs a s ss ≠ none
  | .slot a s => v.mods a s ≠ none
  | .api a => v.known a = true
  | _ => True

/-! ## Expected identification -/

/-- The expected configuration as contents of a record. -/
def treeOf (e : List ExpApi) : Tree :=
  e.map (fun x => (x.api, x.mods.map (fun m => (m.slot, m.ident, m.subs.map (fun z => (z.number, z.ident))))))

/-- `T` has what is expected in the scope: everything; the slot with all submodules; the slot with one submodule;
nothing if it is not expected. -/
def Expects (e : List ExpApi) (sc : Scope) (T : Tree) : Prop :=
  match sc with
  | .ar => T = treeOf e
  | .slot a s =>
    (∃ m B L, (a, L) ∈ treeOf e ∧ (s, m, B) ∈ L ∧ T = [(a, [(s, m, B)])]) ∨
    ((∀ m B L, ¬ ((a, L) ∈ treeOf e ∧ (s, m, B) ∈ L)) ∧ T = [])
  | .subslot a s ss =>
    (∃ m i B L, (a, L) ∈ treeOf e ∧ (s, m, B) ∈ L ∧ (ss, i) ∈ B ∧ T = [(a, [(s, m, [(ss, i)])])]) ∨
    ((∀ m i B L, ¬ ((a, L) ∈ treeOf e ∧ (s, m, B) ∈ L ∧ (ss, i) ∈ B)) ∧ T = [])
  | _ => False

/-! ## Answers -/

/-- The record with this index is read, and the answer is `bs`: the writer ends, changes nothing but the free part
of the buffer, and adds exactly these bytes if there is room for them. -/
def Answers (d : Dev) (ar : Option Conn) (a s ss idx : Nat) (bs : List Byte) : Prop :=
  ∃ p, readIndex d ar a s ss idx = some p ∧ Emits p bs

end Verif.Ident
