import Verif.Records.Ends
import Verif.Read.Props

/-! Properties of the records about cyclic data, connections and the physical device. -/
set_option linter.unusedVariables false
set_option linter.unusedSimpArgs false

namespace Verif.Records
open Verif.Wire hiding ExpApi ExpMod ExpSub bit
open Verif.DiagRead (n16 n32 each skip Holds)
open Verif.Read (Rec Ready Appends Within Env Fit Requests CarriedOut readInd encAnswer saysInvalidIndex Result Makes)

attribute [local irreducible] n16 n32 putBlockHeader enc16 enc32 encBlockHeader encAnswer encUuid num16 num32 encBlock putDevice encDevice

variable {A : Type}

/-! ## C94 -/

theorem subslotPort_names {ports : List Port} {q : ReadReq} {n : Nat} {p : Port} (h : Names ports q n p) :
    Pdport.subslotPort ports.length q.subslot = n := by
  obtain ⟨_, h1, h2, h3⟩ := h
  have hl := (List.getElem?_eq_some_iff.1 h2).1
  unfold Pdport.subslotPort Pdport.isValid
  simp only [h3]
  split
  · omega
  · rename_i hn; exfalso; simp at hn; omega

theorem names_subslotPort {ports : List Port} {q : ReadReq} (hs : q.slot = 0) (h : Pdport.subslotPort ports.length q.subslot ≠ 0) :
    ∃ p, Names ports q (Pdport.subslotPort ports.length q.subslot) p := by
  unfold Pdport.subslotPort Pdport.isValid at h ⊢
  simp only at h ⊢
  split at h
  · rename_i hv
    simp at hv
    rw [if_pos (by simp; omega)]
    refine ⟨ports[(1 + (q.subslot.toNat : Int) - 0x8001).toNat - 1]'(by omega), hs, by omega, ?_, by omega⟩
    exact List.getElem?_eq_getElem _
  · exact absurd rfl h

/-- The record as it is built. -/
theorem physical_builds {i : Iface} {ports : List Port} {q : ReadReq} {bs : List Byte} (hn : ports.length ≤ 0x7000)
    (h : Physical i ports q bs) : ∃ rec, readPhysical i ports q = some rec ∧
      ∀ x, Ready x → x.pos + bs.length ≤ x.cap → ∃ x', rec x = some (true, x') ∧ Appends x x' bs := by
  have conv : ∀ {p : W} {bs : List Byte}, Puts p bs → ∀ x, Ready x → x.pos + bs.length ≤ x.cap →
      ∃ x', (p x).map (fun y => (true, y)) = some (true, x') ∧ Appends x x' bs := by
    intro p bs hp x hx hr
    obtain ⟨x', e, h⟩ := appends_of_wat (hp x.pos) hx rfl hr
    exact ⟨x', by rw [e]; rfl, h⟩
  unfold readPhysical
  cases h with
  | @port n p hi hna =>
    have hp := subslotPort_names hna
    simp only [hi, if_true, hp]
    refine ⟨_, rfl, ?_⟩
    intro x hx hr
    rw [if_pos ⟨hna.1, by have := hna.2.1; omega⟩, hna.2.2.1, Option.bind_some]
    exact conv (puts_port _ p) x hx hr
  | iface hi hna =>
    simp [hi]
    intro x hx hr
    obtain ⟨ha, hb⟩ := hna
    rw [if_pos (show q.slot = 0#16 ∧ q.subslot = 32768#16 from ⟨ha, hb⟩)]
    exact conv (puts_iface i) x hx hr
  | @portStats n p s hi hna hst =>
    have hp := subslotPort_names hna
    simp [hi, hp]
    intro x hx hr
    have : n ≠ 0 := by have := hna.2.1; omega
    rw [if_pos ⟨hna.1, Or.inr this⟩, if_neg this, hna.2.2.1]
    simp [hst]
    simpa using conv (puts_stats s) x hx hr
  | @ifaceStats s hi hna hst =>
    have hp : Pdport.subslotPort ports.length q.subslot = 0 := by
      unfold Pdport.subslotPort Pdport.isValid
      rw [hna.2]
      rfl
    simp [hi, hp]
    intro x hx hr
    rw [if_pos ⟨hna.1, hna.2⟩]
    simp [hst]
    simpa using conv (puts_stats s) x hx hr
  | device hi =>
    simp [hi]
    simpa using conv (puts_device q.api i ports hn)
  | expected hi =>
    simp [hi]
    intro x hx hr
    exact Read.appends_nil x

/-- C94.  A read that refers to a record of the physical device, with room for it in the response: the answer carries
exactly this record, and the status is unchanged. -/
theorem C94_physical_record {e : Env A} {implicit : Bool} {ndr : Ndr} {res : Result} {r : Rd} {w : Wr} {q : ReadReq} {ar : Option A}
    {i : Iface} {ports : List Port} {bs : List Byte} (hr : Fit r) (hw : Ready w) (hq : Requests ndr r q)
    (hs : res.status.code = 0) (hc : CarriedOut e implicit q ar) (hst : e.stock ar q = readPhysical i ports q)
    (hn : ports.length ≤ 0x7000) (hp : Physical i ports q bs) (hroom : w.pos + 84 + bs.length ≤ w.cap) :
    ∃ w', readInd e implicit ndr res r w = some (w', res, []) ∧ Appends w w' (encAnswer ndr q res bs) := by
  obtain ⟨rec, hrec, hb⟩ := physical_builds hn hp
  have hi : 0x7FFF < q.index.toNat := by
    cases hp with
    | port h => rw [h]; decide
    | iface h => rw [h]; decide
    | portStats h => rw [h]; decide
    | ifaceStats h => rw [h]; decide
    | device h => rw [h]; decide
    | expected h => rw [h]; decide
  obtain ⟨w', res', e1, rfl, h1⟩ := answer_with_room hr hw hq hs hc hi (hst.trans hrec) hroom
    (fun x hx hcx hpx => hb x hx (by omega))
  exact ⟨w', e1, h1⟩

/-- C94.  A read with one of these indices that refers to no such record (no such port, not the interface, no statistics): the
answer says "invalid index" and carries an empty record, and nothing else is changed. -/
theorem C94_no_record {e : Env A} {implicit : Bool} {ndr : Ndr} {res : Result} {r : Rd} {w : Wr} {q : ReadReq} {ar : Option A}
    {i : Iface} {ports : List Port} (hr : Fit r) (hw : Ready w) (hq : Requests ndr r q)
    (hs : res.status.code = 0) (hc : CarriedOut e implicit q ar) (hst : e.stock ar q = readPhysical i ports q)
    (hi : IsPhysical q.index) (hp : ∀ bs, ¬ Physical i ports q bs) :
    ∃ w' res', readInd e implicit ndr res r w = some (w', res', []) ∧ Within w w' ∧
      (w.pos + 84 ≤ w.cap → res' = { res with status := saysInvalidIndex } ∧ Appends w w' (encAnswer ndr q res' [])) := by
  have hex : ∃ rec, readPhysical i ports q = some rec ∧ Makes rec false [] := by
    have mk : Makes (fun w => some (false, w)) false [] := fun x hx =>
      ⟨false, x, rfl, Read.within_refl hx, fun _ => ⟨rfl, Read.appends_nil x⟩⟩
    have mk' : ∀ {rec : Rec}, (∀ x, rec x = some (false, x)) → Makes rec false [] := by
      intro rec h
      have : rec = fun w => some (false, w) := funext h
      rw [this]; exact mk
    have hidx : q.index = 0x802A ∨ q.index = 0x8080 ∨ q.index = 0x8072 ∨ q.index = 0xF841 ∨ q.index = 0xF842 := by
      unfold IsPhysical at hi
      simp only [List.mem_cons, List.not_mem_nil, or_false] at hi
      rcases hi with h | h | h | h | h
      · exact Or.inl (BitVec.eq_of_toNat_eq h)
      · exact Or.inr (Or.inl (BitVec.eq_of_toNat_eq h))
      · exact Or.inr (Or.inr (Or.inl (BitVec.eq_of_toNat_eq h)))
      · exact Or.inr (Or.inr (Or.inr (Or.inl (BitVec.eq_of_toNat_eq h))))
      · exact Or.inr (Or.inr (Or.inr (Or.inr (BitVec.eq_of_toNat_eq h))))
    rcases hidx with h | h | h | h | h
    · unfold readPhysical
      simp only [h, if_true]
      refine ⟨_, rfl, mk' fun x => ?_⟩
      rw [if_neg]
      rintro ⟨a, b⟩
      obtain ⟨p, hn⟩ := names_subslotPort a b
      exact hp _ (.port h hn)
    · unfold readPhysical
      simp [h]
      refine mk' fun x => ?_
      rw [if_neg]
      rintro ⟨a, b⟩
      exact hp _ (.iface h ⟨a, b⟩)
    · unfold readPhysical
      simp [h]
      refine mk' fun x => ?_
      split
      · rename_i hs
        by_cases hz : Pdport.subslotPort ports.length q.subslot = 0
        · have hna : NamesIface q := ⟨hs.1, by rcases hs.2 with h | h; exact h; exact absurd hz h⟩
          rw [if_pos hz]
          cases hst : i.stats with
          | none => rfl
          | some s => exact absurd (Physical.ifaceStats h hna hst) (hp _)
        · obtain ⟨p, hn⟩ := names_subslotPort hs.1 hz
          rw [if_neg hz, hn.2.2.1]
          cases hst : p.stats with
          | none => simp [hst]
          | some s => exact absurd (Physical.portStats h hn hst) (hp _)
      · rfl
    · exact absurd (Physical.device h) (hp _)
    · exact absurd (Physical.expected h) (hp _)
  obtain ⟨rec, hrec, hm⟩ := hex
  have hi' : 0x7FFF < q.index.toNat := by
    unfold IsPhysical at hi
    simp only [List.mem_cons, List.not_mem_nil, or_false] at hi
    omega
  obtain ⟨w', res', e1, h1, h2⟩ := Read.C91_read_answer hr hw hq hs hc hi' (hst.trans hrec) hm
  refine ⟨w', res', e1, h1, fun hroom => ?_⟩
  simpa using h2 (by simpa using hroom)

/-! ## C95 -/

/-- C95.  Reading the record of the interface never ends exactly if, with `k` bytes of room behind the 84 bytes that precede the
record: the padding behind the station name (which is left out if there is no room for it) does not fit.  For example
with 1, 2, 3, 5 or 6 bytes. -/
theorem C95_interface_never_ends_iff {e : Env A} {implicit : Bool} {ndr : Ndr} {res : Result} {r : Rd} {w : Wr} {q : ReadReq}
    {ar : Option A} {i : Iface} {ports : List Port} (hr : Fit r) (hw : Ready w) (hq : Requests ndr r q)
    (hs : res.status.code = 0) (hc : CarriedOut e implicit q ar) (hst : e.stock ar q = readPhysical i ports q)
    (hi : q.index = 0x8080) (hn : NamesIface q) {k : Nat} (hk : k = w.cap - (w.pos + 84)) :
    readInd e implicit ndr res r w = none ↔
      k ∈ [1, 2, 3, 5, 6] ∨ (k = 7 ∧ 0 < i.name.length) ∨ (7 + i.name.length ≤ k ∧ k < (i.name.length + 10) / 4 * 4) := by
  have hrec : e.stock ar q = some (fun w => (putIfaceReal i w).map fun x => (true, x)) := by
    rw [hst]
    unfold readPhysical
    simp [hi]
    funext x
    rw [if_pos ⟨hn.1, hn.2⟩]
  obtain ⟨x, hx, hcx, hpx, hnone, hsome⟩ := readInd_at hr hw hq hs hc (by rw [hi]; decide) hrec
  have harith : (x.cap - x.pos < up4 (if 7 + i.name.length ≤ x.cap - x.pos then 7 + i.name.length else min (x.cap - x.pos) 7)) ↔
      (k ∈ [1, 2, 3, 5, 6] ∨ (k = 7 ∧ 0 < i.name.length) ∨ (7 + i.name.length ≤ k ∧ k < (i.name.length + 10) / 4 * 4)) := by
    have hkx : x.cap - x.pos = k := by have := hw.2.2; omega
    rw [hkx]
    unfold up4
    simp only [List.mem_cons, List.not_mem_nil, or_false]
    split <;> omega
  rw [← harith, ← iface_none_iff i hx]
  constructor
  · intro h
    cases c : putIfaceReal i x with
    | none => rfl
    | some x' =>
      exfalso
      have hwi : Within x x' := by
        have hnn : ¬ (x.cap - x.pos < up4 (if 7 + i.name.length ≤ x.cap - x.pos then 7 + i.name.length else min (x.cap - x.pos) 7)) := by
          rw [← iface_none_iff i hx, c]; simp
        exact iface_within i hx c
      obtain ⟨w', res', e1, _⟩ := hsome true x' (by rw [c]; rfl) hwi
      rw [e1] at h
      cases h
  · intro h
    exact hnone (by rw [h]; rfl)

/-- C95.  The claim that every read ends is false: a single request without a connection, to any device (`i`, `ports`), with
a maximum response of 65 bytes (one byte behind the block that precedes the record), is never answered.  The request is
received at position 100 of the message, and the response begins at 80 with the data behind the RPC header. -/
theorem C95_every_read_ends_false (i : Iface) (ports : List Port) {e : Env A} {ndr : Ndr} {r : Rd} {w : Wr} {q : ReadReq} {buffer : Nat}
    (hr : Fit r) (hw : Ready w) (hq : Requests ndr r q) (hc : CarriedOut e true q none)
    (hst : e.stock none q = readPhysical i ports q) (hi : q.index = 0x8080) (hn : NamesIface q)
    (hp : w.pos = 80) (hmax : ndr.argsMax = 65) (hb : 165 ≤ buffer) (hcap : w.cap = rspSize 100 ndr.argsMax buffer) :
    readInd e true ndr Read.noResult r w = none := by
  have hcap' : w.cap = 165 := by
    rw [hcap, hmax]
    unfold rspSize
    show (if 165 > buffer then buffer else 165) = 165
    rw [if_neg (by omega)]
  rw [C95_interface_never_ends_iff hr hw hq rfl hc hst hi hn (k := 1) (by omega)]
  exact Or.inl (by decide)

/-- C95.  The list of the connections: never ends if there is a connection in it, and the response ends within the fixed
part of the first connection, and not at a multiple of four bytes. -/
theorem C95_connections_never_end {e : Env A} {implicit : Bool} {ndr : Ndr} {res : Result} {r : Rd} {w : Wr} {q : ReadReq}
    {ar : Option A} {ars : List Ar} {own : Option Ar} (hr : Fit r) (hw : Ready w) (hq : Requests ndr r q)
    (hs : res.status.code = 0) (hc : CarriedOut e implicit q ar) (hst : e.stock ar q = readArs ars own q)
    (hi : q.index = 0xF820) (hsound : ∀ a ∈ ars, Sound a) (hex : ∃ a ∈ ars, a.uuid.d1 ≠ 0 ∧ a.objUuid.d1 ≠ 0)
    (h1 : w.pos + 84 ≤ w.cap) (h2 : w.cap ≤ w.pos + 84 + 74) (h4 : w.cap % 4 ≠ 0) :
    readInd e implicit ndr res r w = none := by
  have hrec : e.stock ar q = some (fun w => (putArData ars none 0 w).map fun x => (true, x)) := by
    rw [hst]
    unfold readArs
    simp [hi]
  obtain ⟨x, hx, hcx, hpx, hnone, _⟩ := readInd_at hr hw hq hs hc (by rw [hi]; decide) hrec
  refine hnone ?_
  obtain ⟨a, ha, hd⟩ := hex
  rw [arData_none ?_ ?_ hx (by omega) (by omega)]
  · rfl
  · intro h
    unfold entries at h
    simp only [List.map_eq_nil_iff, List.filter_eq_nil_iff] at h
    exact h a ha (by unfold listed; simpa using hd)
  · intro y hy
    unfold entries at hy
    simp only [List.mem_map, List.mem_filter] at hy
    obtain ⟨b, ⟨hb, _⟩, rfl⟩ := hy
    exact hsound b hb

/-- C95, partial.  What is missing is that other responses end, which is false.  If the response begins and ends at a multiple
of four bytes, the read of a record of the physical device (other than that of all ports together) or of the
connections ends, and nothing outside the free part of the response is changed. -/
theorem C95_reads_end_partial {e : Env A} {implicit : Bool} {ndr : Ndr} {res : Result} {r : Rd} {w : Wr} {q : ReadReq}
    {ar : Option A} {i : Iface} {ports : List Port} {ars : List Ar} {own : Option Ar} (hr : Fit r) (hw : Ready w) (hq : Requests ndr r q)
    (hs : res.status.code = 0) (hc : CarriedOut e implicit q ar)
    (hst : (e.stock ar q = readArs ars own q ∧ q.index.toNat ∈ [0xF020, 0xF820]) ∨
      (e.stock ar q = readPhysical i ports q ∧ q.index.toNat ∈ [0x802A, 0x8072, 0x8080, 0xF842]))
    (h4 : w.pos % 4 = 0) (hc4 : w.cap % 4 = 0) :
    ∃ w' res', readInd e implicit ndr res r w = some (w', res', []) ∧ Within w w' := by
  have hi : 0x7FFF < q.index.toNat := by
    rcases hst with ⟨_, h⟩ | ⟨_, h⟩ <;> (simp only [List.mem_cons, List.not_mem_nil, or_false] at h; omega)
  have hrec : ∃ rec, e.stock ar q = some rec ∧ ∀ x, Ready x → x.cap % 4 = 0 → (x.cap - x.pos) % 4 = 0 →
      ∃ ok x', rec x = some (ok, x') ∧ Within x x' := by
    have lift : ∀ {p : W} {x : Wr}, (∃ x', p x = some x' ∧ Within x x') → ∃ ok x', (p x).map (fun y => (true, y)) = some (ok, x') ∧
        Within x x' := by
      rintro p x ⟨x', e, h⟩
      exact ⟨true, x', by rw [e]; rfl, h⟩
    have stats : ∀ (s : Stats) {x : Wr}, Ready x → (x.cap - x.pos) % 4 = 0 → ∃ x', putStats s x = some x' ∧ Within x x' :=
      fun s x hx h => ends_of (s := x.pos) (wsafe_stats s) x hx (Nat.le_refl _) h
    rcases hst with ⟨h, hx⟩ | ⟨h, hx⟩
    · rw [h]
      simp only [List.mem_cons, List.not_mem_nil, or_false] at hx
      rcases hx with hx | hx
      · have hx : q.index = 0xF020 := BitVec.eq_of_toNat_eq hx
        unfold readArs
        simp only [hx, if_true]
        exact ⟨_, rfl, fun x h1 h2 h3 => lift (ends_arData ars own q.api h1 h2)⟩
      · have hx : q.index = 0xF820 := BitVec.eq_of_toNat_eq hx
        unfold readArs
        rw [hx]
        exact ⟨_, rfl, fun x h1 h2 h3 => lift (ends_arData ars none 0 h1 h2)⟩
    · rw [h]
      simp only [List.mem_cons, List.not_mem_nil, or_false] at hx
      have refl : ∀ {x : Wr} (b : Bool), Ready x → ∃ ok x', some (b, x) = some (ok, x') ∧ Within x x' :=
        fun b hx => ⟨b, _, rfl, Read.within_refl hx⟩
      rcases hx with hx | hx | hx | hx
      · have hx : q.index = 0x802A := BitVec.eq_of_toNat_eq hx
        unfold readPhysical
        simp only [hx, if_true]
        refine ⟨_, rfl, fun x h1 h2 h3 => ?_⟩
        split
        · rename_i hcond
          obtain ⟨p, hn⟩ := names_subslotPort hcond.1 hcond.2
          rw [hn.2.2.1, Option.bind_some]
          exact lift (ends_port _ p h1 h3)
        · exact refl _ h1
      · have hx : q.index = 0x8072 := BitVec.eq_of_toNat_eq hx
        unfold readPhysical
        rw [hx]
        refine ⟨_, rfl, fun x h1 h2 h3 => ?_⟩
        split
        · rename_i hcond
          by_cases hz : Pdport.subslotPort ports.length q.subslot = 0
          · rw [if_pos hz, Option.bind_some]
            cases i.stats with
            | none => exact refl _ h1
            | some s => exact lift (stats s h1 h3)
          · obtain ⟨p, hn⟩ := names_subslotPort hcond.1 hz
            rw [if_neg hz, hn.2.2.1, Option.map_some, Option.bind_some]
            cases p.stats with
            | none => exact refl _ h1
            | some s => exact lift (stats s h1 h3)
        · exact refl _ h1
      · have hx : q.index = 0x8080 := BitVec.eq_of_toNat_eq hx
        unfold readPhysical
        rw [hx]
        refine ⟨_, rfl, fun x h1 h2 h3 => ?_⟩
        split
        · exact lift (ends_iface i h1 h3)
        · exact refl _ h1
      · have hx : q.index = 0xF842 := BitVec.eq_of_toNat_eq hx
        unfold readPhysical
        rw [hx]
        exact ⟨_, rfl, fun x h1 h2 h3 => refl _ h1⟩
  obtain ⟨rec, hrec, hb⟩ := hrec
  obtain ⟨x, hx, hcx, hpx, _, hsome⟩ := readInd_at hr hw hq hs hc hi hrec
  obtain ⟨ok, x', e1, h1⟩ := hb x hx (by rw [hcx]; exact hc4) (by rw [hcx, hpx]; omega)
  exact hsome ok x' e1 h1

/-! ## C96 -/

theorem entries_device (ars : List Ar) (api : U32) :
    entries ars none api = (ars.filter fun a => decide (a.uuid.d1 ≠ 0 ∧ a.objUuid.d1 ≠ 0)).map fun a => (a, none) := rfl

/-- C96.  Reading the connections of the device: the record lists every connection whose identifiers do not begin with zeros, in
order, each with its parameters, names, communication relations and all its APIs. -/
theorem C96_connections_of_device {e : Env A} {implicit : Bool} {ndr : Ndr} {res : Result} {r : Rd} {w : Wr} {q : ReadReq}
    {ar : Option A} {ars : List Ar} {own : Option Ar} (hr : Fit r) (hw : Ready w) (hq : Requests ndr r q)
    (hs : res.status.code = 0) (hc : CarriedOut e implicit q ar) (hst : e.stock ar q = readArs ars own q)
    (hi : q.index = 0xF820) (hsound : ∀ a ∈ ars, Sound a) {bs : List Byte}
    (hbs : bs = encArs ((ars.filter fun a => decide (a.uuid.d1 ≠ 0 ∧ a.objUuid.d1 ≠ 0)).map fun a => encAr a a.apis.length a.apis))
    (h4 : w.pos % 4 = 0) (hroom : w.pos + 84 + bs.length ≤ w.cap) :
    ∃ w', readInd e implicit ndr res r w = some (w', res, []) ∧ Appends w w' (encAnswer ndr q res bs) := by
  have hrec : e.stock ar q = some (fun w => (putArData ars none 0 w).map fun x => (true, x)) := by
    rw [hst]
    unfold readArs
    simp [hi]
  have heq : (((ars.filter fun a => decide (a.uuid.d1 ≠ 0 ∧ a.objUuid.d1 ≠ 0)).map fun a => ((a, none) : Ar × Option U32)).map
      fun x => encAr x.1 x.1.apis.length (shown x.1 x.2)) =
      (ars.filter fun a => decide (a.uuid.d1 ≠ 0 ∧ a.objUuid.d1 ≠ 0)).map fun a => encAr a a.apis.length a.apis := by
    rw [List.map_map]
    refine List.map_congr_left fun a _ => ?_
    simp [shown]
  obtain ⟨w', res', e1, rfl, h1⟩ := answer_with_room (ok := true) hr hw hq hs hc (by rw [hi]; decide) hrec hroom
    (fun x hx hcx hpx => by
      have := arData_spec (w := x) (entries_device ars 0) (by
        intro y hy
        simp only [List.mem_map, List.mem_filter] at hy
        obtain ⟨b, ⟨hb, _⟩, rfl⟩ := hy
        exact hsound b hb) hx (by omega) (by rw [heq, ← hbs]; omega)
      rw [heq, ← hbs] at this
      obtain ⟨x', e, h⟩ := this
      exact ⟨x', by rw [e]; rfl, h⟩)
  exact ⟨w', e1, h1⟩

/-- C96.  The record tells the connections apart: lists of connections (whose identifiers do not begin with zeros) with the
same record are the same, in every field. -/
theorem C96_record_determines_connections {l m : List Ar} (hl : ∀ a ∈ l, Sound a) (hm : ∀ a ∈ m, Sound a)
    (h1 : l.length < 65536) (h2 : m.length < 65536)
    (h : encArs (l.map fun a => encAr a a.apis.length a.apis) = encArs (m.map fun a => encAr a a.apis.length a.apis)) : l = m := by
  unfold encArs at h
  have hb : ∀ {x y : List Byte}, encBlock 0x0018 1 x = encBlock 0x0018 1 y → x = y := by
    intro x y h
    unfold encBlock at h
    rw [List.append_assoc, List.append_assoc, List.append_assoc, List.append_assoc] at h
    have h := List.append_cancel_left h
    have h := (List.append_inj h (by simp [num16_length])).2
    exact List.append_cancel_left h
  by_cases c1 : l = []
  · by_cases c2 : m = []
    · rw [c1, c2]
    · rw [if_pos (by simp [c1]), if_neg (by simp [c2])] at h
      have := congrArg List.length h
      rw [encBlock_length] at this
      simp at this
  · by_cases c2 : m = []
    · rw [if_neg (by simp [c1]), if_pos (by simp [c2])] at h
      have := congrArg List.length h
      rw [encBlock_length] at this
      simp at this
    · rw [if_neg (by simp [c1]), if_neg (by simp [c2])] at h
      have h := hb h
      obtain ⟨ha, hb⟩ := List.append_inj h (by simp [num16_length])
      refine peelArs hl hm ?_ hb
      simp only [List.length_map] at ha
      have ha : num16 l.length ++ [] = num16 m.length ++ [] := by rw [ha]
      exact (peelNum h1 h2 ha).1

theorem filter_nodup {l : List U32} (h : l.Nodup) (x : U32) : l.filter (· = x) = if x ∈ l then [x] else [] := by
  induction l with
  | nil => rfl
  | cons a l ih =>
    rw [List.nodup_cons] at h
    rw [List.filter_cons, ih h.2]
    by_cases c : a = x
    · subst c
      simp [h.1]
    · have c' : ¬ x = a := fun h => c h.symm
      simp [c, c']

/-- C96.  Reading the connection of the request itself, for one of its APIs: the record lists the connection with this API
only, although it announces the number of all its APIs. -/
theorem C96_own_connection {e : Env A} {implicit : Bool} {ndr : Ndr} {res : Result} {r : Rd} {w : Wr} {q : ReadReq}
    {ar : Option A} {ars : List Ar} {own : Ar} (hr : Fit r) (hw : Ready w) (hq : Requests ndr r q)
    (hs : res.status.code = 0) (hc : CarriedOut e implicit q ar) (hst : e.stock ar q = readArs ars (some own) q)
    (hi : q.index = 0xF020) (hsound : Sound own) (hnd : own.apis.Nodup) {bs : List Byte}
    (hbs : bs = if q.api ∈ own.apis then encArs [encAr own own.apis.length [q.api]] else [])
    (h4 : w.pos % 4 = 0) (hroom : w.pos + 84 + bs.length ≤ w.cap) :
    ∃ w', readInd e implicit ndr res r w = some (w', res, []) ∧ Appends w w' (encAnswer ndr q res bs) := by
  have hrec : e.stock ar q = some (fun w => (putArData ars (some own) q.api w).map fun x => (true, x)) := by
    rw [hst]
    unfold readArs
    simp only [hi, if_true]
  have hf : own.apis.filter (· = q.api) = if q.api ∈ own.apis then [q.api] else [] := filter_nodup hnd q.api
  have hen : entries ars (some own) q.api = if q.api ∈ own.apis then [(own, some q.api)] else [] := by
    unfold entries
    simp only [hf]
    split <;> rfl
  have heq : ((if q.api ∈ own.apis then [(own, some q.api)] else []).map
      fun x : Ar × Option U32 => encAr x.1 x.1.apis.length (shown x.1 x.2)) =
      if q.api ∈ own.apis then [encAr own own.apis.length [q.api]] else [] := by
    split
    · rename_i hm
      rw [if_pos hm] at hf
      simp only [List.map_cons, List.map_nil, shown]
      congr 2
    · rfl
  have hbs' : bs = encArs (if q.api ∈ own.apis then [encAr own own.apis.length [q.api]] else []) := by
    rw [hbs]
    split
    · rfl
    · rfl
  obtain ⟨w', res', e1, rfl, h1⟩ := answer_with_room (ok := true) hr hw hq hs hc (by rw [hi]; decide) hrec hroom
    (fun x hx hcx hpx => by
      have := arData_spec (w := x) hen (by
        intro y hy
        split at hy
        · simp only [List.mem_cons, List.not_mem_nil, or_false] at hy
          rw [hy]; exact hsound
        · simp at hy) hx (by omega) (by rw [heq, ← hbs']; omega)
      rw [heq, ← hbs'] at this
      obtain ⟨x', e, h⟩ := this
      exact ⟨x', by rw [e]; rfl, h⟩)
  exact ⟨w', e1, h1⟩

/-! ## C97 -/

theorem puts_input (iocs iops data : List Byte) : Puts (putInput iocs iops data) (encInput iocs iops data) := by
  unfold putInput encInput
  refine puts_block ?_
  puts

theorem wsafe_input (iocs iops data : List Byte) : WSafe (putInput iocs iops data) := by
  unfold putInput
  refine wsafe_putBlock ?_
  safe

theorem puts_output (iocs iops data : List Byte) :
    Puts (putOutput false iocs iops data 0 (some data)) (encOutput iocs iops data data) := by
  unfold putOutput encOutput
  refine puts_block (Puts.seq ?_ ?_)
  · simp only [Bool.false_eq_true, if_false]
    puts
  · unfold putSubstitute
    refine puts_block ?_
    puts

theorem wsafe_output (iocs iops data : List Byte) : WSafe (putOutput false iocs iops data 0 (some data)) := by
  unfold putOutput putSubstitute
  refine wsafe_putBlock (WSafe.seq ?_ (wsafe_putBlock ?_))
  · safe
  · safe

theorem makes_of_puts {p : W} {bs : List Byte} (h : Puts p bs) (hs : WSafe p) : Makes (fun w => (p w).map fun x => (true, x)) true bs := by
  intro w hw
  obtain ⟨w', e, c, l, m, n, k⟩ := hs w hw.1
  have := hw.2.2
  refine ⟨true, w', by simp only [e, Option.map_some], ⟨c, l, m, by omega, fun i hi => k i (by omega)⟩, fun hr => ⟨rfl, ?_⟩⟩
  obtain ⟨x', e', h'⟩ := appends_of_wat (h w.pos) hw rfl hr
  rw [e] at e'
  cases e'
  exact h'

theorem either {e : Env A} {implicit : Bool} {ndr : Ndr} {res : Result} {r : Rd} {w : Wr} {q : ReadReq} {ar : Option A}
    {data iops iocs bs : List Byte} {p : W}
    (hr : Fit r) (hw : Ready w) (hq : Requests ndr r q) (hs : res.status.code = 0) (hc : CarriedOut e implicit q ar)
    (hi : 0x7FFF < q.index.toNat)
    (hst : e.stock ar q = some (fun w => if data.length + iops.length + iocs.length > 0 then
      (p w).map fun x => (true, x) else some (false, w))) (hp : Puts p bs) (hs' : WSafe p) :
    ∃ w' res', readInd e implicit ndr res r w = some (w', res', []) ∧ Within w w' ∧
      ((data ≠ [] ∨ iops ≠ [] ∨ iocs ≠ []) → w.pos + 84 + bs.length ≤ w.cap →
        res' = res ∧ Appends w w' (encAnswer ndr q res bs)) ∧
      ((data = [] ∧ iops = [] ∧ iocs = []) → w.pos + 84 ≤ w.cap →
        res' = { res with status := saysInvalidIndex } ∧ Appends w w' (encAnswer ndr q res' [])) := by
  by_cases c : data.length + iops.length + iocs.length > 0
  · simp only [c, if_true] at hst
    obtain ⟨w', res', e1, h1, h2⟩ := Read.C91_read_answer hr hw hq hs hc hi hst (makes_of_puts hp hs')
    refine ⟨w', res', e1, h1, fun _ hroom => ?_, ?_⟩
    · obtain ⟨a, b⟩ := h2 hroom
      simp only [if_true] at a
      subst a
      exact ⟨rfl, b⟩
    · rintro ⟨rfl, rfl, rfl⟩
      simp at c
  · simp only [c, if_false] at hst
    have mk : Makes (fun w => some (false, w)) false [] := fun x hx =>
      ⟨false, x, rfl, Read.within_refl hx, fun _ => ⟨rfl, Read.appends_nil x⟩⟩
    obtain ⟨w', res', e1, h1, h2⟩ := Read.C91_read_answer hr hw hq hs hc hi hst mk
    refine ⟨w', res', e1, h1, fun hne => ?_, fun _ hroom => by simpa using h2 (by simpa using hroom)⟩
    exfalso
    have h1 : data = [] := List.length_eq_zero_iff.1 (by omega)
    have h2 : iops = [] := List.length_eq_zero_iff.1 (by omega)
    have h3 : iocs = [] := List.length_eq_zero_iff.1 (by omega)
    simp [h1, h2, h3] at hne

/-- C97.  Reading the input data of a subslot: consumer status, provider status and data as the device has them, or "invalid
index" and an empty record if it has none of them. -/
theorem C97_input_data {e : Env A} {implicit : Bool} {ndr : Ndr} {res : Result} {r : Rd} {w : Wr} {q : ReadReq} {ar : Option A}
    {provider : Option (List Byte × List Byte)} {consumer : Option (List Byte)} {data iops iocs : List Byte}
    (hr : Fit r) (hw : Ready w) (hq : Requests ndr r q) (hs : res.status.code = 0) (hc : CarriedOut e implicit q ar)
    (hi : q.index = 0x8028) (hst : e.stock ar q = some (readInput provider consumer))
    (hp : provider = some (data, iops) ∨ (provider = none ∧ data = [] ∧ iops = []))
    (hco : consumer = some iocs ∨ (consumer = none ∧ iocs = [])) :
    ∃ w' res', readInd e implicit ndr res r w = some (w', res', []) ∧ Within w w' ∧
      ((data ≠ [] ∨ iops ≠ [] ∨ iocs ≠ []) → w.pos + 84 + (encInput iocs iops data).length ≤ w.cap →
        res' = res ∧ Appends w w' (encAnswer ndr q res (encInput iocs iops data))) ∧
      ((data = [] ∧ iops = [] ∧ iocs = []) → w.pos + 84 ≤ w.cap →
        res' = { res with status := saysInvalidIndex } ∧ Appends w w' (encAnswer ndr q res' [])) := by
  have e1 : (provider.getD ([], [])).1 = data := by rcases hp with rfl | ⟨rfl, rfl, rfl⟩ <;> rfl
  have e2 : (provider.getD ([], [])).2 = iops := by rcases hp with rfl | ⟨rfl, rfl, rfl⟩ <;> rfl
  have e3 : consumer.getD [] = iocs := by rcases hco with rfl | ⟨rfl, rfl⟩ <;> rfl
  have hrec : readInput provider consumer = fun w => if data.length + iops.length + iocs.length > 0 then
      (putInput iocs iops data w).map fun x => (true, x) else some (false, w) := by
    funext w
    unfold readInput
    simp only [e1, e2, e3]
  exact either hr hw hq hs hc (by rw [hi]; decide) (hst.trans (by rw [hrec])) (puts_input iocs iops data) (wsafe_input _ _ _)

/-- C97.  Reading the output data of a subslot: likewise.  The substitute value in the record is always the current value. -/
theorem C97_output_data {e : Env A} {implicit : Bool} {ndr : Ndr} {res : Result} {r : Rd} {w : Wr} {q : ReadReq} {ar : Option A}
    {consumer : Option (List Byte × List Byte)} {provider : Option (List Byte)} {data iops iocs : List Byte}
    (hr : Fit r) (hw : Ready w) (hq : Requests ndr r q) (hs : res.status.code = 0) (hc : CarriedOut e implicit q ar)
    (hi : q.index = 0x8029) (hst : e.stock ar q = some (readOutput consumer provider))
    (hp : consumer = some (data, iops) ∨ (consumer = none ∧ data = [] ∧ iops = []))
    (hco : provider = some iocs ∨ (provider = none ∧ iocs = [])) :
    ∃ w' res', readInd e implicit ndr res r w = some (w', res', []) ∧ Within w w' ∧
      ((data ≠ [] ∨ iops ≠ [] ∨ iocs ≠ []) → w.pos + 84 + (encOutput iocs iops data data).length ≤ w.cap →
        res' = res ∧ Appends w w' (encAnswer ndr q res (encOutput iocs iops data data))) ∧
      ((data = [] ∧ iops = [] ∧ iocs = []) → w.pos + 84 ≤ w.cap →
        res' = { res with status := saysInvalidIndex } ∧ Appends w w' (encAnswer ndr q res' [])) := by
  have e1 : (consumer.getD ([], [])).1 = data := by rcases hp with rfl | ⟨rfl, rfl, rfl⟩ <;> rfl
  have e2 : (consumer.getD ([], [])).2 = iops := by rcases hp with rfl | ⟨rfl, rfl, rfl⟩ <;> rfl
  have e3 : provider.getD [] = iocs := by rcases hco with rfl | ⟨rfl, rfl⟩ <;> rfl
  have hrec : readOutput consumer provider = fun w => if data.length + iops.length + iocs.length > 0 then
      (putOutput false iocs iops data 0 (some data) w).map fun x => (true, x) else some (false, w) := by
    funext w
    unfold readOutput
    simp only [e1, e2, e3]
  exact either hr hw hq hs hc (by rw [hi]; decide) (hst.trans (by rw [hrec])) (puts_output iocs iops data) (wsafe_output _ _ _)

/-! ## Concrete cases -/

namespace Demo

def uuid (n : U32) : Uuid := ⟨n, 1, 2, List.replicate 8 3⟩

def iface : Iface := ⟨[2, 0, 0, 0, 0, 1], 0xC0A80001, 0xFFFFFF00, 0, [100, 101, 118], some ⟨1, 2, 3, 4, 5, 6⟩⟩

def ports : List Port :=
  [⟨[112, 111, 114, 116, 49], none, 0, false, 0x1E, none⟩,
   ⟨[112, 111, 114, 116, 50], some ⟨[112], [115, 116], 5, [2, 0, 0, 0, 0, 2]⟩, 0x10, true, 0x1E, some ⟨9, 8, 7, 6, 5, 4⟩⟩]

def ar : Ar where
  uuid := uuid 7
  objUuid := uuid 8
  prmUuid := uuid 9
  props := ⟨1, false, 1, false, 0, false, false, true, false⟩
  arType := 1
  alarmType := 1
  localRef := 2
  remoteRef := 3
  initPort := 0x8892
  respPort := 0x8892
  name := [99, 116, 114]
  prmName := []
  iocrs := [⟨1, 1, 0x8000, 0x35, 0⟩, ⟨1, 2, 0x8001, 0, 0x35⟩]
  apis := [0, 5]
  info := 0

theorem sound : Sound ar := ⟨rfl, rfl, rfl, by decide, by decide, by decide, by decide, by decide, by decide, by decide, by decide,
  by decide, by decide⟩

/-- One connection, named 7; all the records of this area. -/
def env : Env Nat where
  find u := if u = uuid 7 then some 1 else none
  apiKnown _ := true
  app := none
  stock a q :=
    if q.index = 0x8028 then some (readInput (some ([1, 2], [0x80])) (some [0x80]))
    else if q.index = 0x8029 then some (readOutput none (some [0x80]))
    else if q.index = 0xF820 ∨ q.index = 0xF020 then readArs [ar] (a.map fun _ => ar) q
    else readPhysical iface ports q

def q (api : U32) (slot subslot index : U16) : ReadReq := ⟨3, uuid 7, api, slot, subslot, index, 1000, Read.nilUuid⟩
/-- A request without a connection. -/
def q0 (slot subslot index : U16) : ReadReq := ⟨3, uuid 1, 0, slot, subslot, index, 1000, Read.nilUuid⟩

def rd (q : ReadReq) : Rd := ⟨Read.encReq ⟨9, 60, 1, 0⟩ q [0, 0] (List.replicate 8 0), false, 64, true, .ok, 0⟩
def ndr (max : U32) : Ndr := ⟨max, 64, max, 0, 64⟩
def w (cap : Nat) : Wr := ⟨List.replicate 400 0xEE, cap, 80⟩

/-- The hypotheses of the theorems are met: by a request over the connection, and by one without. -/
theorem met (api : U32) (slot subslot index : U16) (max : U32) {cap : Nat} (h1 : 80 ≤ cap) (h2 : cap ≤ 400) :
    Fit (rd (q api slot subslot index)) ∧ Ready (w cap) ∧ Requests (ndr max) (rd (q api slot subslot index)) (q api slot subslot index) ∧
      Read.noResult.status.code = 0 ∧ CarriedOut env false (q api slot subslot index) (some 1) := by
  have hl : (Read.encReq ⟨9, 60, 1, 0⟩ (q api slot subslot index) [0, 0] (List.replicate 8 0)).length = 64 :=
    Read.encReq_length rfl rfl rfl rfl
  refine ⟨⟨rfl, rfl, rfl, Nat.le_of_eq hl.symm, Nat.zero_le _⟩, ⟨(by rw [show (w cap).buf.length = 400 from List.length_replicate]; exact h2), Nat.lt_of_le_of_lt h2 (by decide), h1⟩, ?_, rfl, ?_⟩
  · refine ⟨⟨9, 60, 1, 0⟩, [0, 0], List.replicate 8 0, rfl, by decide, rfl, rfl, rfl, rfl, ?_, rfl⟩
    show slice (Read.encReq _ _ _ _) 0 64 = _
    rw [slice_eq_some (by rw [hl]; omega), List.drop_zero, List.take_of_length_le (by rw [hl]; omega)]
  · exact ⟨Or.inr rfl, Or.inl ⟨rfl, by simp [q, uuid, Read.nilUuid], rfl⟩⟩

theorem met_without (slot subslot index : U16) (max : U32) {cap : Nat} (h1 : 80 ≤ cap) (h2 : cap ≤ 400) :
    Fit (rd (q0 slot subslot index)) ∧ Ready (w cap) ∧ Requests (ndr max) (rd (q0 slot subslot index)) (q0 slot subslot index) ∧
      CarriedOut env true (q0 slot subslot index) none := by
  have hl : (Read.encReq ⟨9, 60, 1, 0⟩ (q0 slot subslot index) [0, 0] (List.replicate 8 0)).length = 64 :=
    Read.encReq_length rfl rfl rfl rfl
  refine ⟨⟨rfl, rfl, rfl, Nat.le_of_eq hl.symm, Nat.zero_le _⟩, ⟨(by rw [show (w cap).buf.length = 400 from List.length_replicate]; exact h2), Nat.lt_of_le_of_lt h2 (by decide), h1⟩, ?_, ?_⟩
  · refine ⟨⟨9, 60, 1, 0⟩, [0, 0], List.replicate 8 0, rfl, by decide, rfl, rfl, rfl, rfl, ?_, rfl⟩
    show slice (Read.encReq _ _ _ _) 0 64 = _
    rw [slice_eq_some (by rw [hl]; omega), List.drop_zero, List.take_of_length_le (by rw [hl]; omega)]
  · exact ⟨Or.inl rfl, Or.inr ⟨rfl, by simp [env, q0, uuid], by simp [env, q0, uuid, Read.nilUuid]⟩⟩

/-- C94 for a port, the interface, the statistics, the whole device, and a port that does not exist. -/
theorem physical :
    Physical iface ports (q 0 0 0x8002 0x802A) (encPort 0x8002 ports[1]) ∧ Physical iface ports (q 0 0 0x8000 0x8080) (encIface iface) ∧
    Physical iface ports (q 0 0 0x8002 0x8072) (encStats ⟨9, 8, 7, 6, 5, 4⟩) ∧
    Physical iface ports (q 0 0 0 0xF841) (encDevice 0 iface ports) ∧
    (∀ bs, ¬ Physical iface ports (q 0 0 0x8003 0x802A) bs) := by
  refine ⟨.port (n := 2) rfl ⟨rfl, by decide, rfl, rfl⟩, .iface rfl ⟨rfl, rfl⟩, .portStats (n := 2) rfl ⟨rfl, by decide, rfl, rfl⟩ rfl,
    .device rfl, ?_⟩
  intro bs h
  cases h with
  | @port n p h1 h2 =>
    obtain ⟨_, h3, h4, h5⟩ := h2
    have : n = 3 := by
      have : (0x8003 : Nat) = 0x8000 + n := h5
      omega
    subst this
    exact absurd h4 (by simp [ports])
  | iface h => exact absurd h (by decide)
  | portStats h => exact absurd h (by decide)
  | ifaceStats h => exact absurd h (by decide)
  | device h => exact absurd h (by decide)
  | expected h => exact absurd h (by decide)

/-- The record of the interface as it is sent, and a request for it that is never answered. -/
theorem interface_read :
    (readInd env false (ndr 500) Read.noResult (rd (q 0 0 0x8000 0x8080)) (w 400)).map (fun x => ((x.1.buf.drop 164).take 32, x.2.1.status)) =
      some ([0x02, 0x40, 0, 28, 1, 0, 3, 100, 101, 118, 0, 0, 2, 0, 0, 0, 0, 1, 0, 0, 0xC0, 0xA8, 0, 1, 0xFF, 0xFF, 0xFF, 0, 0, 0, 0, 0],
        Read.noResult.status) ∧
    readInd env true (ndr 65) Read.noResult (rd (q0 0 0x8000 0x8080)) (w 165) = none := by
  refine ⟨by decide +kernel, ?_⟩
  obtain ⟨a, b, c, d⟩ := met_without 0 0x8000 0x8080 65 (cap := 165) (by decide) (by decide)
  exact C95_every_read_ends_false iface ports (buffer := 1000) a b c d rfl rfl ⟨rfl, rfl⟩ rfl rfl (by decide) rfl

/-- The connections of the device, those of one API, and the cyclic data. -/
theorem other_reads :
    (readInd env false (ndr 500) Read.noResult (rd (q 0 0 0 0xF820)) (w 400)).map (fun x => ((x.1.buf.drop 80).take 212, x.2.1)) =
      some (encAnswer (ndr 500) (q 0 0 0 0xF820) Read.noResult (encArs [encAr ar 2 [0, 5]]), Read.noResult) ∧
    (readInd env false (ndr 500) Read.noResult (rd (q 5 0 0 0xF020)) (w 400)).map (fun x => ((x.1.buf.drop 80).take 208, x.2.1)) =
      some (encAnswer (ndr 500) (q 5 0 0 0xF020) Read.noResult (encArs [encAr ar 2 [5]]), Read.noResult) ∧
    (readInd env false (ndr 500) Read.noResult (rd (q 0 1 1 0x8028)) (w 400)).map (fun x => ((x.1.buf.drop 164).take 14, x.2.1)) =
      some ([0, 0x15, 0, 10, 1, 0, 1, 0x80, 1, 0x80, 0, 2, 1, 2], Read.noResult) := by
  refine ⟨?_, ?_, ?_⟩ <;> decide +kernel

end Demo

/-- C95.  The record of all ports together can fail to end even if the response ends at a multiple of four bytes. -/
theorem C95_device_never_ends :
    readInd Demo.env true (Demo.ndr 252) Read.noResult (Demo.rd (Demo.q0 0 0 0xF841)) (Demo.w 352) = none ∧
      rspSize 100 (Demo.ndr 252).argsMax 4500 = 352 := by
  refine ⟨?_, by decide⟩
  have : (readInd Demo.env true (Demo.ndr 252) Read.noResult (Demo.rd (Demo.q0 0 0 0xF841)) (Demo.w 352)).isNone = true := by
    decide +kernel
  exact Option.isNone_iff_eq_none.1 this

end Verif.Records
