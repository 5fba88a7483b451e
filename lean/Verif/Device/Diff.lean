import Verif.Device.ConnLemmas

/-!
Module difference reported in the connect response, and its encoding (C48, C60).
Source: src/device/pf_cmdev.c, src/device/pf_block_writer.c.
-/
set_option linter.unusedSimpArgs false
set_option linter.unusedVariables false

namespace Verif.Device

/-! ## Model -/

/-- Members `ident_info` and `ar_info` of `pf_submodule_state_t` as far as they are set by the
difference: `PF_IDENT_INFO_NO`, `PF_IDENT_INFO_WRONG`, `PF_AR_INFO_LOCKED_BY_IO_CONTROLLER`, and
"identity fine, owned, diagnosis present". -/
inductive SubState where
  | missing | wrong | locked | diag
deriving DecidableEq

/-- One entry of `diff_submodule`. -/
structure SubDiff where
  number : Nat
  ident : Nat
  state : SubState
deriving DecidableEq

/-- `PF_MODULE_STATE_NO_MODULE`, `PF_MODULE_STATE_SUBSTITUTE`, `PF_MODULE_STATE_PROPER_MODULE`. -/
inductive ModState where
  | none | substitute | proper
deriving DecidableEq

/-- One entry of `diff_module`. -/
structure ModDiff where
  slot : Nat
  ident : Nat
  state : ModState
  subs : List SubDiff
deriving DecidableEq

/-- One entry of `diff_api`. -/
structure ApiDiff where
  api : Nat
  mods : List ModDiff
deriving DecidableEq

/-- Body of the loop over submodules of pf_cmdev_generate_module_diff (src/device/pf_cmdev.c:4264-4412):
what is appended to `diff_submodule` for an expected submodule. -/
def subDiff (i : Nat) (y : Slot) (z : ExpSub) : Option SubDiff :=
  match findSub y z.number with
  | none => some ⟨z.number, z.ident, .missing⟩
  | some r =>
    if z.ident ≠ r.ident then some ⟨z.number, z.ident, .wrong⟩
    else if r.owner.isSome && r.owner != some i then some ⟨z.number, z.ident, .locked⟩
    else if r.summary then some ⟨z.number, z.ident, .diag⟩
    else none

/-- Body of the loop over modules (src/device/pf_cmdev.c:4306-4405): the module is put in the list
`diff_module` if the result is `some`.  A module with the wrong identity gets its list of
submodules but is not put in `diff_module`. -/
def modDiff (i : Nat) (x : Api) (m : ExpMod) : Option ModDiff :=
  match findSlot x m.slot with
  | none => some ⟨m.slot, m.ident, .none, []⟩
  | some y =>
    if m.ident ≠ y.ident then none
    else
      match m.subs.filterMap (subDiff i y) with
      | [] => none
      | l => some ⟨m.slot, m.ident, .proper, l⟩

/-- Body of the loop over APIs (src/device/pf_cmdev.c:4286-4410): the API is put in the list
`diff_api` if the result is `some`.  An API the device does not know gets its list of modules but is
not put in `diff_api`. -/
def apiDiff (d : Dev) (i : Nat) (e : ExpApi) : Option ApiDiff :=
  match getApi d e.api with
  | none => none
  | some x =>
    match e.mods.filterMap (modDiff i x) with
    | [] => none
    | l => some ⟨e.api, l⟩

/-- pf_cmdev_generate_module_diff (src/device/pf_cmdev.c:4264-4412) for connection `i` with expected
configuration `exp`. -/
def moduleDiff (d : Dev) (i : Nat) (exp : List ExpApi) : List ApiDiff := exp.filterMap (apiDiff d i)

/-! ## Specification -/

/-- Where the controller expects a submodule: API, slot, identity of the module, subslot, identity
of the submodule. -/
structure Place where
  api : Nat
  slot : Nat
  modIdent : Nat
  subslot : Nat
  subIdent : Nat
deriving DecidableEq

/-- The submodule is in the expected configuration. -/
def Expected (exp : List ExpApi) (p : Place) : Prop :=
  ∃ e ∈ exp, ∃ m ∈ e.mods, ∃ z ∈ m.subs, p = ⟨e.api, m.slot, m.ident, z.number, z.ident⟩

/-- The controller expects at most one module per slot and one submodule per subslot. -/
def Unambiguous (exp : List ExpApi) : Prop :=
  ∀ e ∈ exp, ∀ e' ∈ exp, e.api = e'.api → ∀ m ∈ e.mods, ∀ m' ∈ e'.mods, m.slot = m'.slot →
    m.ident = m'.ident ∧ ∀ z ∈ m.subs, ∀ z' ∈ m'.subs, z.number = z'.number → z = z'

/-- The plugged hardware is not what is expected at the place. -/
def HardwareDiffers (d : Dev) (p : Place) : Prop :=
  ¬ (∃ y z, getSlot d p.api p.slot = some y ∧ y.ident = p.modIdent ∧
      getSub d p.api p.slot p.subslot = some z ∧ z.ident = p.subIdent)

/-- The submodule there is owned by another connection than `i`. -/
def OtherOwner (d : Dev) (i : Nat) (p : Place) : Prop :=
  ∃ z j, getSub d p.api p.slot p.subslot = some z ∧ z.owner = some j ∧ j ≠ i

/-- Some diagnosis is present at the submodule. -/
def HasDiag (d : Dev) (p : Place) : Prop :=
  ∃ z, getSub d p.api p.slot p.subslot = some z ∧ z.summary = true

/-- The report tells the controller that something is different at this submodule: it lists it, or
says that the whole module is missing. -/
def Mentions (r : List ApiDiff) (p : Place) : Prop :=
  ∃ x ∈ r, x.api = p.api ∧ ∃ m ∈ x.mods, m.slot = p.slot ∧
    (m.state = .none ∨ ∃ z ∈ m.subs, z.number = p.subslot)

/-- The API is known and the slot does not hold a module of the wrong identity. -/
def NoWrongModule (d : Dev) (p : Place) : Prop :=
  (getApi d p.api).isSome ∧ ∀ y, getSlot d p.api p.slot = some y → y.ident = p.modIdent

/-! ## Proofs -/

theorem subDiff_number {i : Nat} {y : Slot} {z : ExpSub} {r : SubDiff} (h : subDiff i y z = some r) :
    r.number = z.number := by
  unfold subDiff at h
  split at h
  · cases h; rfl
  · split at h
    · cases h; rfl
    · split at h
      · cases h; rfl
      · split at h
        · cases h; rfl
        · simp at h

theorem subDiff_iff (i : Nat) (y : Slot) (z : ExpSub) :
    (subDiff i y z).isSome ↔
      (∀ r, findSub y z.number = some r → r.ident = z.ident →
        (∃ j, r.owner = some j ∧ j ≠ i) ∨ r.summary = true) := by
  unfold subDiff
  cases findSub y z.number with
  | none => simp
  | some r =>
    simp only [Option.some.injEq, forall_eq']
    by_cases h1 : z.ident = r.ident
    · rw [if_neg (by simpa using h1)]
      cases hr : r.owner with
      | none => simp [h1]
      | some j =>
        by_cases hj : j = i
        · simp [h1, hj]
        · simp [h1, hj]
    · rw [if_pos (by simpa using h1)]
      simp only [Option.isSome_some, true_iff]
      intro h2; exact absurd h2.symm h1

/-- What exactly the report contains. -/
theorem mentions_iff (d : Dev) (i : Nat) (exp : List ExpApi) (p : Place) :
    Mentions (moduleDiff d i exp) p ↔
      ∃ e ∈ exp, e.api = p.api ∧ ∃ m ∈ e.mods, m.slot = p.slot ∧ ∃ x, getApi d p.api = some x ∧
        (findSlot x p.slot = none ∨
         ∃ y, findSlot x p.slot = some y ∧ y.ident = m.ident ∧
          ∃ z ∈ m.subs, z.number = p.subslot ∧ (subDiff i y z).isSome) := by
  constructor
  · rintro ⟨r, hr, hra, m, hm, hms, hcase⟩
    obtain ⟨e, he, her⟩ := List.mem_filterMap.1 hr
    unfold apiDiff at her
    cases hx : getApi d e.api with
    | none => simp [hx] at her
    | some x =>
      rw [hx] at her
      simp only at her
      have hrr : r = ⟨e.api, e.mods.filterMap (modDiff i x)⟩ := by
        generalize e.mods.filterMap (modDiff i x) = l at her
        cases l with
        | nil => simp at her
        | cons a l => simp at her; exact her.symm
      subst hrr
      simp only at hra hm
      obtain ⟨m0, hm0, hmm⟩ := List.mem_filterMap.1 hm
      unfold modDiff at hmm
      refine ⟨e, he, hra, m0, hm0, ?_⟩
      cases hy : findSlot x m0.slot with
      | none =>
        rw [hy] at hmm
        simp only [Option.some.injEq] at hmm
        subst hmm
        simp only at hms
        exact ⟨hms, x, hra ▸ hx, Or.inl (hms ▸ hy)⟩
      | some y =>
        rw [hy] at hmm
        simp only at hmm
        split at hmm
        · simp at hmm
        · rename_i hid
          have hmr : m = ⟨m0.slot, m0.ident, .proper, m0.subs.filterMap (subDiff i y)⟩ := by
            generalize m0.subs.filterMap (subDiff i y) = l at hmm
            cases l with
            | nil => simp at hmm
            | cons a l => simp at hmm; exact hmm.symm
          subst hmr
          simp only at hms hcase
          refine ⟨hms, x, hra ▸ hx, Or.inr ⟨y, hms ▸ hy, by simpa using Eq.symm (not_not.1 hid), ?_⟩⟩
          rcases hcase with h1 | ⟨z, hz, hzn⟩
          · simp at h1
          · obtain ⟨z0, hz0, hzz⟩ := List.mem_filterMap.1 hz
            exact ⟨z0, hz0, by rw [← subDiff_number hzz]; exact hzn, by rw [hzz]; rfl⟩
  · rintro ⟨e, he, hea, m, hm, hms, x, hx, hcase⟩
    have hmd : ∃ r, modDiff i x m = some r ∧ r.slot = p.slot ∧
        (r.state = .none ∨ ∃ z ∈ r.subs, z.number = p.subslot) := by
      unfold modDiff
      rw [hms]
      rcases hcase with h1 | ⟨y, h1, h2, z, hz, hzn, hzs⟩
      · rw [h1]
        exact ⟨_, rfl, rfl, Or.inl rfl⟩
      · rw [h1]
        simp only
        rw [if_neg (by simp [h2])]
        obtain ⟨w, hw⟩ := Option.isSome_iff_exists.1 hzs
        have hmem : w ∈ m.subs.filterMap (subDiff i y) := List.mem_filterMap.2 ⟨z, hz, hw⟩
        have hwn := subDiff_number hw
        generalize m.subs.filterMap (subDiff i y) = l at hmem
        cases l with
        | nil => simp at hmem
        | cons a l => exact ⟨_, rfl, rfl, Or.inr ⟨w, hmem, hwn.trans hzn⟩⟩
    obtain ⟨r, hr, hrs, hrc⟩ := hmd
    have hmem : r ∈ e.mods.filterMap (modDiff i x) := List.mem_filterMap.2 ⟨m, hm, hr⟩
    have had : ∃ q, apiDiff d i e = some q ∧ q.api = p.api ∧ r ∈ q.mods := by
      unfold apiDiff
      rw [hea, hx]
      simp only
      generalize e.mods.filterMap (modDiff i x) = l at hmem
      cases l with
      | nil => simp at hmem
      | cons a l => exact ⟨_, rfl, rfl, hmem⟩
    obtain ⟨q, hq, hqa, hqm⟩ := had
    exact ⟨q, List.mem_filterMap.2 ⟨e, he, hq⟩, hqa, r, hqm, hrs, hrc⟩

/-- **C48 (partial)**.  For every plugged configuration, connection and unambiguous expected
configuration, and every expected submodule whose slot does not hold a module of the wrong identity:
the report mentions the submodule iff the hardware differs from the expectation, or another
connection owns it, or a diagnosis is present.  Missing: slots holding a module of the wrong
identity, see `C48_wrong_module_not_reported`. -/
theorem C48_report_complete_partial (d : Dev) (i : Nat) (exp : List ExpApi) (hu : Unambiguous exp)
    (p : Place) (hp : Expected exp p) (hw : NoWrongModule d p) :
    Mentions (moduleDiff d i exp) p ↔ HardwareDiffers d p ∨ OtherOwner d i p ∨ HasDiag d p := by
  rw [mentions_iff]
  obtain ⟨e, he, m, hm, z, hz, rfl⟩ := hp
  obtain ⟨hk, hwm⟩ := hw
  obtain ⟨x, hx⟩ := Option.isSome_iff_exists.1 hk
  simp only at hx hwm
  simp only [HardwareDiffers, OtherOwner, HasDiag, getSub, getSlot, hx, Option.bind_some] at hwm ⊢
  have hsub : ∀ y, (∀ r, findSub y z.number = some r → r.ident = z.ident →
        (∃ j, r.owner = some j ∧ j ≠ i) ∨ r.summary = true) ↔
      (¬ (∃ r, findSub y z.number = some r ∧ r.ident = z.ident)) ∨
      (∃ r j, findSub y z.number = some r ∧ r.owner = some j ∧ j ≠ i) ∨
      ∃ r, findSub y z.number = some r ∧ r.summary = true := by
    intro y
    cases findSub y z.number with
    | none => simp
    | some r =>
      simp only [Option.some.injEq, forall_eq', exists_eq_left', exists_and_left]
      by_cases h : r.ident = z.ident
      · simp [h]
      · simp [h]
  cases hy : findSlot x m.slot with
  | none =>
    simp only [Option.bind_none, reduceCtorEq, false_and, and_false, exists_false, not_false_eq_true,
      true_or, iff_true]
    exact ⟨e, he, rfl, m, hm, rfl, x, rfl, Or.inl hy⟩
  | some y =>
    have hid := hwm y hy
    simp only [Option.bind_some, Option.some.injEq, exists_eq_left', hid, true_and,
      exists_and_left, hy, reduceCtorEq, false_or]
    have := hsub y
    simp only [exists_and_left] at this
    rw [← this, ← subDiff_iff]
    constructor
    · rintro ⟨e', he', hea, m', hm', hms, _, z', hz', hzn, hd⟩
      have := (hu e' he' e he hea m' hm' m hm hms).2 z' hz' z hz hzn
      rw [← this]; exact hd
    · intro h
      exact ⟨e, he, rfl, m, hm, rfl, rfl, z, hz, rfl, h⟩

/-- **C48, what is false**.  Whatever is plugged: if the slot holds a module of the wrong identity, no
expected submodule of this module is mentioned, although the hardware differs. -/
theorem C48_wrong_module_not_reported (d : Dev) (i : Nat) (exp : List ExpApi) (hu : Unambiguous exp)
    (p : Place) (hp : Expected exp p) (y : Slot) (hy : getSlot d p.api p.slot = some y)
    (hne : y.ident ≠ p.modIdent) :
    HardwareDiffers d p ∧ ¬ Mentions (moduleDiff d i exp) p := by
  constructor
  · rintro ⟨y', _, h1, h2, _⟩
    rw [hy] at h1
    cases h1
    exact hne h2
  · rw [mentions_iff]
    obtain ⟨e, he, m, hm, z, hz, rfl⟩ := hp
    simp only at hy hne
    rintro ⟨e', he', hea, m', hm', hms, x', hx', h⟩
    unfold getSlot at hy
    simp only at hx' h
    rw [hx'] at hy
    simp only [Option.bind_some] at hy
    rw [hy] at h
    simp only [reduceCtorEq, false_or, Option.some.injEq, exists_eq_left'] at h
    exact hne (h.1.trans (hu e' he' e he hea m' hm' m hm hms).1)

/-- **C48, what is false**.  Submodules expected in an API the device does not know are not mentioned
either. -/
theorem C48_unknown_api_not_reported (d : Dev) (i : Nat) (exp : List ExpApi) (p : Place)
    (h : getApi d p.api = none) : HardwareDiffers d p ∧ ¬ Mentions (moduleDiff d i exp) p := by
  constructor
  · rintro ⟨y', _, h1, _⟩
    simp [getSlot, h] at h1
  · rw [mentions_iff]
    rintro ⟨_, _, _, _, _, _, x', hx', _⟩
    rw [h] at hx'
    simp at hx'

/-! ### Examples -/

/-- Three slots: as expected; missing; module of the wrong identity. -/
def diffExp : List ExpApi :=
  [⟨0, [⟨1, 0x10, [⟨1, 0x20⟩, ⟨2, 0x21⟩]⟩, ⟨2, 0x10, [⟨1, 0x20⟩]⟩, ⟨3, 0x10, [⟨1, 0x20⟩]⟩]⟩]

def diffDev : Dev := texec (dev0 1 3 2)
  [.plugSub 0 1 1 0x10 0x20 ⟨1, 1, 0⟩ (some 4) true, .plugSub 0 3 1 0x11 0x20 ⟨1, 1, 0⟩ none true]

theorem C48_example_unambiguous : Unambiguous diffExp := by
  unfold Unambiguous diffExp
  simp

/-- Hypotheses of `C48_report_complete_partial` hold for the first three submodules, those of
`C48_wrong_module_not_reported` for the last one. -/
theorem C48_example :
    moduleDiff diffDev 4 diffExp =
      [⟨0, [⟨1, 0x10, .proper, [⟨2, 0x21, .missing⟩]⟩, ⟨2, 0x10, .none, []⟩]⟩] ∧
    (getSlot diffDev 0 1).map Slot.ident = some 0x10 ∧ getSlot diffDev 0 2 = none ∧
    (getSlot diffDev 0 3).map Slot.ident = some 0x11 := by
  decide +kernel

/-! ## Encoding -/

/-- Big endian 32 bit (pf_put_uint32, src/device/pf_block_writer.c:263-284). -/
def b32 (v : Nat) : List Nat := [v / 16777216 % 256, v / 65536 % 256, v / 256 % 256, v % 256]

/-- Big endian 16 bit (pf_put_uint16, src/device/pf_block_writer.c:244-261). -/
def b16 (v : Nat) : List Nat := [v / 256 % 256, v % 256]

/-- `submodule_state` as written by pf_put_submodule_diff (src/device/pf_block_writer.c:508-549): bit 15 format
indicator, bits 11.. `ident_info` (NO = 3, WRONG = 2, OK = 0), bits 7.. `ar_info` (OWN = 0, LOCKED = 3).
Simplified: which of the three diagnosis bits 4, 5, 6 is set is not modelled, bit 6 stands for
all. -/
def SubState.code : SubState → Nat
  | .missing => 0x8000 + 3 * 2048
  | .wrong => 0x8000 + 2 * 2048
  | .locked => 0x8000 + 3 * 128
  | .diag => 0x8000 + 64

/-- `module->state`. -/
def ModState.code : ModState → Nat
  | .none => 0
  | .substitute => 3
  | .proper => 2

/-- pf_put_submodule_diff (src/device/pf_block_writer.c:508-549) -/
def putSub (z : SubDiff) : List Nat :=
  b16 z.number ++ b32 (if z.state = .missing then 0 else z.ident) ++ b16 z.state.code

/-- pf_put_module_diff (src/device/pf_block_writer.c:560-606): for a missing module the count of
submodules takes four bytes. -/
def putMod (m : ModDiff) : List Nat :=
  b16 m.slot ++ b32 (if m.state = .none then 0 else m.ident) ++ b16 m.state.code ++
  (if m.state = .none then b32 0 else b16 m.subs.length ++ m.subs.flatMap putSub)

/-- pf_put_api_diff (src/device/pf_block_writer.c:617-638) -/
def putApi (x : ApiDiff) : List Nat := b32 x.api ++ b16 x.mods.length ++ x.mods.flatMap putMod

/-- pf_put_ar_diff (src/device/pf_block_writer.c:640-693): block type 0x8104, block length, version 1.0, then the
APIs.  Simplified: big endian, destination buffer large enough. -/
def putDiff (r : List ApiDiff) : List Nat :=
  if r = [] then []
  else
    let body := b16 r.length ++ r.flatMap putApi
    b16 0x8104 ++ b16 (body.length + 2) ++ [1, 0] ++ body

/-! ### Specification: how a controller reads the block

`ModuleDiffBlock`: block header, then a 16 bit count of APIs; each API is its 32 bit number, a 16 bit
count of modules and the modules; each module is slot (16), identity (32), state (16), a 16 bit count
of submodules and the submodules; each submodule is subslot (16), identity (32), state (16). -/

abbrev Rd (α : Type) := List Nat → Option (α × List Nat)

def rd16 : Rd Nat
  | a :: b :: l => some (a * 256 + b, l)
  | _ => none

def rd32 : Rd Nat
  | a :: b :: c :: d :: l => some (a * 16777216 + b * 65536 + c * 256 + d, l)
  | _ => none

def rdMany {α : Type} (p : Rd α) : Nat → Rd (List α)
  | 0, l => some ([], l)
  | n + 1, l => (p l).bind fun r => (rdMany p n r.2).bind fun q => some (r.1 :: q.1, q.2)

/-- Subslot, identity, state. -/
def rdSub : Rd (Nat × Nat × Nat) := fun l =>
  (rd16 l).bind fun a => (rd32 a.2).bind fun b => (rd16 b.2).bind fun c =>
    some ((a.1, b.1, c.1), c.2)

/-- Slot, identity, state, submodules. -/
def rdMod : Rd (Nat × Nat × Nat × List (Nat × Nat × Nat)) := fun l =>
  (rd16 l).bind fun a => (rd32 a.2).bind fun b => (rd16 b.2).bind fun c => (rd16 c.2).bind fun n =>
    (rdMany rdSub n.1 n.2).bind fun d => some ((a.1, b.1, c.1, d.1), d.2)

/-- API, modules. -/
def rdApi : Rd (Nat × List (Nat × Nat × Nat × List (Nat × Nat × Nat))) := fun l =>
  (rd32 l).bind fun a => (rd16 a.2).bind fun n => (rdMany rdMod n.1 n.2).bind fun d =>
    some ((a.1, d.1), d.2)

/-- The whole block; its length must be right and nothing may follow. -/
def rdBlock (l : List Nat) : Option (List (Nat × List (Nat × Nat × Nat × List (Nat × Nat × Nat)))) :=
  (rd16 l).bind fun t => (rd16 t.2).bind fun n =>
    if t.1 = 0x8104 ∧ n.1 = n.2.length ∧ n.2.take 2 = [1, 0] then
      (rd16 (n.2.drop 2)).bind fun k => (rdMany rdApi k.1 k.2).bind fun r =>
        if r.2 = [] then some r.1 else none
    else none

/-- What the controller is to be told. -/
def SubDiff.told (z : SubDiff) : Nat × Nat × Nat :=
  (z.number, if z.state = .missing then 0 else z.ident, z.state.code)
def ModDiff.told (m : ModDiff) : Nat × Nat × Nat × List (Nat × Nat × Nat) :=
  (m.slot, if m.state = .none then 0 else m.ident, m.state.code, m.subs.map SubDiff.told)
def ApiDiff.told (x : ApiDiff) : Nat × List (Nat × Nat × Nat × List (Nat × Nat × Nat)) :=
  (x.api, x.mods.map ModDiff.told)

/-- Numbers and counts fit their fields. -/
def SubDiff.Fits (z : SubDiff) : Prop := z.number < 65536 ∧ z.ident < 4294967296
def ModDiff.Fits (m : ModDiff) : Prop :=
  m.slot < 65536 ∧ m.ident < 4294967296 ∧ m.subs.length < 65536 ∧ ∀ z ∈ m.subs, z.Fits
def ApiDiff.Fits (x : ApiDiff) : Prop :=
  x.api < 4294967296 ∧ x.mods.length < 65536 ∧ ∀ m ∈ x.mods, m.Fits

theorem rd16_b16 {v : Nat} (h : v < 65536) (l : List Nat) : rd16 (b16 v ++ l) = some (v, l) := by
  simp only [b16, List.cons_append, List.nil_append, rd16]
  congr 2
  omega

theorem rd32_b32 {v : Nat} (h : v < 4294967296) (l : List Nat) :
    rd32 (b32 v ++ l) = some (v, l) := by
  simp only [b32, List.cons_append, List.nil_append, rd32]
  congr 2
  omega

theorem rdMany_flatMap {α β : Type} (p : Rd β) (f : α → List Nat) (g : α → β) (l : List α)
    (h : ∀ x ∈ l, ∀ r, p (f x ++ r) = some (g x, r)) (r : List Nat) :
    rdMany p l.length (l.flatMap f ++ r) = some (l.map g, r) := by
  induction l with
  | nil => rfl
  | cons x l ih =>
    simp only [List.length_cons, rdMany, List.flatMap_cons, List.append_assoc, List.map_cons]
    rw [h x (by simp)]
    simp only [Option.bind_some]
    rw [ih (fun y hy => h y (by simp [hy]))]
    rfl

theorem SubState.code_lt (s : SubState) : s.code < 65536 := by cases s <;> decide
theorem ModState.code_lt (s : ModState) : s.code < 65536 := by cases s <;> decide

theorem rdSub_putSub (z : SubDiff) (h : z.Fits) (r : List Nat) :
    rdSub (putSub z ++ r) = some (z.told, r) := by
  have hid : (if z.state = .missing then 0 else z.ident) < 4294967296 := by
    have := h.2
    split <;> omega
  unfold rdSub putSub
  simp only [List.append_assoc]
  rw [rd16_b16 h.1]
  simp only [Option.bind_some]
  rw [rd32_b32 hid]
  simp only [Option.bind_some]
  rw [rd16_b16 z.state.code_lt]
  rfl

theorem rdMod_putMod (m : ModDiff) (h : m.Fits) (hs : m.state ≠ .none) (r : List Nat) :
    rdMod (putMod m ++ r) = some (m.told, r) := by
  unfold rdMod putMod
  simp only [List.append_assoc, if_neg hs]
  rw [rd16_b16 h.1]
  simp only [Option.bind_some]
  rw [rd32_b32 h.2.1]
  simp only [Option.bind_some]
  rw [rd16_b16 m.state.code_lt]
  simp only [Option.bind_some]
  rw [rd16_b16 h.2.2.1]
  simp only [Option.bind_some]
  rw [rdMany_flatMap rdSub putSub SubDiff.told m.subs (fun z hz => rdSub_putSub z (h.2.2.2 z hz))]
  simp only [Option.bind_some, ModDiff.told, if_neg hs]

theorem rdApi_putApi (x : ApiDiff) (h : x.Fits) (hs : ∀ m ∈ x.mods, m.state ≠ .none) (r : List Nat) :
    rdApi (putApi x ++ r) = some (x.told, r) := by
  unfold rdApi putApi
  simp only [List.append_assoc]
  rw [rd32_b32 h.1]
  simp only [Option.bind_some]
  rw [rd16_b16 h.2.1]
  simp only [Option.bind_some]
  rw [rdMany_flatMap rdMod putMod ModDiff.told x.mods
    (fun m hm => rdMod_putMod m (h.2.2 m hm) (hs m hm))]
  rfl

/-- **C60 (partial)**.  Every report without missing modules, of any size that fits the length field,
is read by the controller as it was meant.  Missing: reports with missing modules, see
`C60_missing_module_misread`. -/
theorem C60_report_readable_partial (r : List ApiDiff) (hne : r ≠ []) (hf : ∀ x ∈ r, x.Fits)
    (hs : ∀ x ∈ r, ∀ m ∈ x.mods, m.state ≠ .none) (hlen : (putDiff r).length < 65536) :
    rdBlock (putDiff r) = some (r.map ApiDiff.told) := by
  have hcount : r.length < 65536 := by
    have h1 : r.length ≤ (r.flatMap putApi).length := by
      clear hne hf hs hlen
      induction r with
      | nil => simp
      | cons x l ih =>
        simp only [List.length_cons, List.flatMap_cons, List.length_append, putApi, b32]
        omega
    unfold putDiff at hlen
    rw [if_neg hne] at hlen
    simp only [List.length_append] at hlen
    omega
  unfold putDiff at hlen ⊢
  rw [if_neg hne] at hlen ⊢
  have hb : (b16 r.length ++ r.flatMap putApi).length + 2 < 65536 := by
    simp only [List.length_append] at hlen ⊢
    simp only [b16, List.length_cons, List.length_nil] at hlen ⊢
    omega
  unfold rdBlock
  simp only [List.append_assoc]
  rw [rd16_b16 (by omega)]
  simp only [Option.bind_some]
  rw [rd16_b16 hb]
  simp only [Option.bind_some]
  rw [if_pos ⟨trivial, by simp only [List.length_append, List.length_cons, List.length_nil]; omega, rfl⟩]
  have hd : List.drop 2 ([1, 0] ++ (b16 r.length ++ r.flatMap putApi)) =
      b16 r.length ++ (r.flatMap putApi ++ []) := by simp
  rw [hd, rd16_b16 hcount]
  simp only [Option.bind_some]
  rw [rdMany_flatMap rdApi putApi ApiDiff.told r (fun x hx => rdApi_putApi x (hf x hx) (hs x hx))]
  simp

/-- The encoding in the example meets the hypotheses: a submodule of the wrong identity and one
owned by another connection. -/
theorem C60_example :
    rdBlock (putDiff [⟨0, [⟨1, 0x10, .proper, [⟨1, 0x20, .wrong⟩, ⟨2, 0x21, .locked⟩]⟩]⟩]) =
      some [(0, [(1, 0x10, 2, [(1, 0x20, 0x9000), (2, 0x21, 0x8180)])])] := by
  rfl

/-- **C60, what is false**.  A report with a missing module cannot be read: the count of submodules
of a missing module takes two bytes too many.  The block for the example of C48, and a block with
only one missing module. -/
theorem C60_missing_module_misread :
    rdBlock (putDiff (moduleDiff diffDev 4 diffExp)) = none ∧
    rdBlock (putDiff [⟨0, [⟨2, 0x10, .none, []⟩]⟩]) = none := by
  decide +kernel

end Verif.Device
