import Verif.Check.Blocks
import Verif.ConnRsp.Props
/-! # C154: a refused connect request is answered with an error that names what is wrong with it -/
set_option linter.unusedSimpArgs false
set_option linter.unusedVariables false
namespace Verif.Check
open Verif.Connect (Err ArBlock IocrBlock AlarmBlock arFields alarmFields classOf exampleArLegacy exampleIocr exampleAlarm)
open Verif.Layout (FrameDesc ApiEntry DataDescr IoData IocrType SubType Setup IocrParam)

/-- The name of the AR block is as long as it says. -/
def NameThere (rq : Request) : Prop := ∀ ar, rq.ar = some ar → ar.nameLen.toNat ≤ ar.name.length

theorem arOk {ar : ArBlock} (hn : ar.nameLen.toNat ≤ ar.name.length) (h : Connect.checkAr ar = some (.ok ())) :
    (∀ f ∈ arFields ar, f.2) ∧ ar.props.toNat / 256 % 2 = 0 := by
  have := (Connect.C15_ar_block_accepted_iff ar hn).1 h
  exact ⟨this, this (⟨1, 9⟩, ar.props.toNat / 256 % 2 = 0) (by simp [arFields])⟩

theorem arErr {ar : ArBlock} (hn : ar.nameLen.toNat ≤ ar.name.length) {e : Err} (h : Connect.checkAr ar = some (.error e)) :
    Names (arFields ar) e := by
  obtain ⟨r, hr, hv⟩ := Connect.C15_ar_block_verdict ar hn
  rw [h] at hr
  have hr := Option.some.inj hr
  subst hr
  obtain ⟨pre, p, post, hl, _, hp⟩ := hv
  exact ⟨p, by rw [hl]; simp, hp⟩

/-- The conditions on the IOCRs in the order of the loop. -/
theorem frConds_mem (env : Env) (rq : Request) (f : Err × Prop) :
    f ∈ ((rq.crs.map Cr.param).map fun p => (p, ((Layout.setupDesc env.cap rq.lay p).map fun s => s.1).getD ⟨[], 0, 0⟩)).flatMap (frFields rq) ↔
    f ∈ (rq.crs.flatMap fun c => c.apis.flatMap fun a => apiFields rq c.type a) ++
      (rq.crs.flatMap fun c => frameFields c.block.cSdu.toNat (objects env rq c)) := by
  rw [List.map_map, List.mem_append]
  simp only [List.mem_flatMap, List.mem_map]
  constructor
  · rintro ⟨x, ⟨c, hc, rfl⟩, hf⟩
    simp only [frFields, Function.comp_apply, List.mem_append, objects_eq] at hf
    rcases hf with hf | hf
    · obtain ⟨a, ha, hf⟩ := List.mem_flatMap.1 hf
      exact .inl ⟨c, hc, a, ha, hf⟩
    · exact .inr ⟨c, hc, hf⟩
  · rintro (⟨c, hc, a, ha, hf⟩ | ⟨c, hc, hf⟩)
    · refine ⟨_, ⟨c, hc, rfl⟩, ?_⟩
      simp only [frFields, Function.comp_apply, List.mem_append, objects_eq]
      exact .inl (List.mem_flatMap.2 ⟨a, ha, hf⟩)
    · refine ⟨_, ⟨c, hc, rfl⟩, ?_⟩
      simp only [frFields, Function.comp_apply, List.mem_append, objects_eq]
      exact .inr hf

/-- What happens in the checks. -/
theorem checkApdu_cases {env : Env} {rq : Request} (hn : NameThere rq) {o : Outcome} (h : checkApdu env rq = some o) :
    (rq.ar = none ∧ o = .refused none) ∨
    ∃ ar, rq.ar = some ar ∧
      ((∃ e, o = .refused (some e) ∧ Fault env rq e) ∨
       (o = .refused none ∧ ¬ StatusKnown rq) ∨
       (o = .accepted ∧ StatusKnown rq ∧ (∀ f ∈ strict env rq ar, f.2) ∧
          Connect.checkIocrs env.minInterval ar (rq.crs.map Cr.block) = .ok () ∧
          ∀ b ∈ rq.alarms, Connect.checkAlarm ar b = .ok ())) := by
  unfold checkApdu at h
  cases har : rq.ar with
  | none =>
    rw [har] at h
    exact .inl ⟨rfl, (Option.some.inj h).symm⟩
  | some ar =>
    refine .inr ⟨ar, rfl, ?_⟩
    have hn' := hn ar har
    rw [har] at h
    simp only [Option.bind_eq_some_iff] at h
    obtain ⟨r, hr, h⟩ := h
    have fault : ∀ {e}, Names (strict env rq ar ++ loose env rq ar) e → Fault env rq e := fun ⟨p, hp, hnp⟩ => ⟨ar, p, har, hp, hnp⟩
    cases r with
    | error e =>
      refine .inl ⟨e, (Option.some.inj h).symm, fault ((arErr hn' hr).mono fun f hf => ?_)⟩
      simp [strict, hf]
    | ok u =>
      obtain ⟨ha, hda⟩ := arOk hn' hr
      simp only at h
      split at h
      · rename_i e hi
        refine .inl ⟨e, (Option.some.inj h).symm, fault ?_⟩
        rcases checkIocrsFrom_names hda _ _ _ hi with hh | hh
        · simp at hh
        · refine hh.mono fun f hf => ?_
          rw [List.flatMap_map] at hf
          exact List.mem_append_right _ (List.mem_append_left _ hf)
      · rename_i hi
        have hj := configure_judges env rq
        rw [access_false hda] at h
        split at h
        · rename_i e hc
          rw [hc] at hj
          refine .inl ⟨e, (Option.some.inj h).symm, fault (hj.mono fun f hf => ?_)⟩
          simp [strict, hf]
        · rename_i hc
          rw [hc] at hj
          rw [Option.bind_eq_some_iff] at h
          obtain ⟨r, hs, h⟩ := h
          cases r with
          | none =>
            refine .inr (.inl ⟨(Option.some.inj h).symm, fun hk => ?_⟩)
            obtain ⟨p, hp, s, hsd⟩ := setupAll_none hs
            obtain ⟨c, hcm, rfl⟩ := List.mem_map.1 hp
            have := (setupDesc_flag rq hsd).2 (hk c hcm)
            simp at this
          | some ss =>
            obtain ⟨s1, s2⟩ := setupAll_ok hs
            have hk : StatusKnown rq := by
              intro c hcm
              obtain ⟨s, hsd⟩ := s1 c.param (List.mem_map.2 ⟨c, hcm, rfl⟩)
              exact (setupDesc_flag rq hsd).1 rfl
            have hf := crs_judges rq ((rq.crs.map Cr.param).zip ss)
            simp only at h
            rw [s2] at h hf
            split at h
            · rename_i e he
              rw [he] at hf
              refine .inl ⟨e, (Option.some.inj h).symm, fault (hf.mono fun f hf => ?_)⟩
              rw [frConds_mem] at hf
              simp only [strict, List.mem_append] at hf ⊢
              rcases hf with hf | hf
              · exact .inl (.inl (.inl (.inr hf)))
              · exact .inl (.inl (.inr hf))
            · rename_i he
              rw [he] at hf
              split at h
              · rename_i e hw
                refine .inl ⟨e, (Option.some.inj h).symm, fault ?_⟩
                rcases finalCheck_some hda hw with hh | hh
                · exact hh.mono fun f hf => by simp [strict, hf]
                · exact hh.mono fun f hf => by simp only [loose, List.mem_append]; exact .inr (.inr hf)
              · rename_i hw
                obtain ⟨w1, w2⟩ := finalCheck_none hda hw
                refine .inr (.inr ⟨(Option.some.inj h).symm, hk, ?_, hi, w2⟩)
                intro f hmem
                simp only [strict, List.mem_append] at hmem
                rcases hmem with (((hm | hm) | hm) | hm) | hm
                · exact ha f hm
                · exact hj f hm
                · exact hf f ((frConds_mem env rq f).2 (List.mem_append_left _ hm))
                · exact hf f ((frConds_mem env rq f).2 (List.mem_append_right _ hm))
                · exact w1 f hm

/-- C154, partial.  Missing are requests without an AR block or with a consumer status for a submodule that is not expected:
for those it is false (`C154_fails_no_ar_block`, `C154_fails_unknown_status`).  Any other request that is refused gets an error,
and what the error names is wrong with the request. -/
theorem C154_refusal_names_fault_partial (env : Env) (rq : Request) (hn : NameThere rq) (ha : rq.ar ≠ none) (hk : StatusKnown rq)
    (r : Option Err) (h : checkApdu env rq = some (.refused r)) : ∃ e, r = some e ∧ Fault env rq e := by
  rcases checkApdu_cases hn h with ⟨h1, _⟩ | ⟨ar, _, ⟨e, he, hf⟩ | ⟨_, hk'⟩ | ⟨hx, _⟩⟩
  · exact absurd h1 ha
  · injection he with he
    exact ⟨e, he, hf⟩
  · exact absurd hk hk'
  · cases hx

/-- An error is true whatever the request is. -/
theorem C154_error_is_true (env : Env) (rq : Request) (hn : NameThere rq) (e : Err)
    (h : checkApdu env rq = some (.refused (some e))) : Fault env rq e := by
  rcases checkApdu_cases hn h with ⟨_, h1⟩ | ⟨ar, _, ⟨e', he, hf⟩ | ⟨h1, _⟩ | ⟨hx, _⟩⟩
  · cases h1
  · injection he with he
    exact Option.some.inj he ▸ hf
  · cases h1
  · cases hx

/-- A request with nothing wrong is accepted. -/
theorem C154_faultless_accepted (env : Env) (rq : Request) (hn : NameThere rq) (ha : rq.ar ≠ none) (hk : StatusKnown rq)
    (hg : ∀ e, ¬ Fault env rq e) (o : Outcome) (h : checkApdu env rq = some o) : o = .accepted := by
  rcases checkApdu_cases hn h with ⟨h1, _⟩ | ⟨ar, _, ⟨e, he, hf⟩ | ⟨_, hk'⟩ | ⟨hx, _⟩⟩
  · exact absurd h1 ha
  · exact absurd hf (hg e)
  · exact absurd hk hk'
  · exact hx

/-- An accepted request has an AR block, consumer status for expected submodules only, and meets all conditions of `strict`; its
IOCR and alarm blocks have passed the checks of C16 and C17. -/
theorem C154_accepted_meets_conditions (env : Env) (rq : Request) (hn : NameThere rq) (h : checkApdu env rq = some .accepted) :
    StatusKnown rq ∧ ∃ ar, rq.ar = some ar ∧ (∀ f ∈ strict env rq ar, f.2) ∧
      Connect.checkIocrs env.minInterval ar (rq.crs.map Cr.block) = .ok () ∧ ∀ b ∈ rq.alarms, Connect.checkAlarm ar b = .ok () := by
  rcases checkApdu_cases hn h with ⟨_, h1⟩ | ⟨ar, har, ⟨e, he, hf⟩ | ⟨h1, _⟩ | ⟨_, hk, h2⟩⟩
  · cases h1
  · cases he
  · cases h1
  · exact ⟨hk, ar, har, h2⟩

/-- The checks stay inside their tables, for expected modules that fit into the tables (`Layout.Bounded`). -/
theorem C154_defined (env : Env) (rq : Request) (hn : NameThere rq) (A S U : Nat) (hc : env.cap = A * S * U)
    (hb : Layout.Bounded A S U rq.lay) : ∃ o, checkApdu env rq = some o := by
  unfold checkApdu
  cases har : rq.ar with
  | none => exact ⟨_, rfl⟩
  | some ar =>
    obtain ⟨r, hr, _⟩ := Connect.C15_ar_block_verdict ar (hn ar har)
    simp only [hr, Option.bind_some]
    cases r with
    | error e => exact ⟨_, rfl⟩
    | ok u =>
      simp only
      split
      · exact ⟨_, rfl⟩
      split
      · exact ⟨_, rfl⟩
      have := setupAll_defined hb (rq.crs.map Cr.param)
      rw [← hc, Option.isSome_iff_exists] at this
      obtain ⟨x, hx⟩ := this
      rw [hx, Option.bind_some]
      cases x with
      | none => exact ⟨_, rfl⟩
      | some ss =>
        simp only
        split
        · exact ⟨_, rfl⟩
        split <;> exact ⟨_, rfl⟩

/-! ## The answer -/

/-- `pnio_status` of the session after the checks, as the answer takes it (ConnRsp.Env.check): the codes of all errors are
PNET_ERROR_CODE_CONNECT and PNET_ERROR_DECODE_PNIO; the status of a new session is zero. -/
def Outcome.status : Outcome → Option Wire.Status
  | .accepted => none
  | .refused none => some ⟨0, 0, 0, 0⟩
  | .refused (some e) => some ⟨0xDB, 0x81, BitVec.ofNat 8 e.code1, BitVec.ofNat 8 e.code2⟩

/-- C154, partial, for the answer of the device.  The answer to a refused request begins with the status "connect, PNIO" and the two
codes of something that is wrong with it (missing: as above).  `q`: the same request, as far as the answer needs it. -/
theorem C154_answer_names_fault_partial (env : Env) (rq : Request) (hn : NameThere rq) (ha : rq.ar ≠ none) (hk : StatusKnown rq)
    (r : Option Err) (h : checkApdu env rq = some (.refused r)) {e : ConnRsp.Env} {q : ConnRsp.Req} {ndr : Wire.Ndr} {w : Wire.Wr}
    (hw : Read.Ready w) (hc : e.check = (Outcome.refused r).status)
    (hid : q.uuid.d4.length = 8) (hroom : w.pos + 20 + ConnRsp.frontLen q [] + ConnRsp.backLen q [] 0 ≤ w.cap) :
    ∃ (er : Err) (w' : Wire.Wr) (s : Wire.Status) (rest : List Byte), Fault env rq er ∧
      ConnRsp.connectInd e q none ndr w = some (w', s, e.ars, e.eps) ∧
      Read.Appends w w' ([0xDB, 0x81, BitVec.ofNat 8 er.code1, BitVec.ofNat 8 er.code2] ++ rest) := by
  obtain ⟨er, rfl, hf⟩ := C154_refusal_names_fault_partial env rq hn ha hk r h
  obtain ⟨w', h1, h2⟩ := ConnRsp.C103_checks_with_zeros (ndr := ndr) hw hc hid hroom
  unfold ConnRsp.encRsp Read.encStatus at h2
  simp only [List.append_assoc] at h2
  exact ⟨er, w', _, _, hf, h1, h2⟩

/-! ## A request that is accepted, and one that is refused -/

def exEnv : Env := ⟨32, 4, fun n => n == 0, fun _ _ => true, fun _ _ _ => true⟩

def exRequest : Request where
  ar := some exampleArLegacy
  crs := [⟨exampleIocr, Layout.exIn.apis⟩, ⟨{ exampleIocr with type := 2, frameId := 0xFFFF }, Layout.exOut.apis⟩]
  exp := [⟨0, [⟨0, 1, [⟨⟨1, .noIo, false, false, false, [⟨1, 0, 1, 1⟩]⟩, 1, false⟩]⟩,
    ⟨1, 50, [⟨⟨1, .io, false, false, false, [⟨1, 2, 1, 1⟩, ⟨2, 1, 1, 1⟩]⟩, 7, false⟩]⟩]⟩]
  alarms := [exampleAlarm]
  rpcPort := none

theorem exRequest_name : NameThere exRequest := by
  intro ar h
  have := Option.some.inj h
  subst this
  decide +kernel

theorem C154_example_accepted : checkApdu exEnv exRequest = some .accepted := by decide +kernel

/-- The slot of the I/O module is listed twice: error 3, 6. -/
def exRefused : Request := { exRequest with exp := exRequest.exp.map fun a => { a with mods := a.mods ++ a.mods } }

theorem C154_example_refused : exRefused.ar ≠ none ∧ NameThere exRefused ∧ StatusKnown exRefused ∧
    checkApdu exEnv exRefused = some (.refused (some ⟨3, 6⟩)) ∧ Layout.Bounded 1 4 1 exRefused.lay ∧ exEnv.cap = 1 * 4 * 1 := by
  refine ⟨by simp [exRefused, exRequest], exRequest_name, ?_, by decide +kernel, ?_, rfl⟩
  · unfold StatusKnown
    have h : ∀ c ∈ exRefused.crs, ∀ a ∈ c.apis, ∀ f ∈ a.iocs, (firstSubFor exRefused a.api f.slot f.subslot).isSome = true := by decide +kernel
    exact fun c hc a ha f hf => Option.isSome_iff_exists.1 (h c hc a ha f hf)
  · unfold Layout.Bounded
    decide +kernel

end Verif.Check
