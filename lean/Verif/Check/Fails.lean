import Verif.Check.Props
import Verif.Startup.Lemmas
import Verif.Wire.Props
/-! # C154: requests that are refused without an error -/
set_option linter.unusedSimpArgs false
set_option linter.unusedVariables false
namespace Verif.Check
open Verif.Connect (Err ArBlock IocrBlock AlarmBlock arFields alarmFields classOf exampleArLegacy exampleIocr exampleAlarm)
open Verif.Layout (FrameDesc ApiEntry DataDescr IoData IocrType SubType Setup IocrParam)

/-- Any request without an AR block is refused without an error. -/
theorem C154_fails_no_ar_block (env : Env) (rq : Request) (h : rq.ar = none) : checkApdu env rq = some (.refused none) := by
  unfold checkApdu
  rw [h]

/-- Such requests pass the reader: at the end of the packet, with a length of 0, it reads a request without any block. -/
theorem C154_empty_request_read (z : Wire.ConnSizes) (r : Wire.Rd) (h1 : r.err = .ok) (h2 : r.pos = r.len) :
    Wire.connectInterpret z 0 r = some ((true, Wire.Conn.empty), r) ∧ Wire.Conn.empty.nbrAr = 0 := by
  refine ⟨?_, rfl⟩
  have hl : Wire.connLoop z (r.len + 1) true Wire.Conn.empty r = some ((true, Wire.Conn.empty), r) := by
    show (Wire.reader >>= fun r => _) r = _
    show (if r.err = .ok ∧ r.pos + 6 ≤ r.len then _ else _ : Wire.P _) r = _
    rw [if_neg (by omega)]
    rfl
  show (Wire.connectInterpret z 0 : Wire.P _) r = _
  unfold Wire.connectInterpret
  show Option.bind (Wire.connLoop z (r.len + 1) true Wire.Conn.empty r) _ = _
  rw [hl]
  show (if true = true ∧ r.err = .ok ∧ r.pos = r.len ∧ r.pos - r.pos = 0 then _ else _ : Wire.P _) r = _
  rw [if_pos ⟨rfl, h1, h2, by omega⟩]
  rfl

/-- The request with one more consumer status, in API `k` of CR `j`. -/
def Request.addStatus (rq : Request) (j k : Nat) (f : FrameDesc) : Request :=
  { rq with crs := rq.crs.modify j fun c => { c with apis := c.apis.modify k fun a => { a with iocs := a.iocs ++ [f] } } }

theorem mem_modify {α} {l : List α} {i : Nat} {g : α → α} {x : α} (h : x ∈ l) : x ∈ l.modify i g ∨ g x ∈ l.modify i g := by
  obtain ⟨n, hn⟩ := List.mem_iff_getElem?.1 h
  by_cases he : i = n
  · right
    refine List.mem_iff_getElem?.2 ⟨n, ?_⟩
    rw [List.getElem?_modify, hn]; simp [he]
  · left
    refine List.mem_iff_getElem?.2 ⟨n, ?_⟩
    rw [List.getElem?_modify, hn]; simp [he]

theorem mem_modify_at {α} {l : List α} {i : Nat} {g : α → α} {x : α} (h : l[i]? = some x) : g x ∈ l.modify i g := by
  refine List.mem_iff_getElem?.2 ⟨i, ?_⟩
  rw [List.getElem?_modify, h]; simp

theorem used_addStatus {rq : Request} {j k : Nat} {f : FrameDesc} {n sl ss : Nat} (h : Used rq n sl ss) : Used (rq.addStatus j k f) n sl ss := by
  obtain ⟨c, hc, a, ha, h1, g, hg, h2⟩ := h
  have grow : ∀ a' : ApiEntry, a' = a ∨ a' = { a with iocs := a.iocs ++ [f] } →
      a'.api = n ∧ ∃ g, (g ∈ a'.ioData ∨ g ∈ a'.iocs) ∧ g.slot = sl ∧ g.subslot = ss := by
    rintro a' (rfl | rfl)
    · exact ⟨h1, g, hg, h2⟩
    · exact ⟨h1, g, hg.imp id (fun h => List.mem_append_left _ h), h2⟩
  rcases mem_modify (i := j) (g := fun c : Cr => { c with apis := c.apis.modify k fun a => { a with iocs := a.iocs ++ [f] } }) hc with hc' | hc'
  · exact ⟨c, hc', a, ha, grow a (.inl rfl)⟩
  · rcases mem_modify (i := k) (g := fun a : ApiEntry => { a with iocs := a.iocs ++ [f] }) ha with ha' | ha'
    · exact ⟨_, hc', a, ha', grow a (.inl rfl)⟩
    · exact ⟨_, hc', _, ha', grow _ (.inr rfl)⟩

theorem subFields_addStatus {rq : Request} {j k : Nat} {f : FrameDesc} {n sl : Nat} {there : Prop} {before : List Sub} {s : Sub}
    (h : ∀ g ∈ subFields rq n sl there before s, g.2) : ∀ g ∈ subFields (rq.addStatus j k f) n sl there before s, g.2 := by
  intro g hg
  unfold subFields at hg h
  rcases List.mem_cons.1 hg with rfl | hg
  · exact h _ (List.mem_of_getElem? (i := 0) rfl)
  rcases List.mem_cons.1 hg with rfl | hg
  · exact used_addStatus (h _ (List.mem_of_getElem? (i := 1) rfl))
  · exact h g (List.mem_cons_of_mem _ (List.mem_cons_of_mem _ hg))

theorem expConds_addStatus {env : Env} {rq : Request} {j k : Nat} {f : FrameDesc}
    (h : ∀ g ∈ expConds env rq, g.2) : ∀ g ∈ expConds env (rq.addStatus j k f), g.2 := by
  intro g hg
  unfold expConds at hg h
  rcases List.mem_cons.1 hg with rfl | hg
  · exact h _ (List.mem_cons_self ..)
  · obtain ⟨⟨a, i⟩, ha, hg⟩ := List.mem_flatMap.1 hg
    have h := fun g hg => h g (List.mem_cons_of_mem _ (List.mem_flatMap.2 ⟨(a, i), ha, hg⟩))
    dsimp only at hg h
    by_cases hap : env.apiThere a.api = true
    · rw [if_pos hap] at hg h
      obtain ⟨⟨m, l⟩, hm, hg⟩ := List.mem_flatMap.1 hg
      have h := fun g hg => h g (List.mem_flatMap.2 ⟨(m, l), hm, hg⟩)
      dsimp only at hg h
      rcases List.mem_append.1 hg with hg | hg
      · exact h g (List.mem_append_left _ hg)
      · obtain ⟨⟨s, o⟩, hs, hg⟩ := List.mem_flatMap.1 hg
        have h := fun g hg => h g (List.mem_append_right _ (List.mem_flatMap.2 ⟨(s, o), hs, hg⟩))
        exact subFields_addStatus h g hg
    · rw [if_neg hap] at hg
      simp at hg

theorem blocks_addStatus (rq : Request) (j k : Nat) (f : FrameDesc) :
    (rq.addStatus j k f).crs.map Cr.block = rq.crs.map Cr.block := by
  apply List.ext_getElem?
  intro i
  unfold Request.addStatus
  simp only [List.getElem?_map, List.getElem?_modify]
  cases rq.crs[i]? with
  | none => rfl
  | some c => by_cases h : j = i <;> simp [h]

/-- An accepted request to which one consumer status is added, for a submodule that it does not expect, is refused without an error. -/
theorem C154_fails_unknown_status (env : Env) (rq : Request) (hn : NameThere rq) (A S U : Nat) (hcap : env.cap = A * S * U)
    (hb : Layout.Bounded A S U rq.lay) (h : checkApdu env rq = some .accepted) (j k : Nat) (c : Cr) (a : ApiEntry)
    (hj : rq.crs[j]? = some c) (hk : c.apis[k]? = some a) (f : FrameDesc) (hf : firstSubFor rq a.api f.slot f.subslot = none) :
    checkApdu env (rq.addStatus j k f) = some (.refused none) := by
  obtain ⟨_, ar, har, hs, hi, _⟩ := C154_accepted_meets_conditions env rq hn h
  have hunk : ¬ StatusKnown (rq.addStatus j k f) := by
    intro hh
    have h1 := mem_modify_at (g := fun c : Cr => { c with apis := c.apis.modify k fun a => { a with iocs := a.iocs ++ [f] } }) hj
    have h2 := mem_modify_at (g := fun a : ApiEntry => { a with iocs := a.iocs ++ [f] }) hk
    obtain ⟨s, hs⟩ := hh _ h1 _ h2 f (by simp)
    have : firstSubFor (rq.addStatus j k f) a.api f.slot f.subslot = none := hf
    rw [this] at hs
    simp at hs
  have hn' := hn ar har
  have hda : ar.props.toNat / 256 % 2 = 0 := hs (⟨1, 9⟩, ar.props.toNat / 256 % 2 = 0) (by simp [strict, arFields])
  have hc : Connect.checkAr ar = some (.ok ()) :=
    (Connect.C15_ar_block_accepted_iff ar hn').2 fun f hf => hs f (by simp [strict, hf])
  have hcfg : configure env false (rq.addStatus j k f) = none := by
    have hj := configure_judges env (rq.addStatus j k f)
    cases hr : configure env false (rq.addStatus j k f) with
    | none => rfl
    | some e =>
      rw [hr] at hj
      obtain ⟨p, hp, hnp⟩ := hj
      exact absurd (expConds_addStatus (fun g hg => hs g (by simp [strict, hg])) _ hp) hnp
  have hdef := setupAll_defined (e := rq.lay) hb ((rq.addStatus j k f).crs.map Cr.param)
  rw [← hcap, Option.isSome_iff_exists] at hdef
  obtain ⟨x, hx⟩ := hdef
  unfold checkApdu
  rw [show (rq.addStatus j k f).ar = some ar from har]
  simp only [hc, Option.bind_some, blocks_addStatus, hi, access_false hda, hcfg]
  rw [show (rq.addStatus j k f).lay = rq.lay from rfl, hx]
  cases x with
  | none => rfl
  | some ss =>
    exfalso
    apply hunk
    obtain ⟨s1, _⟩ := setupAll_ok hx
    intro c hcm
    obtain ⟨s, hsd⟩ := s1 c.param (List.mem_map.2 ⟨c, hcm, rfl⟩)
    exact (setupDesc_flag (rq.addStatus j k f) (cap := env.cap) (p := c.param) (s := (s, true)) hsd).1 rfl

/-- The hypotheses are met by the example: a status for slot 9. -/
theorem C154_fails_unknown_status_example : checkApdu exEnv (exRequest.addStatus 1 0 ⟨9, 1, 7⟩) = some (.refused none) :=
  C154_fails_unknown_status exEnv exRequest exRequest_name 1 4 1 rfl (by unfold Layout.Bounded; decide +kernel) C154_example_accepted
    1 0 _ _ rfl rfl ⟨9, 1, 7⟩ (by decide +kernel)

/-- The controller gets an answer that says that all is well: it begins with the status zero. -/
theorem C154_fails_positive_answer {e : ConnRsp.Env} {q : ConnRsp.Req} {ndr : Wire.Ndr} {w : Wire.Wr} (hw : Read.Ready w)
    (hc : e.check = (Outcome.refused none).status) (hid : q.uuid.d4.length = 8)
    (hroom : w.pos + 20 + ConnRsp.frontLen q [] + ConnRsp.backLen q [] 0 ≤ w.cap) :
    ∃ (w' : Wire.Wr) (s : Wire.Status) (rest : List Byte), ConnRsp.connectInd e q none ndr w = some (w', s, e.ars, e.eps) ∧
      Read.Appends w w' ([0, 0, 0, 0] ++ rest) := by
  obtain ⟨w', h1, h2⟩ := ConnRsp.C103_checks_with_zeros (ndr := ndr) hw hc hid hroom
  unfold ConnRsp.encRsp Read.encStatus at h2
  simp only [List.append_assoc] at h2
  exact ⟨w', _, _, h1, h2⟩

/-- The device keeps the connection and its session, and no release request ends it. -/
theorem C154_fails_connection_kept (c : Startup.Cfg) (st : Startup.St) (s u : Nat) (legacy : Bool) (factor : Nat) (iocrs : List Bool) (i : Nat)
    (h1 : Startup.findUuid c (Startup.useSess st s) u = none) (h2 : Startup.findFree c (Startup.useSess st s) = some i) :
    let st' := Startup.connect c st s u false legacy factor iocrs (.refused 0)
    (st'.ars i).inUse = true ∧ (st'.ars i).sess = some s ∧ (st'.sess s).inUse = true ∧
      ∀ s' u', ((Startup.release c st' s' u').ars i).inUse = true := by
  intro st'
  have hst : st' = Startup.connect c st s u false legacy factor iocrs (.refused 0) := rfl
  have hsu : ((Startup.useSess st s).sess s).inUse = true := by
    unfold Startup.useSess
    by_cases h : (st.sess s).inUse = true
    · rw [if_pos h]; exact h
    · rw [if_neg h]; simp [Startup.St.setSess, Startup.St.note]
  unfold Startup.connect at hst
  simp only [h1, h2, Startup.connectInd, if_true] at hst
  have e1 : (st'.ars i).inUse = true ∧ (st'.ars i).sess = some s ∧ (st'.ars i).access = false ∧ (st'.ars i).cmdev = .wCind := by
    rw [hst]
    simp [Startup.setState, Startup.St.setAr, Startup.St.setSess]
  have e2 : (st'.sess s).inUse = true := by
    rw [hst]
    simp [Startup.setState, Startup.St.setAr, Startup.St.setSess, hsu]
  refine ⟨e1.1, e1.2.1, e2, ?_⟩
  intro s' u'
  have rel : ∀ x : Startup.St, ((Startup.sessRelease x s').ars i) = x.ars i := by
    intro x
    unfold Startup.sessRelease
    split <;> rfl
  unfold Startup.release
  rw [rel]
  have hu : (Startup.useSess st' s').ars = st'.ars := by
    unfold Startup.useSess
    split <;> rfl
  generalize hx : Startup.useSess st' s' = x at hu ⊢
  cases hf : Startup.findUuid c x u' with
  | none => simp only [hf, hu]; exact e1.1
  | some k =>
    simp only [hf]
    by_cases hk : k = i
    · subst hk
      rw [hu, e1.2.2.1, e1.2.2.2]
      simp only [Bool.false_eq_true, if_false, hu]
      exact e1.1
    · have o1 : ∀ v, (Startup.setState x k v).ars i = x.ars i := fun v => (Startup.Only.setState i (Ne.symm hk)).1
      have o2 : ∀ v, (Startup.stateInd x k v).ars i = x.ars i := fun v => (Startup.Only.stateInd i (Ne.symm hk)).1
      have hi : (x.ars i).inUse = true := by rw [hu]; exact e1.1
      repeat' first
        | exact hi
        | (rw [o1]; exact hi)
        | (rw [o2]; exact hi)
        | split

end Verif.Check
