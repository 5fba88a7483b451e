import Verif.Startup.Reparam
import Verif.Read.Model
/-!
C161: what the application is asked when a controller connects, releases or sends a DControl request, what comes of its answer, and what is noted in the log book.
include/pnet_api.h says for each of the three call-backs that it is called on every such request, and that success is assumed if it is not implemented.
The effect of the requests on the connections is that of `Verif.Startup.step`; here the call-backs that decide parts of it are added.
-/
set_option linter.unusedSimpArgs false
set_option linter.unusedVariables false
namespace Verif.Startup

open Verif.Read (Result noResult)

/-! ## Model -/

/-- The call-backs `connect_cb`, `release_cb` and `dcontrol_cb` of the configuration (include/pnet_api.h:573-636), `none` if not implemented: from the connection (and the
command) and the result so far to success and the result. -/
structure App where
  connect : Option (Nat → Result → Bool × Result)
  release : Option (Nat → Result → Bool × Result)
  dcontrol : Option (Nat → Nat → Result → Bool × Result)

/-- What the application and a reader of the log book see of a request: calls of the three call-backs, and entries in the log book. -/
inductive Out where
  | connect (i : Nat)
  | release (i : Nat)
  | dcontrol (i cmd : Nat)
  | logged (i : Nat) (status : Wire.Status) (detail : Nat)
deriving DecidableEq

/-- pf_fspm_cm_connect_ind (src/device/pf_fspm.c:1146-1179); PF_LOG_BOOK_AR_CONNECT is 1. -/
def fspmConnect (app : App) (i : Nat) (res : Result) : (Bool × Result) × List Out :=
  match app.connect with
  | some f => (f i res, [.connect i, .logged i (f i res).2.status 1])
  | none => ((true, res), [.logged i res.status 1])

/-- pf_fspm_cm_release_ind (src/device/pf_fspm.c:1181-1214); PF_LOG_BOOK_AR_RELEASE is 2. -/
def fspmRelease (app : App) (i : Nat) (res : Result) : (Bool × Result) × List Out :=
  match app.release with
  | some f => (f i res, [.release i, .logged i (f i res).2.status 2])
  | none => ((true, res), [.logged i res.status 2])

/-- pf_fspm_cm_dcontrol_ind (src/device/pf_fspm.c:1216-1256); PF_LOG_BOOK_DCONTROL is 3. -/
def fspmDcontrol (app : App) (i cmd : Nat) (res : Result) : (Bool × Result) × List Out :=
  match app.dcontrol with
  | some f => (f i cmd res, [.dcontrol i cmd, .logged i (f i cmd res).2.status 3])
  | none => ((true, res), [.logged i res.status 3])

/-- pf_cmrpc_rm_connect_ind (src/device/pf_cmrpc.c:1974-2117) and pf_cmdev_rm_connect_ind (src/device/pf_cmdev.c:4822-4891): a new entry is taken, the checks are made (`checks`: the error code
with which they refuse the request, if they do; the module difference is counted as a check), then the application is asked. -/
def askConnect (app : App) (c : Cfg) (st : St) (s u : Nat) (access legacy : Bool) (factor : Nat) (iocrs : List Bool) (checks : Option Nat)
    (start : Start) : St × List Out :=
  match findUuid c (useSess st s) u, findFree c (useSess st s), checks with
  | none, some i, none =>
    let r := fspmConnect app i noResult
    (connect c st s u access legacy factor iocrs (if r.1.1 then .accept start else .refused r.1.2.status.code.toNat), r.2)
  | _, _, code => (connect c st s u access legacy factor iocrs (.refused (code.getD 0)), [])

/-- pf_cmrpc_rm_release_ind (src/device/pf_cmrpc.c:2357-2450) with pf_cmdev_rm_release_ind (src/device/pf_cmdev.c:4893-4939): what the application is asked, and the result that is answered
(`none`: the connection is not known). The effect is that of `release`. -/
def askRelease (app : App) (c : Cfg) (st : St) (s u : Nat) : St × List Out × Option Result :=
  (release c st s u,
    match findUuid c (useSess st s) u with
    | none => ([], none)
    | some i =>
      if (st.ars i).access then ([], some noResult)
      else
        match (st.ars i).cmdev with
        | .wPeind | .wArdy | .wArdycnf | .wdata | .data =>
          let r := fspmRelease app i noResult
          (r.2, some r.1.2)
        | _ => ([], some noResult))

/-- The calls of pf_fspm_cm_dcontrol_ind noted since `before`. -/
def asked (before after : St) : List (Nat × Nat) :=
  (after.log.take (after.log.length - before.log.length)).filterMap fun
    | .dcCallback i cmd => some (i, cmd)
    | _ => none

/-- pf_cmrpc_rm_dcontrol_ind (src/device/pf_cmrpc.c:2702-2784) with pf_cmdev_rm_dcontrol_ind (src/device/pf_cmdev.c:4941-5014) and pf_cmpbe_rm_dcontrol_ind (src/device/pf_cmpbe.c:137-239): the answer of the application to the
command decides. Simplified: the application is asked about the command of the request (the code asks about a stored one in a case that does not occur); of its result the error code is
kept (area Control has the whole). -/
def askDcontrol (app : App) (c : Cfg) (st : St) (q : DcReq) : St × List Out :=
  let r := fspmDcontrol app ((findUuid c (useSess st q.s) q.u).getD 0) q.cmd noResult
  let st' := dcontrol c st { q with appOk := r.1.1, appRes := r.1.2.status.code.toNat }
  (st', (asked st st').flatMap fun x => (fspmDcontrol app x.1 x.2 noResult).2)

/-! ## Specification -/

/-- All three call-backs are implemented. -/
structure Full (app : App) (fc fr : Nat → Result → Bool × Result) (fd : Nat → Nat → Result → Bool × Result) : Prop where
  connect : app.connect = some fc
  release : app.release = some fr
  dcontrol : app.dcontrol = some fd

/-- A DControl request as in `Fresh`, whatever the application says. -/
structure New (st : St) (i cmd : Nat) (q : DcReq) : Prop where
  parse : q.parseOk = true
  plug : q.plug = false
  cmd : q.cmd = cmd
  used : (st.sess q.s).inUse = true
  seq : ∀ n r, lastDc q.s st.log = some (n, r) → n ≠ q.seq
  first : lastDc q.s st.log = none → q.seq ≠ 0xFFFFFFFF
  conn : (st.ars i).inUse = true
  uuid : (st.ars i).uuid = q.u

/-- **C161** as include/pnet_api.h has it, for connections the application was told STARTUP of: the release call-back is called on every release request, and the DControl call-back on every
DControl request (that is no repetition), once, and this is noted in the log book with the status the application has set. -/
def C161_statement : Prop :=
  ∀ (app : App) fc fr fd, Full app fc fr fd → ∀ (c : Cfg) (ops : List Op) (st : St) (i : Nat), exec c init ops = some st → Run c (Orderly c) init ops →
    upOf i st.log = true →
    (∀ s, (askRelease app c st s (st.ars i).uuid).2.1 = [.release i, .logged i (fr i noResult).2.status 2]) ∧
    (∀ q, New st i 1 q → (st.sess q.s).ar = some i → (askDcontrol app c st q).2 = [.dcontrol i 1, .logged i (fd i 1 noResult).2.status 3])

/-! ## Connect -/

/-- **C161**, connect: a connect request that passes the checks and for which there is room (`i` is the new entry) is told to the application once and noted in
the log book with the status the application has set. -/
theorem C161_connect_told {app : App} {fc fr fd} (ha : Full app fc fr fd) (c : Cfg) (st : St) (s u : Nat) (access legacy : Bool) (factor : Nat)
    (iocrs : List Bool) (start : Start) (i : Nat) (hu : findUuid c st u = none) (hf : findFree c st = some i) :
    (askConnect app c st s u access legacy factor iocrs none start).2 = [.connect i, .logged i (fc i noResult).2.status 1] := by
  have h1 : findUuid c (useSess st s) u = none := by rw [findUuid_useSess, hu]
  have h2 : findFree c (useSess st s) = some i := by unfold findFree at hf ⊢; simpa using hf
  simp only [askConnect, h1, h2, fspmConnect, ha.connect]

/-- A connect request that does not pass the checks, or that comes for an existing connection, or for which there is no room, is not told to the application. -/
theorem C161_connect_silent (app : App) (c : Cfg) (st : St) (s u : Nat) (access legacy : Bool) (factor : Nat)
    (iocrs : List Bool) (checks : Option Nat) (start : Start)
    (h : checks ≠ none ∨ findUuid c st u ≠ none ∨ findFree c st = none) :
    (askConnect app c st s u access legacy factor iocrs checks start).2 = [] := by
  have h1 : findUuid c (useSess st s) u = findUuid c st u := findUuid_useSess
  have h2 : findFree c (useSess st s) = findFree c st := by unfold findFree; simp
  unfold askConnect
  rw [h1, h2]
  rcases h with h | h | h
  · cases checks with
    | none => exact absurd rfl h
    | some x => cases findUuid c st u <;> cases findFree c st <;> rfl
  · cases e : findUuid c st u with
    | none => exact absurd e h
    | some x => rfl
  · rw [h]
    cases findUuid c st u <;> rfl

/-- **C161**, connect: the connection is opened exactly if the application agrees. If it refuses and sets an error code, the application is told of no event and the entry is free. -/
theorem C161_connect_decides {app : App} {fc fr fd} (ha : Full app fc fr fd) (c : Cfg) (st : St) (s u : Nat) (access legacy : Bool) (factor : Nat)
    (iocrs : List Bool) (i : Nat) (hu : findUuid c st u = none) (hf : findFree c st = some i) :
    ((fc i noResult).1 = true → upOf i (askConnect app c st s u access legacy factor iocrs none .ok).1.log = true) ∧
    ((fc i noResult).1 = false → (fc i noResult).2.status.code ≠ 0 →
      ((askConnect app c st s u access legacy factor iocrs none .ok).1.ars i).inUse = false ∧
      ∃ new, (askConnect app c st s u access legacy factor iocrs none .ok).1.log = new ++ st.log ∧ new.filter isEvent = []) := by
  have h1 : findUuid c (useSess st s) u = none := by rw [findUuid_useSess, hu]
  have h2 : findFree c (useSess st s) = some i := by unfold findFree at hf ⊢; simpa using hf
  have ul : ∃ pre, (useSess st s).log = pre ++ st.log ∧ pre.filter isEvent = [] := by
    rw [useSess_log]
    split
    · exact ⟨[], rfl, rfl⟩
    · exact ⟨[.opened s], rfl, rfl⟩
  constructor
  · intro h
    simp only [askConnect, h1, h2, fspmConnect, ha.connect, h, if_true, connect, connectInd]
    cases access <;> simp [setState_of_ne, stateInd_log, upOf]
  · intro h hc
    have hc' : (fc i noResult).2.status.code.toNat ≠ 0 := fun e => hc (BitVec.eq_of_toNat_eq e)
    simp only [askConnect, h1, h2, fspmConnect, ha.connect, h, Bool.false_eq_true, if_false, connect, connectInd, if_neg hc', refuse]
    constructor
    · simp [Ar.zero]
    · obtain ⟨pre, p1, p2⟩ := ul
      exact ⟨pre, by simp [setState_of_ne, p1], p2⟩

/-! ## Release -/

/-- The state of a connection that is up. -/
theorem up_cmdev {c : Cfg} {ops : List Op} {st : St} {i : Nat} (h : exec c init ops = some st) (hup : upOf i st.log = true) :
    findUuid c st (st.ars i).uuid = some i ∧ ((st.ars i).cmdev = .wPeind ∨ (st.ars i).cmdev = .wArdy ∨ (st.ars i).cmdev = .wArdycnf ∨
      (st.ars i).cmdev = .wdata ∨ (st.ars i).cmdev = .data) := by
  have hg : Good False st := Good.exec Good.init (fun t => t.elim) h
  have hu := UInv.exec Good.init (UInv.init c) h
  obtain ⟨hin, hl, hc⟩ := up_facts hg hup
  refine ⟨findUuid_of hg hu hin, ?_⟩
  unfold Live at hl
  cases hd : (st.ars i).cmdev <;> rw [hd] at hl hc <;> simp at hl hc ⊢

/-- **C161**, release: for every run, a release request for a connection that is up (not one for device access) is told to the application once and noted in the log book with the
status the application has set, which is also the answer; the connection ends whatever the application returns. -/
theorem C161_release_partial {app : App} {fc fr fd} (ha : Full app fc fr fd) (c : Cfg) (ops : List Op) (st : St) (i s : Nat)
    (h : exec c init ops = some st) (hup : upOf i st.log = true) (hacc : (st.ars i).access = false) :
    (askRelease app c st s (st.ars i).uuid).2 =
      ([.release i, .logged i (fr i noResult).2.status 2], some (fr i noResult).2) ∧
    Ended st (askRelease app c st s (st.ars i).uuid).1 i := by
  obtain ⟨hf, hd⟩ := up_cmdev h hup
  refine ⟨?_, (C146_ends c ops st _ (.release s (st.ars i).uuid) i h hup rfl rfl).1⟩
  have hf' : findUuid c (useSess st s) (st.ars i).uuid = some i := by rw [findUuid_useSess, hf]
  unfold askRelease
  rw [hf']
  dsimp only
  rw [if_neg (by simp [hacc])]
  rcases hd with e | e | e | e | e <;> rw [e] <;> simp only [fspmRelease, ha.release]

/-- **C161** fails for connections for device access, every run: the release request is carried out, but the application is not asked and nothing is noted in the log book. -/
theorem C161_fails_release (app : App) (c : Cfg) (ops : List Op) (st : St) (i s : Nat)
    (h : exec c init ops = some st) (hup : upOf i st.log = true) (hacc : (st.ars i).access = true) :
    (askRelease app c st s (st.ars i).uuid).2 = ([], some noResult) ∧ Ended st (askRelease app c st s (st.ars i).uuid).1 i := by
  obtain ⟨hf, hd⟩ := up_cmdev h hup
  refine ⟨?_, (C146_ends c ops st _ (.release s (st.ars i).uuid) i h hup rfl rfl).1⟩
  have hf' : findUuid c (useSess st s) (st.ars i).uuid = some i := by rw [findUuid_useSess, hf]
  unfold askRelease
  rw [hf']
  dsimp only
  rw [if_pos hacc]

/-! ## DControl -/

/-- What a new request does, up to the state machines. -/
theorem new_step {T : Prop} {c : Cfg} {st : St} {i cmd : Nat} {q : DcReq} (hg : Good T st) (hui : UInv c st) (hq : New st i cmd q) (b : Bool) (n : Nat) :
    findUuid c st q.u = some i ∧
    dcontrol c st { q with appOk := b, appRes := n } =
      (let r := cmdevDcontrol st i cmd b q.pdevOk
       let res := dcResult st r.1 { q with appOk := b, appRes := n }
       let st := (r.1.setSess q.s { r.1.sess q.s with dcSeq := q.seq, dcRes := res }).note (.dcAnswer q.s q.seq res true)
       if r.2 then
         match (st.sess q.s).ar with
         | none => st
         | some j => stateInd st j .prmend
       else st) := by
  obtain ⟨hp, hpl, hcmd, hu, hseq, hfirst, hin, huu⟩ := hq
  have hdc := hg.s.dc q.s hu
  have hne : ¬ (st.sess q.s).dcSeq = q.seq := by
    intro he
    cases hx : lastDc q.s st.log with
    | none => rw [hx] at hdc; exact hfirst hx (by rw [← he]; exact hdc.1)
    | some x =>
      obtain ⟨n, r⟩ := x
      rw [hx] at hdc
      exact hseq n r hx (by rw [← he]; exact hdc.1.symm)
  have huse : useSess st q.s = st := by unfold useSess; rw [if_pos hu]
  have hf := findUuid_of hg hui hin
  rw [huu] at hf
  refine ⟨hf, ?_⟩
  unfold dcontrol
  dsimp only
  rw [huse, if_neg (by simp [hp]), if_neg hne, hf]
  dsimp only
  rw [if_neg (by simp [hpl])]
  subst hcmd
  rfl

theorem asked_of {before after : St} (l : List Entry) (h : after.log = l ++ before.log) :
    asked before after = l.filterMap fun | .dcCallback i cmd => some (i, cmd) | _ => none := by
  unfold asked
  rw [h, show (l ++ before.log).length - before.log.length = l.length by simp, List.take_left]

/-- The state of the device machine of an orderly connection in the phases in question. -/
theorem orderly_cmdev {c : Cfg} {ops : List Op} {st : St} {i : Nat} (h : exec c init ops = some st) (ho : Run c (Orderly c) init ops)
    (hin : (st.ars i).inUse = true) (hacc : (st.ars i).access = false) :
    (phase i st.log = .started → (st.ars i).cmdev = .wPeind) ∧
    ((phase i st.log = .prmended ∨ phase i st.log = .called ∨ phase i st.log = .ready ∨ phase i st.log = .confirmed) →
      (st.ars i).cmdev = .wArdy ∨ (st.ars i).cmdev = .wArdycnf ∨ (st.ars i).cmdev = .wdata) := by
  have hg := Good.exec (T := True) Good.init (fun _ => ho) h
  have hfl := (hg.l i).flive trivial hin
  unfold FullLive at hfl
  constructor
  · intro hph
    rw [hph] at hfl
    cases hc : (st.ars i).cmdev <;> rw [hc] at hfl <;> simp [hacc] at hfl ⊢
  · intro hph
    cases hc : (st.ars i).cmdev <;> rw [hc] at hfl <;> simp [hacc] at hfl ⊢ <;>
      (try (rcases hph with e | e | e | e <;> rw [e] at hfl <;> simp at hfl))

/-- **C161**, DControl: for every orderly run, the "parameter end" that ends the start-up phase of a connection is told to the application once and noted in the log book with
the status the application has set; the connection stays exactly if the application agrees (and the ports are fast enough). -/
theorem C161_dcontrol_partial {app : App} {fc fr fd} (ha : Full app fc fr fd) (c : Cfg) (ops : List Op) (st : St) (i : Nat) (q : DcReq)
    (h : exec c init ops = some st) (ho : Run c (Orderly c) init ops) (hq : New st i 1 q) (hses : (st.sess q.s).ar = some i)
    (hacc : (st.ars i).access = false) (hph : phase i st.log = .started) (hup : upOf i st.log = true) :
    (askDcontrol app c st q).2 = [.dcontrol i 1, .logged i (fd i 1 noResult).2.status 3] ∧
    (upOf i (askDcontrol app c st q).1.log = true ↔ (fd i 1 noResult).1 = true ∧ q.pdevOk = true) := by
  have hg : Good False st := Good.exec Good.init (fun t => t.elim) h
  have hui := UInv.exec Good.init (UInv.init c) h
  have hcd := (orderly_cmdev h ho hq.conn hacc).1 hph
  have huse : useSess st q.s = st := by unfold useSess; rw [if_pos hq.used]
  obtain ⟨hf, hstep⟩ := new_step hg hui hq (fd i 1 noResult).1 (fd i 1 noResult).2.status.code.toNat
  have he : askDcontrol app c st q = (dcontrol c st { q with appOk := (fd i 1 noResult).1, appRes := (fd i 1 noResult).2.status.code.toNat },
      (asked st (dcontrol c st { q with appOk := (fd i 1 noResult).1, appRes := (fd i 1 noResult).2.status.code.toNat })).flatMap
        fun x => [.dcontrol x.1 x.2, .logged x.1 (fd x.1 x.2 noResult).2.status 3]) := by
    unfold askDcontrol
    dsimp only
    rw [huse, hf]
    simp only [fspmDcontrol, ha.dcontrol, Option.getD_some, hq.cmd]
  have key : ∃ l, (dcontrol c st { q with appOk := (fd i 1 noResult).1, appRes := (fd i 1 noResult).2.status.code.toNat }).log = l ++ st.log ∧
      (l.filterMap fun | .dcCallback i cmd => some (i, cmd) | _ => none) = [(i, 1)] ∧
      (upOf i (l ++ st.log) = true ↔ (fd i 1 noResult).1 = true ∧ q.pdevOk = true) := by
    rw [hstep]
    generalize hR : cmdevDcontrol st i 1 (fd i 1 noResult).1 q.pdevOk = R
    have hcm : cmdPrmEnd = 1 := rfl
    unfold cmdevDcontrol at hR
    dsimp only at hR
    rw [if_neg (by simp [hacc]), hcd] at hR
    dsimp only at hR
    rw [if_pos hcm.symm] at hR
    simp only [setState_of_ne _ _ _ (show Cmdev.wPeres ≠ .abort by simp),
      setState_of_ne _ _ _ (show Cmdev.wArdy ≠ .abort by simp), hcm] at hR
    cases hb : (fd i 1 noResult).1 with
    | false =>
      rw [hb, if_neg (by simp)] at hR
      subst hR
      simp only [Bool.false_eq_true, if_false, false_and, iff_false]
      exact ⟨[.dcAnswer q.s q.seq _ true, .event i .abort st.now, .dcCallback i 1], by simp [stateInd_log]; rfl, by simp, by simp [upOf]⟩
    | true =>
      rw [hb, if_pos rfl] at hR
      cases hp : q.pdevOk with
      | false =>
        rw [hp, if_neg (by simp)] at hR
        subst hR
        simp only [Bool.false_eq_true, if_false, and_false, iff_false]
        exact ⟨[.dcAnswer q.s q.seq _ true, .event i .abort st.now, .dcCallback i 1], by simp [stateInd_log]; rfl, by simp, by simp [upOf]⟩
      | true =>
        rw [hp, if_pos rfl] at hR
        subst hR
        simp only [if_true, and_self, iff_true]
        have e : ∀ (x : Nat) (X : St), X.sess = st.sess → (((X.setSess q.s { X.sess q.s with dcSeq := q.seq, dcRes := x }).note
            (.dcAnswer q.s q.seq x true)).sess q.s).ar = some i := by
          intro x X hX
          simp [hX, hses]
        rw [e _ _ (by simp)]
        exact ⟨[.event i .prmend st.now, .dcAnswer q.s q.seq _ true, .dcCallback i 1], by simp [stateInd_log]; rfl, by simp, by simp [upOf, hup]⟩
  obtain ⟨l, k1, k2, k3⟩ := key
  rw [he]
  refine ⟨?_, by rw [k1]; exact k3⟩
  dsimp only
  rw [asked_of l k1, k2]
  rfl

/-- **C161** fails, every orderly run: a DControl request between "parameter end" and data exchange, whatever its command, is answered without error, but the application is not asked and nothing
is noted in the log book. -/
theorem C161_fails_dcontrol (app : App) (c : Cfg) (ops : List Op) (st : St) (i cmd : Nat) (q : DcReq)
    (h : exec c init ops = some st) (ho : Run c (Orderly c) init ops) (hq : New st i cmd q) (hacc : (st.ars i).access = false)
    (hph : phase i st.log = .prmended ∨ phase i st.log = .called ∨ phase i st.log = .ready ∨ phase i st.log = .confirmed) :
    (askDcontrol app c st q).2 = [] ∧ (askDcontrol app c st q).1.log = .dcAnswer q.s q.seq resOk true :: st.log ∧
      (askDcontrol app c st q).1.ars = st.ars := by
  have hg : Good False st := Good.exec Good.init (fun t => t.elim) h
  have hui := UInv.exec Good.init (UInv.init c) h
  have hcd := (orderly_cmdev h ho hq.conn hacc).2 hph
  have key : ∀ (b : Bool) (n : Nat), (dcontrol c st { q with appOk := b, appRes := n }).log = .dcAnswer q.s q.seq resOk true :: st.log ∧
      (dcontrol c st { q with appOk := b, appRes := n }).ars = st.ars := by
    intro b n
    rw [(new_step hg hui hq b n).2]
    have hR : cmdevDcontrol st i cmd b q.pdevOk = (st, false) := by
      unfold cmdevDcontrol
      dsimp only
      rw [if_neg (by simp [hacc])]
      rcases hcd with e | e | e <;> rw [e]
    rw [hR]
    have hres : dcResult st st { q with appOk := b, appRes := n } = resOk := by unfold dcResult; simp
    dsimp only
    rw [hres]
    simp
  unfold askDcontrol
  dsimp only
  refine ⟨?_, (key _ _).1, (key _ _).2⟩
  rw [asked_of [.dcAnswer q.s q.seq resOk true] (key _ _).1]
  rfl

/-! ## Call-backs that are not implemented -/

/-- The application `app` with call-backs that agree where it has none. -/
def App.filled (app : App) : App :=
  ⟨some (app.connect.getD fun _ r => (true, r)), some (app.release.getD fun _ r => (true, r)), some (app.dcontrol.getD fun _ _ r => (true, r))⟩

/-- **C161**: a call-back that is not implemented counts as success: connections, answers and log book entries are those with a call-back that agrees. -/
theorem C161_default (app : App) (c : Cfg) (st : St) :
    (∀ s u access legacy factor iocrs checks start,
      (askConnect app c st s u access legacy factor iocrs checks start).1 = (askConnect app.filled c st s u access legacy factor iocrs checks start).1) ∧
    (∀ s u, (askRelease app c st s u).1 = (askRelease app.filled c st s u).1 ∧ (askRelease app c st s u).2.2 = (askRelease app.filled c st s u).2.2) ∧
    (∀ q, (askDcontrol app c st q).1 = (askDcontrol app.filled c st q).1) ∧
    (∀ i cmd r, (fspmConnect app i r).2.filter (fun | .logged _ _ _ => true | _ => false) = [.logged i (fspmConnect app.filled i r).1.2.status 1] ∧
      (fspmRelease app i r).2.filter (fun | .logged _ _ _ => true | _ => false) = [.logged i (fspmRelease app.filled i r).1.2.status 2] ∧
      (fspmDcontrol app i cmd r).2.filter (fun | .logged _ _ _ => true | _ => false) = [.logged i (fspmDcontrol app.filled i cmd r).1.2.status 3]) := by
  have e1 : ∀ i r, (fspmConnect app i r).1 = (fspmConnect app.filled i r).1 := by
    intro i r; unfold fspmConnect App.filled; cases app.connect <;> rfl
  have e2 : ∀ i r, (fspmRelease app i r).1 = (fspmRelease app.filled i r).1 := by
    intro i r; unfold fspmRelease App.filled; cases app.release <;> rfl
  have e3 : ∀ i cmd r, (fspmDcontrol app i cmd r).1 = (fspmDcontrol app.filled i cmd r).1 := by
    intro i cmd r; unfold fspmDcontrol App.filled; cases app.dcontrol <;> rfl
  refine ⟨?_, ?_, ?_, ?_⟩
  · intro s u access legacy factor iocrs checks start
    unfold askConnect
    split
    · dsimp only; rw [e1]
    · rfl
  · intro s u
    refine ⟨rfl, ?_⟩
    unfold askRelease
    dsimp only
    split
    · rfl
    · split
      · rfl
      · split <;> first | rfl | (dsimp only; rw [e2])
  · intro q
    unfold askDcontrol
    dsimp only
    rw [e3]
  · intro i cmd r
    refine ⟨?_, ?_, ?_⟩
    · unfold fspmConnect App.filled; cases app.connect <;> rfl
    · unfold fspmRelease App.filled; cases app.release <;> rfl
    · unfold fspmDcontrol App.filled; cases app.dcontrol <;> rfl

/-! ## Examples -/

/-- An application that agrees to everything and sets an error code on release. -/
def demoApp : App := ⟨some fun _ r => (true, r), some fun _ r => (false, { r with status := ⟨0xDC, 0x81, 0xFF, 7⟩ }), some fun _ _ r => (true, r)⟩

def accessOps : List Op := [.connect 3 78 true false 2 [] (.accept .ok)]

def demoEnd : DcReq := ⟨0, 3, 77, 1, true, false, true, 0, true⟩
def demoAgain : DcReq := ⟨0, 4, 77, 1, true, false, true, 0, true⟩

/-- Runs that meet the hypotheses: a connection before "parameter end", after it, in data exchange, one for device access, and a free entry at start-up. -/
theorem C161_example :
    Full demoApp (fun _ r => (true, r)) (fun _ r => (false, { r with status := ⟨0xDC, 0x81, 0xFF, 7⟩ })) (fun _ _ r => (true, r)) ∧
    (findUuid cfg1 init 77 = none ∧ findFree cfg1 init = some 0) ∧
    (∃ st, exec cfg1 init (goodOps.take 3) = some st ∧ New st 0 1 demoEnd ∧ (st.sess 0).ar = some 0 ∧ (st.ars 0).access = false ∧
      phase 0 st.log = .started ∧ upOf 0 st.log = true) ∧
    (∃ st, exec cfg1 init (goodOps.take 4) = some st ∧ New st 0 1 demoAgain ∧ (st.ars 0).access = false ∧ phase 0 st.log = .prmended) ∧
    (∃ st, exec cfg1 init goodOps = some st ∧ upOf 0 st.log = true ∧ (st.ars 0).access = false) ∧
    (∃ st, exec cfg1 init accessOps = some st ∧ upOf 0 st.log = true ∧ (st.ars 0).access = true) := by
  refine ⟨⟨rfl, rfl, rfl⟩, ⟨rfl, rfl⟩, ?_, ?_, ?_, ?_⟩
  · exact ⟨(exec cfg1 init (goodOps.take 3)).get (by rfl), (Option.some_get _).symm,
      ⟨rfl, rfl, rfl, by rfl, fun n r h => (by cases (show (none : Option (Nat × Nat)) = some (n, r) from h)), fun _ => by decide, by rfl, by rfl⟩, by rfl, by rfl, by rfl, by rfl⟩
  · exact ⟨(exec cfg1 init (goodOps.take 4)).get (by rfl), (Option.some_get _).symm,
      ⟨rfl, rfl, rfl, by rfl, fun n r h => (by cases (show some (3, 0) = some (n, r) from h); decide), fun _ => by decide, by rfl, by rfl⟩, by rfl, by rfl⟩
  · exact ⟨(exec cfg1 init goodOps).get (by rfl), (Option.some_get _).symm, by rfl, by rfl⟩
  · exact ⟨(exec cfg1 init accessOps).get (by rfl), (Option.some_get _).symm, by rfl, by rfl⟩

/-- **C161** fails: a connection for device access. -/
theorem C161_fails : ¬ C161_statement := fun hc => by
  have hx : ∃ st, exec cfg1 init accessOps = some st ∧ upOf 0 st.log = true ∧ (st.ars 0).access = true :=
    ⟨(exec cfg1 init accessOps).get (by rfl), (Option.some_get _).symm, by rfl, by rfl⟩
  obtain ⟨st, h1, h2, h3⟩ := hx
  have := (hc demoApp _ _ _ ⟨rfl, rfl, rfl⟩ cfg1 accessOps st 0 h1
    ⟨⟨Or.inl rfl, by simp, by simp⟩, fun _ _ => trivial⟩ h2).1 5
  rw [(C161_fails_release demoApp cfg1 accessOps st 0 5 h1 h2 h3).1] at this
  cases this

end Verif.Startup
