import Verif.Startup.Spec
/-! Effect of the primitive steps on the state. -/
set_option linter.unusedSimpArgs false
set_option linter.unusedVariables false
namespace Verif.Startup

section basic
variable (st : St) (i k s t : Nat) (a : Ar) (x : Sess) (e : Entry)

@[simp] theorem setAr_ars : (st.setAr i a).ars k = if k = i then a else st.ars k := rfl
@[simp] theorem setAr_sess : (st.setAr i a).sess = st.sess := rfl
@[simp] theorem setAr_log : (st.setAr i a).log = st.log := rfl
@[simp] theorem setAr_now : (st.setAr i a).now = st.now := rfl
@[simp] theorem setAr_subs : (st.setAr i a).subs = st.subs := rfl
@[simp] theorem setSess_ars : (st.setSess s x).ars = st.ars := rfl
@[simp] theorem setSess_sess : (st.setSess s x).sess t = if t = s then x else st.sess t := rfl
@[simp] theorem setSess_log : (st.setSess s x).log = st.log := rfl
@[simp] theorem setSess_now : (st.setSess s x).now = st.now := rfl
@[simp] theorem setSess_subs : (st.setSess s x).subs = st.subs := rfl
@[simp] theorem note_ars : (st.note e).ars = st.ars := rfl
@[simp] theorem note_sess : (st.note e).sess = st.sess := rfl
@[simp] theorem note_log : (st.note e).log = e :: st.log := rfl
@[simp] theorem note_now : (st.note e).now = st.now := rfl
@[simp] theorem note_subs : (st.note e).subs = st.subs := rfl

@[simp] theorem sessRelease_ars : (sessRelease st s).ars = st.ars := by
  unfold sessRelease; split <;> rfl
@[simp] theorem sessRelease_log : (sessRelease st s).log = st.log := by
  unfold sessRelease; split <;> rfl
@[simp] theorem sessRelease_now : (sessRelease st s).now = st.now := by
  unfold sessRelease; split <;> rfl
@[simp] theorem sessRelease_subs : (sessRelease st s).subs = st.subs := by
  unfold sessRelease; split <;> rfl
theorem sessRelease_sess : (sessRelease st s).sess t =
    if t = s ∧ (st.sess s).inUse = true then Sess.zero else st.sess t := by
  unfold sessRelease
  by_cases h : (st.sess s).inUse = true
  · rw [if_pos h]; simp [h]
  · rw [if_neg h]; simp [h]

@[simp] theorem useSess_ars : (useSess st s).ars = st.ars := by
  unfold useSess; split <;> rfl
@[simp] theorem useSess_now : (useSess st s).now = st.now := by
  unfold useSess; split <;> rfl
@[simp] theorem useSess_subs : (useSess st s).subs = st.subs := by
  unfold useSess; split <;> rfl
theorem useSess_log : (useSess st s).log =
    if (st.sess s).inUse = true then st.log else .opened s :: st.log := by
  unfold useSess; split <;> rfl
theorem useSess_sess : (useSess st s).sess t =
    if t = s ∧ (st.sess s).inUse = false then ⟨true, false, none, 0xFFFFFFFF, 0⟩ else st.sess t := by
  unfold useSess
  by_cases h : (st.sess s).inUse = true
  · rw [if_pos h]; simp [h]
  · rw [if_neg h]; simp [h]

end basic

/-! ## State machines -/

section machines
variable (now : Nat) (a : Ar) (e : Event)

theorem cmioInd_same : (cmioInd a e).inUse = a.inUse ∧ (cmioInd a e).uuid = a.uuid ∧
    (cmioInd a e).access = a.access ∧ (cmioInd a e).legacy = a.legacy ∧
    (cmioInd a e).factor = a.factor ∧ (cmioInd a e).cmdev = a.cmdev ∧
    (cmioInd a e).cmwrr = a.cmwrr ∧ (cmioInd a e).cmsm = a.cmsm ∧
    (cmioInd a e).cmpbe = a.cmpbe ∧ (cmioInd a e).stored = a.stored ∧
    (cmioInd a e).ready = a.ready ∧ (cmioInd a e).deadline = a.deadline ∧
    (cmioInd a e).sess = a.sess := by
  unfold cmioInd
  dsimp only
  split <;> simp

theorem cmwrrInd_eq : cmwrrInd a e = { a with cmwrr := (cmwrrInd a e).cmwrr } := by
  unfold cmwrrInd; split <;> rfl

theorem cmsmInd_eq : cmsmInd now a e =
    { a with cmsm := (cmsmInd now a e).cmsm, deadline := (cmsmInd now a e).deadline } := by
  unfold cmsmInd; split <;> rfl

theorem cmpbeInd_eq : cmpbeInd a e = { a with cmpbe := (cmpbeInd a e).cmpbe } := by
  unfold cmpbeInd; split <;> rfl

def wrrNext (w : Cmwrr) (e : Event) : Cmwrr :=
  match w, e with
  | .idle, .startup => .startup
  | .startup, .prmend => .prmend
  | .startup, .abort => .idle
  | .prmend, .abort => .idle
  | .prmend, .applrdy => .data
  | .data, .abort => .idle
  | w, _ => w

theorem cmwrrInd_cmwrr : (cmwrrInd a e).cmwrr = wrrNext a.cmwrr e := by
  unfold cmwrrInd wrrNext
  cases h : a.cmwrr <;> cases e <;> simp [h]

def smNext (m : Cmsm) (e : Event) : Cmsm :=
  match m, e with
  | .idle, .startup => .run
  | .run, .data => .idle
  | .run, .abort => .idle
  | m, _ => m

def dlNext (now : Nat) (factor : Nat) (m : Cmsm) (d : Option Nat) (e : Event) : Option Nat :=
  match m, e with
  | .idle, .startup => some (now + superviseUs factor)
  | .run, .data => none
  | .run, .abort => none
  | _, _ => d

theorem cmsmInd_cmsm : (cmsmInd now a e).cmsm = smNext a.cmsm e := by
  unfold cmsmInd smNext
  cases h : a.cmsm <;> cases e <;> simp [h]

theorem cmsmInd_deadline : (cmsmInd now a e).deadline = dlNext now a.factor a.cmsm a.deadline e := by
  unfold cmsmInd dlNext
  cases h : a.cmsm <;> cases e <;> simp [h]

def pbeNext (b : Cmpbe) (e : Event) : Cmpbe :=
  match b, e with
  | .idle, .data => .wfind
  | .idle, _ => .idle
  | _, .abort => .idle
  | b, _ => b

theorem cmpbeInd_cmpbe : (cmpbeInd a e).cmpbe = pbeNext a.cmpbe e := by
  unfold cmpbeInd pbeNext
  cases h : a.cmpbe <;> cases e <;> simp [h]

theorem arInd_fields :
    (arInd now a e).inUse = a.inUse ∧ (arInd now a e).uuid = a.uuid ∧
    (arInd now a e).access = a.access ∧ (arInd now a e).factor = a.factor ∧
    (arInd now a e).cmdev = a.cmdev ∧ (arInd now a e).stored = a.stored ∧
    (arInd now a e).sess = a.sess ∧ (arInd now a e).ready = a.ready ∧
    (arInd now a e).cmwrr = wrrNext a.cmwrr e ∧ (arInd now a e).cmsm = smNext a.cmsm e ∧
    (arInd now a e).deadline = dlNext now a.factor a.cmsm a.deadline e ∧
    (arInd now a e).cmpbe = pbeNext a.cmpbe e := by
  obtain ⟨h1, h2, h3, h4, h5, h6, h7, h8, h9, h10, h11, h12, h13⟩ := cmioInd_same a e
  have e1 := cmwrrInd_eq (cmioInd a e) e
  have e2 := cmsmInd_eq now (cmwrrInd (cmioInd a e) e) e
  have e3 := cmpbeInd_eq (cmsmInd now (cmwrrInd (cmioInd a e) e) e) e
  have f1 := cmwrrInd_cmwrr (cmioInd a e) e
  have f2 := cmsmInd_cmsm now (cmwrrInd (cmioInd a e) e) e
  have f3 := cmsmInd_deadline now (cmwrrInd (cmioInd a e) e) e
  have f4 := cmpbeInd_cmpbe (cmsmInd now (cmwrrInd (cmioInd a e) e) e) e
  unfold arInd
  refine ⟨?_, ?_, ?_, ?_, ?_, ?_, ?_, ?_, ?_, ?_, ?_, ?_⟩
  · rw [e3]; dsimp only; rw [e2]; dsimp only; rw [e1]; exact h1
  · rw [e3]; dsimp only; rw [e2]; dsimp only; rw [e1]; exact h2
  · rw [e3]; dsimp only; rw [e2]; dsimp only; rw [e1]; exact h3
  · rw [e3]; dsimp only; rw [e2]; dsimp only; rw [e1]; exact h5
  · rw [e3]; dsimp only; rw [e2]; dsimp only; rw [e1]; exact h6
  · rw [e3]; dsimp only; rw [e2]; dsimp only; rw [e1]; exact h10
  · rw [e3]; dsimp only; rw [e2]; dsimp only; rw [e1]; exact h13
  · rw [e3]; dsimp only; rw [e2]; dsimp only; rw [e1]; exact h11
  · rw [e3]; dsimp only; rw [e2]; dsimp only; rw [f1, h7]
  · rw [e3]; dsimp only; rw [f2, e1]; dsimp only; rw [h8]
  · rw [e3]; dsimp only; rw [f3, e1]; dsimp only; rw [h5, h8, h12]
  · rw [f4, e2]; dsimp only; rw [e1]; dsimp only; rw [h9]

@[simp] theorem arInd_inUse : (arInd now a e).inUse = a.inUse := (arInd_fields now a e).1
@[simp] theorem arInd_uuid : (arInd now a e).uuid = a.uuid := (arInd_fields now a e).2.1
@[simp] theorem arInd_access : (arInd now a e).access = a.access := (arInd_fields now a e).2.2.1
@[simp] theorem arInd_factor : (arInd now a e).factor = a.factor := (arInd_fields now a e).2.2.2.1
@[simp] theorem arInd_cmdev : (arInd now a e).cmdev = a.cmdev := (arInd_fields now a e).2.2.2.2.1
@[simp] theorem arInd_stored : (arInd now a e).stored = a.stored := (arInd_fields now a e).2.2.2.2.2.1
@[simp] theorem arInd_sess : (arInd now a e).sess = a.sess := (arInd_fields now a e).2.2.2.2.2.2.1
@[simp] theorem arInd_ready : (arInd now a e).ready = a.ready :=
  (arInd_fields now a e).2.2.2.2.2.2.2.1
@[simp] theorem arInd_cmwrr : (arInd now a e).cmwrr = wrrNext a.cmwrr e :=
  (arInd_fields now a e).2.2.2.2.2.2.2.2.1
@[simp] theorem arInd_cmsm : (arInd now a e).cmsm = smNext a.cmsm e :=
  (arInd_fields now a e).2.2.2.2.2.2.2.2.2.1
@[simp] theorem arInd_deadline : (arInd now a e).deadline = dlNext now a.factor a.cmsm a.deadline e :=
  (arInd_fields now a e).2.2.2.2.2.2.2.2.2.2.1
@[simp] theorem arInd_cmpbe : (arInd now a e).cmpbe = pbeNext a.cmpbe e :=
  (arInd_fields now a e).2.2.2.2.2.2.2.2.2.2.2

end machines

/-! ## Events -/

section events
variable (st : St) (i k s : Nat) (e : Event) (v : Cmdev)

@[simp] theorem releaseArSess_ars : (releaseArSess st i).ars = st.ars := by
  unfold releaseArSess; split <;> simp
@[simp] theorem releaseArSess_log : (releaseArSess st i).log = st.log := by
  unfold releaseArSess; split <;> simp
@[simp] theorem releaseArSess_now : (releaseArSess st i).now = st.now := by
  unfold releaseArSess; split <;> simp
@[simp] theorem releaseArSess_subs : (releaseArSess st i).subs = st.subs := by
  unfold releaseArSess; split <;> simp
theorem releaseArSess_sess : (releaseArSess st i).sess s =
    if (st.ars i).sess = some s ∧ (st.sess s).inUse = true then Sess.zero else st.sess s := by
  unfold releaseArSess
  cases h : (st.ars i).sess with
  | none => simp
  | some t =>
    simp only [sessRelease_sess, Option.some.injEq]
    by_cases ht : s = t
    · subst ht; simp
    · have ht' : ¬ t = s := fun h => ht h.symm
      simp [ht, ht']

theorem rpcAbort_ars : (rpcAbort st i).ars k = if k = i then Ar.zero else st.ars k := by
  simp [rpcAbort]

theorem rpcAbort_log : (rpcAbort st i).log = st.log := by
  simp [rpcAbort]

theorem rpcAbort_now : (rpcAbort st i).now = st.now := by
  simp [rpcAbort]

theorem rpcAbort_subs : (rpcAbort st i).subs = st.subs := by
  simp [rpcAbort]

/-- Whether aborting connection `i` releases session `s`. -/
def released (st : St) (i s : Nat) : Bool :=
  (st.sess s).inUse &&
    ((st.ars i).sess == some s || ((st.sess s).fromMe && (st.sess s).ar == some i))

theorem rpcAbort_sess : (rpcAbort st i).sess s =
    if released st i s = true then Sess.zero else st.sess s := by
  unfold rpcAbort released
  simp only [setAr_sess, releaseArSess_sess]
  by_cases h0 : (st.ars i).sess = some s <;>
  by_cases h1 : (st.sess s).inUse = true <;> by_cases h2 : (st.sess s).fromMe = true <;>
      by_cases h3 : (st.sess s).ar = some i <;> simp [h0, h1, h2, h3, Sess.zero]

theorem stateInd_ars : (stateInd st i e).ars k =
    if k = i then (if e = .abort then Ar.zero else arInd st.now (st.ars i) e) else st.ars k := by
  unfold stateInd
  dsimp only
  by_cases h : e = .abort
  · rw [if_pos h]
    by_cases hk : k = i <;> simp [rpcAbort_ars, h, hk]
  · rw [if_neg h]
    by_cases hk : k = i <;> simp [h, hk]

theorem stateInd_log : (stateInd st i e).log = .event i e st.now :: st.log := by
  unfold stateInd
  dsimp only
  by_cases h : e = .abort
  · rw [if_pos h]; simp [rpcAbort_log]
  · rw [if_neg h]; simp

theorem stateInd_now : (stateInd st i e).now = st.now := by
  unfold stateInd
  dsimp only
  by_cases h : e = .abort
  · rw [if_pos h]; simp [rpcAbort_now]
  · rw [if_neg h]; simp

theorem stateInd_sess : (stateInd st i e).sess s =
    if e = .abort ∧ released st i s = true then Sess.zero else st.sess s := by
  unfold stateInd
  dsimp only
  by_cases h : e = .abort
  · rw [if_pos h]
    rw [rpcAbort_sess]
    have : released ((st.note (.event i e st.now)).setAr i
        (arInd (st.note (.event i e st.now)).now ((st.note (.event i e st.now)).ars i) e)) i s =
        released st i s := by
      unfold released; simp
    rw [this]
    simp [h]
  · rw [if_neg h]; simp [h]

theorem stateInd_subs (p : Place) : (stateInd st i e).subs p =
    if e = .abort ∧ st.subs p = some (some i) then some none else st.subs p := by
  unfold stateInd
  dsimp only
  by_cases h : e = .abort
  · rw [if_pos h]; simp [rpcAbort_subs, h]
  · rw [if_neg h]; simp [h]

theorem setState_of_ne (h : v ≠ .abort) : setState st i v = st.setAr i { st.ars i with cmdev := v } := by
  unfold setState; simp [h]

theorem released_setAr_cmdev : released (st.setAr i { st.ars i with cmdev := v }) i s =
    released st i s := by
  unfold released; simp

theorem setState_abort : ∃ st1, setState st i .abort = stateInd st1 i .abort ∧
    st1 = st.setAr i { st.ars i with cmdev := .abort } := ⟨_, by unfold setState; simp, rfl⟩

/-- `setState … ABORT` and `stateInd … ABORT` have the same effect. -/
theorem setState_abort_eq : setState st i .abort = stateInd st i .abort := by
  obtain ⟨st1, h1, h2⟩ := setState_abort st i
  rw [h1]
  have e1 : (stateInd st1 i .abort).ars = (stateInd st i .abort).ars := by
    funext k
    simp only [stateInd_ars, if_true]
    by_cases hk : k = i
    · simp [hk]
    · simp [hk, h2]
  have e2 : (stateInd st1 i .abort).sess = (stateInd st i .abort).sess := by
    funext s
    simp only [stateInd_sess, h2, released_setAr_cmdev, setAr_sess]
  have e3 : (stateInd st1 i .abort).subs = (stateInd st i .abort).subs := by
    funext p
    simp only [stateInd_subs, h2, setAr_subs]
  have e4 : (stateInd st1 i .abort).log = (stateInd st i .abort).log := by
    simp only [stateInd_log, h2, setAr_log, setAr_now]
  have e5 : (stateInd st1 i .abort).now = (stateInd st i .abort).now := by
    simp only [stateInd_now, h2, setAr_now]
  calc stateInd st1 i .abort = ⟨(stateInd st1 i .abort).ars, (stateInd st1 i .abort).sess,
        (stateInd st1 i .abort).subs, (stateInd st1 i .abort).now, (stateInd st1 i .abort).log⟩ := rfl
    _ = stateInd st i .abort := by rw [e1, e2, e3, e4, e5]

end events

/-! ## Entries about other connections -/

/-- Whether an entry is about connection `i`. -/
def About (i : Nat) : Entry → Prop
  | .event j _ _ => j = i
  | .connected j _ => j = i
  | .readyCall j => j = i
  | .readyRsp j _ _ => j = i
  | .activity j _ => j = i
  | _ => False

theorem phase_other {i : Nat} {e : Entry} {l : List Entry} (h : ¬ About i e) :
    phase i (e :: l) = phase i l := by
  unfold phase
  cases e <;> simp only [About] at h <;> simp [phaseNext, h] <;> cases l <;> rfl

theorem weak_other {i : Nat} {e : Entry} {l : List Entry} (h : ¬ About i e) :
    weak i (e :: l) = weak i l := by
  unfold weak
  cases e <;> simp only [About] at h <;> simp [weakNext, h] <;> cases l <;> rfl

theorem factorOf_other {i : Nat} {e : Entry} {l : List Entry} (h : ¬ About i e) :
    factorOf i (e :: l) = factorOf i l := by
  cases e <;> simp only [About] at h <;> simp [factorOf, h]

theorem supervised_other {i : Nat} {e : Entry} {l : List Entry} (h : ¬ About i e) :
    supervised i (e :: l) = supervised i l := by
  show supNext i (factorOf i l) (supervised i l) e = supervised i l
  cases e <;> simp only [About] at h <;> simp [supNext, h]

/-- Nothing changes for connections other than `i`. -/
def Only (i : Nat) (st st' : St) : Prop :=
  ∀ k, k ≠ i → st'.ars k = st.ars k ∧ weak k st'.log = weak k st.log ∧
    phase k st'.log = phase k st.log ∧ supervised k st'.log = supervised k st.log

theorem Only.refl (i : Nat) (st : St) : Only i st st := fun _ _ => ⟨rfl, rfl, rfl, rfl⟩

theorem Only.trans {i : Nat} {a b c : St} (h1 : Only i a b) (h2 : Only i b c) : Only i a c := by
  intro k hk
  obtain ⟨x1, x2, x3, x4⟩ := h1 k hk
  obtain ⟨y1, y2, y3, y4⟩ := h2 k hk
  exact ⟨y1.trans x1, y2.trans x2, y3.trans x3, y4.trans x4⟩

theorem Only.note {i : Nat} {st : St} {e : Entry} (h : ∀ k, k ≠ i → ¬ About k e) :
    Only i st (st.note e) := fun k hk =>
  ⟨rfl, weak_other (h k hk), phase_other (h k hk), supervised_other (h k hk)⟩

theorem Only.setAr {i : Nat} {st : St} {a : Ar} : Only i st (st.setAr i a) := fun k hk =>
  ⟨by simp [hk], rfl, rfl, rfl⟩

theorem Only.setSess {i : Nat} {st : St} {s : Nat} {x : Sess} : Only i st (st.setSess s x) :=
  fun _ _ => ⟨rfl, rfl, rfl, rfl⟩

theorem Only.sessRelease {i : Nat} {st : St} {s : Nat} : Only i st (sessRelease st s) :=
  fun k _ => by simp

theorem Only.useSess {i : Nat} {st : St} {s : Nat} : Only i st (useSess st s) := by
  unfold Startup.useSess
  split
  · exact Only.refl _ _
  · exact (Only.setSess (s := s)).trans (Only.note (fun k _ => by simp [About]))

theorem Only.stateInd {i : Nat} {st : St} {e : Event} : Only i st (stateInd st i e) := by
  intro k hk
  have hn : ¬ About k (.event i e st.now) := fun h => hk h.symm
  refine ⟨?_, ?_, ?_, ?_⟩
  · rw [stateInd_ars, if_neg hk]
  · rw [stateInd_log, weak_other hn]
  · rw [stateInd_log, phase_other hn]
  · rw [stateInd_log, supervised_other hn]

theorem Only.setState {i : Nat} {st : St} {v : Cmdev} : Only i st (setState st i v) := by
  by_cases h : v = .abort
  · rw [h, setState_abort_eq]; exact Only.stateInd
  · rw [setState_of_ne _ _ _ h]; exact Only.setAr

end Verif.Startup
