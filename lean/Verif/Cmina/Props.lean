import Verif.Cmina.Lemmas
/-!
C36: a refused DCP Set changes nothing.  C37: what a restart uses.
-/
set_option linter.unusedVariables false
set_option linter.unusedSimpArgs false

namespace Verif.Cmina

/-! ## Invariants of all histories -/

/-- The machine has started, and what is not waiting to be stored is in the file. -/
def Ok (d : Dev) : Prop := d.st ≠ .setup ∧ (d.job = false → d.file = some d.nv)

theorem startState_st (c : Defaults) (a : Ase) : (startState c a).1 ≠ .setup := by
  unfold startState
  repeat' split
  all_goals simp

theorem setCommit_keeps (d : Dev) :
    (setCommit d).1.cur = d.cur ∧ (setCommit d).1.nv = d.nv ∧ (setCommit d).1.file = d.file ∧
      (setCommit d).1.job = d.job ∧ (setCommit d).1.st = d.st ∧ (setCommit d).1.ars = d.ars := by
  unfold setCommit
  split <;> simp

/-- The settings that a start takes from the file. -/
def started (c : Defaults) : Option Ase → Ase
  | some f => ⟨f.name, f.ip, dnsZero⟩
  | none => ⟨c.name, c.ip, dnsZero⟩

theorem restart_dev (c : Defaults) (hello : Bool) (file : Option Ase) :
    (restart c hello file).1.cur = started c file ∧ (restart c hello file).1.nv = started c file ∧
      (restart c hello file).1.file = file ∧ (restart c hello file).1.job = true ∧
      (restart c hello file).1.st ≠ .setup ∧ (restart c hello file).1.ars = 0 := by
  unfold restart
  dsimp only
  obtain ⟨a, b, e, f, g, h⟩ := setCommit_keeps
    { (setDefault c (⟨.zero, .zero, .setup, false, file, false, 0, false⟩ : Dev) 0).1 with
      st := (startState c (setDefault c (⟨.zero, .zero, .setup, false, file, false, 0, false⟩ : Dev) 0).1.cur).1,
      commit := (startState c (setDefault c (⟨.zero, .zero, .setup, false, file, false, 0, false⟩ : Dev) 0).1.cur).2,
      hello := decide ((startState c (setDefault c (⟨.zero, .zero, .setup, false, file, false, 0, false⟩ : Dev) 0).1.cur).1
        = .wConnect) && hello }
  rw [a, b, e, f, g, h]
  refine ⟨?_, ?_, rfl, rfl, startState_st _ _, rfl⟩ <;> cases file <;> rfl

theorem setDefault_job (c : Defaults) (d : Dev) (m : Nat) : (setDefault c d m).1.job = true ∧ (setDefault c d m).1.st = d.st :=
  ⟨rfl, rfl⟩

theorem setReq_ok (c : Defaults) (d : Dev) (gq : BitVec 16) (opt sub : Byte) (qual : BitVec 16) (len : Nat) (v : List Byte)
    (h : Ok d) : Ok (setReq c d gq opt sub qual len v).dev := by
  have key : ∀ p : Parsed, p.reset = false → p.dev.st = d.st → p.dev.file = d.file → p.dev.job = d.job →
      (p.ok = false → p.dev.nv = d.nv) → Ok (finish c p).1 := by
    intro p hr hs hf hj hn
    refine ⟨finish_st c p (by rw [hs]; exact h.1), ?_⟩
    obtain ⟨_, b, e, f⟩ := finish_keeps c p hr
    rw [b, e, f]
    intro hh
    simp only [Bool.or_eq_false_iff] at hh
    rw [hf, hn hh.1]
    exact h.2 (by rw [← hj]; exact hh.2)
  rw [setReq_kind]
  cases kind opt sub qual len v with
  | ipPar a =>
    obtain ⟨e1, e2, e3, e4, e5, e6, e7, e8, _⟩ := parseIpPar_dev (noHello d) (isTemp qual) a
    refine key _ e5 e1 e2 e3 ?_
    unfold parseIpPar refuse
    split <;> simp [noHello]
  | ipSuite a =>
    obtain ⟨e1, e2, e3, e4, e5, e6, e7, e8, _⟩ := parseIpSuite_dev (noHello d) (isTemp qual) a
    refine key _ e5 e1 e2 e3 ?_
    unfold parseIpSuite refuse
    split <;> simp [noHello]
  | name =>
    obtain ⟨e1, e2, e3, e4, e5, e6, e7, e8, _⟩ := parseName_dev (noHello d) (isTemp qual) len v
    refine key _ e5 e1 e2 e3 ?_
    unfold parseName refuse
    repeat' split
    all_goals simp [noHello]
  | start => exact h
  | stop => exact h
  | signal => exact h
  | bad e => exact h
  | reset m =>
    show Ok (finish c _).1
    refine ⟨finish_st c _ h.1, ?_⟩
    rw [finish_reset c _ rfl rfl]
    intro hh
    exact absurd hh (by simp [(setDefault_job c _ m).1])

theorem step_ok (c : Defaults) (hello : Bool) (d : Dev) (o : Op) (h : Ok d) : Ok (step c hello d o).1 := by
  cases o with
  | block opt sub qual len v => exact setReq_ok c d 0 opt sub qual len v h
  | commit =>
    obtain ⟨a, b, e, f, g, _⟩ := setCommit_keeps d
    show Ok (setCommit d).1
    unfold Ok
    rw [b, e, f, g]; exact h
  | save =>
    show Ok (if d.job then _ else d)
    split
    · exact ⟨h.1, fun _ => rfl⟩
    · exact h
  | «open» => exact h
  | close => exact h
  | power =>
    obtain ⟨a, b, e, f, g, _⟩ := restart_dev c hello d.file
    exact ⟨g, fun hj => by rw [show (step c hello d .power).1.job = true from f] at hj; exact absurd hj (by simp)⟩

theorem run_append (c : Defaults) (hello : Bool) (d : Dev) (a b : List Op) :
    run c hello d (a ++ b) = run c hello (run c hello d a) b := by
  induction a generalizing d with
  | nil => rfl
  | cons o os ih => exact ih _

theorem run_ok (c : Defaults) (hello : Bool) (d : Dev) (ops : List Op) (h : Ok d) : Ok (run c hello d ops) := by
  induction ops generalizing d with
  | nil => exact h
  | cons o os ih => exact ih _ (step_ok c hello d o h)

theorem restart_ok (c : Defaults) (hello : Bool) (file : Option Ase) : Ok (restart c hello file).1 := by
  obtain ⟨a, b, e, f, g, _⟩ := restart_dev c hello file
  exact ⟨g, fun hj => by rw [f] at hj; exact absurd hj (by simp)⟩

/-- A device that was started with any stored settings and to which anything happened since. -/
def Reached (c : Defaults) (hello : Bool) (d : Dev) : Prop :=
  ∃ file ops, d = run c hello (restart c hello file).1 ops

theorem Reached.ok {c : Defaults} {hello : Bool} {d : Dev} (h : Reached c hello d) : Ok d := by
  obtain ⟨file, ops, rfl⟩ := h
  exact run_ok c hello _ ops (restart_ok c hello file)

/-! ## C36 -/

/-- The answer to a block tells whether it was carried out. -/
theorem C36_answer (c : Defaults) (d : Dev) (gq : BitVec 16) (opt sub : Byte) (qual : BitVec 16) (len : Nat)
    (v : List Byte) :
    (setReq c d gq opt sub qual len v).err = 0 ↔ (setReq c d gq opt sub qual len v).ok = true := by
  rw [setReq_kind]
  cases hk : kind opt sub qual len v with
  | ipPar a => exact finish_err_ne c _ (parse_err _ _ a 0 []).1 _ (by decide)
  | ipSuite a => exact finish_err_ne c _ (parse_err _ _ a 0 []).2.1 _ (by decide)
  | name => exact finish_err_ne c _ (parse_err _ _ ⟨0, 0, 0⟩ len v).2.2 _ (by decide)
  | start => simp [setKind]
  | stop => simp [setKind]
  | signal => simp [setKind]
  | bad e => have := bad_ne _ _ _ _ _ _ hk; simp only [setKind, BlockRes.refused]; simp; simpa using this
  | reset m => exact finish_err_ne c _ (by simp) _ (by decide)

/-- C36.  A block of a Set request that is answered with an error leaves the settings in use, the settings
to be stored, the stored settings, the state and the connections as they were and has no effect, unless it is
an IP address block received while a connection exists (see `C36_fails`). -/
theorem C36_refused_partial (c : Defaults) (hello : Bool) (d : Dev) (hd : Reached c hello d) (gq : BitVec 16)
    (opt sub : Byte) (qual : BitVec 16) (len : Nat) (v : List Byte)
    (he : (setReq c d gq opt sub qual len v).err ≠ 0)
    (hx : opt ≠ optIp ∨ d.ars = 0) :
    noHello (setReq c d gq opt sub qual len v).dev = noHello d ∧ (setReq c d gq opt sub qual len v).evs = [] ∧
      (setReq c d gq opt sub qual len v).led = false := by
  have hok : (setReq c d gq opt sub qual len v).ok = false := by
    cases h : (setReq c d gq opt sub qual len v).ok
    · rfl
    · exact absurd ((C36_answer ..).mpr h) he
  have hst := hd.ok.1
  have key : ∀ p : Parsed, p.reset = false → p.dev.st = d.st → p.dev.ars = d.ars → (p.ok = false → p.dev = noHello d) →
      (p.chIp = true → d.ars = 0) →
      (finish c p).2.1 = false → noHello (finish c p).1 = noHello d ∧ (finish c p).2.2.2 = [] := by
    intro p hr hs ha hn hi hf
    cases ho : p.ok
    · rw [finish_refused c p ho]; exact ⟨by rw [hn ho]; rfl, rfl⟩
    · rw [finish_set c p ho hr] at hf
      rcases (evaluate_refused p hr).mp hf with h | h
      · rw [hs] at h; exact absurd h hst
      · exact absurd (hi h.2.1) (by rw [← ha]; exact h.2.2.2.2.2)
  have hip : ∀ a, kind opt sub qual len v = .ipPar a ∨ kind opt sub qual len v = .ipSuite a → opt = optIp := by
    intro a h
    unfold kind at h
    repeat' split at h
    all_goals first | assumption | (rcases h with h | h <;> cases h)
  rw [setReq_kind] at hok ⊢
  cases hk : kind opt sub qual len v with
  | ipPar a =>
    rw [hk] at hok
    have h0 : d.ars = 0 := hx.resolve_left (fun h => h (hip a (Or.inl hk)))
    obtain ⟨e1, e2, e3, e4, e5, e6, e7, e8, _⟩ := parseIpPar_dev (noHello d) (isTemp qual) a
    obtain ⟨k1, k2⟩ := key _ e5 e1 e4 (by unfold parseIpPar refuse; split <;> simp) (fun _ => h0) hok
    exact ⟨k1, k2, rfl⟩
  | ipSuite a =>
    rw [hk] at hok
    have h0 : d.ars = 0 := hx.resolve_left (fun h => h (hip a (Or.inr hk)))
    obtain ⟨e1, e2, e3, e4, e5, e6, e7, e8, _⟩ := parseIpSuite_dev (noHello d) (isTemp qual) a
    obtain ⟨k1, k2⟩ := key _ e5 e1 e4 (by unfold parseIpSuite refuse; split <;> simp) (fun _ => h0) hok
    exact ⟨k1, k2, rfl⟩
  | name =>
    rw [hk] at hok
    obtain ⟨e1, e2, e3, e4, e5, e6, e7, e8, _⟩ := parseName_dev (noHello d) (isTemp qual) len v
    obtain ⟨k1, k2⟩ := key _ e5 e1 e4 (by unfold parseName refuse; repeat' split <;> simp)
      (fun h => by rw [e6] at h; exact absurd h (by simp)) hok
    exact ⟨k1, k2, rfl⟩
  | start => rw [hk] at hok; simp [setKind] at hok
  | stop => rw [hk] at hok; simp [setKind] at hok
  | signal => rw [hk] at hok; simp [setKind] at hok
  | bad e => exact ⟨rfl, rfl, rfl⟩
  | reset m =>
    rw [hk] at hok
    simp only [setKind, answer] at hok
    rw [finish_reset c _ rfl rfl] at hok
    exact absurd hok (by simp)

/-- C36 fails for the address: in every device that waits for or has a connection, has a name and has a
connection, each permitted new address that is sent is answered with an error, but the device takes it
as the address in use, and, if the request says permanent, as the address to be stored, and asks for it to be
stored. -/
theorem C36_fails (c : Defaults) (d : Dev) (gq : BitVec 16) (v : List Byte)
    (hs : d.st = .wConnect) (hn : d.cur.name ≠ []) (ha : d.ars ≠ 0)
    (hv : Validate.ipsuiteValid (ipOf v).addr (ipOf v).mask (ipOf v).gw = true)
    (hz : ipOf v ≠ .zero) (hc : ipOf v ≠ d.cur.ip) :
    (setReq c d gq 1 2 1 12 v).err ≠ 0 ∧ (setReq c d gq 1 2 1 12 v).dev.cur.ip = ipOf v ∧
      (setReq c d gq 1 2 1 12 v).dev.nv.ip = ipOf v ∧ (setReq c d gq 1 2 1 12 v).dev.job = true := by
  have hk : setReq c d gq 1 2 1 12 v = answer errSuboption gq (finish c (parseIpPar (noHello d) false (ipOf v))) := by
    have hkk : kind 1 2 1 12 v = .ipPar (ipOf v) := by
      unfold kind; rw [if_pos rfl, if_pos rfl, if_pos rfl]
    have ht : isTemp 1 = false := by decide
    rw [setReq_kind, hkk]
    unfold setKind
    rw [ht]
  have hp : parseIpPar (noHello d) false (ipOf v) =
      ⟨{ noHello d with cur := { d.cur with ip := ipOf v }, nv := { d.nv with ip := ipOf v } }, true, none, true, false,
        false, 0⟩ := by
    unfold parseIpPar
    rw [if_pos hv]
    have : decide ((noHello d).cur.ip ≠ ipOf v) = true := by
      simp only [noHello]; exact decide_eq_true (fun h => hc h.symm)
    rw [this]
    rfl
  rw [Ne, C36_answer, hk, hp]
  obtain ⟨k1, k2, k3, k4⟩ := finish_keeps c
    ⟨{ noHello d with cur := { d.cur with ip := ipOf v }, nv := { d.nv with ip := ipOf v } }, true, none, true, false,
        false, 0⟩ rfl
  refine ⟨?_, by simp only [answer]; rw [k1], by simp only [answer]; rw [k2], by simp only [answer]; rw [k4]; rfl⟩
  simp only [answer]
  rw [finish_set c _ rfl rfl]
  have := (evaluate_refused ⟨{ noHello d with cur := { d.cur with ip := ipOf v }, nv := { d.nv with ip := ipOf v } },
    true, none, true, false, false, 0⟩ rfl).mpr (Or.inr ⟨hs, rfl, rfl, by simp [haveName, noHello, hn],
      by simp [haveIp, hz], ha⟩)
  rw [this]
  simp

/-- A device with the name "d1" and the address 192.168.0.50/24 (the default), with and without a connection. -/
def exDefaults : Defaults := ⟨[0x64, 0x31], ⟨0xC0A80032, 0xFFFFFF00, 0xC0A80032⟩, false⟩

/-- 192.168.0.51, 255.255.255.0, gateway 192.168.0.51. -/
def exIp : List Byte := [192, 168, 0, 51, 255, 255, 255, 0, 192, 168, 0, 51]

def exA : Ase := ⟨[0x64, 0x31], ⟨0xC0A80032, 0xFFFFFF00, 0xC0A80032⟩, dnsZero⟩
def exB : Ase := ⟨[0x64, 0x31], ⟨0xC0A80033, 0xFFFFFF00, 0xC0A80033⟩, dnsZero⟩

/-- The device after power on without stored settings. -/
def exDev : Dev := ⟨exA, exA, .wConnect, false, none, true, 0, false⟩

theorem exStart : (restart exDefaults false none).1 = exDev := by decide +kernel

/-- The device after the refused address. -/
def exDev2 : Dev := ⟨exB, exB, .wConnect, false, none, true, 1, false⟩

/-- C36 in concrete cases: a name with a capital letter is refused; the address of a device with a
connection is refused, and used after the next power cycle. -/
theorem C36_example :
    (restart exDefaults false none).1 = exDev ∧
    (setReq exDefaults exDev 0 2 2 1 2 [0x44, 0x31]).err = 3 ∧
    (setReq exDefaults { exDev with ars := 1 } 0 1 2 1 12 exIp).err = 2 ∧
    (run exDefaults false exDev [.open, .block 1 2 1 12 exIp, .commit, .save, .power]).cur.ip =
      ⟨0xC0A80033, 0xFFFFFF00, 0xC0A80033⟩ := by
  refine ⟨exStart, by decide +kernel, by decide +kernel, ?_⟩
  have e1 : (step exDefaults false { exDev with ars := 1 } (.block 1 2 1 12 exIp)).1 = exDev2 := by decide +kernel
  show (run exDefaults false (step exDefaults false { exDev with ars := 1 } (.block 1 2 1 12 exIp)).1
    [.commit, .save, .power]).cur.ip = _
  rw [e1]
  decide +kernel

/-! ## C37 -/

/-- The block sets the name: it is a name block that is accepted. -/
def SetsName (c : Defaults) (d : Dev) (o : Op) (temp : Bool) (v : List Byte) : Prop :=
  ∃ qual, isTemp qual = temp ∧ o = .block 2 2 qual v.length v ∧ (setReq c d 0 2 2 qual v.length v).err = 0

/-- The block sets the address: it is a block with IP parameters or an IP suite that is accepted. -/
def SetsIp (c : Defaults) (d : Dev) (o : Op) (temp : Bool) (a : Ip) : Prop :=
  ∃ sub qual v, (sub = 2 ∨ sub = 3) ∧ isTemp qual = temp ∧ v.length = 12 ∧ ipOf v = a ∧ o = .block 1 sub qual 12 v ∧
    (setReq c d 0 1 sub qual 12 v).err = 0

/-- The block resets the communication parameters. -/
def ResetsComm : Op → Prop
  | .block opt sub qual _ _ => opt = 5 ∧ (sub = 5 ∨ (sub = 6 ∧ qual.toNat / 2 ≥ 2))
  | _ => False

/-- The settings are read from the file: at power on, or at a reset with mode 0. -/
def Reloads : Op → Prop
  | .block opt sub qual _ _ => opt = 5 ∧ sub = 6 ∧ qual.toNat / 2 = 0
  | .power => True
  | _ => False

/-- The operation is about the name (a name block that is refused is not). -/
def AboutName (c : Defaults) (d : Dev) (o : Op) : Prop :=
  ResetsComm o ∨ ∃ qual len v, o = .block 2 2 qual len v ∧ (setReq c d 0 2 2 qual len v).err = 0

/-- The operation is about the address, accepted or not. -/
def AboutIp (c : Defaults) (d : Dev) (o : Op) : Prop :=
  ResetsComm o ∨ ∃ sub qual len v, o = .block 1 sub qual len v

/-- `bad` holds for no operation at the time it happens. -/
def Without (c : Defaults) (hello : Bool) (bad : Dev → Op → Prop) : Dev → List Op → Prop
  | _, [] => True
  | d, o :: os => ¬ bad d o ∧ Without c hello bad (step c hello d o).1 os

theorem kind_reset {opt sub : Byte} {qual : BitVec 16} {len : Nat} {v : List Byte} {m : Nat}
    (h : kind opt sub qual len v = .reset m) : opt = 5 ∧ (sub = 5 ∧ m = 99 ∨ sub = 6 ∧ m = qual.toNat / 2) := by
  unfold kind at h
  repeat' split at h
  all_goals first
    | (injection h with h; subst h; first | exact ⟨by assumption, Or.inl ⟨by assumption, rfl⟩⟩ |
        exact ⟨by assumption, Or.inr ⟨by assumption, rfl⟩⟩)
    | cases h

theorem kind_name {opt sub : Byte} {qual : BitVec 16} {len : Nat} {v : List Byte}
    (h : kind opt sub qual len v = .name) : opt = 2 ∧ sub = 2 := by
  unfold kind at h
  repeat' split at h
  all_goals first | exact ⟨by assumption, by assumption⟩ | cases h

theorem kind_ip {opt sub : Byte} {qual : BitVec 16} {len : Nat} {v : List Byte} {a : Ip}
    (h : kind opt sub qual len v = .ipPar a ∨ kind opt sub qual len v = .ipSuite a) : opt = 1 := by
  unfold kind at h
  repeat' split at h
  all_goals first | assumption | (rcases h with h | h <;> cases h)

/-- What an operation does to one of the two settings, `f`: nothing, except what it reloads. -/
theorem step_other {α : Type} (f : Ase → α) (hf : ∀ n i x y, f ⟨n, i, x⟩ = f ⟨n, i, y⟩) (c : Defaults) (hello : Bool) (d : Dev) (o : Op)
    (hr : ¬ ResetsComm o)
    (hn : ∀ opt sub qual len v, o = .block opt sub qual len v → kind opt sub qual len v = .name →
      f (setReq c d 0 opt sub qual len v).dev.nv = f d.nv)
    (hi : ∀ opt sub qual len v a, o = .block opt sub qual len v →
      kind opt sub qual len v = .ipPar a ∨ kind opt sub qual len v = .ipSuite a →
      f (setReq c d 0 opt sub qual len v).dev.nv = f d.nv) :
    (¬ Reloads o → f (step c hello d o).1.nv = f d.nv) ∧
    (∀ x, d.file.map f = some x → f d.nv = x →
      (step c hello d o).1.file.map f = some x ∧ f (step c hello d o).1.nv = x) := by
  cases o with
  | commit =>
    obtain ⟨a, b, e, _⟩ := setCommit_keeps d
    show (_ → f (setCommit d).1.nv = _) ∧ ∀ x, _ → _ → (setCommit d).1.file.map f = some x ∧ f (setCommit d).1.nv = x
    rw [b, e]; exact ⟨fun _ => rfl, fun x h1 h2 => ⟨h1, h2⟩⟩
  | save =>
    show (_ → f (if d.job then _ else d : Dev).nv = _) ∧ _
    refine ⟨fun _ => by split <;> rfl, fun x h1 h2 => ?_⟩
    show (if d.job then _ else d : Dev).file.map f = some x ∧ f (if d.job then _ else d : Dev).nv = x
    split
    · exact ⟨by simp [h2], h2⟩
    · exact ⟨h1, h2⟩
  | «open» => exact ⟨fun _ => rfl, fun x h1 h2 => ⟨h1, h2⟩⟩
  | close => exact ⟨fun _ => rfl, fun x h1 h2 => ⟨h1, h2⟩⟩
  | power =>
    refine ⟨fun h => absurd trivial h, fun x h1 h2 => ?_⟩
    obtain ⟨a, b, e, _⟩ := restart_dev c hello d.file
    show (restart c hello d.file).1.file.map f = some x ∧ f (restart c hello d.file).1.nv = x
    rw [b, e]
    refine ⟨h1, ?_⟩
    cases hfile : d.file with
    | none => rw [hfile] at h1; cases h1
    | some g =>
      rw [hfile] at h1
      have h1 : f g = x := by simpa using h1
      rw [← h1]; exact hf _ _ _ _
  | block opt sub qual len v =>
    show (_ → f (setReq c d 0 opt sub qual len v).dev.nv = _) ∧ ∀ x, _ → _ →
      (setReq c d 0 opt sub qual len v).dev.file.map f = some x ∧ f (setReq c d 0 opt sub qual len v).dev.nv = x
    have hsame : ∀ p : Parsed, p.reset = false → p.dev.file = d.file →
        (setReq c d 0 opt sub qual len v).dev = (finish c p).1 →
        (f (setReq c d 0 opt sub qual len v).dev.nv = f d.nv) →
        (¬ Reloads (.block opt sub qual len v) → f (setReq c d 0 opt sub qual len v).dev.nv = f d.nv) ∧ ∀ x, d.file.map f = some x → f d.nv = x →
      (setReq c d 0 opt sub qual len v).dev.file.map f = some x ∧ f (setReq c d 0 opt sub qual len v).dev.nv = x := by
      intro p h1 h2 h3 h4
      refine ⟨fun _ => h4, fun x hx hy => ⟨?_, by rw [h4, hy]⟩⟩
      rw [h3, (finish_keeps c p h1).2.2.1, h2]; exact hx
    have hkd := setReq_kind c d 0 opt sub qual len v
    cases hk : kind opt sub qual len v with
    | ipPar a =>
      obtain ⟨e1, e2, e3, e4, e5, _⟩ := parseIpPar_dev (noHello d) (isTemp qual) a
      exact hsame _ e5 e2 (by rw [hkd, hk]; rfl) (hi _ _ _ _ _ a rfl (Or.inl hk))
    | ipSuite a =>
      obtain ⟨e1, e2, e3, e4, e5, _⟩ := parseIpSuite_dev (noHello d) (isTemp qual) a
      exact hsame _ e5 e2 (by rw [hkd, hk]; rfl) (hi _ _ _ _ _ a rfl (Or.inr hk))
    | name =>
      obtain ⟨e1, e2, e3, e4, e5, _⟩ := parseName_dev (noHello d) (isTemp qual) len v
      exact hsame _ e5 e2 (by rw [hkd, hk]; rfl) (hn _ _ _ _ _ rfl hk)
    | start => rw [hkd, hk]; exact ⟨fun _ => rfl, fun x h1 h2 => ⟨h1, h2⟩⟩
    | stop => rw [hkd, hk]; exact ⟨fun _ => rfl, fun x h1 h2 => ⟨h1, h2⟩⟩
    | signal => rw [hkd, hk]; exact ⟨fun _ => rfl, fun x h1 h2 => ⟨h1, h2⟩⟩
    | bad e => rw [hkd, hk]; exact ⟨fun _ => rfl, fun x h1 h2 => ⟨h1, h2⟩⟩
    | reset m =>
      have hm := kind_reset hk
      have hm2 : m < 2 := by
        by_cases c2 : m < 2
        · exact c2
        · exfalso; apply hr
          rcases hm.2 with h | h
          · exact ⟨hm.1, Or.inl h.1⟩
          · exact ⟨hm.1, Or.inr ⟨h.1, by omega⟩⟩
      have hs6 : sub = 6 ∧ m = qual.toNat / 2 := hm.2.resolve_left (fun h => by omega)
      rw [hkd, hk]
      simp only [setKind, answer]
      rw [finish_reset c _ rfl rfl]
      obtain ⟨a1, b1, c1, _⟩ := evaluate_keeps (⟨noHello d, true, none, false, false, true, m⟩ : Parsed)
      obtain ⟨a2, b2, c2, _⟩ := doCheck_keeps (evaluate (⟨noHello d, true, none, false, false, true, m⟩ : Parsed)).1
      have hnv : (doCheck (evaluate (⟨noHello d, true, none, false, false, true, m⟩ : Parsed)).1).nv = d.nv := by
        rw [b2, b1]; rfl
      have hfi : (doCheck (evaluate (⟨noHello d, true, none, false, false, true, m⟩ : Parsed)).1).file = d.file := by
        rw [c2, c1]; rfl
      simp only [setDefault, loadNv, hnv, hfi]
      rw [if_neg (by omega : ¬ (m = 2 ∨ m ≥ 3))]
      by_cases h0 : m = 0
      · rw [if_pos h0]
        refine ⟨fun h => absurd ⟨hm.1, hs6.1, by omega⟩ h, fun x h1 h2 => ⟨by rw [if_neg (by omega)]; exact h1, ?_⟩⟩
        cases hfile : d.file with
        | none => rw [hfile] at h1; cases h1
        | some g =>
          rw [hfile] at h1
          have h1 : f g = x := by simpa using h1
          rw [← h1]; exact hf _ _ _ _
      · rw [if_neg h0, if_neg (by omega)]
        exact ⟨fun _ => rfl, fun x h1 h2 => ⟨h1, h2⟩⟩

theorem name_nv (c : Defaults) (d : Dev) (opt sub : Byte) (qual : BitVec 16) (len : Nat) (v : List Byte)
    (hk : kind opt sub qual len v = .name) :
    (setReq c d 0 opt sub qual len v).dev.nv.ip = d.nv.ip ∧
    (Ok d → (setReq c d 0 opt sub qual len v).err ≠ 0 → (setReq c d 0 opt sub qual len v).dev.nv = d.nv) := by
  rw [Ne, C36_answer, setReq_kind, hk]
  obtain ⟨e1, e2, e3, e4, e5, e6, e7, e8, _⟩ := parseName_dev (noHello d) (isTemp qual) len v
  obtain ⟨a, b, _⟩ := finish_keeps c (parseName (noHello d) (isTemp qual) len v) e5
  simp only [setKind, answer]
  rw [b]
  refine ⟨by rw [e8]; rfl, fun hok he => ?_⟩
  cases ho : (parseName (noHello d) (isTemp qual) len v).ok
  · revert ho
    unfold parseName refuse
    repeat' split
    all_goals simp [noHello]
  · rw [finish_set c _ ho e5] at he
    have hf : (evaluate (parseName (noHello d) (isTemp qual) len v)).2.1 = false := by
      simpa using he
    rcases (evaluate_refused _ e5).mp hf with h | h
    · rw [e1] at h; exact absurd h hok.1
    · rw [e6] at h; exact absurd h.2.1 (by simp)

theorem ip_nv_name (c : Defaults) (d : Dev) (opt sub : Byte) (qual : BitVec 16) (len : Nat) (v : List Byte) (a : Ip)
    (hk : kind opt sub qual len v = .ipPar a ∨ kind opt sub qual len v = .ipSuite a) :
    (setReq c d 0 opt sub qual len v).dev.nv.name = d.nv.name := by
  rw [setReq_kind]
  rcases hk with hk | hk
  · rw [hk]
    obtain ⟨e1, e2, e3, e4, e5, e6, e7, e8, _⟩ := parseIpPar_dev (noHello d) (isTemp qual) a
    simp only [setKind, answer]
    rw [(finish_keeps c _ e5).2.1, e8]; rfl
  · rw [hk]
    obtain ⟨e1, e2, e3, e4, e5, e6, e7, e8, _⟩ := parseIpSuite_dev (noHello d) (isTemp qual) a
    simp only [setKind, answer]
    rw [(finish_keeps c _ e5).2.1, e8]; rfl

/-- The general form: a setting that stands in the values to be stored, that has been stored afterwards and that
no operation is about is the setting in use after power on. -/
theorem survives {α : Type} (f : Ase → α) (hf : ∀ n i x y, f ⟨n, i, x⟩ = f ⟨n, i, y⟩) (bad : Dev → Op → Prop)
    (c : Defaults) (hello : Bool)
    (hstep : ∀ d o, Ok d → ¬ bad d o →
      (¬ Reloads o → f (step c hello d o).1.nv = f d.nv) ∧
      (∀ x, d.file.map f = some x → f d.nv = x →
        (step c hello d o).1.file.map f = some x ∧ f (step c hello d o).1.nv = x))
    (d : Dev) (hd : Ok d) (x : α) (hx : f d.nv = x) (b1 b2 : List Op)
    (h1 : Without c hello (fun d o => bad d o ∨ Reloads o) d b1)
    (h2 : Without c hello bad (run c hello d (b1 ++ [.save])) b2) :
    f (run c hello d (b1 ++ [.save] ++ b2 ++ [.power])).cur = x := by
  have s1 : ∀ (b1 : List Op) (d : Dev), Ok d → f d.nv = x → Without c hello (fun d o => bad d o ∨ Reloads o) d b1 →
      f (run c hello d b1).nv = x := by
    intro b1
    induction b1 with
    | nil => intro d _ hx _; exact hx
    | cons o os ih =>
      intro d hd hx hw
      refine ih _ (step_ok c hello d o hd) ?_ hw.2
      rw [(hstep d o hd (fun h => hw.1 (Or.inl h))).1 (fun h => hw.1 (Or.inr h)), hx]
  have s2 : ∀ (b2 : List Op) (d : Dev), Ok d → d.file.map f = some x → f d.nv = x → Without c hello bad d b2 →
      (run c hello d b2).file.map f = some x := by
    intro b2
    induction b2 with
    | nil => intro d _ hx _ _; exact hx
    | cons o os ih =>
      intro d hd hx hy hw
      obtain ⟨k1, k2⟩ := (hstep d o hd hw.1).2 x hx hy
      exact ih _ (step_ok c hello d o hd) k1 k2 hw.2
  have a1 := s1 b1 d hd hx h1
  have o1 := run_ok c hello d b1 hd
  have hs : (run c hello d (b1 ++ [.save])).file.map f = some x ∧ f (run c hello d (b1 ++ [.save])).nv = x := by
    rw [run_append]
    show (if (run c hello d b1).job then _ else (run c hello d b1) : Dev).file.map f = some x ∧
      f (if (run c hello d b1).job then _ else (run c hello d b1) : Dev).nv = x
    split
    · exact ⟨by simp [a1], a1⟩
    · rename_i hj
      exact ⟨by rw [o1.2 (by simpa using hj)]; simp [a1], a1⟩
  have a2 := s2 b2 _ (run_ok c hello d _ hd) hs.1 hs.2 h2
  rw [run_append, run_append]
  generalize run c hello (run c hello d (b1 ++ [.save])) b2 = e at a2
  show f (restart c hello e.file).1.cur = x
  rw [(restart_dev c hello e.file).1]
  cases hfile : e.file with
  | none => rw [hfile] at a2; cases a2
  | some g =>
    rw [hfile] at a2
    have a2 : f g = x := by simpa using a2
    rw [← a2]; exact hf _ _ _ _

theorem name_step (c : Defaults) (hello : Bool) (d : Dev) (o : Op) (hd : Ok d) (h : ¬ AboutName c d o) :
    (¬ Reloads o → (step c hello d o).1.nv.name = d.nv.name) ∧
      (∀ x, d.file.map Ase.name = some x → d.nv.name = x →
        (step c hello d o).1.file.map Ase.name = some x ∧ (step c hello d o).1.nv.name = x) := by
  refine step_other Ase.name (fun _ _ _ _ => rfl) c hello d o (fun hr => h (Or.inl hr)) ?_ ?_
  · intro opt sub qual len v ho hk
    obtain ⟨rfl, rfl⟩ := kind_name hk
    by_cases he : (setReq c d 0 2 2 qual len v).err = 0
    · exact absurd (Or.inr ⟨qual, len, v, ho, he⟩) h
    · rw [(name_nv c d 2 2 qual len v hk).2 hd he]
  · intro opt sub qual len v a ho hk
    exact ip_nv_name c d opt sub qual len v a hk

theorem ip_step (c : Defaults) (hello : Bool) (d : Dev) (o : Op) (hd : Ok d) (h : ¬ AboutIp c d o) :
    (¬ Reloads o → (step c hello d o).1.nv.ip = d.nv.ip) ∧
      (∀ x, d.file.map Ase.ip = some x → d.nv.ip = x →
        (step c hello d o).1.file.map Ase.ip = some x ∧ (step c hello d o).1.nv.ip = x) := by
  refine step_other Ase.ip (fun _ _ _ _ => rfl) c hello d o (fun hr => h (Or.inl hr)) ?_ ?_
  · intro opt sub qual len v ho hk
    exact (name_nv c d opt sub qual len v hk).1
  · intro opt sub qual len v a ho hk
    have := kind_ip hk
    subst this
    exact absurd (Or.inr ⟨sub, qual, len, v, ho⟩) h

theorem setsName_dev (c : Defaults) (hello : Bool) (d : Dev) (o : Op) (t : Bool) (v : List Byte) (h : SetsName c d o t v) :
    (step c hello d o).1.cur.name = v ∧ (step c hello d o).1.nv.name = if t then [] else v := by
  obtain ⟨qual, rfl, rfl, he⟩ := h
  have hk : kind 2 2 qual v.length v = .name := by unfold kind; rfl
  rw [C36_answer, setReq_kind, hk] at he
  show (setReq c d 0 2 2 qual v.length v).dev.cur.name = v ∧ (setReq c d 0 2 2 qual v.length v).dev.nv.name = _
  rw [setReq_kind, hk]
  obtain ⟨e1, e2, e3, e4, e5, e6, e7, e8, _⟩ := parseName_dev (noHello d) (isTemp qual) v.length v
  obtain ⟨a, b, _⟩ := finish_keeps c (parseName (noHello d) (isTemp qual) v.length v) e5
  simp only [setKind, answer] at he ⊢
  rw [a, b]
  cases ho : (parseName (noHello d) (isTemp qual) v.length v).ok
  · rw [finish_refused c _ ho] at he; simp at he
  · revert ho
    unfold parseName refuse
    repeat' split
    all_goals cases isTemp qual <;> simp

theorem setsIp_dev (c : Defaults) (hello : Bool) (d : Dev) (o : Op) (t : Bool) (x : Ip) (h : SetsIp c d o t x) :
    (step c hello d o).1.cur.ip = x ∧ (step c hello d o).1.nv.ip = if t then .zero else x := by
  obtain ⟨sub, qual, v, hsub, rfl, hl, rfl, rfl, he⟩ := h
  rcases hsub with rfl | rfl
  · have hk : kind 1 2 qual 12 v = .ipPar (ipOf v) := by
      unfold kind; rw [if_pos rfl, if_pos rfl, if_pos rfl]
    rw [C36_answer, setReq_kind, hk] at he
    show (setReq c d 0 1 2 qual 12 v).dev.cur.ip = _ ∧ (setReq c d 0 1 2 qual 12 v).dev.nv.ip = _
    rw [setReq_kind, hk]
    obtain ⟨e1, e2, e3, e4, e5, e6, e7, e8, _⟩ := parseIpPar_dev (noHello d) (isTemp qual) (ipOf v)
    obtain ⟨a, b, _⟩ := finish_keeps c (parseIpPar (noHello d) (isTemp qual) (ipOf v)) e5
    simp only [setKind, answer] at he ⊢
    rw [a, b]
    cases ho : (parseIpPar (noHello d) (isTemp qual) (ipOf v)).ok
    · rw [finish_refused c _ ho] at he; simp at he
    · revert ho
      unfold parseIpPar refuse
      split
      all_goals cases isTemp qual <;> simp
  · have hk : kind 1 3 qual 12 v = .ipSuite (ipOf v) := by
      unfold kind; rw [if_pos rfl, if_neg (by decide), if_pos rfl, if_pos rfl]
    rw [C36_answer, setReq_kind, hk] at he
    show (setReq c d 0 1 3 qual 12 v).dev.cur.ip = _ ∧ (setReq c d 0 1 3 qual 12 v).dev.nv.ip = _
    rw [setReq_kind, hk]
    obtain ⟨e1, e2, e3, e4, e5, e6, e7, e8, _⟩ := parseIpSuite_dev (noHello d) (isTemp qual) (ipOf v)
    obtain ⟨a, b, _⟩ := finish_keeps c (parseIpSuite (noHello d) (isTemp qual) (ipOf v)) e5
    simp only [setKind, answer] at he ⊢
    rw [a, b]
    cases ho : (parseIpSuite (noHello d) (isTemp qual) (ipOf v)).ok
    · rw [finish_refused c _ ho] at he; simp at he
    · revert ho
      unfold parseIpSuite refuse
      split
      all_goals cases isTemp qual <;> simp

/-- C37, name.  When a Set of the name is accepted, the name is in use at once.  If the settings are
stored after it, no other Set of the name is accepted, the communication parameters are not reset, and
before they are stored nothing makes the device read its settings again, then the name in use after the next power
on is the name that was set if it was set permanently, and no name if it was set temporarily. -/
theorem C37_name_partial (c : Defaults) (hello : Bool) (d : Dev) (hd : Reached c hello d) (o : Op) (temp : Bool)
    (v : List Byte) (h : SetsName c d o temp v) (b1 b2 : List Op)
    (h1 : Without c hello (fun d o => AboutName c d o ∨ Reloads o) (step c hello d o).1 b1)
    (h2 : Without c hello (AboutName c) (run c hello (step c hello d o).1 (b1 ++ [.save])) b2) :
    (step c hello d o).1.cur.name = v ∧
      (run c hello (step c hello d o).1 (b1 ++ [.save] ++ b2 ++ [.power])).cur.name = if temp then [] else v := by
  obtain ⟨k1, k2⟩ := setsName_dev c hello d o temp v h
  exact ⟨k1, survives Ase.name (fun _ _ _ _ => rfl) (AboutName c) c hello
    (fun d o hd hb => name_step c hello d o hd hb) _ (step_ok c hello d o hd.ok) _ k2 b1 b2 h1 h2⟩

/-- C37, address. -/
theorem C37_ip_partial (c : Defaults) (hello : Bool) (d : Dev) (hd : Reached c hello d) (o : Op) (temp : Bool)
    (x : Ip) (h : SetsIp c d o temp x) (b1 b2 : List Op)
    (h1 : Without c hello (fun d o => AboutIp c d o ∨ Reloads o) (step c hello d o).1 b1)
    (h2 : Without c hello (AboutIp c) (run c hello (step c hello d o).1 (b1 ++ [.save])) b2) :
    (step c hello d o).1.cur.ip = x ∧
      (run c hello (step c hello d o).1 (b1 ++ [.save] ++ b2 ++ [.power])).cur.ip = if temp then .zero else x := by
  obtain ⟨k1, k2⟩ := setsIp_dev c hello d o temp x h
  exact ⟨k1, survives Ase.ip (fun _ _ _ _ => rfl) (AboutIp c) c hello
    (fun d o hd hb => ip_step c hello d o hd hb) _ (step_ok c hello d o hd.ok) _ k2 b1 b2 h1 h2⟩

/-- C37 needs the settings to be stored first: if a Set of the name, permanent or not, is followed at once by a reset
with mode 0 (which the code does not exclude), the name goes back to the stored one, or to the one of the
configuration. -/
theorem C37_fails_reload (c : Defaults) (hello : Bool) (d : Dev) (o : Op) (temp : Bool) (v : List Byte)
    (h : SetsName c d o temp v) :
    (run c hello d [o, .block 5 6 0 0 []]).cur.name = (started c d.file).name := by
  obtain ⟨qual, rfl, rfl, he⟩ := h
  have hfile : (step c hello d (.block 2 2 qual v.length v)).1.file = d.file := by
    show (setReq c d 0 2 2 qual v.length v).dev.file = _
    have hk : kind 2 2 qual v.length v = .name := by unfold kind; rfl
    rw [setReq_kind, hk]
    obtain ⟨e1, e2, e3, e4, e5, _⟩ := parseName_dev (noHello d) (isTemp qual) v.length v
    simp only [setKind, answer]
    rw [(finish_keeps c _ e5).2.2.1, e2]; rfl
  show (setReq c (step c hello d (.block 2 2 qual v.length v)).1 0 5 6 0 0 []).dev.cur.name = _
  generalize (step c hello d (.block 2 2 qual v.length v)).1 = e at hfile
  have hk : kind 5 6 0 0 [] = .reset 0 := by rfl
  rw [setReq_kind, hk]
  simp only [setKind, answer]
  rw [finish_reset c _ rfl rfl]
  obtain ⟨a1, b1, c1, _⟩ := evaluate_keeps (⟨noHello e, true, none, false, false, true, 0⟩ : Parsed)
  obtain ⟨a2, b2, c2, _⟩ := doCheck_keeps (evaluate (⟨noHello e, true, none, false, false, true, 0⟩ : Parsed)).1
  have hfi : (doCheck (evaluate (⟨noHello e, true, none, false, false, true, 0⟩ : Parsed)).1).file = d.file := by
    rw [c2, c1]; exact hfile
  simp only [setDefault, loadNv, hfi]
  rw [if_pos trivial]
  cases d.file <;> rfl

def exDev3 : Dev := ⟨{ exA with name := [0x64, 0x32] }, { exA with name := [0x64, 0x32] }, .wConnect, true, none, true, 0, false⟩
def exDev4 : Dev := ⟨{ exB with name := [0x64, 0x32] }, { exA with name := [0x64, 0x32], ip := .zero }, .wConnect, true, none, true, 0, false⟩

/-- C37 in a concrete history: the name "d2" set permanently, the address temporarily, stored, power cycle; and
a name that is lost by a reset with mode 0. -/
theorem C37_example :
    SetsName exDefaults exDev (.block 2 2 1 2 [0x64, 0x32]) false [0x64, 0x32] ∧
    SetsIp exDefaults exDev3 (.block 1 2 0 12 exIp) true ⟨0xC0A80033, 0xFFFFFF00, 0xC0A80033⟩ ∧
    (run exDefaults false exDev
      [.block 2 2 1 2 [0x64, 0x32], .block 1 2 0 12 exIp, .commit, .save, .power]).cur =
      ⟨[0x64, 0x32], .zero, dnsZero⟩ ∧
    (run exDefaults false exDev [.block 2 2 1 2 [0x64, 0x32], .block 5 6 0 0 []]).cur.name = [0x64, 0x31] := by
  have e1 : (step exDefaults false exDev (.block 2 2 1 2 [0x64, 0x32])).1 = exDev3 := by decide +kernel
  have e2 : (step exDefaults false exDev3 (.block 1 2 0 12 exIp)).1 = exDev4 := by decide +kernel
  refine ⟨⟨1, by decide, rfl, by decide +kernel⟩, ⟨2, 0, exIp, .inl rfl, by decide, rfl, by decide +kernel, rfl, by decide +kernel⟩, ?_, ?_⟩
  · show (run exDefaults false (step exDefaults false exDev (.block 2 2 1 2 [0x64, 0x32])).1 _).cur = _
    rw [e1]
    show (run exDefaults false (step exDefaults false exDev3 (.block 1 2 0 12 exIp)).1 _).cur = _
    rw [e2]
    decide +kernel
  · show (run exDefaults false (step exDefaults false exDev (.block 2 2 1 2 [0x64, 0x32])).1 _).cur.name = _
    rw [e1]
    decide +kernel

end Verif.Cmina
