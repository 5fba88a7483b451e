import Mathlib.Data.List.Induction
import Mathlib.Tactic.Set
/-!
# C43 Background saving

Model of `src/common/pf_bg_worker.c` and of the three save functions it runs, as interleaved threads: any number of
threads that change settings and request jobs, the background worker, and the foreground thread that saves the
I&M data directly. Every step reads or writes at most one field of the settings.
-/
set_option linter.unusedVariables false
namespace Verif.Store.Worker

/-- `pf_bg_job_t` (src/common/pf_bg_worker.h:36-42). -/
inductive Job where
  | ports | ase | im | pdport
deriving DecidableEq, Repr

/-- The files saved: IP settings and station name, I&M data, settings of port `n`. -/
inductive File where
  | ip | imd | port (n : Nat)
deriving DecidableEq, Repr

/-- The job that saves a file. -/
def File.job : File → Job
  | .ip => .ase
  | .imd => .im
  | .port _ => .pdport

/-- What a save function writes: the live settings or a copy taken earlier. -/
inductive Src (V : Type) where
  | live
  | copy (b : Nat → V)

/-- Position inside a save function for file `f`.
* `snap i b`: copying the settings, fields below `i` are done (`memcpy` under the mutex in pf_fspm_save_im (src/device/pf_fspm.c:325-373) and
  pf_pdport_save (src/device/pf_pdport.c:171-221)). The mutex is not used to exclude anything here, so the model has more interleavings than the code.
* `load`: about to read the file into the temporary buffer.
* `cmp i`: comparing field `i` with the temporary buffer `t` (`memcmp` in pf_file_save_if_modified (src/common/pf_file.c:271-306)); `t = none` if the file could not be read.
* `wr i b`: collecting field `i` for `pnal_save_file`; written to the medium when all fields are collected.

pf_cmina_save_ase (src/device/pf_cmina.c:83-157) copies the settings under the mutex but then passes the pointer to the *live* settings on, so its source is `live`
and the copy (used for log messages only) is not modelled. -/
inductive Save (V : Type) where
  | snap (f : File) (i : Nat) (b : Nat → V)
  | load (f : File) (s : Src V)
  | cmp (f : File) (s : Src V) (t : Option (Nat → V)) (i : Nat)
  | wr (f : File) (s : Src V) (i : Nat) (b : Nat → V)

def Save.file {V} : Save V → File
  | .snap f _ _ => f
  | .load f _ => f
  | .cmp f _ _ _ => f
  | .wr f _ _ _ => f

/-- Position of the worker in bg_worker_task (src/common/pf_bg_worker.c:91-132).
* `wait`: in `os_event_wait`.
* `jobs flags todo`: between jobs; `todo` are the `if` statements still to come.
* `files flags todo fs`: inside a job, files `fs` still to be saved.
* `saving`: inside a save function. -/
inductive Pc (V : Type) where
  | wait
  | jobs (flags : Job → Bool) (todo : List Job)
  | files (flags : Job → Bool) (todo : List Job) (fs : List File)
  | saving (flags : Job → Bool) (todo : List Job) (fs : List File) (s : Save V)

structure State (V : Type) where
  /-- The settings in memory. -/
  val : File → Nat → V
  /-- The files; `none` missing or unreadable. -/
  disk : File → Option (Nat → V)
  /-- The event bits. -/
  ev : Job → Bool
  pc : Pc V
  /-- The foreground thread inside pf_fspm_save_im (src/device/pf_fspm.c:325-373), called from pf_fspm_cm_write_ind (src/device/pf_fspm.c:848-1144). -/
  fg : Option (Save V)

/-- Steps of the threads.
* `change f i v`: some thread writes a field of the settings.
* `request j`: pf_bg_worker_start_job (src/common/pf_bg_worker.c:53-84).
* `work ok`: the worker does one step; `ok = false`: reading the file fails this time.
* `fgStart`: pf_fspm_cm_write_ind (src/device/pf_fspm.c:848-1144) has stored I&M data and calls pf_fspm_save_im (src/device/pf_fspm.c:325-373).
* `fgStep ok`: one step of that call. -/
inductive Op (V : Type) where
  | change (f : File) (i : Nat) (v : V)
  | request (j : Job)
  | work (ok : Bool)
  | fgStart
  | fgStep (ok : Bool)

section
variable {V : Type} [DecidableEq V] [Inhabited V]
-- Parameters: number of fields of each settings structure, number of ports.
variable (nf : File → Nat) (ports : Nat)

/-- Files a job saves. `pf_pdport_save_all` (src/device/pf_pdport.c:223-242) goes through the ports in order;
pf_pdport_update_eth_status (src/device/pf_pdport.c:1440-1474) saves nothing. -/
def filesOf : Job → List File
  | .ports => []
  | .ase => [.ip]
  | .im => [.imd]
  | .pdport => (List.range ports).map .port

/-- Entry of the save function of a file. -/
def saveStart : File → Save V
  | .ip => .load .ip .live
  | .imd => .snap .imd 0 (fun _ => default)
  | .port n => .snap (.port n) 0 (fun _ => default)

def Src.read (val : File → Nat → V) (f : File) : Src V → Nat → V
  | .live => val f
  | .copy b => b

/-- Assignment to one field of a buffer. -/
def upd (b : Nat → V) (i : Nat) (v : V) : Nat → V := fun k => if k = i then v else b k

/-- One step of a save function (pf_file_save_if_modified (src/common/pf_file.c:271-306), pf_file_load (src/common/pf_file.c:140-217), pf_file_save (src/common/pf_file.c:219-269)). Result: new files, and the
position, `none` at the end. Writing a file is assumed to succeed. -/
def saveStep (val : File → Nat → V) (disk : File → Option (Nat → V)) (ok : Bool) :
    Save V → (File → Option (Nat → V)) × Option (Save V)
  | .snap f i b =>
    if i < nf f then (disk, some (.snap f (i + 1) (upd b i (val f i)))) else (disk, some (.load f (.copy b)))
  | .load f s => (disk, some (.cmp f s (if ok then disk f else none) 0))
  | .cmp f s t i =>
    match t with
    | none => (disk, some (.wr f s 0 (fun _ => default)))
    | some t =>
      if i < nf f then
        if t i = s.read val f i then (disk, some (.cmp f s (some t) (i + 1)))
        else (disk, some (.wr f s 0 (fun _ => default)))
      else (disk, none)
  | .wr f s i b =>
    if i < nf f then (disk, some (.wr f s (i + 1) (upd b i (s.read val f i))))
    else (fun g => if g = f then some b else disk g, none)

/-- Order of the `if` statements in bg_worker_task (src/common/pf_bg_worker.c:91-132). -/
def order : List Job := [.ase, .im, .pdport, .ports]

def anyEv (ev : Job → Bool) : Bool := order.any ev

/-- One step of bg_worker_task (src/common/pf_bg_worker.c:91-132). -/
def work (st : State V) (ok : Bool) : State V :=
  match st.pc with
  | .wait => if anyEv st.ev then { st with pc := .jobs st.ev order } else st
  | .jobs _ [] => { st with pc := .wait }
  | .jobs flags (j :: todo) =>
    if flags j then
      { st with ev := fun k => if k = j then false else st.ev k, pc := .files flags todo (filesOf ports j) }
    else { st with pc := .jobs flags todo }
  | .files flags todo [] => { st with pc := .jobs flags todo }
  | .files flags todo (f :: fs) => { st with pc := .saving flags todo fs (saveStart f) }
  | .saving flags todo fs s =>
    let r := saveStep nf st.val st.disk ok s
    match r.2 with
    | some s' => { st with disk := r.1, pc := .saving flags todo fs s' }
    | none => { st with disk := r.1, pc := .files flags todo fs }

def step (st : State V) : Op V → State V
  | .change f i v => { st with val := fun g => if g = f then upd (st.val g) i v else st.val g }
  | .request j => { st with ev := fun k => if k = j then true else st.ev k }
  | .work ok => work nf ports st ok
  | .fgStart => if st.fg.isNone then { st with fg := some (saveStart .imd) } else st
  | .fgStep ok =>
    match st.fg with
    | none => st
    | some s =>
      let r := saveStep nf st.val st.disk ok s
      { st with disk := r.1, fg := r.2 }

def init (val : File → Nat → V) (disk : File → Option (Nat → V)) : State V := ⟨val, disk, fun _ => false, .wait, none⟩

def run (st : State V) (ops : List (Op V)) : State V := ops.foldl (step nf ports) st

/-! ## Specification -/

/-- The settings in memory after a history: the last value given to the field. -/
def current (val : File → Nat → V) (ops : List (Op V)) (f : File) (i : Nat) : V :=
  ops.foldl (fun v o => match o with | .change g k w => if g = f ∧ k = i then w else v | _ => v) (val f i)

/-- A save of `f` was requested after the last change of `f`. -/
def Requested (ops : List (Op V)) (f : File) : Prop :=
  ∃ a b, ops = a ++ .request f.job :: b ∧ ∀ o ∈ b, ∀ i v, o ≠ .change f i v

/-- The worker is blocked waiting for events and there are none. -/
def Idle (st : State V) : Prop := (∃ h : st.pc = .wait, True) ∧ ∀ j, st.ev j = false

/-- The history contains no direct save by the foreground thread. -/
def NoDirectSave (ops : List (Op V)) : Prop := ∀ o ∈ ops, o ≠ .fgStart

/-! ## Proof -/

/-- What a save of `f` in progress has read agrees with the settings. -/
def Fresh (val : File → Nat → V) (disk : File → Option (Nat → V)) (f : File) : Save V → Prop
  | .snap g i b => ∀ k < nf f, k < i → b k = val f k
  | .load g s => ∀ k < nf f, s.read val f k = val f k
  | .cmp g s t i => (∀ k < nf f, s.read val f k = val f k) ∧ (∀ t', t = some t' → disk f = some t' ∧ ∀ k < nf f, k < i → t' k = val f k)
  | .wr g s i b => (∀ k < nf f, s.read val f k = val f k) ∧ ∀ k < nf f, k < i → b k = val f k

def Saved (st : State V) (f : File) : Prop := ∃ d, st.disk f = some d ∧ ∀ k < nf f, d k = st.val f k

/-- The worker will still start a save of `f`. -/
def Ahead (st : State V) (f : File) : Prop :=
  match st.pc with
  | .wait => False
  | .jobs flags todo => flags f.job = true ∧ f.job ∈ todo
  | .files flags todo fs => (flags f.job = true ∧ f.job ∈ todo) ∨ f ∈ fs
  | .saving flags todo fs s => (flags f.job = true ∧ f.job ∈ todo) ∨ f ∈ fs ∨ (s.file = f ∧ Fresh nf st.val st.disk f s)

/-- The worker is inside the save function of `f`. -/
def InSave (st : State V) (f : File) : Prop :=
  match st.pc with
  | .saving _ _ _ s => s.file = f
  | _ => False

/-- Invariant per file once requested. -/
def Good (st : State V) (f : File) : Prop := st.ev f.job = true ∨ Ahead nf st f ∨ (Saved nf st f ∧ ¬ InSave st f)

theorem saveStep_disk_other (val disk ok) (s : Save V) (g : File) (h : g ≠ s.file) :
    (saveStep nf val disk ok s).1 g = disk g := by
  cases s with
  | snap f i b => simp only [saveStep]; split <;> rfl
  | load f s => rfl
  | cmp f s t i =>
    simp only [saveStep]
    cases t with
    | none => rfl
    | some t => dsimp only; split_ifs <;> rfl
  | wr f s i b =>
    simp only [saveStep]
    split
    · rfl
    · exact if_neg h

theorem saveStep_file (val disk ok) (s s' : Save V) (h : (saveStep nf val disk ok s).2 = some s') :
    s'.file = s.file := by
  cases s with
  | snap f i b => simp only [saveStep] at h; split at h <;> (cases h; rfl)
  | load f s => simp only [saveStep] at h; cases h; rfl
  | cmp f s t i =>
    simp only [saveStep] at h
    cases t with
    | none => cases h; rfl
    | some t => dsimp only at h; split_ifs at h <;> (cases h; rfl)
  | wr f s i b =>
    simp only [saveStep] at h
    split at h
    · cases h; rfl
    · cases h

theorem fresh_step (val disk ok) (s : Save V) (h : Fresh nf val disk s.file s) :
    match (saveStep nf val disk ok s).2 with
    | some s' => Fresh nf val (saveStep nf val disk ok s).1 s.file s'
    | none => ∃ d, (saveStep nf val disk ok s).1 s.file = some d ∧ ∀ k < nf s.file, d k = val s.file k := by
  cases s with
  | snap f i b =>
    simp only [saveStep, Save.file, Fresh] at *
    split
    · rename_i s' hs
      split at hs
      · cases hs
        simp only [Fresh]
        intro k hk hk'
        unfold upd
        split
        · subst_vars; rfl
        · exact h k hk (by omega)
      · cases hs
        simp only [Fresh, Src.read]
        intro k hk
        exact h k hk (by omega)
    · rename_i hs; split at hs <;> cases hs
  | load f s =>
    simp only [saveStep, Save.file, Fresh] at *
    refine ⟨h, ?_⟩
    intro t' ht
    split at ht
    · exact ⟨ht, fun k _ hk => by omega⟩
    · cases ht
  | cmp f s t i =>
    simp only [saveStep, Save.file] at *
    obtain ⟨h1, h2⟩ := h
    cases t with
    | none => exact ⟨h1, fun k _ hk => by omega⟩
    | some t =>
      dsimp only
      obtain ⟨h3, h4⟩ := h2 t rfl
      by_cases hi : i < nf f
      · rw [if_pos hi]
        by_cases he : t i = s.read val f i
        · rw [if_pos he]
          refine ⟨h1, fun t' ht' => ?_⟩
          cases ht'
          refine ⟨h3, fun k hk hk' => ?_⟩
          by_cases hki : k = i
          · subst hki; rw [he]; exact h1 k hk
          · exact h4 k hk (by omega)
        · rw [if_neg he]
          exact ⟨h1, fun k _ hk => by omega⟩
      · rw [if_neg hi]
        exact ⟨t, h3, fun k hk => h4 k hk (by omega)⟩
  | wr f s i b =>
    simp only [saveStep, Save.file] at *
    obtain ⟨h1, h2⟩ := h
    by_cases hi : i < nf f
    · rw [if_pos hi]
      refine ⟨h1, fun k hk hk' => ?_⟩
      unfold upd
      split
      · subst_vars; exact h1 k hk
      · exact h2 k hk (by omega)
    · rw [if_neg hi]
      exact ⟨b, if_pos rfl, fun k hk => h2 k hk (by omega)⟩

theorem fresh_start (val disk) (f : File) : Fresh nf val disk f (saveStart f : Save V) := by
  cases f with
  | ip => intro k hk; rfl
  | imd => intro k hk hk'; omega
  | port n => intro k hk hk'; omega

theorem start_file (f : File) : (saveStart f : Save V).file = f := by cases f <;> rfl

theorem work_good (st : State V) (ok : Bool) (f : File) (hf : f ∈ filesOf ports f.job)
    (h : Good nf st f) : Good nf (work nf ports st ok) f := by
  unfold work
  cases hpc : st.pc with
  | wait =>
    dsimp only
    by_cases ha : anyEv st.ev = true
    · rw [if_pos ha]
      rcases h with h | h | h
      · exact Or.inl h
      · unfold Ahead at h; rw [hpc] at h; exact h.elim
      · exact Or.inr (Or.inr ⟨h.1, fun h => h⟩)
    · rw [if_neg ha]; exact h
  | jobs flags todo =>
    cases todo with
    | nil =>
      dsimp only
      rcases h with h | h | h
      · exact Or.inl h
      · unfold Ahead at h; rw [hpc] at h; exact absurd h.2 (by simp)
      · exact Or.inr (Or.inr ⟨h.1, fun h => h⟩)
    | cons j todo =>
      dsimp only
      by_cases hfl : flags j = true
      · rw [if_pos hfl]
        by_cases hj : f.job = j
        · exact Or.inr (Or.inl (Or.inr (by rw [← hj]; exact hf)))
        · rcases h with h | h | h
          · left; dsimp only; rw [if_neg hj]; exact h
          · unfold Ahead at h; rw [hpc] at h
            right; left
            refine Or.inl ⟨h.1, ?_⟩
            rcases List.mem_cons.1 h.2 with h' | h'
            · exact absurd h' hj
            · exact h'
          · exact Or.inr (Or.inr ⟨h.1, fun h => h⟩)
      · rw [if_neg hfl]
        rcases h with h | h | h
        · exact Or.inl h
        · unfold Ahead at h; rw [hpc] at h
          right; left
          refine ⟨h.1, ?_⟩
          rcases List.mem_cons.1 h.2 with h' | h'
          · rw [h'] at h; exact absurd h.1 hfl
          · exact h'
        · exact Or.inr (Or.inr ⟨h.1, fun h => h⟩)
  | files flags todo fs =>
    cases fs with
    | nil =>
      dsimp only
      rcases h with h | h | h
      · exact Or.inl h
      · unfold Ahead at h; rw [hpc] at h
        rcases h with h | h
        · exact Or.inr (Or.inl h)
        · exact absurd h (by simp)
      · exact Or.inr (Or.inr ⟨h.1, fun h => h⟩)
    | cons g fs =>
      dsimp only
      by_cases hg : g = f
      · subst hg
        exact Or.inr (Or.inl (Or.inr (Or.inr ⟨start_file _, fresh_start nf _ _ _⟩)))
      rcases h with h | h | h
      · exact Or.inl h
      · unfold Ahead at h; rw [hpc] at h
        right; left
        rcases h with h | h
        · exact Or.inl h
        · rcases List.mem_cons.1 h with h | h
          · exact absurd h.symm hg
          · exact Or.inr (Or.inl h)
      · refine Or.inr (Or.inr ⟨h.1, fun hh => hg ?_⟩)
        have : (saveStart g : Save V).file = f := hh
        rwa [start_file] at this
  | saving flags todo fs s =>
    dsimp only
    have hf' := saveStep_file nf st.val st.disk ok s
    have ho := saveStep_disk_other nf st.val st.disk ok s
    have hfr := fresh_step nf st.val st.disk ok s
    rcases h with h | h | h
    · left
      cases (saveStep nf st.val st.disk ok s).2 <;> exact h
    · unfold Ahead at h; rw [hpc] at h
      rcases h with h | h | ⟨h1, h2⟩
      · right; left
        cases (saveStep nf st.val st.disk ok s).2 <;> exact Or.inl h
      · right; left
        cases (saveStep nf st.val st.disk ok s).2
        · exact Or.inr h
        · exact Or.inr (Or.inl h)
      · subst h1
        have hfr := hfr h2
        cases hr : (saveStep nf st.val st.disk ok s).2 with
        | none =>
          rw [hr] at hfr
          exact Or.inr (Or.inr ⟨hfr, fun h => h⟩)
        | some s' =>
          rw [hr] at hfr
          exact Or.inr (Or.inl (Or.inr (Or.inr ⟨hf' s' hr, hfr⟩)))
    · obtain ⟨h1, h2⟩ := h
      have hs : f ≠ s.file := by
        intro hh; apply h2; unfold InSave; rw [hpc]; exact hh.symm
      right; right
      cases hr : (saveStep nf st.val st.disk ok s).2 with
      | none =>
        refine ⟨?_, fun h => h⟩
        unfold Saved
        dsimp only
        rw [ho f hs]; exact h1
      | some s' =>
        refine ⟨?_, fun hh => hs ?_⟩
        · unfold Saved
          dsimp only
          rw [ho f hs]; exact h1
        · have : s'.file = f := hh
          rw [← this, hf' s' hr]

/-- A change of another file does not matter. -/
theorem change_good (st : State V) (f g : File) (i : Nat) (v : V) (hg : g ≠ f)
    (h : Good nf st f) : Good nf (step nf ports st (.change g i v)) f := by
  have hv : (step nf ports st (.change g i v)).val f = st.val f := by
    simp only [step]; exact if_neg (fun hh => hg hh.symm)
  generalize hst : step nf ports st (.change g i v) = st' at *
  have e1 : st'.ev = st.ev := by rw [← hst]; rfl
  have e2 : st'.pc = st.pc := by rw [← hst]; rfl
  have e3 : st'.disk = st.disk := by rw [← hst]; rfl
  have er : ∀ s : Src V, s.read st'.val f = s.read st.val f := by
    intro s; cases s <;> simp [Src.read, hv]
  have ef : ∀ s : Save V, Fresh nf st.val st.disk f s → Fresh nf st'.val st'.disk f s := by
    intro s hs
    rw [e3]
    cases s with
    | snap => simpa only [Fresh, hv] using hs
    | load => simpa only [Fresh, hv, er] using hs
    | cmp => simpa only [Fresh, hv, er] using hs
    | wr => simpa only [Fresh, hv, er] using hs
  rcases h with h | h | h
  · left; rw [e1]; exact h
  · right; left
    unfold Ahead at *
    rw [e2]
    cases hpc : st.pc with
    | wait => rw [hpc] at h; exact h
    | jobs => rw [hpc] at h; exact h
    | files => rw [hpc] at h; exact h
    | saving =>
      rw [hpc] at h
      rcases h with h | h | h
      · exact Or.inl h
      · exact Or.inr (Or.inl h)
      · exact Or.inr (Or.inr ⟨h.1, ef _ h.2⟩)
  · right; right
    unfold Saved InSave at *
    rw [e2, e3, hv]; exact h

theorem request_good (st : State V) (f : File) (j : Job) (h : Good nf st f ∨ j = f.job) :
    Good nf (step nf ports st (.request j)) f := by
  by_cases hj : f.job = j
  · left; simp only [step]; rw [if_pos hj]
  · rcases h with h | h
    · rcases h with h | h | h
      · left; simp only [step]; rw [if_neg hj]; exact h
      · exact Or.inr (Or.inl h)
      · exact Or.inr (Or.inr h)
    · exact absurd h.symm hj

/-- Only the I&M file is written by the foreground thread. -/
def FgOk (st : State V) : Prop := ∀ s, st.fg = some s → s.file = .imd

theorem fgok_step (st : State V) (o : Op V) (h : FgOk st) : FgOk (step nf ports st o) := by
  cases o with
  | change => exact h
  | request => exact h
  | work ok =>
    have : (work nf ports st ok).fg = st.fg := by
      unfold work
      cases st.pc with
      | wait => dsimp only; split <;> rfl
      | jobs flags todo =>
        cases todo with
        | nil => rfl
        | cons => dsimp only; split <;> rfl
      | files flags todo fs => cases fs <;> rfl
      | saving flags todo fs s => dsimp only; split <;> rfl
    intro s hs
    simp only [step] at hs
    rw [this] at hs
    exact h s hs
  | fgStart =>
    simp only [step]
    split
    · intro s hs; cases hs; rfl
    · exact h
  | fgStep ok =>
    simp only [step]
    cases hf : st.fg with
    | none => exact h
    | some s =>
      intro s' hs'
      dsimp only at hs'
      rw [saveStep_file nf st.val st.disk ok s s' hs']
      exact h s hf

theorem fg_good (st : State V) (ok : Bool) (f : File) (hf : f ≠ .imd) (hfg : FgOk st) (h : Good nf st f) :
    Good nf (step nf ports st (.fgStep ok)) f := by
  simp only [step]
  cases hs : st.fg with
  | none => exact h
  | some s =>
    dsimp only
    have hd := saveStep_disk_other nf st.val st.disk ok s f (by rw [hfg s hs]; exact hf)
    generalize (saveStep nf st.val st.disk ok s).1 = disk' at hd
    have ef : ∀ s : Save V, Fresh nf st.val st.disk f s → Fresh nf st.val disk' f s := by
      intro s hs
      cases s with
      | snap => exact hs
      | load => exact hs
      | cmp => simpa only [Fresh, hd] using hs
      | wr => exact hs
    rcases h with h | h | h
    · exact Or.inl h
    · right; left
      unfold Ahead at *
      dsimp only
      cases hpc : st.pc with
      | wait => rw [hpc] at h; exact h
      | jobs => rw [hpc] at h; exact h
      | files => rw [hpc] at h; exact h
      | saving =>
        rw [hpc] at h
        rcases h with h | h | h
        · exact Or.inl h
        · exact Or.inr (Or.inl h)
        · exact Or.inr (Or.inr ⟨h.1, ef _ h.2⟩)
    · right; right
      refine ⟨?_, h.2⟩
      unfold Saved at *
      dsimp only
      rw [hd]; exact h.1

theorem run_append (st : State V) (a b : List (Op V)) : run nf ports st (a ++ b) = run nf ports (run nf ports st a) b := by
  simp [run, List.foldl_append]

theorem run_fgok (st : State V) (h : FgOk st) (ops : List (Op V)) : FgOk (run nf ports st ops) := by
  induction ops generalizing st with
  | nil => exact h
  | cons o ops ih => exact ih _ (fgok_step nf ports st o h)

theorem run_val (val disk) (ops : List (Op V)) (f : File) (i : Nat) :
    (run nf ports (init val disk) ops).val f i = current val ops f i := by
  induction ops using List.reverseRecOn with
  | nil => rfl
  | append_singleton ops o ih =>
    rw [run_append]
    unfold current at *
    rw [List.foldl_append, ← ih]
    generalize run nf ports (init val disk) ops = st
    simp only [run, List.foldl_cons, List.foldl_nil]
    cases o with
    | change g k w =>
      simp only [step]
      by_cases hg : f = g
      · subst hg
        rw [if_pos rfl]
        unfold upd
        by_cases hk : i = k
        · subst hk; simp
        · rw [if_neg hk, if_neg (fun h => hk h.2.symm)]
      · rw [if_neg hg, if_neg (fun h => hg h.1.symm)]
    | request => rfl
    | work ok =>
      simp only [step]
      have : (work nf ports st ok).val = st.val := by
        unfold work
        cases st.pc with
        | wait => dsimp only; split <;> rfl
        | jobs flags todo =>
          cases todo with
          | nil => rfl
          | cons => dsimp only; split <;> rfl
        | files flags todo fs => cases fs <;> rfl
        | saving flags todo fs s => dsimp only; split <;> rfl
      rw [this]
    | fgStart => simp only [step]; split <;> rfl
    | fgStep ok => simp only [step]; cases st.fg <;> rfl

theorem good_tail (st : State V) (f : File) (b : List (Op V)) (hf : f ∈ filesOf ports f.job)
    (hfg : FgOk st) (hno : f ≠ .imd ∨ (st.fg = none ∧ NoDirectSave b))
    (hb : ∀ o ∈ b, ∀ i v, o ≠ .change f i v) (h : Good nf st f) : Good nf (run nf ports st b) f := by
  induction b generalizing st with
  | nil => exact h
  | cons o b ih =>
    have hb' : ∀ o' ∈ b, ∀ i v, o' ≠ .change f i v := fun o' ho' => hb o' (List.mem_cons_of_mem _ ho')
    have hno' : f ≠ .imd ∨ ((step nf ports st o).fg = none ∧ NoDirectSave b) := by
      rcases hno with hno | ⟨h1, h2⟩
      · exact Or.inl hno
      · refine Or.inr ⟨?_, fun o' ho' => h2 o' (List.mem_cons_of_mem _ ho')⟩
        have ho : o ≠ .fgStart := h2 o (by simp)
        cases o with
        | change => exact h1
        | request => exact h1
        | work ok =>
          simp only [step]
          unfold work
          cases st.pc with
          | wait => dsimp only; split <;> exact h1
          | jobs flags todo =>
            cases todo with
            | nil => exact h1
            | cons => dsimp only; split <;> exact h1
          | files flags todo fs => cases fs <;> exact h1
          | saving flags todo fs s => dsimp only; split <;> exact h1
        | fgStart => exact absurd rfl ho
        | fgStep ok => simp only [step, h1]
    refine ih (step nf ports st o) (fgok_step nf ports st o hfg) hno' hb' ?_
    cases o with
    | change g i v =>
      refine change_good nf ports st f g i v ?_ h
      intro hh; subst hh
      exact hb _ (by simp) i v rfl
    | request j => exact request_good nf ports st f j (Or.inl h)
    | work ok => exact work_good nf ports st ok f hf h
    | fgStart =>
      simp only [step]
      split <;> exact h
    | fgStep ok =>
      rcases hno with hno | ⟨h1, _⟩
      · exact fg_good nf ports st ok f hno hfg h
      · simp only [step, h1]; exact h

theorem nodirect_fg (val disk) (a : List (Op V)) (h : NoDirectSave a) :
    (run nf ports (init val disk) a).fg = none := by
  induction a using List.reverseRecOn with
  | nil => rfl
  | append_singleton a o ih =>
    have ih := ih (fun o' ho' => h o' (by simp [ho']))
    have ho : o ≠ .fgStart := h o (by simp)
    rw [run_append]
    generalize run nf ports (init val disk) a = st at ih
    simp only [run, List.foldl_cons, List.foldl_nil]
    cases o with
    | change => exact ih
    | request => exact ih
    | work ok =>
      simp only [step]
      unfold work
      cases st.pc with
      | wait => dsimp only; split <;> exact ih
      | jobs flags todo =>
        cases todo with
        | nil => exact ih
        | cons => dsimp only; split <;> exact ih
      | files flags todo fs => cases fs <;> exact ih
      | saving flags todo fs s => dsimp only; split <;> exact ih
    | fgStart => exact absurd rfl ho
    | fgStep ok => simp only [step, ih]

/-- **C43 (partial)** For every interleaving of setting changes, save requests, worker steps and direct saves: if a save was
requested after the last change of a file's settings and the worker is idle, the file holds the last value of every
field.

Partial: for the I&M file only if there are no direct saves (`C43_im_update_lost` shows that the claim is false
otherwise). -/
theorem C43_no_lost_update_partial (val : File → Nat → V) (disk : File → Option (Nat → V)) (ops : List (Op V)) (f : File)
    (hport : ∀ n, f = .port n → n < ports)
    (him : f ≠ .imd ∨ NoDirectSave ops)
    (hreq : Requested ops f)
    (hidle : Idle (run nf ports (init val disk) ops)) :
    ∃ d, (run nf ports (init val disk) ops).disk f = some d ∧ ∀ i < nf f, d i = current val ops f i := by
  have hf : f ∈ filesOf ports f.job := by
    cases f with
    | ip => simp [filesOf, File.job]
    | imd => simp [filesOf, File.job]
    | port n => simp [filesOf, File.job, hport n rfl]
  obtain ⟨a, b, hops, hb⟩ := id hreq
  have hg : Good nf (run nf ports (init val disk) ops) f := by
    rw [hops, run_append]
    have : run nf ports (run nf ports (init val disk) a) (.request f.job :: b) =
        run nf ports (step nf ports (run nf ports (init val disk) a) (.request f.job)) b := rfl
    rw [this]
    apply good_tail nf ports _ f b hf
    · apply fgok_step
      apply run_fgok
      intro s hs; cases hs
    · rcases him with h | h
      · exact Or.inl h
      · refine Or.inr ⟨?_, fun o ho => h o (by rw [hops]; simp [ho])⟩
        exact nodirect_fg nf ports val disk a (fun o ho => h o (by rw [hops]; simp [ho]))
    · exact hb
    · exact request_good nf ports _ f f.job (Or.inr rfl)
  obtain ⟨⟨hpc, _⟩, hev⟩ := hidle
  rcases hg with h | h | ⟨⟨d, h1, h2⟩, _⟩
  · rw [hev] at h; cases h
  · unfold Ahead at h; rw [hpc] at h; exact h.elim
  · refine ⟨d, h1, fun i hi => ?_⟩
    rw [h2 i hi, run_val]

/-! ### The worker becomes idle -/

/-- Steps left in a save function. -/
def saveMeasure : Save V → Nat
  | .snap f i _ => 3 * nf f + 5 + (nf f - i)
  | .load f _ => 3 * nf f + 4
  | .cmp f _ _ i => nf f + 2 + (nf f - i)
  | .wr f _ i _ => 1 + (nf f - i)

def filesMeasure (fs : List File) : Nat := (fs.map fun f => 4 * nf f + 7).sum

def jobsMeasure (todo : List Job) : Nat := (todo.map fun j => filesMeasure nf (filesOf ports j) + 2).sum

/-- Events set that the current round will not handle. -/
def leftover (st : State V) : Nat :=
  match st.pc with
  | .wait => (order.filter st.ev).length
  | .jobs flags todo => (order.filter fun k => st.ev k && !(flags k && decide (k ∈ todo))).length
  | .files flags todo _ => (order.filter fun k => st.ev k && !(flags k && decide (k ∈ todo))).length
  | .saving flags todo _ _ => (order.filter fun k => st.ev k && !(flags k && decide (k ∈ todo))).length

def pcMeasure (st : State V) : Nat :=
  match st.pc with
  | .wait => 0
  | .jobs _ todo => jobsMeasure nf ports todo + 1
  | .files _ todo fs => jobsMeasure nf ports todo + 1 + filesMeasure nf fs + 1
  | .saving _ todo fs s => jobsMeasure nf ports todo + 1 + filesMeasure nf fs + 1 + saveMeasure nf s

def measure (st : State V) : Nat := leftover st * (jobsMeasure nf ports order + 2) + pcMeasure nf ports st

theorem saveMeasure_step (val disk ok) (s s' : Save V) (h : (saveStep nf val disk ok s).2 = some s') :
    saveMeasure nf s' < saveMeasure nf s := by
  cases s with
  | snap f i b =>
    simp only [saveStep] at h
    split at h <;> (cases h; simp only [saveMeasure]; omega)
  | load f s => simp only [saveStep] at h; cases h; simp only [saveMeasure]; omega
  | cmp f s t i =>
    simp only [saveStep] at h
    cases t with
    | none => cases h; simp only [saveMeasure]; omega
    | some t => dsimp only at h; split_ifs at h <;> (cases h; simp only [saveMeasure]; omega)
  | wr f s i b =>
    simp only [saveStep] at h
    split at h
    · cases h; simp only [saveMeasure]; omega
    · cases h

theorem saveMeasure_pos (s : Save V) : 0 < saveMeasure nf s := by cases s <;> simp only [saveMeasure] <;> omega

theorem saveMeasure_start (f : File) : saveMeasure nf (saveStart f : Save V) ≤ 4 * nf f + 5 := by
  cases f <;> simp only [saveMeasure, saveStart] <;> omega

theorem measure_step (st : State V) (ok : Bool) (h : ¬ Idle st) :
    measure nf ports (work nf ports st ok) < measure nf ports st := by
  unfold work
  cases hpc : st.pc with
  | wait =>
    dsimp only
    have hany : anyEv st.ev = true := by
      by_contra hn
      apply h
      refine ⟨⟨hpc, trivial⟩, fun j => ?_⟩
      have : ∀ j ∈ order, st.ev j = false := by
        have := List.any_eq_false.1 (by simpa [anyEv] using hn : order.any st.ev = false)
        intro j hj
        simpa using this j hj
      exact this j (by cases j <;> decide)
    rw [if_pos hany]
    have h0 : leftover ({ st with pc := .jobs st.ev order } : State V) = 0 := by
      unfold leftover
      rw [List.length_eq_zero_iff, List.filter_eq_nil_iff]
      intro k hk
      simp [hk]
    have h1 : 1 ≤ leftover st := by
      unfold leftover
      rw [hpc]
      obtain ⟨j, hj, hj'⟩ := List.any_eq_true.1 hany
      exact List.length_pos_iff.2 (List.ne_nil_of_mem (List.mem_filter.2 ⟨hj, hj'⟩))
    have h2 : 1 * (jobsMeasure nf ports order + 2) ≤ leftover st * (jobsMeasure nf ports order + 2) :=
      Nat.mul_le_mul_right _ h1
    unfold measure
    rw [h0]
    have e1 : pcMeasure nf ports ({ st with pc := .jobs st.ev order } : State V) = jobsMeasure nf ports order + 1 := rfl
    have e2 : pcMeasure nf ports st = 0 := by unfold pcMeasure; rw [hpc]
    rw [e1, e2]
    omega
  | jobs flags todo =>
    cases todo with
    | nil =>
      dsimp only
      have h0 : leftover ({ st with pc := .wait } : State V) = leftover st := by
        unfold leftover; rw [hpc]; simp
      have e1 : pcMeasure nf ports ({ st with pc := .wait } : State V) = 0 := rfl
      have e2 : pcMeasure nf ports st = 1 := by unfold pcMeasure; rw [hpc]; rfl
      unfold measure
      rw [h0, e1, e2]; omega
    | cons j todo =>
      dsimp only
      have e2 : pcMeasure nf ports st = filesMeasure nf (filesOf ports j) + 2 + jobsMeasure nf ports todo + 1 := by
        unfold pcMeasure; rw [hpc]; simp [jobsMeasure]
      by_cases hfl : flags j = true
      · rw [if_pos hfl]
        set st' : State V := { st with ev := fun k => if k = j then false else st.ev k, pc := .files flags todo (filesOf ports j) } with hst'
        have h0 : leftover st' = leftover st := by
          unfold leftover
          rw [hpc, hst']
          dsimp only
          congr 1
          apply List.filter_congr
          intro k _
          by_cases hk : k = j
          · subst hk; simp [hfl]
          · simp [hk]
        have e1 : pcMeasure nf ports st' = jobsMeasure nf ports todo + 1 + filesMeasure nf (filesOf ports j) + 1 := rfl
        unfold measure
        rw [h0, e1, e2]; omega
      · rw [if_neg hfl]
        have h0 : leftover ({ st with pc := .jobs flags todo } : State V) = leftover st := by
          unfold leftover
          rw [hpc]
          dsimp only
          congr 1
          apply List.filter_congr
          intro k _
          by_cases hk : k = j
          · subst hk; simp [hfl]
          · simp [hk]
        have e1 : pcMeasure nf ports ({ st with pc := .jobs flags todo } : State V) = jobsMeasure nf ports todo + 1 := rfl
        unfold measure
        rw [h0, e1, e2]; omega
  | files flags todo fs =>
    cases fs with
    | nil =>
      dsimp only
      have h0 : leftover ({ st with pc := .jobs flags todo } : State V) = leftover st := by
        unfold leftover; rw [hpc]
      have e1 : pcMeasure nf ports ({ st with pc := .jobs flags todo } : State V) = jobsMeasure nf ports todo + 1 := rfl
      have e2 : pcMeasure nf ports st = jobsMeasure nf ports todo + 1 + 0 + 1 := by unfold pcMeasure; rw [hpc]; rfl
      unfold measure
      rw [h0, e1, e2]; omega
    | cons f fs =>
      dsimp only
      have h0 : leftover ({ st with pc := .saving flags todo fs (saveStart f) } : State V) = leftover st := by
        unfold leftover; rw [hpc]
      have e1 : pcMeasure nf ports ({ st with pc := .saving flags todo fs (saveStart f) } : State V) =
        jobsMeasure nf ports todo + 1 + filesMeasure nf fs + 1 + saveMeasure nf (saveStart f : Save V) := rfl
      have e2 : pcMeasure nf ports st = jobsMeasure nf ports todo + 1 + (4 * nf f + 7 + filesMeasure nf fs) + 1 := by
        unfold pcMeasure; rw [hpc]; simp [filesMeasure]
      have := saveMeasure_start (V := V) nf f
      unfold measure
      rw [h0, e1, e2]; omega
  | saving flags todo fs s =>
    dsimp only
    have e2 : pcMeasure nf ports st = jobsMeasure nf ports todo + 1 + filesMeasure nf fs + 1 + saveMeasure nf s := by
      unfold pcMeasure; rw [hpc]
    cases hr : (saveStep nf st.val st.disk ok s).2 with
    | none =>
      dsimp only
      set st' : State V := { st with disk := (saveStep nf st.val st.disk ok s).1, pc := .files flags todo fs } with hst'
      have h0 : leftover st' = leftover st := by unfold leftover; rw [hpc]
      have e1 : pcMeasure nf ports st' = jobsMeasure nf ports todo + 1 + filesMeasure nf fs + 1 := rfl
      have := saveMeasure_pos nf s
      unfold measure
      rw [h0, e1, e2]; omega
    | some s' =>
      dsimp only
      set st' : State V := { st with disk := (saveStep nf st.val st.disk ok s).1, pc := .saving flags todo fs s' } with hst'
      have h0 : leftover st' = leftover st := by unfold leftover; rw [hpc]
      have e1 : pcMeasure nf ports st' = jobsMeasure nf ports todo + 1 + filesMeasure nf fs + 1 + saveMeasure nf s' := rfl
      have := saveMeasure_step nf st.val st.disk ok s s' hr
      unfold measure
      rw [h0, e1, e2]; omega

/-- **C43** The worker becomes idle: from every state, whatever the results of reading files, if no more jobs are
requested it is idle after finitely many of its own steps. -/
theorem C43_worker_becomes_idle (st : State V) (oks : Nat → Bool) :
    ∃ n, Idle (run nf ports st ((List.range n).map fun k => .work (oks k))) := by
  have key : ∀ m (st : State V) (oks : Nat → Bool), measure nf ports st ≤ m →
      ∃ n, Idle (run nf ports st ((List.range n).map fun k => .work (oks k))) := by
    intro m
    induction m with
    | zero =>
      intro st oks hm
      by_cases hi : Idle st
      · exact ⟨0, hi⟩
      · have := measure_step nf ports st (oks 0) hi
        omega
    | succ m ih =>
      intro st oks hm
      by_cases hi : Idle st
      · exact ⟨0, hi⟩
      · have := measure_step nf ports st (oks 0) hi
        obtain ⟨n, hn⟩ := ih (work nf ports st (oks 0)) (fun k => oks (k + 1)) (by omega)
        refine ⟨n + 1, ?_⟩
        rw [List.range_succ_eq_map, List.map_cons, List.map_map]
        exact hn
  exact key _ st oks (Nat.le_refl _)

end

/-- **C43 (finding)** An I&M update can be lost. The location is changed (by SNMP) and a background save requested; the
worker has copied the I&M data when the controller writes another I&M field and the stack saves the new data directly; the worker
then compares the file with its old copy and overwrites it. Everything is idle, a complete direct save followed
the last change, and the file holds the old value 1 instead of 2. -/
theorem C43_im_update_lost :
    let nf : File → Nat := fun _ => 1
    let ops : List (Op Nat) :=
      [.change .imd 0 1, .request .im, .work true, .work true, .work true, .work true, .work true, .work true,
       .change .imd 0 2, .fgStart] ++ List.replicate 6 (.fgStep true) ++ List.replicate 8 (.work true)
    let st := run nf 1 (init (fun _ _ => 0) (fun _ => none)) ops
    current (fun _ _ => 0) ops .imd 0 = 2 ∧ (st.disk .imd).map (· 0) = some 1 ∧ st.fg.isNone = true ∧
    (match st.pc with | .wait => true | _ => false) = true ∧ (∀ j ∈ order, st.ev j = false) := by
  decide

/-- **C43 (finding)** The same with the roles exchanged: the direct save has copied value 1, another thread changes the data to 2 and
requests a background save, which completes; then the direct save overwrites the file with its old copy. -/
theorem C43_im_update_lost_by_direct_save :
    let nf : File → Nat := fun _ => 1
    let pre : List (Op Nat) := [.change .imd 0 1, .fgStart, .fgStep true, .fgStep true, .change .imd 0 2]
    let post : List (Op Nat) := List.replicate 14 (.work true) ++ List.replicate 4 (.fgStep true)
    let ops := pre ++ .request .im :: post
    let st := run nf 1 (init (fun _ _ => 0) (fun _ => none)) ops
    (∀ o ∈ post, ∀ i v, o ≠ .change .imd i v) ∧
    current (fun _ _ => 0) ops .imd 0 = 2 ∧ (st.disk .imd).map (· 0) = some 1 ∧ st.fg.isNone = true ∧
    (match st.pc with | .wait => true | _ => false) = true ∧ (∀ j ∈ order, st.ev j = false) := by
  refine ⟨?_, by decide⟩
  intro o ho i v
  simp only [List.mem_append, List.mem_replicate] at ho
  rcases ho with ⟨_, rfl⟩ | ⟨_, rfl⟩ <;> simp

/-- Concrete case of `C43_no_lost_update_partial`: the station name changes while the worker is in the middle of saving
the previous one. -/
theorem C43_example :
    let nf : File → Nat := fun _ => 2
    let ops : List (Op Nat) :=
      [.change .ip 0 1, .request .ase] ++ List.replicate 7 (.work true) ++
      [.change .ip 0 2, .change .ip 1 3, .request .ase] ++ List.replicate 30 (.work true)
    let st := run nf 1 (init (fun _ _ => 0) (fun _ => none)) ops
    (st.disk .ip).map (fun d => (d 0, d 1)) = some (2, 3) ∧ (∀ j ∈ order, st.ev j = false) ∧
    (match st.pc with | .wait => true | _ => false) = true := by
  decide

end Verif.Store.Worker
