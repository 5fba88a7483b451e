import Verif.Common.Bytes
import Mathlib.Data.List.Induction
/-!
# C42 Non-volatile files

Model of `src/common/pf_file.c`. The file functions of the platform (`pnal_load_file`,
`pnal_save_file`, `pnal_clear_file`, src/pnal.h:223-258) are the environment, with these assumptions:

* a file is a path with a byte string as contents, or does not exist;
* loading `n` bytes fails if the file does not exist or is shorter, otherwise gives the first `n` bytes;
* saving replaces the contents. It may fail (the environment decides); then the contents are whatever the
  environment leaves;
* clearing removes the file.
-/
set_option linter.unusedVariables false
namespace Verif.Store

abbrev Path := List Byte

/-- The medium: contents per path. -/
abbrev Fs := Path → Option (List Byte)

/-! ## Model -/

/-- `pnal_load_file` (src/pnal.h:223-228), environment: the two objects, `none` for `-1`. -/
def pnalLoad (fs : Fs) (p : Path) (n1 n2 : Nat) : Option (List Byte × List Byte) :=
  match fs p with
  | none => none
  | some d => if n1 + n2 ≤ d.length then some (d.take n1, (d.drop n1).take n2) else none

/-- What the environment does with a `pnal_save_file` (src/pnal.h:243-248): success, or failure leaving
some contents. -/
inductive Env where
  | ok
  | fail (left : Option (List Byte))

/-- `pnal_save_file`. -/
def pnalSave (fs : Fs) (p : Path) (d1 d2 : List Byte) : Env → Fs × Bool
  | .ok => (fun q => if q = p then some (d1 ++ d2) else fs q, true)
  | .fail l => (fun q => if q = p then l else fs q, false)

/-- `pnal_clear_file` (src/pnal.h:255). -/
def pnalClear (fs : Fs) (p : Path) : Fs := fun q => if q = p then none else fs q

abbrev slash : Byte := 47

/-- pf_file_join_directory_filename (src/common/pf_file.c:70-138). `dir = []` covers both NULL and the empty string; `max` is the
size of the output buffer; strings are lists without the terminator. -/
def join (max : Nat) (dir name : List Byte) : Option Path :=
  if name.length < 1 then none
  else if dir ≠ [] then
    if dir.length + name.length + 2 > max then none
    else some ((if dir.getLast? ≠ some slash then dir ++ [slash] else dir) ++ name)
  else if name.length + 1 > max then none
  else some name

/-- `pf_put_uint32` / `pf_get_uint32`, big endian. -/
def be32 (v : Nat) : List Byte :=
  [BitVec.ofNat 8 (v / 0x1000000), BitVec.ofNat 8 (v / 0x10000), BitVec.ofNat 8 (v / 0x100), BitVec.ofNat 8 v]

def ofBe32 : List Byte → Nat
  | [a, b, c, d] => a.toNat * 0x1000000 + b.toNat * 0x10000 + c.toNat * 0x100 + d.toNat
  | _ => 0

/-- `PF_FILE_MAGIC` and `PF_FILE_VERSION` (src/common/pf_file.c:38-41). -/
def magic : Nat := 0x504E4554
def version : Nat := 1

/-- pf_file_load (src/common/pf_file.c:140-217): the object, or `none` for `-1`. The object buffer is overwritten also in
some failing cases; callers do not use it then. -/
def load (max : Nat) (fs : Fs) (dir name : List Byte) (size : Nat) : Option (List Byte) :=
  match join max dir name with
  | none => none
  | some p =>
    match pnalLoad fs p 8 size with
    | none => none
    | some (hdr, obj) =>
      if ofBe32 (hdr.take 4) ≠ magic then none
      else if ofBe32 (hdr.drop 4) ≠ version then none
      else some obj

/-- pf_file_save (src/common/pf_file.c:219-269): new medium and success. -/
def save (max : Nat) (fs : Fs) (dir name obj : List Byte) (e : Env) : Fs × Bool :=
  match join max dir name with
  | none => (fs, false)
  | some p => pnalSave fs p (be32 magic ++ be32 version) obj e

/-- pf_file_save_if_modified (src/common/pf_file.c:271-306): new medium and return value. -/
def saveIfModified (max : Nat) (fs : Fs) (dir name obj : List Byte) (e : Env) : Fs × Int :=
  match load max fs dir name obj.length with
  | some tmp =>
    if tmp ≠ obj then
      let r := save max fs dir name obj e
      (r.1, if r.2 then 1 else -1)
    else (fs, 0)
  | none =>
    let r := save max fs dir name obj e
    (r.1, if r.2 then 2 else -1)

/-- pf_file_clear (src/common/pf_file.c:308-323). -/
def clear (max : Nat) (fs : Fs) (dir name : List Byte) : Fs :=
  match join max dir name with
  | none => fs
  | some p => pnalClear fs p

/-! ## Specification -/

/-- Contents that are a valid file with an object of `size` bytes: `PNET`, version 1, the object,
possibly more. -/
def ValidFile (d : List Byte) (obj : List Byte) : Prop :=
  ∃ rest, d = [0x50, 0x4E, 0x45, 0x54, 0, 0, 0, 1] ++ obj ++ rest

/-- File operations of the stack. -/
inductive FOp where
  | save (name obj : List Byte) (e : Env)
  | saveIfModified (name obj : List Byte) (e : Env)
  | clear (name : List Byte)

def FOp.name : FOp → List Byte
  | .save n _ _ => n
  | .saveIfModified n _ _ => n
  | .clear n => n

def stepF (max : Nat) (dir : List Byte) (fs : Fs) : FOp → Fs
  | .save n o e => (save max fs dir n o e).1
  | .saveIfModified n o e => (saveIfModified max fs dir n o e).1
  | .clear n => clear max fs dir n

def runF (max : Nat) (dir : List Byte) (fs : Fs) (ops : List FOp) : Fs := ops.foldl (stepF max dir) fs

/-- The effect an operation should have on the object stored under a name: `none` no object. -/
def specStep (name : List Byte) (s : Option (List Byte)) : FOp → Option (List Byte)
  | .save n o _ => if n = name then some o else s
  | .saveIfModified n o _ => if n = name then some o else s
  | .clear n => if n = name then none else s

/-! ## Proof -/

theorem be32_bytes (a b c d : Byte) (v : Nat)
    (h : ofBe32 [a, b, c, d] = v) : [a, b, c, d] = be32 v := by
  subst h
  have := a.isLt; have := b.isLt; have := c.isLt; have := d.isLt
  simp only [be32, ofBe32]
  congr 1
  · apply BitVec.eq_of_toNat_eq; simp only [BitVec.toNat_ofNat]; omega
  congr 1
  · apply BitVec.eq_of_toNat_eq; simp only [BitVec.toNat_ofNat]; omega
  congr 1
  · apply BitVec.eq_of_toNat_eq; simp only [BitVec.toNat_ofNat]; omega
  congr 1
  · apply BitVec.eq_of_toNat_eq; simp only [BitVec.toNat_ofNat]; omega

theorem len4 {l : List Byte} (h : l.length = 4) : ∃ a b c d, l = [a, b, c, d] := by
  match l, h with
  | [a, b, c, d], _ => exact ⟨a, b, c, d, rfl⟩

theorem header_bytes : be32 magic ++ be32 version = [0x50, 0x4E, 0x45, 0x54, 0, 0, 0, 1] := by decide

theorem load_iff (max : Nat) (fs : Fs) (dir name : List Byte) (size : Nat) (obj : List Byte) :
    load max fs dir name size = some obj ↔
      ∃ p d, join max dir name = some p ∧ fs p = some d ∧ obj.length = size ∧ ValidFile d obj := by
  unfold load
  cases hj : join max dir name with
  | none => simp
  | some p =>
    simp only [Option.some.injEq, exists_and_left, exists_eq_left']
    unfold pnalLoad
    cases hf : fs p with
    | none => simp
    | some d =>
      simp only [Option.some.injEq, exists_eq_left']
      by_cases hl : 8 + size ≤ d.length
      · rw [if_pos hl]
        have h4 : ((d.take 8).take 4).length = 4 := by simp; omega
        have h8 : ((d.take 8).drop 4).length = 4 := by simp; omega
        have hsplit : d = d.take 8 ++ ((d.drop 8).take size ++ d.drop (8 + size)) := by
          rw [← List.drop_drop, List.take_append_drop, List.take_append_drop]
        have hsplit8 : d.take 8 = (d.take 8).take 4 ++ (d.take 8).drop 4 := (List.take_append_drop 4 _).symm
        constructor
        · intro h
          dsimp only at h
          split_ifs at h with h1 h2
          · cases h
            refine ⟨by simp; omega, d.drop (8 + size), ?_⟩
            obtain ⟨a, b, c, e, he⟩ := len4 h4
            obtain ⟨a', b', c', e', he'⟩ := len4 h8
            rw [he] at h1
            rw [he'] at h2
            have := be32_bytes _ _ _ _ _ (not_not.1 h1)
            have h' := be32_bytes _ _ _ _ _ (not_not.1 h2)
            conv_lhs => rw [hsplit, hsplit8, he, he', this, h', header_bytes]
            simp
        · rintro ⟨ho, rest, hd⟩
          dsimp only
          have e8 : d.take 8 = [0x50, 0x4E, 0x45, 0x54, 0, 0, 0, 1] := by rw [hd]; simp
          have eo : (d.drop 8).take size = obj := by rw [hd, ← ho]; simp
          rw [e8, eo]
          rw [if_neg (by decide), if_neg (by decide)]
      · rw [if_neg hl]
        simp only [reduceCtorEq, false_iff]
        rintro ⟨ho, rest, hd⟩
        apply hl
        rw [hd]; simp [← ho]; omega

theorem save_path {max : Nat} {fs : Fs} {dir name obj : List Byte} {p : Path} (h : join max dir name = some p) :
    (save max fs dir name obj .ok) =
      (fun q => if q = p then some ([0x50, 0x4E, 0x45, 0x54, 0, 0, 0, 1] ++ obj) else fs q, true) := by
  unfold save
  rw [h]
  simp only [pnalSave, header_bytes]

/-- Different names in the same directory give different paths. -/
theorem join_inj {max : Nat} {dir a b : List Byte} {p : Path}
    (ha : join max dir a = some p) (hb : join max dir b = some p) : a = b := by
  unfold join at ha hb
  split_ifs at ha hb
  all_goals
    cases ha
    first
      | (cases hb; rfl)
      | (simp only [Option.some.injEq] at hb; exact (List.append_cancel_left hb).symm)
      | (simp only [Option.some.injEq] at hb; exact hb.symm)

/-- **C42** Paths: the result of joining fits the output buffer with its terminator; it is the name itself if
there is no directory and `directory/name` otherwise; joining fails only for an empty name or if
the result with room for a slash and the terminator does not fit. -/
theorem C42_path (max : Nat) (dir name : List Byte) :
    (∀ p, join max dir name = some p → p.length + 1 ≤ max ∧
      (p = name ∧ dir = [] ∨ p = dir ++ name ∧ dir.getLast? = some 47 ∨
       p = dir ++ [47] ++ name ∧ dir ≠ [] ∧ dir.getLast? ≠ some 47)) ∧
    (join max dir name = none ↔ name = [] ∨ (dir = [] ∧ max < name.length + 1) ∨
      (dir ≠ [] ∧ max < dir.length + name.length + 2)) := by
  unfold join
  by_cases hn : name = []
  · subst hn; simp
  have hn' : ¬ name.length < 1 := by
    have := List.length_pos_iff.2 hn; omega
  rw [if_neg hn']
  by_cases hd : dir = []
  · subst hd
    simp only [ne_eq, not_true_eq_false, if_false]
    by_cases hm : name.length + 1 > max
    · simp only [if_pos hm]
      refine ⟨by simp, ?_⟩
      simp [hn]; omega
    · simp only [if_neg hm]
      refine ⟨fun p hp => ?_, ?_⟩
      · cases hp; exact ⟨by omega, Or.inl ⟨rfl, trivial⟩⟩
      · simp [hn]; omega
  · simp only [ne_eq, hd, not_false_eq_true, if_true]
    by_cases hm : dir.length + name.length + 2 > max
    · simp only [if_pos hm]
      refine ⟨by simp, ?_⟩
      simp [hn]; omega
    · simp only [if_neg hm]
      refine ⟨fun p hp => ?_, ?_⟩
      · by_cases hl : dir.getLast? = some slash
        · simp only [hl, not_true_eq_false, if_false, Option.some.injEq] at hp
          subst hp
          exact ⟨by simp; omega, Or.inr (Or.inl ⟨rfl, hl⟩)⟩
        · simp only [hl, not_false_eq_true, if_true, Option.some.injEq] at hp
          subst hp
          exact ⟨by simp; omega, Or.inr (Or.inr ⟨rfl, trivial, hl⟩)⟩
      · simp [hn]; omega

/-- **C42** A load succeeds exactly if the file exists and holds `PNET`, version 1 and at least `size` further bytes;
the first of these are the object. In particular a wrong magic, a wrong version, or a short file is an error,
for all contents of the medium. -/
theorem C42_load_iff (max : Nat) (fs : Fs) (dir name : List Byte) (size : Nat) (obj : List Byte) :
    load max fs dir name size = some obj ↔
      ∃ p d, join max dir name = some p ∧ fs p = some d ∧ obj.length = size ∧ ValidFile d obj :=
  load_iff max fs dir name size obj

/-- **C42** Data saved is read back unchanged. -/
theorem C42_roundtrip (max : Nat) (fs : Fs) (dir name obj : List Byte) (h : join max dir name ≠ none) :
    (save max fs dir name obj .ok).2 = true ∧
    load max (save max fs dir name obj .ok).1 dir name obj.length = some obj := by
  cases hj : join max dir name with
  | none => exact absurd hj h
  | some p =>
    rw [save_path hj]
    refine ⟨rfl, (load_iff _ _ _ _ _ _).2 ⟨p, _, hj, if_pos rfl, rfl, [], by simp⟩⟩

/-- **C42** Saving if modified: returns 0 exactly if the stored object already equals the data, and then the medium is
not touched at all; otherwise it writes, and after a successful write (1: other data was there, 2:
nothing readable was there) the data is read back unchanged. -/
theorem C42_save_if_modified (max : Nat) (fs : Fs) (dir name obj : List Byte) (e : Env) :
    let r := saveIfModified max fs dir name obj e
    (r.2 = 0 ↔ load max fs dir name obj.length = some obj) ∧
    (r.2 = 0 → r.1 = fs) ∧
    (r.2 = 1 ∨ r.2 = 2 → load max r.1 dir name obj.length = some obj) ∧
    (r.2 = 1 → ∃ old, load max fs dir name obj.length = some old ∧ old ≠ obj) ∧
    (r.2 = 2 → load max fs dir name obj.length = none) ∧
    (r.2 = -1 ∨ r.2 = 0 ∨ r.2 = 1 ∨ r.2 = 2) ∧
    (join max dir name ≠ none → (r.2 = -1 ↔ (∃ l, e = .fail l) ∧ load max fs dir name obj.length ≠ some obj)) := by
  have hrb : (save max fs dir name obj e).2 = true →
      load max (save max fs dir name obj e).1 dir name obj.length = some obj := by
    intro h
    cases hj : join max dir name with
    | none => unfold save at h; rw [hj] at h; simp at h
    | some p =>
      cases e with
      | ok => exact (C42_roundtrip max fs dir name obj (by simp [hj])).2
      | fail l => unfold save at h; rw [hj] at h; simp [pnalSave] at h
  have hfail : join max dir name ≠ none → ((save max fs dir name obj e).2 = false ↔ ∃ l, e = .fail l) := by
    intro hj
    unfold save
    cases hj' : join max dir name with
    | none => exact absurd hj' hj
    | some p => cases e <;> simp [pnalSave]
  unfold saveIfModified
  cases hl : load max fs dir name obj.length with
  | some tmp =>
    dsimp only
    by_cases ht : tmp = obj
    · subst ht
      simp
    · rw [if_pos ht]
      cases hs : (save max fs dir name obj e).2 with
      | true =>
        rw [hs] at hfail
        refine ⟨by simp [ht], by simp, fun _ => hrb hs, fun _ => ⟨tmp, rfl, ht⟩, by simp, by simp, ?_⟩
        intro hj
        have := hfail hj
        simp only [Bool.true_eq_false, false_iff] at this
        simp [this]
      | false =>
        rw [hs] at hfail
        refine ⟨by simp [ht], by simp, by simp, by simp, by simp, by simp, ?_⟩
        intro hj
        have := (hfail hj).1 rfl
        simp [ht, this]
  | none =>
    dsimp only
    cases hs : (save max fs dir name obj e).2 with
    | true =>
      rw [hs] at hfail
      refine ⟨by simp, by simp, fun _ => hrb hs, by simp, by simp, by simp, ?_⟩
      intro hj
      have := hfail hj
      simp only [Bool.true_eq_false, false_iff] at this
      simp [this]
    | false =>
      rw [hs] at hfail
      refine ⟨by simp, by simp, by simp, by simp, by simp, by simp, ?_⟩
      intro hj
      have := (hfail hj).1 rfl
      simp [this]

theorem other_name {max : Nat} {dir name : List Byte} {p : Path} {fs : Fs} (o : FOp)
    (hp : join max dir name = some p) (hn : o.name ≠ name) : stepF max dir fs o p = fs p := by
  have hne : ∀ q, join max dir o.name = some q → p ≠ q := by
    intro q hq hh; subst hh; exact hn (join_inj hq hp)
  have hsave : ∀ obj e, (save max fs dir o.name obj e).1 p = fs p := by
    intro obj e
    unfold save
    cases hj : join max dir o.name with
    | none => rfl
    | some q => cases e <;> simp [pnalSave, hne q hj]
  cases o with
  | save n obj e => exact hsave obj e
  | saveIfModified n obj e =>
    simp only [stepF, saveIfModified]
    cases load max fs dir n obj.length with
    | none => exact hsave obj e
    | some tmp =>
      dsimp only
      split
      · exact hsave obj e
      · rfl
  | clear n =>
    simp only [stepF, clear]
    have hne' : ∀ q, join max dir n = some q → p ≠ q := hne
    cases hj : join max dir n with
    | none => rfl
    | some q => simp [pnalClear, hne' q hj]

/-- An operation whose write succeeds. -/
def FOp.succeeds : FOp → Prop
  | .save _ _ e => e = .ok
  | .saveIfModified _ _ e => e = .ok
  | .clear _ => True

/-- **C42** After any history of saves, saves-if-modified and clears of any files in the directory, loading a
file gives the object last saved under its name since it was last cleared, if all writes to it succeeded and were of
the size asked for. Starting from any contents of the medium with no such file. -/
theorem C42_history (max : Nat) (dir : List Byte) (fs : Fs) (ops : List FOp) (name : List Byte) (size : Nat) (p : Path)
    (hp : join max dir name = some p) (h0 : fs p = none)
    (hok : ∀ o ∈ ops, o.name = name → o.succeeds)
    (hsz : ∀ o ∈ ops, ∀ n obj e, o = .save n obj e ∨ o = .saveIfModified n obj e → n = name → obj.length = size) :
    load max (runF max dir fs ops) dir name size = ops.foldl (specStep name) none := by
  have key : ∀ ops : List FOp, (∀ o ∈ ops, o.name = name → o.succeeds) →
      (∀ o ∈ ops, ∀ n obj e, o = .save n obj e ∨ o = .saveIfModified n obj e → n = name → obj.length = size) →
      match ops.foldl (specStep name) none with
      | none => runF max dir fs ops p = none
      | some obj => obj.length = size ∧ ∃ d, runF max dir fs ops p = some d ∧ ValidFile d obj := by
    intro ops
    induction ops using List.reverseRecOn with
    | nil => intro _ _; exact h0
    | append_singleton ops o ih =>
      intro hok hsz
      have ih := ih (fun o' ho' => hok o' (by simp [ho'])) (fun o' ho' => hsz o' (by simp [ho']))
      have hok' := hok o (by simp)
      have hsz' := hsz o (by simp)
      clear hok hsz
      have hrun : runF max dir fs (ops ++ [o]) = stepF max dir (runF max dir fs ops) o := by
        simp [runF, List.foldl_append]
      rw [hrun, List.foldl_append]
      generalize runF max dir fs ops = fs' at ih
      generalize ops.foldl (specStep name) none = s at ih
      simp only [List.foldl_cons, List.foldl_nil]
      by_cases hn : o.name = name
      · have hsv : ∀ obj, obj.length = size → ∃ d, (save max fs' dir name obj .ok).1 p = some d ∧ ValidFile d obj := by
          intro obj _
          rw [save_path hp]
          exact ⟨_, if_pos rfl, [], by simp⟩
        cases o with
        | save n obj e =>
          have hn' : n = name := hn
          have he : e = .ok := hok' hn
          subst hn' he
          have hl := hsz' n obj .ok (Or.inl rfl) rfl
          simp only [specStep, if_true]
          exact ⟨hl, hsv obj hl⟩
        | saveIfModified n obj e =>
          have hn' : n = name := hn
          have he : e = .ok := hok' hn
          subst hn' he
          have hl := hsz' n obj .ok (Or.inr rfl) rfl
          simp only [specStep, if_true, stepF, saveIfModified]
          refine ⟨hl, ?_⟩
          cases hld : load max fs' dir n obj.length with
          | none => exact hsv obj hl
          | some tmp =>
            dsimp only
            by_cases ht : tmp = obj
            · subst ht
              rw [if_neg (by simp)]
              obtain ⟨p', d, hp', hd, _, hv⟩ := (load_iff _ _ _ _ _ _).1 hld
              rw [hp] at hp'
              cases hp'
              exact ⟨d, hd, hv⟩
            · rw [if_pos ht]; exact hsv obj hl
        | clear n =>
          have hn' : n = name := hn
          subst hn'
          simp only [specStep, if_true, stepF, clear, hp, pnalClear]
      · rw [other_name o hp hn]
        have : specStep name s o = s := by
          cases o <;> simp only [specStep] <;> exact if_neg hn
        rw [this]
        exact ih
  have := key ops hok hsz
  cases hs : ops.foldl (specStep name) none with
  | none =>
    rw [hs] at this
    cases hl : load max (runF max dir fs ops) dir name size with
    | none => rfl
    | some obj =>
      obtain ⟨p', d, hp', hd, _⟩ := (load_iff _ _ _ _ _ _).1 hl
      rw [hp] at hp'; cases hp'
      dsimp only at this
      rw [this] at hd; cases hd
  | some obj =>
    rw [hs] at this
    obtain ⟨hl, d, hd, hv⟩ := this
    exact (load_iff _ _ _ _ _ _).2 ⟨p, d, hp, hd, hl, hv⟩

/-- Concrete case: save, save the same again (no write), corrupt magic, save again. -/
theorem C42_example :
    let fs0 : Fs := fun _ => none
    let n : List Byte := [97]
    let fs1 := (save 30 fs0 [100] n [1, 2] .ok).1
    let bad : Fs := fun q => if q = [100, 47, 97] then some [0x51, 0x4E, 0x45, 0x54, 0, 0, 0, 1, 1, 2] else none
    load 30 fs1 [100] n 2 = some [1, 2] ∧
    (saveIfModified 30 fs1 [100] n [1, 2] .ok).2 = 0 ∧
    (saveIfModified 30 fs1 [100] n [1, 3] .ok).2 = 1 ∧
    load 30 bad [100] n 2 = none ∧ (saveIfModified 30 bad [100] n [1, 2] .ok).2 = 2 ∧
    load 30 fs1 [100] n 3 = none := by decide

end Verif.Store
