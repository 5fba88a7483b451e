import Verif.Cmina.Model
/-!
Lemmas about the model of the settings.
-/
set_option linter.unusedVariables false
set_option linter.unusedSimpArgs false

namespace Verif.Cmina

theorem evaluate_keeps (p : Parsed) :
    (evaluate p).1.cur = p.dev.cur ∧ (evaluate p).1.nv = p.dev.nv ∧ (evaluate p).1.file = p.dev.file ∧
      (evaluate p).1.job = true ∧ (evaluate p).1.hello = p.dev.hello := by
  unfold evaluate
  dsimp only
  split
  · simp
  · repeat' split
    all_goals simp
  · repeat' split
    all_goals simp
  · repeat' split
    all_goals simp

theorem doCheck_keeps (d : Dev) :
    (doCheck d).cur = d.cur ∧ (doCheck d).nv = d.nv ∧ (doCheck d).file = d.file ∧ (doCheck d).job = d.job ∧
      (doCheck d).ars = d.ars ∧ (doCheck d).commit = d.commit ∧ (doCheck d).hello = d.hello := by
  unfold doCheck
  split <;> simp

theorem finish_refused (c : Defaults) (p : Parsed) (h : p.ok = false) : finish c p = (p.dev, false, p.err, []) := by
  unfold finish; rw [if_neg (by simp [h])]

theorem finish_reset (c : Defaults) (p : Parsed) (h : p.ok = true) (hr : p.reset = true) :
    finish c p = ((setDefault c (doCheck (evaluate p).1) p.mode).1, true, p.err,
      (evaluate p).2.2 ++ (setDefault c (doCheck (evaluate p).1) p.mode).2) := by
  unfold finish; rw [if_pos h]; dsimp only; rw [if_pos hr]

theorem finish_set (c : Defaults) (p : Parsed) (h : p.ok = true) (hr : p.reset = false) :
    finish c p = (doCheck (evaluate p).1, (evaluate p).2.1, p.err, (evaluate p).2.2) := by
  unfold finish; rw [if_pos h]; dsimp only; rw [if_neg (by simp [hr])]

theorem finish_keeps (c : Defaults) (p : Parsed) (hr : p.reset = false) :
    (finish c p).1.cur = p.dev.cur ∧ (finish c p).1.nv = p.dev.nv ∧ (finish c p).1.file = p.dev.file ∧
      (finish c p).1.job = (p.ok || p.dev.job) := by
  cases h : p.ok
  · rw [finish_refused c p h]; simp
  · rw [finish_set c p h hr]
    obtain ⟨a, b, e, f, _⟩ := evaluate_keeps p
    obtain ⟨a', b', e', f', _⟩ := doCheck_keeps (evaluate p).1
    simp [a, b, e, f, a', b', e', f']

/-- When a request that was parsed is refused: only before the machine has started, or when the address changes
while there are connections. -/
theorem evaluate_refused (p : Parsed) (hr : p.reset = false) :
    (evaluate p).2.1 = false ↔ p.dev.st = .setup ∨
      (p.dev.st = .wConnect ∧ p.chIp = true ∧ p.chName = false ∧ haveName p.dev = true ∧ haveIp p.dev = true ∧
        p.dev.ars ≠ 0) := by
  unfold evaluate
  have e1 : ∀ b, haveName { p.dev with job := b } = haveName p.dev := fun _ => rfl
  have e2 : ∀ b, haveIp { p.dev with job := b } = haveIp p.dev := fun _ => rfl
  dsimp only
  simp only [e1, e2, hr]
  cases hs : p.dev.st <;> simp only [hs]
  · simp
  · cases p.chName <;> cases p.chIp <;> cases haveName p.dev <;> cases haveIp p.dev <;> simp
  · cases p.chName <;> cases p.chIp <;> cases haveName p.dev <;> cases haveIp p.dev <;> simp
  · by_cases ha : p.dev.ars = 0 <;>
    cases p.chName <;> cases p.chIp <;> cases haveName p.dev <;> cases haveIp p.dev <;> simp [ha]

theorem evaluate_st (p : Parsed) (h : p.dev.st ≠ .setup) : (evaluate p).1.st ≠ .setup := by
  unfold evaluate
  dsimp only
  split
  · rename_i hs; exact absurd hs h
  · repeat' split
    all_goals simp_all
  · repeat' split
    all_goals simp_all
  · repeat' split
    all_goals simp_all

theorem doCheck_st (d : Dev) (h : d.st ≠ .setup) : (doCheck d).st ≠ .setup := by
  unfold doCheck
  split <;> simp_all

theorem finish_st (c : Defaults) (p : Parsed) (h : p.dev.st ≠ .setup) : (finish c p).1.st ≠ .setup := by
  cases ho : p.ok
  · rw [finish_refused c p ho]; exact h
  · cases hr : p.reset
    · rw [finish_set c p ho hr]; exact doCheck_st _ (evaluate_st _ h)
    · rw [finish_reset c p ho hr]
      exact doCheck_st _ (evaluate_st _ h)

theorem parseIpPar_dev (d : Dev) (t : Bool) (v : Ip) :
    (parseIpPar d t v).dev.st = d.st ∧ (parseIpPar d t v).dev.file = d.file ∧ (parseIpPar d t v).dev.job = d.job ∧
    (parseIpPar d t v).dev.ars = d.ars ∧ (parseIpPar d t v).reset = false ∧ (parseIpPar d t v).chName = false ∧
    (parseIpPar d t v).dev.cur.name = d.cur.name ∧ (parseIpPar d t v).dev.nv.name = d.nv.name ∧
    (parseIpPar d t v).dev.commit = d.commit := by
  unfold parseIpPar refuse
  cases t <;> split <;> simp

theorem parseIpSuite_dev (d : Dev) (t : Bool) (v : Ip) :
    (parseIpSuite d t v).dev.st = d.st ∧ (parseIpSuite d t v).dev.file = d.file ∧
    (parseIpSuite d t v).dev.job = d.job ∧
    (parseIpSuite d t v).dev.ars = d.ars ∧ (parseIpSuite d t v).reset = false ∧ (parseIpSuite d t v).chName = false ∧
    (parseIpSuite d t v).dev.cur.name = d.cur.name ∧ (parseIpSuite d t v).dev.nv.name = d.nv.name ∧
    (parseIpSuite d t v).dev.commit = d.commit := by
  unfold parseIpSuite refuse
  cases t <;> split <;> simp

theorem parseName_dev (d : Dev) (t : Bool) (n : Nat) (v : List Byte) :
    (parseName d t n v).dev.st = d.st ∧ (parseName d t n v).dev.file = d.file ∧ (parseName d t n v).dev.job = d.job ∧
    (parseName d t n v).dev.ars = d.ars ∧ (parseName d t n v).reset = false ∧ (parseName d t n v).chIp = false ∧
    (parseName d t n v).dev.cur.ip = d.cur.ip ∧ (parseName d t n v).dev.nv.ip = d.nv.ip ∧
    (parseName d t n v).dev.commit = d.commit := by
  unfold parseName refuse
  cases t <;> (repeat' split) <;> simp

/-- The forms of a block of a Set request. -/
inductive Kind where
  | ipPar (v : Ip) | ipSuite (v : Ip) | name | start | stop | signal | reset (mode : Nat) | bad (e : Byte)

/-- The form of a block. -/
def kind (opt sub : Byte) (qual : BitVec 16) (len : Nat) (v : List Byte) : Kind :=
  if opt = optIp then
    if sub = subIpPar then if len = 12 then .ipPar (ipOf v) else .bad errSuboption
    else if sub = subIpSuite then if len = 12 then .ipSuite (ipOf v) else .bad errSuboption
    else .bad errSuboption
  else if opt = optProps then if sub = subName then .name else .bad errSuboption
  else if opt = optDhcp then .bad errSuboption
  else if opt = optControl then
    if sub = subStart then .start else if sub = subStop then .stop else if sub = subSignal then .signal
    else if sub = subFactoryReset then .reset 99
    else if sub = subResetToFactory then .reset (qual.toNat / 2) else .bad errSuboption
  else .bad errOption

def isTemp (qual : BitVec 16) : Bool := decide (qual.toNat % 2 = 0)

def setKind (c : Defaults) (d : Dev) (gq qual : BitVec 16) (len : Nat) (v : List Byte) : Kind → BlockRes
  | .ipPar a => answer errSuboption gq (finish c (parseIpPar (noHello d) (isTemp qual) a))
  | .ipSuite a => answer errSuboption gq (finish c (parseIpSuite (noHello d) (isTemp qual) a))
  | .name => answer errSuboption gq (finish c (parseName (noHello d) (isTemp qual) len v))
  | .start => ⟨d, true, errNone, [], false, qual⟩
  | .stop => ⟨d, true, errNone, [], false, gq⟩
  | .signal => ⟨d, true, errNone, [], true, gq⟩
  | .reset m => answer errSuboption gq (finish c ⟨noHello d, true, none, false, false, true, m⟩)
  | .bad e => .refused d e gq

theorem setReq_kind (c : Defaults) (d : Dev) (gq : BitVec 16) (opt sub : Byte) (qual : BitVec 16) (len : Nat)
    (v : List Byte) : setReq c d gq opt sub qual len v = setKind c d gq qual len v (kind opt sub qual len v) := by
  unfold setReq kind
  dsimp only
  repeat' split
  all_goals rfl

theorem bad_ne (opt sub : Byte) (qual : BitVec 16) (len : Nat) (v : List Byte) (e : Byte)
    (h : kind opt sub qual len v = .bad e) : e ≠ 0 := by
  unfold kind at h
  repeat' split at h
  all_goals first | contradiction | (injection h with h; subst h; decide)

theorem finish_err_ne (c : Defaults) (p : Parsed) (h : p.err ≠ some 0) (e0 : Byte) (h0 : e0 ≠ 0) :
    (answer e0 q (finish c p)).err = 0 ↔ (answer e0 q (finish c p)).ok = true := by
  have he : (finish c p).2.2.1 = p.err := by
    unfold finish; dsimp only; repeat' split
    all_goals rfl
  unfold answer
  dsimp only
  rw [he]
  cases (finish c p).2.1
  · cases hp : p.err with
    | none => simpa using h0
    | some x => rw [hp] at h; simp; intro hx; exact h (by rw [hx]; rfl)
  · simp

theorem parse_err (d : Dev) (t : Bool) (a : Ip) (n : Nat) (v : List Byte) :
    (parseIpPar d t a).err ≠ some 0 ∧ (parseIpSuite d t a).err ≠ some 0 ∧ (parseName d t n v).err ≠ some 0 := by
  unfold parseIpPar parseIpSuite parseName refuse
  refine ⟨?_, ?_, ?_⟩ <;> (repeat' split) <;> simp

end Verif.Cmina
