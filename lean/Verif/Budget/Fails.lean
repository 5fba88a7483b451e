import Verif.Budget.Props
/-!
# C153: runs in which a wanted timer is not available
-/
set_option linter.unusedSimpArgs false
set_option linter.unusedVariables false
namespace Verif.Budget

/-! ## The runs -/

/-- An alarm and its acknowledgement, `n` times. -/
def rounds : Nat → List Op
  | 0 => []
  | n + 1 => .alarm 0 false :: .ack 0 false :: rounds n

/-- A connection that ends after the end of parameterisation, `n` times. -/
def aborts : Nat → List Op
  | 0 => []
  | n + 1 => .connect 0 0 [true] :: .prmEnd 0 :: .abort 0 :: aborts n

/-- AR `i` is used: an endpoint mapper request and a connect request with output CRs only, a read request with a long answer, the end of
parameterisation; in a further session an endpoint mapper request and a write request with a long answer; one alarm of each priority. -/
def block (l : Lim) (i : Nat) : List Op :=
  [.lookup (2 * i), .connect i (2 * i) (List.replicate l.crs true), .read (2 * i), .prmEnd i, .lookup (2 * i + 1),
   .write (2 * i + 1) i, .alarm i false, .alarm i true]

def blocks (l : Lim) (i : Nat) : Nat → List Op
  | 0 => []
  | n + 1 => block l i ++ blocks l (i + 1) n

/-- Each port sends and receives LLDP frames. -/
def portOps (i : Nat) : Nat → List Op
  | 0 => []
  | n + 1 => .txOn i :: .rxOn i :: portOps (i + 1) n

/-- Everything at once: all ARs, another endpoint mapper request and write request, hello messages, the signal LED, a DCP Set and a DCP Identify request, and
all ports. -/
def busy (l : Lim) : List Op :=
  blocks l 0 l.ars ++ ([.lookup (2 * l.ars), .write (2 * l.ars) 0, .hello, .led, .sam, .ident] ++ portOps 0 l.ports)

/-! ## Lemmas -/

theorem add_ok {l : Lim} {h : Handle} {st : St} (ho : (add l h st).2 = true) :
    add l h st = ({ st with timers := h :: st.timers }, true) ∧ st.timers.length < l.cap := by
  unfold add at *
  split at ho
  · rename_i hc; rw [if_pos hc]; exact ⟨rfl, hc⟩
  · cases ho

theorem add_of_lt {l : Lim} {h : Handle} {st : St} (hc : st.timers.length < l.cap) :
    add l h st = ({ st with timers := h :: st.timers }, true) := by
  unfold add; rw [if_pos hc]

theorem restart_ok {l : Lim} {h : Handle} {st : St} (hn : h ∉ st.timers) (ho : (restart l h st).2 = true) :
    restart l h st = ({ st with timers := h :: st.timers }, true) ∧ st.timers.length < l.cap := by
  have e : remove h st = st := by unfold remove; rw [List.erase_of_not_mem hn]
  unfold restart at ho ⊢
  rw [e] at ho ⊢
  exact add_ok ho

theorem cap_pos (l : Lim) : 9 ≤ l.cap := by unfold Lim.cap; omega

theorem setAr_self (st : St) (a : Nat) : setAr st a (st.ars a) = st := by
  unfold setAr
  have : (fun b => if b = a then st.ars a else st.ars b) = st.ars := by
    funext b; split
    · rename_i e; rw [e]
    · rfl
  rw [this]

theorem setAr_at (st : St) (a : Nat) (x : Ar) : (setAr st a x).ars a = x := by simp [setAr]

theorem setAr_setAr (st : St) (a : Nat) (x y : Ar) : setAr (setAr st a x) a y = setAr st a y := by
  unfold setAr
  congr 1
  funext b
  dsimp only
  split <;> rfl

/-! ## Acknowledged alarms -/

theorem rounds_len {l : Lim} (n : Nat) {st : St} (hp : (st.ars 0).phase = .prm) (hw : (st.ars 0).wait false = false)
    (hc : st.timers.length ≤ l.cap) (ho : allOk l st (rounds n) = true) : st.timers.length + n ≤ l.cap := by
  induction n generalizing st with
  | zero => exact hc
  | succ n ih =>
    simp only [rounds, allOk, Bool.and_eq_true] at ho
    obtain ⟨h1, h2, h3⟩ := ho
    simp only [step, hp, hw] at h1
    rw [if_pos ⟨Or.inl trivial, trivial⟩] at h1
    have ha := add_ok h1
    have e : (step l st (.alarm 0 false)).1 =
        { (setAr st 0 { st.ars 0 with wait := fun q => if q = false then true else (st.ars 0).wait q }) with
          timers := .apmx 0 false :: st.timers } := by
      simp only [step, hp, hw]
      rw [if_pos ⟨Or.inl trivial, trivial⟩, ha.1]
      rfl
    rw [e] at h3
    have hl := ha.2
    simp only [setAr] at hl
    have := ih (st := (step l _ (.ack 0 false)).1) (by simp [step, setAr, hp]) (by simp [step, setAr])
      (by simp [step, setAr]; omega) h3
    simp [step, setAr] at this
    omega

theorem allOk_append (l : Lim) (st : St) (os ps : List Op) :
    allOk l st (os ++ ps) = (allOk l st os && allOk l (os.foldl (fun s o => (step l s o).1) st) ps) := by
  induction os generalizing st with
  | nil => simp [allOk]
  | cons o os ih => simp only [List.cons_append, allOk, List.foldl_cons]; rw [ih, Bool.and_assoc]

theorem crHandles_one (a : Nat) : crHandles a true [true] = [.cr a 0] ∧ crHandles a false [true] = [] := by
  constructor <;> simp [crHandles]

/-- **C153 is violated.** With any limits: if a connection is made, and alarms are sent and acknowledged within the time after which the
first of them would be repeated, then a wanted timer is not available: each acknowledged alarm leaves a timer. -/
theorem C153_fails_alarms (l : Lim) (ha : 1 ≤ l.ars) (hc : 1 ≤ l.crs) :
    allOk l init (.connect 0 0 [true] :: .prmEnd 0 :: rounds l.cap) = false := by
  have h9 := cap_pos l
  apply Bool.eq_false_iff.2
  intro ho
  simp only [allOk, Bool.and_eq_true] at ho
  obtain ⟨_, _, h3⟩ := ho
  have e1 : step l init (.connect 0 0 [true]) =
      (⟨[.cmsm 0, .cr 0 0, .link], fun b => if b = 0 then ⟨.startup, [true], fun _ => false⟩ else Ar.none,
        fun r => if r = 0 then .ofAr 0 else .free⟩, true) := by
    have hg : 0 < l.ars ∧ (init.ars 0).phase = .idle ∧ 0 < l.sess ∧ (init.ses 0 = .free ∨ init.ses 0 = .incoming) ∧
        [true].length ≤ l.crs := ⟨ha, rfl, by unfold Lim.sess; omega, Or.inl rfl, hc⟩
    simp only [step]
    rw [if_pos hg]
    simp only [connect, crHandles_one, addAll]
    rw [add_of_lt (by simp [setSes, setAr, init]; omega)]
    simp only [restart, remove]
    rw [add_of_lt (by simp [setSes, setAr, init]; omega)]
    rfl
  rw [e1] at h3
  simp only at h3
  generalize hs : St.mk [Handle.cmsm 0, .cr 0 0, .link] _ _ = s1 at h3
  have e2 : step l s1 (.prmEnd 0) =
      ({ (setAr s1 0 ⟨.prm, [true], fun _ => false⟩) with timers := [.cmio 0, .cmsm 0, .cr 0 0, .link] }, true) := by
    subst hs
    simp only [step, if_pos, prmEnd, crHandles_one, List.nil_append, addEach]
    rw [add_of_lt (by simp [setAr]; omega)]
    rfl
  rw [e2] at h3
  have := rounds_len l.cap (by simp [setAr]) (by simp [setAr]) (by simp; omega) h3
  simp at this
  omega

/-! ## Aborted start-ups -/

theorem aborts_len {l : Lim} (ha : 1 ≤ l.ars) (hcr : 1 ≤ l.crs) (n : Nat) {st : St} (hp : (st.ars 0).phase = .idle)
    (hs : ∀ s, st.ses s = .free) (ht : ∀ h ∈ st.timers, h = .link ∨ h = .cmio 0)
    (hc : st.timers.length ≤ l.cap) (ho : allOk l st (aborts n) = true) : st.timers.length + n ≤ l.cap := by
  induction n generalizing st with
  | zero => exact hc
  | succ n ih =>
    simp only [aborts, allOk, Bool.and_eq_true] at ho
    obtain ⟨h1, h2, h3, h4⟩ := ho
    have hg : 0 < l.ars ∧ (st.ars 0).phase = .idle ∧ 0 < l.sess ∧ (st.ses 0 = .free ∨ st.ses 0 = .incoming) ∧
        [true].length ≤ l.crs := ⟨ha, hp, by unfold Lim.sess; omega, Or.inl (hs 0), hcr⟩
    have n1 : Handle.cmsm 0 ∉ st.timers := fun h => by rcases ht _ h with h | h <;> cases h
    have n2 : Handle.cr 0 0 ∉ st.timers := fun h => by rcases ht _ h with h | h <;> cases h
    have n3 : Handle.apmx 0 false ∉ st.timers := fun h => by rcases ht _ h with h | h <;> cases h
    have n4 : Handle.apmx 0 true ∉ st.timers := fun h => by rcases ht _ h with h | h <;> cases h
    have hcn : (connect l 0 0 [true] st).2 = true →
        connect l 0 0 [true] st =
          ({ (setSes (setAr st 0 ⟨.startup, [true], fun _ => false⟩) 0 (.ofAr 0)) with
              timers := .cmsm 0 :: .cr 0 0 :: st.timers }, true) ∧ st.timers.length + 1 < l.cap := by
      intro h
      simp only [connect, crHandles_one, addAll] at h ⊢
      by_cases hq : st.timers.length < l.cap
      · rw [add_of_lt (by simpa [setSes, setAr] using hq)] at h ⊢
        simp only at h ⊢
        have := restart_ok (by simp [setSes, setAr, n1]) h
        rw [this.1]
        refine ⟨rfl, ?_⟩
        simpa [setSes, setAr] using this.2
      · have : (add l (.cr 0 0) (setSes (setAr st 0 ⟨.startup, [true], fun _ => false⟩) 0 (.ofAr 0))).2 = false := by
          unfold add
          rw [if_neg (by simpa [setSes, setAr] using hq)]
        revert h
        generalize add l _ _ = r at this ⊢
        obtain ⟨r1, r2⟩ := r
        simp only at this
        subst this
        intro h
        cases h
    have e0 : step l st (.connect 0 0 [true]) = connect l 0 0 [true] st := by simp only [step]; rw [if_pos hg]
    rw [e0] at h1 h2 h3 h4
    obtain ⟨e1, hl1⟩ := hcn h1
    rw [e1] at h2 h3 h4
    simp only at h2 h3 h4
    generalize hs1 : St.mk (Handle.cmsm 0 :: .cr 0 0 :: st.timers) _ _ = s1 at h2 h3 h4
    have ep : step l s1 (.prmEnd 0) = add l (.cmio 0) (setAr s1 0 { s1.ars 0 with phase := .prm }) := by
      subst hs1
      simp only [step, setSes, setAr, if_pos, prmEnd, crHandles_one, List.nil_append, addEach, Bool.and_true]
    rw [ep] at h2 h3 h4
    obtain ⟨e2, hl2⟩ := add_ok h2
    rw [e2] at h3 h4
    simp only at h3 h4
    have ea : (step l { (setAr s1 0 { s1.ars 0 with phase := .prm }) with
        timers := .cmio 0 :: (setAr s1 0 { s1.ars 0 with phase := .prm }).timers } (.abort 0)).1
        = ⟨.cmio 0 :: st.timers, fun b => if b = 0 then Ar.none else st.ars b, st.ses⟩ := by
      subst hs1
      simp only [step, setAr, setSes, if_pos]
      rw [if_neg (by decide)]
      simp only [abort, if_pos, List.length_cons, List.length_nil, List.range_succ, List.range_zero, List.nil_append,
        List.map_cons, List.map_nil, List.cons_append, removeAll, remove, setAr]
      simp only [List.erase_cons, n1, n2, n3, n4]
      simp [List.erase_of_not_mem, n1, n2, n3, n4]
      refine ⟨?_, ?_, ?_⟩
      · intro h hh
        rcases ht h hh with rfl | rfl <;> rfl
      · funext b; split <;> rfl
      · funext s
        by_cases h0 : s = 0
        · subst h0; simp [hs]
        · simp [h0, hs s]
    rw [ea] at h4
    have := ih (st := ⟨.cmio 0 :: st.timers, fun b => if b = 0 then Ar.none else st.ars b, st.ses⟩) rfl hs
      (fun h hh => by
        rcases List.mem_cons.1 hh with rfl | hh
        · exact Or.inr rfl
        · exact ht h hh)
      (by simp; omega) h4
    simp at this
    omega

/-- **C153 is violated.** With any limits: if connections end again and again after the end of parameterisation, within the period of
the supervision of the outputs, then a wanted timer is not available: each leaves a timer. -/
theorem C153_fails_aborts (l : Lim) (ha : 1 ≤ l.ars) (hc : 1 ≤ l.crs) : allOk l init (aborts l.cap) = false := by
  have h9 := cap_pos l
  apply Bool.eq_false_iff.2
  intro ho
  have := aborts_len ha hc l.cap (st := init) rfl (fun _ => rfl) (fun h hh => by simp [init] at hh; exact Or.inl hh)
    (by simp [init]; omega) ho
  simp [init] at this
  omega

/-! ## Small numbers of CRs -/

/-- The steps are calm; if all timers are available then the number of running timers grows by `n`, and `Q` holds. -/
def Use (l : Lim) (st : St) (os : List Op) (n : Nat) (Q : St → Prop) : Prop :=
  CalmRun l st os ∧ (allOk l st os = true →
    Q (os.foldl (fun s o => (step l s o).1) st) ∧
    (os.foldl (fun s o => (step l s o).1) st).timers.length = st.timers.length + n)

theorem CalmRun.append {l : Lim} {st : St} {os ps : List Op} (h : CalmRun l st os)
    (h2 : allOk l st os = true → CalmRun l (os.foldl (fun s o => (step l s o).1) st) ps) : CalmRun l st (os ++ ps) := by
  induction os generalizing st with
  | nil => exact h2 rfl
  | cons o os ih =>
    refine ⟨h.1, fun ho => ih (h.2 ho) fun hq => h2 ?_⟩
    simp [allOk, ho, hq]

theorem Use.append {l : Lim} {st : St} {os ps : List Op} {n m : Nat} {Q R : St → Prop} (h : Use l st os n Q)
    (h2 : ∀ st', Q st' → Use l st' ps m R) : Use l st (os ++ ps) (n + m) R := by
  refine ⟨h.1.append fun ho => (h2 _ (h.2 ho).1).1, fun ho => ?_⟩
  rw [allOk_append, Bool.and_eq_true] at ho
  have h3 := h.2 ho.1
  have h4 := (h2 _ h3.1).2 ho.2
  rw [List.foldl_append]
  exact ⟨h4.1, by rw [h4.2, h3.2, Nat.add_assoc]⟩

theorem Use.cons {l : Lim} {st : St} {o : Op} {ps : List Op} {n m : Nat} {Q R : St → Prop} (hc : Calm st o)
    (h : (step l st o).2 = true → Q (step l st o).1 ∧ (step l st o).1.timers.length = st.timers.length + n)
    (h2 : ∀ st', Q st' → Use l st' ps m R) : Use l st (o :: ps) (n + m) R := by
  have : Use l st [o] n Q := ⟨⟨hc, fun _ => trivial⟩, fun ho => by
    simp only [allOk, Bool.and_true] at ho
    exact h ho⟩
  exact this.append h2

theorem Use.nil {l : Lim} {st : St} {Q : St → Prop} (h : Q st) : Use l st [] 0 Q := ⟨trivial, fun _ => ⟨h, rfl⟩⟩

/-- The handles of the ARs below `i` and their sessions, and the link monitor. -/
def Below (i : Nat) : Handle → Prop
  | .link => True
  | .cr a _ | .cmsm a | .cmio a | .apmx a _ => a < i
  | .resend s | .epm s => s < 2 * i
  | _ => False

/-- The timers are those below `i` and of CRs of AR `i`, and some others. -/
def In (i : Nat) (L : List Handle) (st : St) : Prop :=
  ∀ h ∈ st.timers, Below i h ∨ (∃ k, h = .cr i k) ∨ h ∈ L

theorem addAll_ok {l : Lim} (hs : List Handle) {st : St} (ho : (addAll l hs st).2 = true) :
    (addAll l hs st).1.ars = st.ars ∧ (addAll l hs st).1.ses = st.ses ∧
    (addAll l hs st).1.timers.length = st.timers.length + hs.length ∧
    ∀ h ∈ (addAll l hs st).1.timers, h ∈ st.timers ∨ h ∈ hs := by
  induction hs generalizing st with
  | nil => exact ⟨rfl, rfl, rfl, fun h hh => Or.inl hh⟩
  | cons x hs ih =>
    rw [addAll] at ho ⊢
    by_cases hq : st.timers.length < l.cap
    · rw [add_of_lt hq] at ho ⊢
      have := ih ho
      refine ⟨this.1, this.2.1, ?_, ?_⟩
      · simp only [this.2.2.1, List.length_cons]; omega
      · intro h hh
        rcases this.2.2.2 h hh with h1 | h1
        · rcases List.mem_cons.1 h1 with rfl | h1
          · exact Or.inr (by simp)
          · exact Or.inl h1
        · exact Or.inr (by simp [h1])
    · have e : add l x st = (st, false) := by unfold add; rw [if_neg hq]
      rw [e] at ho
      cases ho

theorem crHandles_replicate (a n : Nat) : (crHandles a true (List.replicate n true)).length = n ∧
    crHandles a false (List.replicate n true) = [] := by
  constructor
  · unfold crHandles
    rw [List.length_map, List.length_replicate, List.filter_eq_self.2, List.length_range]
    intro k hk
    have := List.mem_range.1 hk
    simp [List.getElem?_replicate, this]
  · unfold crHandles
    rw [List.length_replicate, List.filter_eq_nil_iff.2, List.map_nil]
    intro k hk
    have := List.mem_range.1 hk
    simp [List.getElem?_replicate, this]

/-- ARs from `i` on and their sessions are unused. -/
structure Free (i : Nat) (st : St) : Prop where
  ars : ∀ j, i ≤ j → st.ars j = Ar.none
  ses : ∀ s, 2 * i ≤ s → st.ses s = .free
  timers : ∀ h ∈ st.timers, Below i h
  used : ∀ j, j < i → (st.ars j).phase = .prm

theorem block_use (l : Lim) {i : Nat} (hi : i < l.ars) {st : St} (f : Free i st) :
    Use l st (block l i) (l.crs + 8) (Free (i + 1)) := by
  have hA := f.ars i (Nat.le_refl _)
  have hS := f.ses (2 * i) (Nat.le_refl _)
  have hs1 : 2 * i < l.sess := by unfold Lim.sess; omega
  have hs2 : 2 * i + 1 < l.sess := by unfold Lim.sess; omega
  have hnum : l.crs + 8 = 1 + ((l.crs + 1) + (1 + (1 + (1 + (1 + (1 + (1 + 0))))))) := by omega
  rw [hnum]
  unfold block
  -- endpoint mapper
  refine Use.cons (Q := fun s => In i [.epm (2 * i)] s ∧ s.ars = st.ars ∧ s.ses = (setSes st (2 * i) .incoming).ses)
    trivial ?_ ?_
  · intro ho
    simp only [step, if_pos hs1, hS] at ho ⊢
    have := restart_ok (st := setSes st (2 * i) .incoming) (h := .epm (2 * i))
      (fun h => by have := f.timers _ h; simp [Below] at this) ho
    rw [this.1]
    refine ⟨⟨?_, rfl, rfl⟩, rfl⟩
    intro h hh
    rcases List.mem_cons.1 hh with rfl | hh
    · exact Or.inr (Or.inr (by simp))
    · exact Or.inl (f.timers h hh)
  rintro t ⟨ht, ha, hs⟩
  -- connect
  refine Use.cons (n := l.crs + 1)
    (Q := fun s => In i [.epm (2 * i), .cmsm i] s ∧
      s.ars = (setAr st i ⟨.startup, List.replicate l.crs true, fun _ => false⟩).ars ∧
      s.ses = (setSes st (2 * i) (.ofAr i)).ses)
    trivial ?_ ?_
  · intro ho
    have hg : i < l.ars ∧ (t.ars i).phase = .idle ∧ 2 * i < l.sess ∧
        (t.ses (2 * i) = .free ∨ t.ses (2 * i) = .incoming) ∧ (List.replicate l.crs true).length ≤ l.crs := by
      refine ⟨hi, by rw [ha, hA]; rfl, hs1, Or.inr (by rw [hs]; simp [setSes]), by simp⟩
    simp only [step] at ho ⊢
    rw [if_pos hg] at ho ⊢
    unfold connect at ho ⊢
    generalize hr : addAll l (crHandles i true (List.replicate l.crs true))
      (setSes (setAr t i ⟨.startup, List.replicate l.crs true, fun _ => false⟩) (2 * i) (.ofAr i)) = r at ho ⊢
    obtain ⟨r1, r2⟩ := r
    cases r2 with
    | false => cases ho
    | true =>
      have h2 : (addAll l (crHandles i true (List.replicate l.crs true))
        (setSes (setAr t i ⟨.startup, List.replicate l.crs true, fun _ => false⟩) (2 * i) (.ofAr i))).2 = true := by rw [hr]
      have h3 := addAll_ok _ h2
      rw [hr] at h3
      simp only at ho h3 ⊢
      have hmem : In i [.epm (2 * i)] r1 := by
        intro h hh
        rcases h3.2.2.2 h hh with h4 | h4
        · exact ht h h4
        · obtain ⟨k, rfl, _⟩ := mem_crHandles h4
          exact Or.inr (Or.inl ⟨k, rfl⟩)
      have := restart_ok (h := .cmsm i)
        (fun h => by rcases hmem _ h with h | ⟨k, h⟩ | h <;> simp [Below] at h) ho
      rw [this.1]
      refine ⟨⟨?_, ?_, ?_⟩, ?_⟩
      · intro h hh
        rcases List.mem_cons.1 hh with rfl | hh
        · exact Or.inr (Or.inr (by simp))
        · rcases hmem h hh with h4 | h4 | h4
          · exact Or.inl h4
          · exact Or.inr (Or.inl h4)
          · simp at h4; exact Or.inr (Or.inr (by simp [h4]))
      · simp only [h3.1]; simp only [setSes, setAr, ha]
      · simp only [h3.2.1]
        simp only [setSes, setAr, hs]
        funext r; split <;> rfl
      · simp only [List.length_cons, h3.2.2.1, (crHandles_replicate i l.crs).1]
        simp only [setSes, setAr]; omega
  clear ht ha hs
  clear t
  rintro t ⟨ht, ha, hs⟩
  -- read
  refine Use.cons
    (Q := fun s => In i [.epm (2 * i), .cmsm i, .resend (2 * i)] s ∧
      s.ars = (setAr st i ⟨.startup, List.replicate l.crs true, fun _ => false⟩).ars ∧
      s.ses = (setSes st (2 * i) (.ofAr i)).ses)
    trivial ?_ ?_
  · intro ho
    have hse : t.ses (2 * i) = .ofAr i := by rw [hs]; simp [setSes]
    simp only [step, if_pos hs1, hse] at ho ⊢
    have := restart_ok (h := .resend (2 * i))
      (fun h => by rcases ht _ h with h | ⟨k, h⟩ | h <;> simp [Below] at h) ho
    rw [this.1]
    refine ⟨⟨?_, ha, hs⟩, rfl⟩
    intro h hh
    rcases List.mem_cons.1 hh with rfl | hh
    · exact Or.inr (Or.inr (by simp))
    · rcases ht h hh with h4 | h4 | h4
      · exact Or.inl h4
      · exact Or.inr (Or.inl h4)
      · simp at h4; exact Or.inr (Or.inr (by rcases h4 with rfl | rfl <;> simp))
  clear ht ha hs
  clear t
  rintro t ⟨ht, ha, hs⟩
  -- end of parameterisation
  refine Use.cons
    (Q := fun s => In i [.epm (2 * i), .cmsm i, .resend (2 * i), .cmio i] s ∧
      s.ars = (setAr st i ⟨.prm, List.replicate l.crs true, fun _ => false⟩).ars ∧
      s.ses = (setSes st (2 * i) (.ofAr i)).ses)
    trivial ?_ ?_
  · intro ho
    have har : t.ars i = ⟨.startup, List.replicate l.crs true, fun _ => false⟩ := by rw [ha]; simp [setAr]
    simp only [step, har, if_pos, prmEnd, (crHandles_replicate i l.crs).2, List.nil_append, addEach, Bool.and_true] at ho ⊢
    have := add_ok ho
    rw [this.1]
    refine ⟨⟨?_, ?_, hs⟩, rfl⟩
    · intro h hh
      rcases List.mem_cons.1 hh with rfl | hh
      · exact Or.inr (Or.inr (by simp))
      · rcases ht h hh with h4 | h4 | h4
        · exact Or.inl h4
        · exact Or.inr (Or.inl h4)
        · simp at h4; exact Or.inr (Or.inr (by rcases h4 with rfl | rfl | rfl <;> simp))
    · simp only [setAr, ha]
      funext b; split <;> rfl
  clear ht ha hs
  clear t
  rintro t ⟨ht, ha, hs⟩
  -- endpoint mapper, further session
  refine Use.cons
    (Q := fun s => In i [.epm (2 * i), .cmsm i, .resend (2 * i), .cmio i, .epm (2 * i + 1)] s ∧
      s.ars = (setAr st i ⟨.prm, List.replicate l.crs true, fun _ => false⟩).ars ∧
      s.ses = (setSes (setSes st (2 * i) (.ofAr i)) (2 * i + 1) .incoming).ses)
    trivial ?_ ?_
  · intro ho
    have hf : t.ses (2 * i + 1) = .free := by
      rw [hs]
      simp [setSes]
      exact f.ses _ (by omega)
    simp only [step, if_pos hs2, hf] at ho ⊢
    have := restart_ok (h := .epm (2 * i + 1))
      (fun h => by
        rcases ht _ h with h | ⟨k, h⟩ | h
        · simp [Below] at h; omega
        · cases h
        · simp at h) ho
    rw [this.1]
    refine ⟨⟨?_, ha, ?_⟩, rfl⟩
    · intro h hh
      rcases List.mem_cons.1 hh with rfl | hh
      · exact Or.inr (Or.inr (by simp))
      · rcases ht h hh with h4 | h4 | h4
        · exact Or.inl h4
        · exact Or.inr (Or.inl h4)
        · simp at h4; exact Or.inr (Or.inr (by rcases h4 with rfl | rfl | rfl | rfl <;> simp))
    · simp only [setSes, hs]
  clear ht ha hs
  clear t
  rintro t ⟨ht, ha, hs⟩
  -- write
  refine Use.cons
    (Q := fun s => In i [.epm (2 * i), .cmsm i, .resend (2 * i), .cmio i, .epm (2 * i + 1), .resend (2 * i + 1)] s ∧
      s.ars = (setAr st i ⟨.prm, List.replicate l.crs true, fun _ => false⟩).ars ∧
      s.ses = (setSes (setSes st (2 * i) (.ofAr i)) (2 * i + 1) .incoming).ses)
    trivial ?_ ?_
  · intro ho
    have hg : 2 * i + 1 < l.sess ∧ (t.ars i).phase ≠ .idle := ⟨hs2, by rw [ha]; simp [setAr]⟩
    have hf : t.ses (2 * i + 1) = .incoming := by rw [hs]; simp [setSes]
    simp only [step] at ho ⊢
    rw [if_pos hg] at ho ⊢
    simp only [hf] at ho ⊢
    have := restart_ok (h := .resend (2 * i + 1))
      (fun h => by
        rcases ht _ h with h | ⟨k, h⟩ | h
        · simp [Below] at h; omega
        · cases h
        · simp at h) ho
    rw [this.1]
    refine ⟨⟨?_, ha, hs⟩, rfl⟩
    intro h hh
    rcases List.mem_cons.1 hh with rfl | hh
    · exact Or.inr (Or.inr (by simp))
    · rcases ht h hh with h4 | h4 | h4
      · exact Or.inl h4
      · exact Or.inr (Or.inl h4)
      · simp at h4; exact Or.inr (Or.inr (by rcases h4 with rfl | rfl | rfl | rfl | rfl <;> simp))
  clear ht ha hs
  clear t
  rintro t ⟨ht, ha, hs⟩
  -- alarms
  have nap : ∀ (t : St) (L : List Handle) (hi : Bool), In i L t → .apmx i hi ∉ L → .apmx i hi ∉ t.timers := by
    intro t L hi hin hn hm
    rcases hin _ hm with h | ⟨k, h⟩ | h
    · simp [Below] at h
    · cases h
    · exact hn h
  refine Use.cons
    (Q := fun s => In i [.epm (2 * i), .cmsm i, .resend (2 * i), .cmio i, .epm (2 * i + 1),
        .resend (2 * i + 1), .apmx i false] s ∧
      s.ars = (setAr st i ⟨.prm, List.replicate l.crs true, fun q => if q = false then true else false⟩).ars ∧
      s.ses = (setSes (setSes st (2 * i) (.ofAr i)) (2 * i + 1) .incoming).ses)
    (nap t _ _ ht (by simp)) ?_ ?_
  · intro ho
    have har : t.ars i = ⟨.prm, List.replicate l.crs true, fun _ => false⟩ := by rw [ha]; simp [setAr]
    simp only [step, har] at ho ⊢
    rw [if_pos ⟨Or.inl trivial, trivial⟩] at ho ⊢
    have := add_ok ho
    rw [this.1]
    refine ⟨⟨?_, ?_, hs⟩, rfl⟩
    · intro h hh
      rcases List.mem_cons.1 hh with rfl | hh
      · exact Or.inr (Or.inr (by simp))
      · rcases ht h hh with h4 | h4 | h4
        · exact Or.inl h4
        · exact Or.inr (Or.inl h4)
        · simp at h4; exact Or.inr (Or.inr (by rcases h4 with rfl | rfl | rfl | rfl | rfl | rfl <;> simp))
    · simp only [setAr, ha]
      funext b; split <;> rfl
  clear ht ha hs
  clear t
  rintro t ⟨ht, ha, hs⟩
  refine Use.cons (Q := Free (i + 1)) (nap t _ _ ht (by simp)) ?_ (fun _ h => Use.nil h)
  intro ho
  have har : t.ars i = ⟨.prm, List.replicate l.crs true, fun q => if q = false then true else false⟩ := by
    rw [ha]; simp [setAr]
  simp only [step, har] at ho ⊢
  rw [if_pos ⟨Or.inl trivial, by decide⟩] at ho ⊢
  have := add_ok ho
  rw [this.1]
  refine ⟨⟨?_, ?_, ?_, ?_⟩, rfl⟩
  · intro j hj
    have hne : j ≠ i := by omega
    simp only [setAr, ha, hne, if_false]
    exact f.ars j (by omega)
  · intro s hj
    have h1 : s ≠ 2 * i := by omega
    have h2 : s ≠ 2 * i + 1 := by omega
    simp only [setAr, setSes, hs, h1, h2, if_false]
    exact f.ses s (by omega)
  · intro h hh
    rcases List.mem_cons.1 hh with rfl | hh
    · simp [Below]
    · rcases ht h hh with h4 | ⟨k, rfl⟩ | h4
      · cases h <;> simp only [Below] at h4 ⊢ <;> omega
      · simp [Below]
      · simp at h4
        rcases h4 with rfl | rfl | rfl | rfl | rfl | rfl | rfl <;> simp only [Below] <;> omega
  · intro j hj
    by_cases e : j = i
    · simp only [setAr, ha, e, if_pos]
    · simp only [setAr, ha, e, if_false]
      exact f.used j (by omega)

theorem blocks_use (l : Lim) (n : Nat) {i : Nat} (hi : i + n = l.ars) {st : St} (f : Free i st) :
    Use l st (blocks l i n) (n * (l.crs + 8)) (Free l.ars) := by
  induction n generalizing i st with
  | zero =>
    have : i = l.ars := by omega
    subst this
    rw [Nat.zero_mul]
    exact Use.nil f
  | succ n ih =>
    rw [Nat.succ_mul, Nat.add_comm (n * _)]
    exact (block_use l (by omega) f).append fun st' f' => ih (by omega) f'

/-- The timers are below `i`, of ports below `p`, or in a list. -/
def Rest (i p : Nat) (L : List Handle) (st : St) : Prop :=
  ∀ h ∈ st.timers, Below i h ∨ (∃ q, q < p ∧ (h = .tx q ∨ h = .rx q)) ∨ h ∈ L

theorem ports_use (l : Lim) (n : Nat) {i p : Nat} (hp : p + n = l.ports) {st : St} {L : List Handle}
    (hL : ∀ q, .tx q ∉ L ∧ .rx q ∉ L) (f : Rest i p L st) :
    Use l st (portOps p n) (n * 2) (fun _ => True) := by
  induction n generalizing p st with
  | zero => rw [Nat.zero_mul]; exact Use.nil trivial
  | succ n ih =>
    have hp1 : p < l.ports := by omega
    rw [Nat.succ_mul, show n * 2 + 2 = 1 + (1 + n * 2) by omega]
    have hL2 : ∀ q, q ≠ p → .tx q ∉ (Handle.tx p :: L) ∧ .rx q ∉ (Handle.tx p :: L) := by
      intro q hq; have := hL q; simp [this, hq]
    refine Use.cons (Q := Rest i p (.tx p :: L)) trivial ?_ ?_
    · intro ho
      simp only [step, if_pos hp1] at ho ⊢
      have := restart_ok (fun h => by
        rcases f _ h with h | ⟨q, hq, h⟩ | h
        · simp [Below] at h
        · rcases h with h | h <;> cases h
          omega
        · exact (hL p).1 h) ho
      rw [this.1]
      refine ⟨?_, rfl⟩
      intro h hh
      rcases List.mem_cons.1 hh with rfl | hh
      · exact Or.inr (Or.inr (by simp))
      · rcases f h hh with h4 | h4 | h4
        · exact Or.inl h4
        · exact Or.inr (Or.inl h4)
        · exact Or.inr (Or.inr (by simp [h4]))
    intro t f2
    refine Use.cons (Q := Rest i (p + 1) L) trivial ?_ (fun s f3 => ih (by omega) f3)
    intro ho
    simp only [step, if_pos hp1] at ho ⊢
    have := restart_ok (fun h => by
      rcases f2 _ h with h | ⟨q, hq, h⟩ | h
      · simp [Below] at h
      · rcases h with h | h <;> cases h
        omega
      · have := (hL p).2; simp at h; exact this h) ho
    rw [this.1]
    refine ⟨?_, rfl⟩
    intro h hh
    rcases List.mem_cons.1 hh with rfl | hh
    · exact Or.inr (Or.inl ⟨p, by omega, Or.inr rfl⟩)
    · rcases f2 h hh with h4 | ⟨q, hq, h4⟩ | h4
      · exact Or.inl h4
      · exact Or.inr (Or.inl ⟨q, by omega, h4⟩)
      · rcases List.mem_cons.1 h4 with rfl | h4
        · exact Or.inr (Or.inl ⟨p, by omega, Or.inl rfl⟩)
        · exact Or.inr (Or.inr h4)

theorem rest_cons {i : Nat} {L : List Handle} {st : St} {h : Handle} (f : Rest i 0 L st) :
    Rest i 0 (h :: L) { st with timers := h :: st.timers } := by
  intro x hx
  rcases List.mem_cons.1 hx with rfl | hx
  · exact Or.inr (Or.inr (by simp))
  · rcases f x hx with h4 | h4 | h4
    · exact Or.inl h4
    · exact Or.inr (Or.inl h4)
    · exact Or.inr (Or.inr (by simp [h4]))

theorem rest_not {i : Nat} {L : List Handle} {st : St} {h : Handle} (f : Rest i 0 L st) (hb : ¬ Below i h) (hL : h ∉ L) :
    h ∉ st.timers := by
  intro hm
  rcases f h hm with h4 | ⟨q, hq, _⟩ | h4
  · exact hb h4
  · omega
  · exact hL h4

theorem busy_use (l : Lim) (hA : 0 < l.ars) : Use l init (busy l) (l.ars * (l.crs + 8) + (6 + l.ports * 2)) (fun _ => True) := by
  have f0 : Free 0 init := ⟨fun _ _ => rfl, fun _ _ => rfl, fun h hh => by simp [init] at hh; subst hh; trivial, fun j hj => by omega⟩
  refine (blocks_use l l.ars (by omega) f0).append fun t f => ?_
  have hs : 2 * l.ars < l.sess := by unfold Lim.sess; omega
  have r0 : Rest l.ars 0 [] t := fun h hh => Or.inl (f.timers h hh)
  rw [show 6 + l.ports * 2 = 1 + (1 + (1 + (1 + (1 + (1 + l.ports * 2))))) by omega]
  refine Use.cons (Q := fun s => Rest l.ars 0 [.epm (2 * l.ars)] s ∧ s.ars = t.ars ∧ s.ses (2 * l.ars) = .incoming)
    trivial ?_ ?_
  · intro ho
    simp only [step, if_pos hs, f.ses _ (Nat.le_refl _)] at ho ⊢
    have := restart_ok (rest_not (st := setSes t (2 * l.ars) .incoming) r0 (by simp [Below]) (by simp)) ho
    rw [this.1]
    exact ⟨⟨rest_cons (st := setSes t (2 * l.ars) .incoming) r0, rfl, by simp [setSes]⟩, rfl⟩
  rintro t0 ⟨r0, ha, hss⟩
  refine Use.cons (Q := Rest l.ars 0 [.resend (2 * l.ars), .epm (2 * l.ars)]) trivial ?_ ?_
  · intro ho
    have hg : 2 * l.ars < l.sess ∧ (t0.ars 0).phase ≠ .idle := ⟨hs, by rw [ha, f.used 0 hA]; decide⟩
    simp only [step] at ho ⊢
    rw [if_pos hg] at ho ⊢
    simp only [hss] at ho ⊢
    have := restart_ok (rest_not r0 (by simp [Below]) (by simp)) ho
    rw [this.1]
    exact ⟨rest_cons r0, rfl⟩
  intro t1 r1
  refine Use.cons (Q := Rest l.ars 0 [.hello, .resend (2 * l.ars), .epm (2 * l.ars)]) trivial ?_ ?_
  · intro ho
    simp only [step, if_neg (rest_not r1 (h := .hello) (by simp [Below]) (by simp))] at ho ⊢
    rw [(add_ok ho).1]
    exact ⟨rest_cons r1, rfl⟩
  intro t2 r2
  refine Use.cons (Q := Rest l.ars 0 [.led, .hello, .resend (2 * l.ars), .epm (2 * l.ars)]) trivial ?_ ?_
  · intro ho
    simp only [step, if_neg (rest_not r2 (h := .led) (by simp [Below]) (by simp))] at ho ⊢
    rw [(add_ok ho).1]
    exact ⟨rest_cons r2, rfl⟩
  intro t3 r3
  refine Use.cons (Q := Rest l.ars 0 [.sam, .led, .hello, .resend (2 * l.ars), .epm (2 * l.ars)]) trivial ?_ ?_
  · intro ho
    simp only [step] at ho ⊢
    have := restart_ok (rest_not r3 (by simp [Below]) (by simp)) ho
    rw [this.1]
    exact ⟨rest_cons r3, rfl⟩
  intro t4 r4
  refine Use.cons (Q := Rest l.ars 0 [.ident, .sam, .led, .hello, .resend (2 * l.ars), .epm (2 * l.ars)]) trivial ?_ ?_
  · intro ho
    simp only [step, if_neg (rest_not r4 (h := .ident) (by simp [Below]) (by simp))] at ho ⊢
    rw [(add_ok ho).1]
    exact ⟨rest_cons r4, rfl⟩
  intro t5 r5
  exact ports_use l l.ports (by omega) (fun q => by simp) r5

/-- At most as many timers as the table has entries. -/
def Fits (l : Lim) (st : St) : Prop := st.timers.length ≤ l.cap

theorem Fits.add {l : Lim} {s : St} (hs : Fits l s) (h : Handle) : Fits l (Budget.add l h s).1 := by
  unfold Budget.add
  split
  · unfold Fits; simp; omega
  · exact hs

theorem Fits.remove {l : Lim} {s : St} (hs : Fits l s) (h : Handle) : Fits l (Budget.remove h s) :=
  Nat.le_trans (List.length_erase_le) hs

theorem Fits.restart {l : Lim} {s : St} (hs : Fits l s) (h : Handle) : Fits l (Budget.restart l h s).1 :=
  (hs.remove h).add h

theorem Fits.removeAll {l : Lim} (hs : List Handle) {s : St} (h : Fits l s) : Fits l (Budget.removeAll hs s) := by
  induction hs generalizing s with
  | nil => exact h
  | cons x xs ih => exact ih (h.remove x)

theorem Fits.addAll {l : Lim} (hs : List Handle) {s : St} (h : Fits l s) : Fits l (Budget.addAll l hs s).1 := by
  induction hs generalizing s with
  | nil => exact h
  | cons x xs ih =>
    rw [Budget.addAll]
    have := h.add x
    revert this
    generalize Budget.add l x s = r
    obtain ⟨r1, r2⟩ := r
    cases r2
    · exact fun h => h
    · exact fun h => ih h

theorem Fits.addEach {l : Lim} (hs : List Handle) {s : St} (h : Fits l s) : Fits l (Budget.addEach l hs s).1 := by
  induction hs generalizing s with
  | nil => exact h
  | cons x xs ih => exact ih (h.add x)

theorem Fits.setAr {l : Lim} {s : St} (h : Fits l s) (a : Nat) (x : Ar) : Fits l (Budget.setAr s a x) := h
theorem Fits.setSes {l : Lim} {s : St} (h : Fits l s) (a : Nat) (x : Ses) : Fits l (Budget.setSes s a x) := h
theorem Fits.releaseSes {l : Lim} {s : St} (h : Fits l s) (a : Nat) : Fits l (Budget.releaseSes a s) :=
  (h.removeAll _).setSes _ _

theorem Fits.connect {l : Lim} {st : St} (h : Fits l st) (a s : Nat) (outs : List Bool) :
    Fits l (Budget.connect l a s outs st).1 := by
  unfold Budget.connect
  have := Fits.addAll (crHandles a true outs) ((h.setAr a ⟨.startup, outs, fun _ => false⟩).setSes s (.ofAr a))
  revert this
  generalize Budget.addAll l _ _ = r
  obtain ⟨r1, r2⟩ := r
  cases r2
  · exact fun h => (h.setAr a Ar.none).releaseSes s
  · exact fun h => h.restart _

theorem Fits.abort {l : Lim} {st : St} (h : Fits l st) (a : Nat) : Fits l (Budget.abort a st) := by
  unfold Budget.abort
  exact Nat.le_trans (List.length_filter_le _ _) (h.removeAll _)

theorem step_len {l : Lim} {st : St} (hc : Fits l st) (o : Op) : Fits l (step l st o).1 := by
  cases o with
  | txOn p => simp only [step]; split; exacts [hc.restart _, hc]
  | txOff p => exact hc.remove _
  | rxOn p => simp only [step]; split; exacts [hc.restart _, hc]
  | rxOff p => exact hc.remove _
  | hello => simp only [step]; split; exacts [hc, hc.add _]
  | helloOff => exact hc.remove _
  | led => simp only [step]; split; exacts [hc, hc.add _]
  | sam => exact hc.restart _
  | ident => simp only [step]; split; exacts [hc, hc.add _]
  | lookup s =>
    simp only [step]; split
    · split
      exacts [(hc.setSes _ _).restart _, hc.restart _, hc.restart _, hc]
    · exact hc
  | release s => simp only [step]; split; exacts [hc.releaseSes _, hc]
  | heard s => exact hc.remove _
  | connect a s outs => simp only [step]; split; exacts [hc.connect _ _ _, hc]
  | read s =>
    simp only [step]; split
    · split
      exacts [hc.restart _, hc]
    · exact hc
  | write s a =>
    simp only [step]; split
    · split
      exacts [hc.restart _, hc.restart _, hc]
    · exact hc
  | touch a => simp only [step]; split; exacts [hc.restart _, hc]
  | prmEnd a => simp only [step]; split; exacts [Fits.addEach _ (hc.setAr _ _), hc]
  | ready a s => simp only [step]; split; exacts [(hc.setSes _ _).restart _, hc]
  | confirmed s => simp only [step]; split; exacts [hc.releaseSes _, hc]
  | data a => simp only [step]; split; exacts [Fits.removeAll _ (hc.setAr _ _), hc]
  | alarm a high => simp only [step]; split; exacts [(hc.setAr _ _).add _, hc]
  | ack a high => exact hc.setAr _ _
  | abort a => simp only [step]; split; exacts [hc, hc.abort _]
  | fire h again =>
    simp only [step]; split
    · split
      · exact (hc.remove _).releaseSes _
      · split
        exacts [(hc.remove _).add _, hc.remove _]
    · exact hc

theorem exec_len {l : Lim} (os : List Op) {st : St} (hc : Fits l st) :
    Fits l (os.foldl (fun s o => (step l s o).1) st) := by
  induction os generalizing st with
  | nil => exact hc
  | cons o os ih => exact ih (step_len hc o)

/-- **C153 is violated.** If `PNET_MAX_AR * PNET_MAX_CR + 2 < 8 * PNET_MAX_AR` (for example one AR with up to five CRs, or two ARs with up to
six each), then a wanted timer is not available in the calm run `busy`, in which each handle is used at most once. -/
theorem C153_fails_sizes (l : Lim) (hl : l.ars * l.crs + 2 < 8 * l.ars) :
    CalmRun l init (busy l) ∧ allOk l init (busy l) = false := by
  have hA : 0 < l.ars := by omega
  refine ⟨(busy_use l hA).1, Bool.eq_false_iff.2 fun ho => ?_⟩
  have h1 := ((busy_use l hA).2 ho).2
  have h2 := exec_len (l := l) (busy l) (st := init) (by have := cap_pos l; unfold Fits; simp [init]; omega)
  unfold Fits at h2
  rw [h1] at h2
  simp only [init, List.length_cons, List.length_nil, Lim.cap] at h2
  rw [Nat.mul_add, Nat.mul_assoc 2] at h2
  omega

/-- Exactly which limits suffice, if no timer is left behind. -/
theorem C153_sizes (l : Lim) :
    (∀ os, CalmRun l init os → allOk l init os = true) ↔ 8 * l.ars ≤ l.ars * l.crs + 2 := by
  refine ⟨fun h => ?_, fun h os hc => C153_enough_partial l h os hc⟩
  apply Nat.le_of_not_lt
  intro hl
  have := C153_fails_sizes l hl
  rw [h _ this.1] at this
  cases this.2

/-- One AR with two CRs and one port: the table is too small. -/
example : allOk ⟨1, 2, 1⟩ init (busy ⟨1, 2, 1⟩) = false := by decide +kernel

/-- A case of the conditions of `C153_enough_partial`: one AR with six CRs, everything at once, then an acknowledged alarm whose timer
expires, another alarm, data exchange and the end of the connection. -/
example : CalmRun ⟨1, 6, 2⟩ init (busy ⟨1, 6, 2⟩ ++ [.ack 0 false, .fire (.apmx 0 false) true, .alarm 0 false, .data 0, .abort 0])
    ∧ 8 * (Lim.mk 1 6 2).ars ≤ (Lim.mk 1 6 2).ars * (Lim.mk 1 6 2).crs + 2 := by
  refine ⟨?_, by decide⟩
  refine (busy_use _ (by decide)).1.append fun _ => ?_
  refine ⟨trivial, fun _ => ⟨trivial, fun _ => ⟨?_, fun _ => ⟨trivial, fun _ => ⟨?_, fun _ => trivial⟩⟩⟩⟩⟩
  · simp only [Calm]; decide +kernel
  · simp only [Calm]; decide +kernel

end Verif.Budget
