import Verif.Wire.Model
/-! Safety of parsers and writers, and the calculus by which they are matched against encodings. -/
set_option linter.unusedSimpArgs false
set_option linter.unusedVariables false

namespace Verif.Wire

@[simp] theorem P.bind_def {α β} (p : P α) (f : α → P β) (r : Rd) :
    (p >>= f) r = (p r).bind fun x => f x.1 x.2 := rfl

@[simp] theorem P.pure_def {α} (a : α) (r : Rd) : (pure a : P α) r = some (a, r) := rfl

/-- What every parsing function must keep: it succeeds, leaves the buffer alone, moves the position
forward only and never past the end, and after an error neither the error nor the position change. -/
def Safe {α} (p : P α) : Prop :=
  ∀ r : Rd, (r.null = false → r.len ≤ r.buf.length) → ∃ a r', p r = some (a, r') ∧ r'.buf = r.buf ∧
    r'.null = r.null ∧ r'.len = r.len ∧ r.pos ≤ r'.pos ∧ (r'.pos ≤ r.len ∨ r'.pos = r.pos) ∧
    (r.err ≠ .ok → r'.err ≠ .ok ∧ r'.pos = r.pos)

theorem Safe.pure {α} (a : α) : Safe (Pure.pure a : P α) := by
  intro r h
  exact ⟨a, r, rfl, rfl, rfl, rfl, Nat.le_refl _, Or.inr rfl, fun h => ⟨h, rfl⟩⟩

theorem Safe.bind {α β} {p : P α} {f : α → P β} (hp : Safe p) (hf : ∀ a, Safe (f a)) : Safe (p >>= f) := by
  intro r h
  obtain ⟨a, r1, e1, b1, n1, l1, m1, x1, s1⟩ := hp r h
  obtain ⟨c, r2, e2, b2, n2, l2, m2, x2, s2⟩ := hf a r1 (by rw [b1, n1, l1]; exact h)
  refine ⟨c, r2, ?_, by rw [b2, b1], by rw [n2, n1], by rw [l2, l1], by omega, by omega, ?_⟩
  · simp [e1, e2]
  · intro he
    have h1 := s1 he
    have h2 := s2 h1.1
    exact ⟨h2.1, by rw [h2.2, h1.2]⟩

theorem safe_isOk : Safe isOk := by
  intro r h
  exact ⟨_, r, rfl, rfl, rfl, rfl, Nat.le_refl _, Or.inr rfl, fun h => ⟨h, rfl⟩⟩

theorem safe_isBe : Safe isBe := by
  intro r h
  exact ⟨_, r, rfl, rfl, rfl, rfl, Nat.le_refl _, Or.inr rfl, fun h => ⟨h, rfl⟩⟩

theorem safe_setBe (b : Bool) : Safe (setBe b) := by
  intro r h
  exact ⟨(), _, rfl, rfl, rfl, rfl, Nat.le_refl _, Or.inr rfl, fun h => ⟨h, rfl⟩⟩

theorem safe_setErr {e : PErr} (he : e ≠ .ok) : Safe (setErr e) := by
  intro r h
  exact ⟨(), _, rfl, rfl, rfl, rfl, Nat.le_refl _, Or.inr rfl, fun h => ⟨he, rfl⟩⟩

theorem safe_getByte : Safe getByte := by
  intro r h
  unfold getByte
  split
  · exact ⟨_, _, rfl, rfl, rfl, rfl, Nat.le_refl _, Or.inr rfl, fun h => ⟨h, rfl⟩⟩
  · rename_i ho
    split
    · exact ⟨_, _, rfl, rfl, rfl, rfl, Nat.le_refl _, Or.inr rfl, fun h => absurd h ho⟩
    · split
      · exact ⟨_, _, rfl, rfl, rfl, rfl, Nat.le_refl _, Or.inr rfl, fun h => absurd h ho⟩
      · rename_i hl hn
        have hn : r.null = false := by simpa using hn
        have hlt : r.pos < r.buf.length := by have := h hn; omega
        rw [List.getElem?_eq_getElem hlt]
        exact ⟨_, _, rfl, rfl, rfl, rfl, Nat.le_succ _, Or.inl (by simp; omega), fun h => absurd h ho⟩

theorem safe_getMem (n : Nat) : Safe (getMem n) := by
  intro r h
  unfold getMem
  split
  · exact ⟨_, _, rfl, rfl, rfl, rfl, Nat.le_refl _, Or.inr rfl, fun h => ⟨h, rfl⟩⟩
  · rename_i ho
    split
    · exact ⟨_, _, rfl, rfl, rfl, rfl, Nat.le_refl _, Or.inr rfl, fun h => absurd h ho⟩
    · split
      · exact ⟨_, _, rfl, rfl, rfl, rfl, Nat.le_refl _, Or.inr rfl, fun h => absurd h ho⟩
      · rename_i hl hn
        have hn : r.null = false := by simpa using hn
        have hlt : r.pos + n ≤ r.buf.length := by have := h hn; omega
        rw [slice_eq_some hlt]
        exact ⟨_, _, rfl, rfl, rfl, rfl, Nat.le_add_right _ _, Or.inl (by simp; omega), fun h => absurd h ho⟩

theorem Safe.ite {α} {c : Prop} [Decidable c] {p q : P α} (hp : c → Safe p) (hq : ¬ c → Safe q) :
    Safe (if c then p else q) := by
  split
  · exact hp ‹_›
  · exact hq ‹_›

theorem safe_getU16 : Safe getU16 := by
  unfold getU16
  refine Safe.bind safe_isOk fun a => Safe.ite (fun _ => ?_) fun _ => Safe.pure _
  refine Safe.bind safe_isBe fun a => Safe.ite (fun _ => ?_) fun _ => ?_
  all_goals exact Safe.bind safe_getByte fun a => Safe.bind safe_getByte fun a => Safe.pure _

theorem safe_getU32 : Safe getU32 := by
  unfold getU32
  refine Safe.bind safe_isBe fun a => Safe.ite (fun _ => ?_) fun _ => ?_
  all_goals
    exact Safe.bind safe_getByte fun a => Safe.bind safe_getByte fun a => Safe.bind safe_getByte fun a =>
      Safe.bind safe_getByte fun a => Safe.pure _

theorem safe_getArr (n : Nat) : Safe (getArr n) := by
  unfold getArr
  exact Safe.bind (safe_getMem n) fun a => Safe.pure _

theorem safe_rep {α} {p : P α} (hp : Safe p) (n : Nat) : Safe (rep n p) := by
  induction n with
  | zero => exact Safe.pure _
  | succ k ih => exact Safe.bind hp fun a => Safe.bind ih fun l => Safe.pure _

/-- Decompose a parser into primitive ones. -/
macro "safe" : tactic => `(tactic| (
  repeat' first
    | exact safe_getByte | exact safe_getU16 | exact safe_getU32 | exact safe_getArr _ | exact safe_getMem _
    | exact safe_setBe _ | exact Safe.pure _ | assumption
    | refine Safe.bind ?_ (fun _ => ?_)
    | refine safe_rep ?_ _
    | refine Safe.ite (fun _ => ?_) (fun _ => ?_)))

theorem safe_getUuid : Safe getUuid := by unfold getUuid; safe
theorem safe_getHandle : Safe getHandle := by unfold getHandle; safe
theorem safe_getFrameDesc : Safe getFrameDesc := by unfold getFrameDesc; safe
theorem safe_getApiEntry (cap : Nat) : Safe (getApiEntry cap) := by
  have := safe_getFrameDesc
  unfold getApiEntry; safe
theorem safe_getDataDesc : Safe getDataDesc := by unfold getDataDesc; safe
theorem safe_getExpSub : Safe getExpSub := by
  have := safe_getDataDesc
  unfold getExpSub; safe
theorem safe_getBlockHeader : Safe getBlockHeader := by unfold getBlockHeader; safe
theorem safe_getArParam : Safe getArParam := by
  have := safe_getUuid
  unfold getArParam; safe
theorem safe_getApis (cap n : Nat) : Safe (getApis cap n) := by
  induction n with
  | zero => exact Safe.pure _
  | succ k ih =>
    unfold getApis
    refine Safe.bind (safe_getApiEntry cap) fun a => ?_
    cases a with
    | none => exact Safe.pure _
    | some a =>
      refine Safe.bind ih fun l => ?_
      cases l <;> exact Safe.pure _
theorem safe_getIocrParam (maxApi cap : Nat) : Safe (getIocrParam maxApi cap) := by
  unfold getIocrParam
  safe
  · exact safe_getApis cap _
  · rename_i l
    cases l <;> exact Safe.pure _
theorem safe_getAlarmCr : Safe getAlarmCr := by unfold getAlarmCr; safe
theorem safe_getControl : Safe getControl := by
  have := safe_getUuid
  unfold getControl; safe
theorem safe_getNdr : Safe getNdr := by unfold getNdr; safe
theorem safe_getRpcHeader : Safe getRpcHeader := by
  have := safe_getUuid
  unfold getRpcHeader; safe
theorem safe_getReadReq : Safe getReadReq := by
  have := safe_getUuid
  unfold getReadReq; safe
theorem safe_getLookup : Safe getLookup := by
  have := safe_getUuid
  have := safe_getHandle
  unfold getLookup; safe
theorem safe_getWriteReq : Safe getWriteReq := by
  have := safe_getUuid
  unfold getWriteReq; safe
theorem safe_getIm1 (a b : Nat) : Safe (getIm1 a b) := by unfold getIm1; safe
theorem safe_getAlarmFixed : Safe getAlarmFixed := by unfold getAlarmFixed; safe
theorem safe_getAlarmData : Safe getAlarmData := by unfold getAlarmData; safe
theorem safe_getAlarmAck : Safe getAlarmAck := by unfold getAlarmAck; safe
theorem safe_getStatus : Safe getStatus := by unfold getStatus; safe
theorem safe_getPortData : Safe getPortData := by
  have := safe_getBlockHeader
  unfold getPortData; safe
theorem safe_getBoundary : Safe getBoundary := by unfold getBoundary; safe
theorem safe_getIntfAdjust : Safe getIntfAdjust := by unfold getIntfAdjust; safe

theorem safe_getCheckPeer {a b : Nat} (ha : 256 ≤ a) (hb : 256 ≤ b) : Safe (getCheckPeer a b) := by
  have hn : ∀ (c : Nat) (n : Byte), 256 ≤ c → Safe (getName c n.toNat) := by
    intro c n hc
    unfold getName
    refine Safe.bind (safe_getMem _) fun d => ?_
    have := n.isLt
    rw [if_neg (by omega)]
    exact Safe.pure _
  unfold getCheckPeer
  exact Safe.bind safe_getByte fun n => Safe.bind (hn a n ha) fun x => Safe.bind safe_getByte fun m =>
    Safe.bind (hn b m hb) fun y => Safe.pure _

theorem safe_getCheckPeers {a b : Nat} (ha : 256 ≤ a) (hb : 256 ≤ b) (m : Nat) :
    Safe (getCheckPeers a b m) := by
  have := safe_getCheckPeer ha hb
  unfold getCheckPeers; safe

theorem safe_getSubs (cap : Nat) : ∀ n iy, iy + n ≤ cap → Safe (getSubs cap iy n) := by
  intro n
  induction n with
  | zero => intro iy h; exact Safe.pure _
  | succ k ih =>
    intro iy h
    unfold getSubs
    refine Safe.bind safe_getExpSub fun s => ?_
    rw [if_neg (by omega)]
    exact Safe.bind (ih (iy + 1) (by omega)) fun l => Safe.pure _

/-! ## Expected modules: table sizes -/

/-- The table is within its sizes. -/
def InTable (z : Sizes) (tab : List ExpApi) : Prop :=
  tab.length ≤ z.maxApi ∧ ∀ a ∈ tab, a.mods.length ≤ z.maxSlots ∧ ∀ m ∈ a.mods, m.subs.length ≤ z.maxSubslots

theorem findApi_lt {l : List ExpApi} {a : U32} {i : Nat} (h : findApi l a = some i) :
    ∃ x, l[i]? = some x ∧ x.valid = true ∧ x.api = a := by
  have key : ∀ (k : List Nat) (acc : Option Nat),
      (∀ j, acc = some j → ∃ x, l[j]? = some x ∧ x.valid = true ∧ x.api = a) →
      ∀ j, k.foldl (fun acc i => match l[i]? with
        | some x => if x.valid = true ∧ x.api = a then some i else acc
        | none => acc) acc = some j → ∃ x, l[j]? = some x ∧ x.valid = true ∧ x.api = a := by
    intro k
    induction k with
    | nil => intro acc h j hj; exact h j hj
    | cons c t ih =>
      intro acc hacc j hj
      refine ih _ ?_ j hj
      intro j' hj'
      dsimp only at hj'
      split at hj'
      · rename_i x hx
        split at hj'
        · cases hj'; exact ⟨x, hx, ‹_›⟩
        · exact hacc j' hj'
      · exact hacc j' hj'
  exact key _ none (by simp) i h

theorem getSubs_length {cap n iy : Nat} {r : Rd} {l : List ExpSub} {r' : Rd}
    (h : getSubs cap iy n r = some (l, r')) : l.length = n ∧ (n = 0 ∨ iy + n ≤ cap) := by
  induction n generalizing iy r l r' with
  | zero => simp [getSubs] at h; simp [h.1.symm]
  | succ k ih =>
    unfold getSubs at h
    simp only [P.bind_def, Option.bind_eq_some_iff] at h
    obtain ⟨x, _, h⟩ := h
    split at h
    · cases h
    · simp only [P.bind_def, Option.bind_eq_some_iff] at h
      obtain ⟨y, hy, h⟩ := h
      simp at h
      obtain ⟨rfl, rfl⟩ := h
      have := ih (l := y.1) (r' := y.2) hy
      simp; omega

theorem addModule_table {z : Sizes} {tab tab' : List ExpApi} {i : Nat} {r r' : Rd} (ht : InTable z tab)
    (h : addModule z tab i r = some (tab', r')) : InTable z tab' := by
  unfold addModule at h
  simp only [P.bind_def, Option.bind_eq_some_iff] at h
  obtain ⟨x, _, h⟩ := h
  cases ha : tab[i]? with
  | none => rw [ha] at h; cases h
  | some a =>
    rw [ha] at h
    dsimp only at h
    split at h
    · rename_i hlt
      simp only [P.bind_def, Option.bind_eq_some_iff] at h
      obtain ⟨_, _, _, _, n, _, y, hy, h⟩ := h
      simp at h
      rw [← h.1]
      have hl := getSubs_length (l := y.1) (r' := y.2) hy
      have ham : a ∈ tab := List.mem_of_getElem? ha
      refine ⟨by simpa using ht.1, ?_⟩
      intro b hb
      rcases List.mem_or_eq_of_mem_set hb with hb | rfl
      · exact ht.2 b hb
      · dsimp only
        refine ⟨by simp; omega, ?_⟩
        intro m hm
        rcases List.mem_append.1 hm with hm | hm
        · exact (ht.2 a ham).2 m hm
        · simp at hm; subst hm; dsimp only; omega
    · simp [setErr] at h; rw [← h.1]; exact ht

theorem selectApi_table {z : Sizes} {tab : List ExpApi} {cur : Option Nat} {id : U32}
    (hi : InTable z tab) : InTable z (selectApi z tab cur id).1 := by
  unfold selectApi
  dsimp only
  generalize (findApi tab id).or cur = c
  split
  · rename_i hn
    refine ⟨by simp; omega, ?_⟩
    intro a ha
    rcases List.mem_append.1 ha with ha | ha
    · exact hi.2 a ha
    · simp at ha; subst ha; simp
  · exact hi

theorem expRound_table {z : Sizes} {st st' : List ExpApi × Option Nat} {r r' : Rd}
    (hi : InTable z st.1) (h : expRound z st r = some (st', r')) : InTable z st'.1 := by
  unfold expRound at h
  simp only [P.bind_def, Option.bind_eq_some_iff] at h
  obtain ⟨⟨id, r1⟩, _, h⟩ := h
  dsimp only at h
  have ht := selectApi_table (cur := st.2) (id := id) hi
  generalize selectApi z st.1 st.2 id = sel at h ht
  obtain ⟨tab, c⟩ := sel
  dsimp only at h ht
  cases c with
  | none => simp [setErr] at h; rw [← h.1]; exact ht
  | some i =>
    simp only [P.bind_def, Option.bind_eq_some_iff] at h
    obtain ⟨x, hx, h⟩ := h
    simp at h
    rw [← h.1]
    exact addModule_table (tab' := x.1) (r' := x.2) ht hx

theorem expLoop_table {z : Sizes} {n : Nat} {st st' : List ExpApi × Option Nat} {r r' : Rd}
    (hi : InTable z st.1) (h : expLoop z n st r = some (st', r')) : InTable z st'.1 := by
  induction n generalizing st r with
  | zero => simp [expLoop] at h; rw [← h.1]; exact hi
  | succ k ih =>
    unfold expLoop at h
    simp only [P.bind_def, Option.bind_eq_some_iff] at h
    obtain ⟨x, hx, h⟩ := h
    exact ih (expRound_table (st' := x.1) (r' := x.2) hi hx) h

theorem getExpApiModule_table {z : Sizes} {tab tab' : List ExpApi} {r r' : Rd}
    (hi : InTable z tab) (h : getExpApiModule z tab r = some (tab', r')) : InTable z tab' := by
  unfold getExpApiModule at h
  simp only [P.bind_def, Option.bind_eq_some_iff] at h
  obtain ⟨_, _, x, hx, h⟩ := h
  simp at h
  rw [← h.1]
  exact expLoop_table (st := (tab, none)) (st' := x.1) (r' := x.2) hi hx

/-! ## Expected modules: reading -/

/-- `Safe` with a property of the result. -/
def SafeQ {α} (p : P α) (Q : α → Prop) : Prop :=
  ∀ r : Rd, (r.null = false → r.len ≤ r.buf.length) → ∃ a r', p r = some (a, r') ∧ Q a ∧ r'.buf = r.buf ∧
    r'.null = r.null ∧ r'.len = r.len ∧ r.pos ≤ r'.pos ∧ (r'.pos ≤ r.len ∨ r'.pos = r.pos) ∧
    (r.err ≠ .ok → r'.err ≠ .ok ∧ r'.pos = r.pos)

theorem Safe.toQ {α} {p : P α} (h : Safe p) : SafeQ p fun _ => True := by
  intro r hr
  obtain ⟨a, r', e, h⟩ := h r hr
  exact ⟨a, r', e, trivial, h⟩

theorem SafeQ.toSafe {α} {p : P α} {Q : α → Prop} (h : SafeQ p Q) : Safe p := by
  intro r hr
  obtain ⟨a, r', e, _, h⟩ := h r hr
  exact ⟨a, r', e, h⟩

theorem SafeQ.pure {α} {a : α} {Q : α → Prop} (h : Q a) : SafeQ (Pure.pure a : P α) Q := by
  intro r hr
  exact ⟨a, r, rfl, h, rfl, rfl, rfl, Nat.le_refl _, Or.inr rfl, fun h => ⟨h, rfl⟩⟩

theorem SafeQ.bind {α β} {p : P α} {f : α → P β} {Q : α → Prop} {R : β → Prop} (hp : SafeQ p Q)
    (hf : ∀ a, Q a → SafeQ (f a) R) : SafeQ (p >>= f) R := by
  intro r h
  obtain ⟨a, r1, e1, q1, b1, n1, l1, m1, x1, s1⟩ := hp r h
  obtain ⟨c, r2, e2, q2, b2, n2, l2, m2, x2, s2⟩ := hf a q1 r1 (by rw [b1, n1, l1]; exact h)
  refine ⟨c, r2, ?_, q2, by rw [b2, b1], by rw [n2, n1], by rw [l2, l1], by omega, by omega, ?_⟩
  · simp [e1, e2]
  · intro he
    have h1 := s1 he
    have h2 := s2 h1.1
    exact ⟨h2.1, by rw [h2.2, h1.2]⟩

theorem safe_addModule {z : Sizes} (hz : 65536 ≤ z.maxSubslots) {tab : List ExpApi} {i : Nat}
    (hi : i < tab.length) : SafeQ (addModule z tab i) fun t => t.length = tab.length := by
  unfold addModule
  refine SafeQ.bind safe_getU16.toQ fun slot _ => ?_
  rw [List.getElem?_eq_getElem hi]
  dsimp only
  split
  · refine SafeQ.bind safe_getU32.toQ fun a _ => SafeQ.bind safe_getU16.toQ fun b _ =>
      SafeQ.bind safe_getU16.toQ fun n _ => ?_
    have := n.isLt
    refine SafeQ.bind (safe_getSubs _ n.toNat 0 (by omega)).toQ fun c _ => SafeQ.pure (by simp)
  · exact SafeQ.bind (safe_setErr (by simp)).toQ fun _ _ => SafeQ.pure rfl

theorem selectApi_index {z : Sizes} {tab : List ExpApi} {cur : Option Nat} {id : U32}
    (hc : ∀ i, cur = some i → i < tab.length) :
    ∀ i, (selectApi z tab cur id).2 = some i → i < (selectApi z tab cur id).1.length := by
  unfold selectApi
  dsimp only
  have h2 : ∀ i, (findApi tab id).or cur = some i → i < tab.length := by
    intro i h
    cases hf : findApi tab id with
    | none => rw [hf] at h; exact hc i (by simpa using h)
    | some j =>
      rw [hf] at h
      simp at h
      subst h
      obtain ⟨x, hx, _⟩ := findApi_lt hf
      exact (List.getElem?_eq_some_iff.1 hx).1
  generalize (findApi tab id).or cur = c at h2
  split
  · intro i h; simp at h; simp; omega
  · exact h2

theorem safe_expRound {z : Sizes} (hz : 65536 ≤ z.maxSubslots) {st : List ExpApi × Option Nat}
    (hi : ∀ i, st.2 = some i → i < st.1.length) :
    SafeQ (expRound z st) fun s => ∀ i, s.2 = some i → i < s.1.length := by
  unfold expRound
  refine SafeQ.bind safe_getU32.toQ fun id _ => ?_
  have h := selectApi_index (z := z) (id := id) hi
  dsimp only
  generalize selectApi z st.1 st.2 id = sel at h
  obtain ⟨tab, c⟩ := sel
  dsimp only at h
  cases c with
  | none => exact SafeQ.bind (safe_setErr (by simp)).toQ fun _ _ => SafeQ.pure (by simp)
  | some i =>
    dsimp only
    refine SafeQ.bind (safe_addModule hz (h i rfl)) fun t ht => SafeQ.pure ?_
    intro j hj
    simp at hj
    subst hj
    simp only [ht]
    exact h i rfl

theorem safe_expLoop {z : Sizes} (hz : 65536 ≤ z.maxSubslots) (n : Nat) :
    ∀ {st : List ExpApi × Option Nat}, (∀ i, st.2 = some i → i < st.1.length) → Safe (expLoop z n st) := by
  induction n with
  | zero => intro st _; exact Safe.pure _
  | succ k ih =>
    intro st hi
    unfold expLoop
    exact (SafeQ.bind (safe_expRound hz hi) fun s hs => (ih hs).toQ).toSafe

theorem safe_getExpApiModule {z : Sizes} (hz : 65536 ≤ z.maxSubslots) (tab : List ExpApi) :
    Safe (getExpApiModule z tab) := by
  unfold getExpApiModule
  exact Safe.bind safe_getU16 fun n => Safe.bind (safe_expLoop hz _ (by simp)) fun _ => Safe.pure _

/-! ### Tables of different sizes -/

def Fits (c : Nat) (tab : List ExpApi) : Prop := ∀ a ∈ tab, ∀ m ∈ a.mods, m.subs.length ≤ c

theorem getSubs_small {C c n iy : Nat} {r : Rd} {x : List ExpSub × Rd} (h : getSubs C iy n r = some x)
    (hc : iy + n ≤ c ∨ n = 0) : getSubs c iy n r = some x := by
  induction n generalizing iy r x with
  | zero => exact h
  | succ k ih =>
    unfold getSubs at h ⊢
    simp only [P.bind_def, Option.bind_eq_some_iff] at h ⊢
    obtain ⟨s, hs, h⟩ := h
    refine ⟨s, hs, ?_⟩
    split at h
    · cases h
    · rw [if_neg (by omega)]
      simp only [P.bind_def, Option.bind_eq_some_iff] at h ⊢
      obtain ⟨l, hl, h⟩ := h
      exact ⟨l, ih hl (by omega), h⟩

theorem addModule_small {z : Sizes} {C : Nat} {tab tab' : List ExpApi} {i : Nat} {r r' : Rd}
    (h : addModule { z with maxSubslots := C } tab i r = some (tab', r')) (hf : Fits z.maxSubslots tab') :
    addModule z tab i r = some (tab', r') ∧ Fits z.maxSubslots tab := by
  unfold addModule at h ⊢
  simp only [P.bind_def, Option.bind_eq_some_iff] at h ⊢
  obtain ⟨x, hx, h⟩ := h
  cases ha : tab[i]? with
  | none => rw [ha] at h; cases h
  | some a =>
    rw [ha] at h
    dsimp only at h ⊢
    split at h
    · rename_i hlt
      simp only [P.bind_def, Option.bind_eq_some_iff] at h
      obtain ⟨u, hu, v, hv, n, hn, y, hy, h⟩ := h
      have hl := getSubs_length (l := y.1) (r' := y.2) hy
      have h' := h
      simp at h
      have hi : i < tab.length := (List.getElem?_eq_some_iff.1 ha).1
      have hai : tab[i] = a := by
        have := List.getElem?_eq_getElem hi
        rw [ha] at this
        simpa using this.symm
      have hin : (⟨true, a.api, a.mods ++ [⟨x.1, u.1, v.1, y.1⟩]⟩ : ExpApi) ∈ tab' := by
        rw [← h.1]
        exact List.mem_set hi _
      have hs := hf _ hin ⟨x.1, u.1, v.1, y.1⟩ (by simp)
      dsimp only at hs
      constructor
      · refine ⟨x, hx, ?_⟩
        rw [if_pos hlt]
        simp only [P.bind_def, Option.bind_eq_some_iff]
        exact ⟨u, hu, v, hv, n, hn, y, getSubs_small hy (by omega), h'⟩
      · intro b hb m hm
        obtain ⟨j, hj, rfl⟩ := List.getElem_of_mem hb
        by_cases hij : i = j
        · subst hij
          rw [hai] at hm
          exact hf _ hin m (by simp [hm])
        · refine hf tab[j] ?_ m hm
          rw [← h.1]
          rw [← List.getElem_set_ne hij (a := ⟨true, a.api, a.mods ++ [⟨x.1, u.1, v.1, y.1⟩]⟩) (by simpa using hj)]
          exact List.getElem_mem _
    · simp [setErr] at h
      constructor
      · refine ⟨x, hx, ?_⟩
        rw [if_neg ‹_›]
        simp [setErr, h]
      · rw [h.1]; exact hf

theorem selectApi_fits {z : Sizes} {C : Nat} {tab : List ExpApi} {cur : Option Nat} {id : U32} :
    selectApi { z with maxSubslots := C } tab cur id = selectApi z tab cur id ∧
    (∀ c, Fits c (selectApi z tab cur id).1 → Fits c tab) := by
  refine ⟨rfl, ?_⟩
  intro c h
  unfold selectApi at h
  dsimp only at h
  generalize (findApi tab id).or cur = d at h
  split at h
  · intro a ha; exact h a (by simp [ha])
  · exact h

theorem expRound_small {z : Sizes} {C : Nat} {st st' : List ExpApi × Option Nat} {r r' : Rd}
    (h : expRound { z with maxSubslots := C } st r = some (st', r')) (hf : Fits z.maxSubslots st'.1) :
    expRound z st r = some (st', r') ∧ Fits z.maxSubslots st.1 := by
  unfold expRound at h ⊢
  simp only [P.bind_def, Option.bind_eq_some_iff] at h ⊢
  obtain ⟨⟨id, r1⟩, hid, h⟩ := h
  dsimp only at h
  obtain ⟨e, hs⟩ := selectApi_fits (z := z) (C := C) (tab := st.1) (cur := st.2) (id := id)
  rw [e] at h
  have hs := hs z.maxSubslots
  suffices hh : (match selectApi z st.1 st.2 id with
      | (tab, cur) => match cur with
        | none => do
          setErr .outOfApi
          pure (tab, none)
        | some i => do
          let tab' ← addModule z tab i
          pure (tab', some i) : P _) r1 = some (st', r') ∧ Fits z.maxSubslots (selectApi z st.1 st.2 id).1 from
    ⟨⟨(id, r1), hid, hh.1⟩, hs hh.2⟩
  generalize selectApi z st.1 st.2 id = sel at h
  obtain ⟨tab, c⟩ := sel
  dsimp only at h ⊢
  cases c with
  | none => refine ⟨h, ?_⟩; simp [setErr] at h; rw [← h.1] at hf; exact hf
  | some i =>
    simp only [P.bind_def, Option.bind_eq_some_iff] at h ⊢
    obtain ⟨x, hx, h⟩ := h
    have h' := h
    simp at h
    rw [← h.1] at hf
    obtain ⟨h1, h2⟩ := addModule_small (tab' := x.1) (r' := x.2) hx hf
    exact ⟨⟨x, h1, h'⟩, h2⟩

theorem expLoop_small {z : Sizes} {C n : Nat} {st st' : List ExpApi × Option Nat} {r r' : Rd}
    (h : expLoop { z with maxSubslots := C } n st r = some (st', r')) (hf : Fits z.maxSubslots st'.1) :
    expLoop z n st r = some (st', r') ∧ Fits z.maxSubslots st.1 := by
  induction n generalizing st r with
  | zero => refine ⟨h, ?_⟩; simp [expLoop] at h; rw [← h.1] at hf; exact hf
  | succ k ih =>
    unfold expLoop at h ⊢
    simp only [P.bind_def, Option.bind_eq_some_iff] at h ⊢
    obtain ⟨x, hx, h⟩ := h
    obtain ⟨h1, h2⟩ := ih h
    obtain ⟨h3, h4⟩ := expRound_small (st' := x.1) (r' := x.2) hx h2
    exact ⟨⟨x, h3, h1⟩, h4⟩

/-- If all stored modules fit, a smaller table for submodules makes no difference. -/
theorem getExpApiModule_small {z : Sizes} {C : Nat} {tab tab' : List ExpApi} {r r' : Rd}
    (h : getExpApiModule { z with maxSubslots := C } tab r = some (tab', r'))
    (hf : Fits z.maxSubslots tab') : getExpApiModule z tab r = some (tab', r') := by
  unfold getExpApiModule at h ⊢
  simp only [P.bind_def, Option.bind_eq_some_iff] at h ⊢
  obtain ⟨n, hn, x, hx, h⟩ := h
  have h' := h
  simp at h
  rw [← h.1] at hf
  exact ⟨n, hn, x, (expLoop_small (st' := x.1) (r' := x.2) hx hf).1, h'⟩

end Verif.Wire
