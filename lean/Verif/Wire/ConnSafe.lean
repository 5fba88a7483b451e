import Verif.Wire.Codec
import Verif.Wire.Interp
import Verif.Wire.Lemmas
/-! Every connect request: safety, end of the loop, and what an accepted request implies. -/
set_option linter.unusedSimpArgs false
set_option linter.unusedVariables false

namespace Verif.Wire

theorem safe_reader : Safe reader := by
  intro r h
  exact ⟨_, r, rfl, rfl, rfl, rfl, Nat.le_refl _, Or.inr rfl, fun h => ⟨h, rfl⟩⟩

theorem safe_getArRpc : Safe getArRpc := by unfold getArRpc; safe

theorem safe_connBlock {z : ConnSizes} (hz : 65536 ≤ z.tab.maxSubslots) (h : BlockHeader) (first : Bool) (c : Conn) :
    Safe (connBlock z h first c) := by
  unfold connBlock
  refine Safe.bind safe_reader fun r0 => ?_
  refine Safe.ite (fun _ => ?_) fun _ => ?_
  · refine Safe.bind safe_getArParam fun a => ?_
    safe
  refine Safe.ite (fun _ => ?_) fun _ => ?_
  · refine Safe.ite (fun _ => Safe.pure _) fun _ => ?_
    refine Safe.bind (safe_getIocrParam _ _) fun a => ?_
    cases a with
    | none => exact Safe.pure _
    | some p =>
      refine Safe.bind safe_reader fun r1 => ?_
      safe
  refine Safe.ite (fun _ => ?_) fun _ => ?_
  · refine Safe.bind (safe_getExpApiModule hz _) fun e => Safe.bind safe_reader fun r1 => ?_
    safe
  refine Safe.ite (fun _ => ?_) fun _ => ?_
  · refine Safe.bind safe_getAlarmCr fun e => Safe.bind safe_reader fun r1 => ?_
    safe
  refine Safe.ite (fun _ => ?_) fun _ => Safe.pure _
  · refine Safe.bind safe_getArRpc fun e => Safe.bind safe_reader fun r1 => ?_
    safe

/-- Without error a parser has consumed `n` bytes. -/
def Adv {α} (p : P α) (n : Nat) : Prop :=
  ∀ r a r', p r = some (a, r') → r'.err = .ok → r'.pos = r.pos + n ∧ r.err = .ok

theorem Adv.pure {α} (a : α) : Adv (Pure.pure a : P α) 0 := by
  intro r b r' h he
  simp at h
  obtain ⟨_, rfl⟩ := h
  exact ⟨rfl, he⟩

theorem Adv.bind {α β} {p : P α} {f : α → P β} {m n : Nat} (hp : Adv p m) (hf : ∀ a, Adv (f a) n) :
    Adv (p >>= f) (m + n) := by
  intro r b r' h he
  simp only [P.bind_def, Option.bind_eq_some_iff] at h
  obtain ⟨⟨a, r1⟩, h1, h2⟩ := h
  obtain ⟨e1, e2⟩ := hf a r1 b r' h2 he
  obtain ⟨e3, e4⟩ := hp r a r1 h1 e2
  exact ⟨by omega, e4⟩

theorem adv_getByte : Adv getByte 1 := by
  intro r a r' h he
  unfold getByte at h
  split at h
  · simp at h; obtain ⟨_, rfl⟩ := h; exact absurd he ‹_›
  · split at h
    · simp at h; obtain ⟨_, rfl⟩ := h; cases he
    · split at h
      · simp at h; obtain ⟨_, rfl⟩ := h; cases he
      · cases hb : r.buf[r.pos]? with
        | none => rw [hb] at h; cases h
        | some b =>
          rw [hb] at h
          simp at h
          obtain ⟨_, rfl⟩ := h
          exact ⟨rfl, he⟩

theorem adv_getU16 : Adv getU16 2 := by
  intro r a r' h he
  by_cases ho : r.err = .ok
  · unfold getU16 at h
    have h' : (if r.be = true then (do
          let a ← getByte
          let b ← getByte
          pure ((a.setWidth 16 : U16) <<< 8 + b.setWidth 16))
        else (do
          let a ← getByte
          let b ← getByte
          pure ((a.setWidth 16 : U16) + (b.setWidth 16) <<< 8)) : P U16) r = some (a, r') := by
      rw [← h]
      simp [isOk, ho, isBe]
    split at h'
    · exact Adv.bind adv_getByte (fun a => Adv.bind adv_getByte fun b => Adv.pure _) r a r' h' he
    · exact Adv.bind adv_getByte (fun a => Adv.bind adv_getByte fun b => Adv.pure _) r a r' h' he
  · unfold getU16 at h
    simp [isOk, ho] at h
    obtain ⟨_, rfl⟩ := h
    exact absurd he ho

theorem adv_getBlockHeader : Adv getBlockHeader 6 := by
  unfold getBlockHeader
  exact Adv.bind adv_getU16 fun a => Adv.bind adv_getU16 fun b => Adv.bind adv_getByte fun c => Adv.bind adv_getByte fun d =>
    Adv.pure _

/-- The guarantees of `Safe` for one run. -/
def SafeAt {α} (p : P α) (r : Rd) : Prop :=
  ∃ a r', p r = some (a, r') ∧ r'.buf = r.buf ∧
    r'.null = r.null ∧ r'.len = r.len ∧ r.pos ≤ r'.pos ∧ (r'.pos ≤ r.len ∨ r'.pos = r.pos) ∧
    (r.err ≠ .ok → r'.err ≠ .ok ∧ r'.pos = r.pos)

theorem connLoop_safe {z : ConnSizes} (hz : 65536 ≤ z.tab.maxSubslots) (k : Nat) :
    ∀ (first : Bool) (c : Conn) (r : Rd), (r.null = false → r.len ≤ r.buf.length) → r.len + 1 - r.pos ≤ k → 0 < k →
      SafeAt (connLoop z k first c) r := by
  induction k with
  | zero => intro _ _ _ _ _ h; omega
  | succ k ih =>
    intro first c r hl hk _
    unfold connLoop
    have hid : SafeAt (Pure.pure (true, c) : P (Bool × Conn)) r := Safe.pure _ r hl
    by_cases hc : r.err = .ok ∧ r.pos + 6 ≤ r.len
    · obtain ⟨h, r1, e1, b1, n1, l1, m1, x1, s1⟩ := safe_getBlockHeader r hl
      unfold SafeAt
      simp only [P.bind_def, reader, Option.bind_some]
      rw [if_pos hc]
      simp only [P.bind_def, e1, Option.bind_some, reader]
      by_cases hc1 : r1.err = .ok ∧ r1.pos + h.length.toNat + 4 - 6 ≤ r1.len
      · have ha := (adv_getBlockHeader r h r1 e1 hc1.1).1
        rw [if_pos hc1]
        obtain ⟨x, r2, e2, b2, n2, l2, m2, x2, s2⟩ := safe_connBlock hz h first c r1 (by rw [n1, l1, b1]; exact hl)
        simp only [P.bind_def, e2, Option.bind_some]
        have fin : ∀ r3 : Rd, r3.buf = r2.buf → r3.null = r2.null → r3.len = r2.len → r2.pos ≤ r3.pos →
            (r3.pos ≤ r2.len ∨ r3.pos = r2.pos) →
            r3.buf = r.buf ∧ r3.null = r.null ∧ r3.len = r.len ∧ r.pos ≤ r3.pos ∧ (r3.pos ≤ r.len ∨ r3.pos = r.pos) ∧
            (r.err ≠ .ok → r3.err ≠ .ok ∧ r3.pos = r.pos) := by
          intro r3 b3 n3 l3 m3 x3
          refine ⟨by rw [b3, b2, b1], by rw [n3, n2, n1], by rw [l3, l2, l1], by omega, by omega, ?_⟩
          intro h; exact absurd hc.1 h
        split
        · obtain ⟨y, r3, e3, b3, n3, l3, m3, x3, s3⟩ := ih false x.2 r2
            (by rw [n2, n1, l2, l1, b2, b1]; exact hl) (by omega) (by omega)
          exact ⟨y, r3, e3, fin r3 b3 n3 l3 m3 x3⟩
        · exact ⟨x, r2, rfl, fin r2 rfl rfl rfl (Nat.le_refl _) (Or.inr rfl)⟩
      · rw [if_neg hc1]
        exact ⟨_, r1, rfl, b1, n1, l1, m1, x1, s1⟩
    · unfold SafeAt
      simp only [P.bind_def, reader, Option.bind_some]
      rw [if_neg hc]
      exact hid

/-- Whatever the request: the loop ends and nothing outside the buffer is read, provided a module cannot announce more
submodules than there is room for. -/
theorem safe_connectInterpret {z : ConnSizes} (hz : 65536 ≤ z.tab.maxSubslots) (args : Nat) :
    Safe (connectInterpret z args) := by
  intro r hl
  obtain ⟨x, r1, e1, b1, n1, l1, m1, x1, s1⟩ := connLoop_safe hz (r.len + 1) true Conn.empty r hl (by omega) (by omega)
  unfold connectInterpret
  simp only [P.bind_def, reader, Option.bind_some, e1]
  split
  · exact ⟨_, r1, rfl, b1, n1, l1, m1, x1, s1⟩
  · exact ⟨_, r1, rfl, b1, n1, l1, m1, x1, s1⟩

/-! ## Accepted requests -/

/-- An IO connection within its tables. -/
def IocrIn (z : ConnSizes) (i : IocrParam) : Prop :=
  i.apis.length ≤ z.tab.maxApi ∧ ∀ a ∈ i.apis, a.ioData.length ≤ z.ioCap ∧ a.iocs.length ≤ z.ioCap

/-- All tables of the AR are within their sizes. -/
def ConnIn (z : ConnSizes) (c : Conn) : Prop :=
  InTable z.tab c.exp ∧ c.iocrs.length ≤ z.maxCr ∧ ∀ i ∈ c.iocrs, IocrIn z i

theorem rep_length {α} {p : P α} {n : Nat} {r r' : Rd} {l : List α} (h : rep n p r = some (l, r')) : l.length = n := by
  induction n generalizing r l r' with
  | zero => simp [rep] at h; simp [h.1.symm]
  | succ k ih =>
    unfold rep at h
    simp only [P.bind_def, Option.bind_eq_some_iff] at h
    obtain ⟨x, _, y, hy, h⟩ := h
    simp at h
    rw [← h.1, List.length_cons, ih (l := y.1) (r' := y.2) hy]

theorem getApiEntry_in {cap : Nat} {r r' : Rd} {a : ApiEntry} (h : getApiEntry cap r = some (some a, r')) :
    a.ioData.length ≤ cap ∧ a.iocs.length ≤ cap := by
  unfold getApiEntry at h
  simp only [P.bind_def, Option.bind_eq_some_iff] at h
  obtain ⟨x, _, y, _, h⟩ := h
  split at h
  · cases h
  · simp only [P.bind_def, Option.bind_eq_some_iff] at h
    obtain ⟨u, hu, v, _, h⟩ := h
    split at h
    · cases h
    · simp only [P.bind_def, Option.bind_eq_some_iff] at h
      obtain ⟨w, hw, h⟩ := h
      simp at h
      rw [← h.1]
      have := rep_length (l := u.1) (r' := u.2) hu
      have := rep_length (l := w.1) (r' := w.2) hw
      dsimp only
      omega

theorem getApis_in {cap n : Nat} {r r' : Rd} {l : List ApiEntry} (h : getApis cap n r = some (some l, r')) :
    l.length = n ∧ ∀ a ∈ l, a.ioData.length ≤ cap ∧ a.iocs.length ≤ cap := by
  induction n generalizing r l r' with
  | zero => simp [getApis] at h; simp [h.1]
  | succ k ih =>
    unfold getApis at h
    simp only [P.bind_def, Option.bind_eq_some_iff] at h
    obtain ⟨⟨x, r1⟩, hx, h⟩ := h
    cases x with
    | none => cases h
    | some a =>
      dsimp only at h
      simp only [P.bind_def, Option.bind_eq_some_iff] at h
      obtain ⟨⟨y, r2⟩, hy, h⟩ := h
      cases y with
      | none => cases h
      | some t =>
        simp at h
        rw [← h.1]
        obtain ⟨h1, h2⟩ := ih hy
        refine ⟨by simp [h1], ?_⟩
        intro b hb
        rcases List.mem_cons.1 hb with rfl | hb
        · exact getApiEntry_in hx
        · exact h2 b hb

theorem getIocrParam_in {z : ConnSizes} {r r' : Rd} {i : IocrParam}
    (h : getIocrParam z.tab.maxApi z.ioCap r = some (some i, r')) : IocrIn z i := by
  unfold getIocrParam at h
  simp only [P.bind_def, Option.bind_eq_some_iff] at h
  obtain ⟨_, _, _, _, _, _, _, _, _, _, _, _, _, _, _, _, _, _, _, _, _, _, _, _, _, _, _, _, _, _, y, _, h⟩ := h
  split at h
  · cases h
  · simp only [P.bind_def, Option.bind_eq_some_iff] at h
    obtain ⟨⟨u, r1⟩, hu, h⟩ := h
    cases u with
    | none => cases h
    | some l =>
      simp at h
      rw [← h.1]
      have := getApis_in hu
      exact ⟨by dsimp only; omega, this.2⟩

theorem connBlock_in {z : ConnSizes} {h : BlockHeader} {first b : Bool} {c c' : Conn} {r r' : Rd} (hi : ConnIn z c)
    (hr : connBlock z h first c r = some ((b, c'), r')) :
    ConnIn z c' ∧ (first = false → c'.nbrAr = c.nbrAr) ∧ c'.nbrAr ≤ c.nbrAr + 1 := by
  have same : ConnIn z c ∧ (first = false → c.nbrAr = c.nbrAr) ∧ c.nbrAr ≤ c.nbrAr + 1 := ⟨hi, fun _ => rfl, by omega⟩
  unfold connBlock at hr
  simp only [P.bind_def, reader, Option.bind_some] at hr
  split at hr
  · simp only [P.bind_def, Option.bind_eq_some_iff] at hr
    obtain ⟨a, _, hr⟩ := hr
    split at hr
    · simp at hr; rw [← hr.1.2]; exact same
    · split at hr
      · simp at hr; rw [← hr.1.2]; exact ⟨hi, fun hf => absurd hf ‹_›, by simp⟩
      · simp at hr; rw [← hr.1.2]; exact same
  split at hr
  · split at hr
    · simp at hr; rw [← hr.1.2]; exact same
    · rename_i hlt
      simp only [P.bind_def, Option.bind_eq_some_iff] at hr
      obtain ⟨⟨x, r1⟩, hx, hr⟩ := hr
      cases x with
      | none => simp at hr; rw [← hr.1.2]; exact same
      | some p =>
        dsimp only at hr
        simp only [P.bind_def, reader, Option.bind_some] at hr
        split at hr
        · simp at hr; rw [← hr.1.2]; exact same
        · split at hr
          · simp at hr; rw [← hr.1.2]
            refine ⟨⟨hi.1, by simp; omega, ?_⟩, fun _ => rfl, by simp⟩
            intro i hm
            rcases List.mem_append.1 hm with hm | hm
            · exact hi.2.2 i hm
            · simp at hm; subst hm; exact getIocrParam_in hx
          · simp at hr; rw [← hr.1.2]; exact same
  split at hr
  · simp only [P.bind_def, Option.bind_eq_some_iff] at hr
    obtain ⟨⟨e, r1⟩, he, hr⟩ := hr
    have ht := getExpApiModule_table hi.1 he
    simp only [P.bind_def, reader, Option.bind_some, Option.some.injEq, exists_eq_left'] at hr
    split at hr
    · simp at hr; obtain ⟨_, hr⟩ := hr.1; rw [← hr]; exact same
    split at hr
    · simp at hr; rw [← hr.1.2]; exact same
    split at hr
    · simp at hr; rw [← hr.1.2]; exact ⟨⟨ht, hi.2⟩, fun _ => rfl, by simp⟩
    · simp at hr; rw [← hr.1.2]; exact same
  split at hr
  · simp only [P.bind_def, Option.bind_eq_some_iff] at hr
    obtain ⟨⟨e, r1⟩, he, hr⟩ := hr
    simp only [P.bind_def, reader, Option.bind_some, Option.some.injEq, exists_eq_left'] at hr
    split at hr
    · simp at hr; rw [← hr.1.2]; exact same
    split at hr
    · simp at hr; rw [← hr.1.2]; exact ⟨hi, fun _ => rfl, by simp⟩
    · simp at hr; rw [← hr.1.2]; exact same
  split at hr
  · simp only [P.bind_def, Option.bind_eq_some_iff] at hr
    obtain ⟨⟨e, r1⟩, he, hr⟩ := hr
    simp only [P.bind_def, reader, Option.bind_some, Option.some.injEq, exists_eq_left'] at hr
    split at hr
    · simp at hr; rw [← hr.1.2]; exact same
    split at hr
    · simp at hr; rw [← hr.1.2]; exact ⟨hi, fun _ => rfl, by simp⟩
    · simp at hr; rw [← hr.1.2]; exact same
  · simp at hr; rw [← hr.1.2]; exact same

theorem connLoop_in {z : ConnSizes} {k : Nat} {first b : Bool} {c c' : Conn} {r r' : Rd} (hi : ConnIn z c)
    (hr : connLoop z k first c r = some ((b, c'), r')) :
    ConnIn z c' ∧ (first = false → c'.nbrAr = c.nbrAr) ∧ c'.nbrAr ≤ c.nbrAr + 1 := by
  induction k generalizing first c r with
  | zero => cases hr
  | succ k ih =>
    have same : ConnIn z c ∧ (first = false → c.nbrAr = c.nbrAr) ∧ c.nbrAr ≤ c.nbrAr + 1 := ⟨hi, fun _ => rfl, by omega⟩
    unfold connLoop at hr
    simp only [P.bind_def, reader, Option.bind_some] at hr
    split at hr
    · simp only [P.bind_def, Option.bind_eq_some_iff] at hr
      obtain ⟨h, _, hr⟩ := hr
      simp only [reader, Option.some.injEq, exists_eq_left'] at hr
      split at hr
      · simp only [P.bind_def, Option.bind_eq_some_iff] at hr
        obtain ⟨⟨⟨xb, xc⟩, r2⟩, hx, hr⟩ := hr
        obtain ⟨h1, h2, h3⟩ := connBlock_in hi hx
        dsimp only at hr
        split at hr
        · obtain ⟨h4, h5, h6⟩ := ih h1 hr
          have := h5 rfl
          exact ⟨h4, fun hf => by rw [this]; exact h2 hf, by omega⟩
        · simp at hr; rw [← hr.1.2]; exact ⟨h1, h2, h3⟩
      · simp at hr; rw [← hr.1.2]; exact same
    · simp at hr; rw [← hr.1.2]; exact same

theorem connectInterpret_accept {z : ConnSizes} {args : Nat} {c : Conn} {r r' : Rd}
    (hr : connectInterpret z args r = some ((true, c), r')) :
    ConnIn z c ∧ c.nbrAr ≤ 1 ∧ r'.err = .ok ∧ r'.pos = r'.len ∧ r'.pos - r.pos = args := by
  unfold connectInterpret at hr
  simp only [P.bind_def, reader, Option.bind_some, Option.bind_eq_some_iff] at hr
  obtain ⟨⟨⟨xb, xc⟩, r1⟩, hx, hr⟩ := hr
  have h0 : ConnIn z Conn.empty := ⟨⟨by simp [Conn.empty], by simp [Conn.empty]⟩, by simp [Conn.empty], by simp [Conn.empty]⟩
  obtain ⟨h1, h2, h3⟩ := connLoop_in h0 hx
  split at hr
  · rename_i hc
    simp at hr
    obtain ⟨rfl, rfl⟩ := hr
    exact ⟨h1, h3, hc.2.1, hc.2.2.1, hc.2.2.2⟩
  · simp at hr

end Verif.Wire
