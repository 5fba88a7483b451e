import Verif.Ppm.Props
/-! C128: the state that the application has told (primary or backup, redundant, run or stop) in the cyclic frames. -/
set_option linter.unusedVariables false
set_option linter.unusedSimpArgs false

namespace Verif.Ppm

/-! ## Model: all connections of the device -/

/-- A connection in use: its IOCRs, their state, and the calls so far. -/
structure Conn where
  cs : List Cfg
  st : St
  hist : Hist

/-- The array of connections; `none`: `in_use` is false. -/
abbrev Dev := Nat → Option Conn

/-- pnet_set_primary_state (src/device/pnet_api.c:363-392), pnet_set_redundancy_state (src/device/pnet_api.c:394-423),
pnet_set_provider_state (src/device/pnet_api.c:425-454). -/
inductive Call where
  | primary | redundancy | provider
deriving DecidableEq

/-- `BIT (PNET_DATA_STATUS_BIT_…)` of pf_ppm_set_data_status_state (src/common/pf_ppm.c:833-856),
pf_ppm_set_data_status_redundancy (src/common/pf_ppm.c:858-881), pf_ppm_set_data_status_provider (src/common/pf_ppm.c:883-906). -/
def Call.mask : Call → Byte
  | .primary => 0x01
  | .redundancy => 0x02
  | .provider => 0x10

/-- What happens to the device: a connection gets an entry of the array, gives it back, uses its provider; or the application tells its
state. -/
inductive DOp where
  | alloc (a : Nat) (cs : List Cfg)
  | free (a : Nat)
  | call (a : Nat) (op : Op)
  | api (k : Call) (on : Bool)

/-- The inner loop of the three functions: all IOCRs of a connection. -/
def tell (k : Call) (on : Bool) (c : Conn) : Option Conn :=
  ((List.range c.cs.length).foldlM (fun s i => execStep c.cs s (.setBit i k.mask on)) (c.st, c.hist)).map fun s => { c with st := s.1, hist := s.2 }

/-- The outer loop: entries 0 … `n` - 1 that are in use. -/
def tellAll (k : Call) (on : Bool) : Nat → Dev → Option Dev
  | 0, d => some d
  | n + 1, d => (tellAll k on n d).bind fun d =>
    match d n with
    | none => some d
    | some c => (tell k on c).map fun c' j => if j = n then some c' else d j

/-- One step of a device with room for `n` connections.  Only the three functions set single bits of the status. -/
def dstep (n : Nat) (d : Dev) : DOp → Option (Dev × Out)
  | .alloc a cs =>
    if a < n ∧ (d a).isNone then some (fun j => if j = a then some ⟨cs, fun _ => fresh, []⟩ else d j, .ret 0) else some (d, .ret (-1))
  | .free a => some (fun j => if j = a then none else d j, .ret 0)
  | .call a op =>
    match d a, op with
    | none, _ => some (d, .nothing)
    | some _, .setBit _ _ _ => some (d, .nothing)
    | some c, op => (step c.cs c.st op).map fun (st, o) => (fun j => if j = a then some { c with st := st, hist := c.hist ++ [(op, o)] } else d j, o)
  | .api k on => (tellAll k on n d).map fun d => (d, .ret 0)

/-- A trace: what happened, with what was returned. -/
abbrev DTrace := List (DOp × Out)

def drunStep (n : Nat) (s : Dev × DTrace) (o : DOp) : Option (Dev × DTrace) :=
  (dstep n s.1 o).map fun (d, r) => (d, s.2 ++ [(o, r)])

/-- All steps since the start. -/
def drun (n : Nat) (os : List DOp) : Option (Dev × DTrace) := os.foldlM (drunStep n) (fun _ => none, [])

/-! ## Specification -/

/-- Number of the bit in the data status (IEC 61158-6-10). -/
def Call.bit : Call → Nat
  | .primary => 0
  | .redundancy => 1
  | .provider => 4

/-- The bits at the beginning: primary, data valid, no problem; not redundant, provider stopped. -/
def default (b : Nat) : Bool := b == 0 || b == 2 || b == 5

/-- What bit `b` of the status should be in IOCR `i` of connection `a`: the last of what was told since the IOCR was created; else the
default. -/
def shown (input : Bool) (b : Nat) (t : DTrace) (a i : Nat) : Bool :=
  t.foldl (fun s e => match e with
    | (.alloc a' _, .ret 0) => if a' = a then false else s
    | (.call a' (.create i' _), .ret 0) => if a' = a ∧ i' = i then default b else s
    | (.call a' (.close i'), .ret 0) => if a' = a ∧ i' = i then false else s
    | (.call a' (.setProblem p), .nothing) => if a' = a ∧ input = true ∧ b = 5 then !p else s
    | (.api k on, _) => if k.bit = b then on else s
    | _ => s) false

/-! ## Proofs -/

theorem setBit_bit (s : Byte) (k : Call) (on : Bool) (b : Nat) (hb : b < 8) :
    (if on then s ||| k.mask else s &&& ~~~k.mask).getLsbD b = if k.bit = b then on else s.getLsbD b := by
  have hb' : b = 0 ∨ b = 1 ∨ b = 2 ∨ b = 3 ∨ b = 4 ∨ b = 5 ∨ b = 6 ∨ b = 7 := by omega
  cases k <;> cases on <;> rcases hb' with rfl | rfl | rfl | rfl | rfl | rfl | rfl | rfl <;>
    simp [Call.mask, Call.bit, BitVec.getLsbD_or, BitVec.getLsbD_and, BitVec.getLsbD_not] <;> decide

theorem problem_bit (s : Byte) (p : Bool) (b : Nat) (hb : b < 8) :
    (if p then s &&& ~~~0x20 else s ||| 0x20).getLsbD b = if b = 5 then !p else s.getLsbD b := by
  have hb' : b = 0 ∨ b = 1 ∨ b = 2 ∨ b = 3 ∨ b = 4 ∨ b = 5 ∨ b = 6 ∨ b = 7 := by omega
  cases p <;> rcases hb' with rfl | rfl | rfl | rfl | rfl | rfl | rfl | rfl <;>
    simp [BitVec.getLsbD_or, BitVec.getLsbD_and, BitVec.getLsbD_not] <;> decide

theorem default_bit (b : Nat) (hb : b < 8) : (0x25 : Byte).getLsbD b = default b := by
  have hb' : b = 0 ∨ b = 1 ∨ b = 2 ∨ b = 3 ∨ b = 4 ∨ b = 5 ∨ b = 6 ∨ b = 7 := by omega
  rcases hb' with rfl | rfl | rfl | rfl | rfl | rfl | rfl | rfl <;> decide

theorem exec_snoc {cs : List Cfg} {ops : List Op} {s s' : St × Hist} {op : Op} (h : exec cs ops = some s) (e : execStep cs s op = some s') :
    exec cs (ops ++ [op]) = some s' := by
  unfold exec at h ⊢
  rw [List.foldlM_append, h]
  simp [e]

/-- The inner loop, for the first `m` IOCRs. -/
theorem tell_loop (cs : List Cfg) (k : Call) (on : Bool) (s : St × Hist) (ops : List Op) (h : exec cs ops = some s) :
    ∀ m, m ≤ cs.length → ∃ s', (List.range m).foldlM (fun s i => execStep cs s (.setBit i k.mask on)) s = some s' ∧
      (∃ ops', exec cs ops' = some s') ∧
      ∀ i b, b < 8 → (statusOf cs s'.2 i).getLsbD b = if i < m ∧ k.bit = b then on else (statusOf cs s.2 i).getLsbD b := by
  intro m
  induction m with
  | zero => intro _; exact ⟨s, rfl, ⟨ops, h⟩, fun i b _ => by simp⟩
  | succ m ih =>
    intro hm
    obtain ⟨s', e, ⟨ops', h'⟩, hb⟩ := ih (by omega)
    obtain ⟨c, hc⟩ : ∃ c, cs[m]? = some c := ⟨cs[m], by simp [show m < cs.length by omega]⟩
    have e1 : execStep cs s' (.setBit m k.mask on) = some (upd s'.1 m { s'.1 m with status := setBit (s'.1 m).status k.mask on },
        s'.2 ++ [(.setBit m k.mask on, .ret 0)]) := by
      simp [execStep, step, hc]
    refine ⟨_, ?_, ⟨_, exec_snoc h' e1⟩, ?_⟩
    · rw [List.range_succ, List.foldlM_append, e]
      simp [e1]
    · intro i b hb8
      have hst : statusOf cs (s'.2 ++ [(Op.setBit m k.mask on, Out.ret 0)]) i =
          if m = i then (if on then statusOf cs s'.2 i ||| k.mask else statusOf cs s'.2 i &&& ~~~k.mask) else statusOf cs s'.2 i := by
        simp [statusOf, List.foldl_append]
      show (statusOf cs (s'.2 ++ [(Op.setBit m k.mask on, Out.ret 0)]) i).getLsbD b = _
      rw [hst]
      by_cases hi : m = i
      · rw [if_pos hi, setBit_bit _ _ _ _ hb8, hb i b hb8]
        subst hi
        simp
      · rw [if_neg hi, hb i b hb8]
        have : i < m + 1 ↔ i < m := by omega
        simp [this]

theorem tell_spec (k : Call) (on : Bool) (c : Conn) (ops : List Op) (h : exec c.cs ops = some (c.st, c.hist)) :
    ∃ c', tell k on c = some c' ∧ c'.cs = c.cs ∧ (∃ ops', exec c.cs ops' = some (c'.st, c'.hist)) ∧
      ∀ i b, i < c.cs.length → b < 8 → (statusOf c.cs c'.hist i).getLsbD b = if k.bit = b then on else (statusOf c.cs c.hist i).getLsbD b := by
  obtain ⟨s', e, h', hb⟩ := tell_loop c.cs k on (c.st, c.hist) ops h c.cs.length (Nat.le_refl _)
  unfold tell
  rw [e]
  exact ⟨_, rfl, rfl, h', fun i b hi hb8 => by have := hb i b hb8; simp [hi] at this; exact this⟩

/-- What holds of each connection: it has a history, and the bits are as specified. -/
structure ConnOk (c : Conn) (t : DTrace) (a : Nat) : Prop where
  hist : ∃ ops, exec c.cs ops = some (c.st, c.hist)
  bits : ∀ i x b, c.cs[i]? = some x → b < 8 → (statusOf c.cs c.hist i).getLsbD b = shown x.input b t a i

def DInv (n : Nat) (d : Dev) (t : DTrace) : Prop := ∀ a c, d a = some c → a < n ∧ ConnOk c t a

theorem tellAll_spec (k : Call) (on : Bool) {d : Dev} (ho : ∀ a c, d a = some c → ∃ ops, exec c.cs ops = some (c.st, c.hist)) : ∀ n,
    ∃ d', tellAll k on n d = some d' ∧ ∀ a, match d a with
      | none => d' a = none
      | some c => if a < n then ∃ c', d' a = some c' ∧ c'.cs = c.cs ∧ (∃ ops', exec c.cs ops' = some (c'.st, c'.hist)) ∧
          ∀ i b, i < c.cs.length → b < 8 → (statusOf c.cs c'.hist i).getLsbD b = if k.bit = b then on else (statusOf c.cs c.hist i).getLsbD b
        else d' a = some c := by
  intro n
  induction n with
  | zero =>
    refine ⟨d, rfl, fun a => ?_⟩
    cases d a with
    | none => rfl
    | some c => dsimp only; rw [if_neg (by omega)]
  | succ n ih =>
    obtain ⟨d', e, h⟩ := ih
    rw [tellAll, e, Option.bind_some]
    have hn := h n
    cases hd : d n with
    | none =>
      rw [hd] at hn
      rw [show d' n = none from hn]
      refine ⟨d', rfl, fun a => ?_⟩
      have ha := h a
      cases hda : d a with
      | none => rw [hda] at ha; exact ha
      | some c =>
        rw [hda] at ha
        dsimp only at ha ⊢
        have : a ≠ n := by rintro rfl; rw [hd] at hda; cases hda
        have hlt : a < n + 1 ↔ a < n := by omega
        simp only [hlt]
        exact ha
    | some c =>
      rw [hd] at hn
      dsimp only at hn
      rw [if_neg (by omega)] at hn
      rw [hn]
      obtain ⟨ops, hops⟩ := ho n c hd
      obtain ⟨c', ec, hcs, hops', hbits⟩ := tell_spec k on c ops hops
      dsimp only
      rw [ec]
      refine ⟨_, rfl, fun a => ?_⟩
      by_cases han : a = n
      · subst han
        dsimp only
        rw [hd]
        dsimp only
        rw [if_pos (by omega), if_pos rfl]
        exact ⟨c', rfl, hcs, hops', hbits⟩
      · have ha := h a
        dsimp only
        rw [if_neg han]
        cases hda : d a with
        | none => rw [hda] at ha; exact ha
        | some x =>
          rw [hda] at ha
          dsimp only at ha ⊢
          have hlt : a < n + 1 ↔ a < n := by omega
          simp only [hlt]
          exact ha

theorem shown_snoc (input : Bool) (b : Nat) (t : DTrace) (e : DOp × Out) (a i : Nat) : shown input b (t ++ [e]) a i = (match e with
    | (.alloc a' _, .ret 0) => if a' = a then false else shown input b t a i
    | (.call a' (.create i' _), .ret 0) => if a' = a ∧ i' = i then default b else shown input b t a i
    | (.call a' (.close i'), .ret 0) => if a' = a ∧ i' = i then false else shown input b t a i
    | (.call a' (.setProblem p), .nothing) => if a' = a ∧ input = true ∧ b = 5 then !p else shown input b t a i
    | (.api k on, _) => if k.bit = b then on else shown input b t a i
    | _ => shown input b t a i) := by
  unfold shown
  rw [List.foldl_append]
  rfl

theorem shown_other (input : Bool) (b : Nat) (t : DTrace) (a a' i : Nat) (op : Op) (o : Out) (h : a' ≠ a) :
    shown input b (t ++ [(.call a' op, o)]) a i = shown input b t a i := by
  rw [shown_snoc]
  split <;> first | rfl | (rename_i heq; simp only [Prod.mk.injEq, DOp.call.injEq] at heq; obtain ⟨⟨rfl, -⟩, -⟩ := heq; rw [if_neg (by simp [h])]) | simp_all

/-- One step of the provider of a connection. -/
theorem call_bits {c : Conn} {t : DTrace} {a : Nat} (h : ConnOk c t a) {op : Op} {st : St} {o : Out} (hop : ∀ i m on, op ≠ .setBit i m on)
    (e : step c.cs c.st op = some (st, o)) : ConnOk ⟨c.cs, st, c.hist ++ [(op, o)]⟩ (t ++ [(.call a op, o)]) a := by
  obtain ⟨ops, hops⟩ := h.hist
  refine ⟨⟨ops ++ [op], exec_snoc hops (by simp [execStep, e])⟩, ?_⟩
  intro i x b hx hb
  have hbit := h.bits i x b hx hb
  rw [shown_snoc]
  show (statusOf c.cs (c.hist ++ [(op, o)]) i).getLsbD b = _
  have hs : ∀ s, s = statusOf c.cs c.hist i → statusOf c.cs (c.hist ++ [(op, o)]) i = (match ((op, o) : Op × Out) with
    | (.create j _, o) => if j = i ∧ o = .ret 0 then 0x25 else s
    | (.close j, o) => if j = i ∧ o = .ret 0 then 0 else s
    | (.setBit j m on, o) => if j = i ∧ o = .ret 0 then (if on then s ||| m else s &&& ~~~m) else s
    | (.setProblem p, _) => if (c.cs[i]?.map (·.input)) = some true then (if p then s &&& ~~~0x20 else s ||| 0x20) else s
    | _ => s) := by
    rintro s rfl
    unfold statusOf
    rw [List.foldl_append]
    rfl
  rw [hs _ rfl]
  cases op with
  | setBit i m on => exact absurd rfl (hop i m on)
  | create j junk =>
    dsimp only
    by_cases ho : o = .ret 0
    · subst ho
      by_cases hj : j = i
      · simp only [hj, and_self, if_true]
        exact default_bit b hb
      · simp only [hj, false_and, and_false, if_false]
        exact hbit
    · rw [if_neg (by simp [ho])]
      split
      all_goals first | exact hbit | (rename_i heq; simp at heq) | skip
      all_goals (rename_i heq; simp_all)
  | close j =>
    dsimp only
    by_cases ho : o = .ret 0
    · subst ho
      by_cases hj : j = i
      · simp only [hj, and_self, if_true]
        exact BitVec.getLsbD_zero
      · simp only [hj, false_and, and_false, if_false]
        exact hbit
    · rw [if_neg (by simp [ho])]
      split
      all_goals first | exact hbit | (rename_i heq; simp at heq) | skip
      all_goals (rename_i heq; simp_all)
  | setProblem p =>
    have ho : o = .nothing := by simp [step] at e; exact e.2.symm
    subst ho
    dsimp only
    rw [hx, Option.map_some]
    cases hin : x.input with
    | true =>
      rw [if_pos rfl, problem_bit _ _ _ hb, hbit, hin]
      by_cases hb5 : b = 5
      · simp [hb5]
      · simp [hb5]
    | false => simp [hbit, hin]
  | _ => exact hbit

theorem dstep_inv {n : Nat} {d : Dev} {t : DTrace} (h : DInv n d t) {o : DOp} {d' : Dev} {r : Out} (e : dstep n d o = some (d', r)) :
    DInv n d' (t ++ [(o, r)]) := by
  cases o with
  | alloc a cs =>
    unfold dstep at e
    dsimp only at e
    split at e
    · rename_i hc
      simp only [Option.some.injEq, Prod.mk.injEq] at e
      obtain ⟨rfl, rfl⟩ := e
      intro a' c' hc'
      dsimp only at hc'
      split at hc'
      · rename_i ha
        subst ha
        cases hc'
        refine ⟨hc.1, ⟨[], rfl⟩, fun i x b hx hb => ?_⟩
        rw [shown_snoc]
        simp only [if_pos]
        exact BitVec.getLsbD_zero
      · rename_i ha
        refine ⟨(h a' c' hc').1, (h a' c' hc').2.hist, fun i x b hx hb => ?_⟩
        rw [shown_snoc]
        simp only [if_neg (Ne.symm ha)]
        exact (h a' c' hc').2.bits i x b hx hb
    · simp only [Option.some.injEq, Prod.mk.injEq] at e
      obtain ⟨rfl, rfl⟩ := e
      intro a' c' hc'
      refine ⟨(h a' c' hc').1, (h a' c' hc').2.hist, fun i x b hx hb => ?_⟩
      rw [shown_snoc]
      exact (h a' c' hc').2.bits i x b hx hb
  | free a =>
    simp only [dstep, Option.some.injEq, Prod.mk.injEq] at e
    obtain ⟨rfl, rfl⟩ := e
    intro a' c' hc'
    dsimp only at hc'
    split at hc'
    · cases hc'
    · refine ⟨(h a' c' hc').1, (h a' c' hc').2.hist, fun i x b hx hb => ?_⟩
      rw [shown_snoc]
      exact (h a' c' hc').2.bits i x b hx hb
  | call a op =>
    have keep : ∀ (o : Out), (d a = none ∨ ∃ i m on, op = .setBit i m on) → DInv n d (t ++ [(.call a op, o)]) := by
      intro o hno a' c' hc'
      refine ⟨(h a' c' hc').1, (h a' c' hc').2.hist, fun i x b hx hb => ?_⟩
      have hb' := (h a' c' hc').2.bits i x b hx hb
      rcases hno with hno | ⟨j, m, on, rfl⟩
      · rw [shown_other _ _ _ _ _ _ _ _ (by rintro rfl; rw [hno] at hc'; cases hc')]
        exact hb'
      · rw [shown_snoc]
        exact hb'
    unfold dstep at e
    dsimp only at e
    split at e
    · simp only [Option.some.injEq, Prod.mk.injEq] at e
      obtain ⟨rfl, rfl⟩ := e
      exact keep _ (.inl ‹_›)
    · simp only [Option.some.injEq, Prod.mk.injEq] at e
      obtain ⟨rfl, rfl⟩ := e
      exact keep _ (.inr ⟨_, _, _, rfl⟩)
    · rename_i hda hns
      rw [Option.map_eq_some_iff] at e
      obtain ⟨⟨st, o⟩, e1, e2⟩ := e
      simp only [Prod.mk.injEq] at e2
      obtain ⟨rfl, rfl⟩ := e2
      intro a' c' hc'
      dsimp only at hc'
      split at hc'
      · rename_i ha
        subst ha
        cases hc'
        exact ⟨(h _ _ hda).1, call_bits (h _ _ hda).2 (fun i m on he => hns i m on he) e1⟩
      · rename_i ha
        refine ⟨(h a' c' hc').1, (h a' c' hc').2.hist, fun i x b hx hb => ?_⟩
        rw [shown_other _ _ _ _ _ _ _ _ (Ne.symm ha)]
        exact (h a' c' hc').2.bits i x b hx hb
  | api k on =>
    unfold dstep at e
    dsimp only at e
    obtain ⟨d1, e1, h1⟩ := tellAll_spec k on (fun a c hc => (h a c hc).2.hist) n
    rw [e1] at e
    simp only [Option.map_some, Option.some.injEq, Prod.mk.injEq] at e
    obtain ⟨rfl, rfl⟩ := e
    intro a c' hc'
    have ha := h1 a
    cases hd : d a with
    | none => rw [hd] at ha; rw [show d1 a = none from ha] at hc'; cases hc'
    | some c =>
      rw [hd] at ha
      dsimp only at ha
      have hn := (h a c hd).1
      rw [if_pos hn] at ha
      obtain ⟨c2, e2, hcs, hh, hbits⟩ := ha
      rw [e2] at hc'
      cases hc'
      refine ⟨hn, ?_, fun i x b hx hb => ?_⟩
      · rw [hcs]; exact hh
      · rw [hcs] at hx ⊢
        have hi : i < c.cs.length := by
          rcases Nat.lt_or_ge i c.cs.length with hi | hi
          · exact hi
          · rw [List.getElem?_eq_none hi] at hx; cases hx
        rw [hbits i b hi hb, shown_snoc, (h a c hd).2.bits i x b hx hb]

theorem drun_snoc (n : Nat) (os : List DOp) (o : DOp) : drun n (os ++ [o]) = (drun n os).bind fun s => drunStep n s o := by
  unfold drun
  rw [List.foldlM_append]
  cases List.foldlM (drunStep n) ((fun _ => none, []) : Dev × DTrace) os with
  | none => rfl
  | some s =>
    show List.foldlM (drunStep n) s [o] = drunStep n s o
    simp

theorem drun_inv (n : Nat) (os : List DOp) : ∀ {d : Dev} {t : DTrace}, drun n os = some (d, t) → DInv n d t := by
  induction os using List.reverseRecOn with
  | nil =>
    intro d t e
    simp only [drun, List.foldlM_nil, Option.pure_def, Option.some.injEq, Prod.mk.injEq] at e
    obtain ⟨rfl, rfl⟩ := e
    intro a c hc
    cases hc
  | append_singleton os o ih =>
    intro d t e
    rw [drun_snoc, Option.bind_eq_some_iff] at e
    obtain ⟨⟨d0, t0⟩, e0, e1⟩ := e
    unfold drunStep at e1
    rw [Option.map_eq_some_iff] at e1
    obtain ⟨⟨d1, r⟩, e2, e3⟩ := e1
    simp only [Prod.mk.injEq] at e3
    obtain ⟨rfl, rfl⟩ := e3
    exact dstep_inv (ih e0) e2

/-- C128, with what is missing: after every history of the device, every frame that a connection sends shows in its status what the
application told last since the IOCR was created, else the default.  Missing: what was told before (C128_fails_before). -/
theorem C128_status_partial (n : Nat) (os : List DOp) (d : Dev) (t : DTrace) (e : drun n os = some (d, t)) (a : Nat) (c : Conn)
    (hc : d a = some c) (hg : ∀ x ∈ c.cs, Good x) (i : Nat) (x : Cfg) (hx : c.cs[i]? = some x) (now : BitVec 32) (ethOk addOk : Bool)
    (d' : Dev) (frame : List Byte) (nx : Option (BitVec 32)) (er : Bool)
    (hs : dstep n d (.call a (.fire i now ethOk addOk)) = some (d', .fired frame nx er)) :
    ∃ payload counter status, frame = wire x payload counter status ∧ payload.length = x.cSdu ∧
      ∀ b < 8, status.getLsbD b = shown x.input b t a i := by
  obtain ⟨-, hok⟩ := drun_inv n os e a c hc
  obtain ⟨ops, hops⟩ := hok.hist
  unfold dstep at hs
  simp only [hc] at hs
  rw [Option.map_eq_some_iff] at hs
  obtain ⟨⟨st, o⟩, e1, e2⟩ := hs
  simp only [Prod.mk.injEq] at e2
  obtain ⟨-, rfl⟩ := e2
  obtain ⟨payload, counter, hf, hl, -⟩ := C54_frame_content_partial c.cs hg ops c.st c.hist hops i x hx now ethOk addOk st frame nx er e1
  exact ⟨payload, counter, _, hf, hl, fun b hb => hok.bits i x b hx hb⟩

/-- C128 (result): the three functions always succeed, and change the status of no connection in other bits. -/
theorem C128_call (n : Nat) (os : List DOp) (d : Dev) (t : DTrace) (e : drun n os = some (d, t)) (k : Call) (on : Bool) :
    ∃ d', dstep n d (.api k on) = some (d', .ret 0) := by
  obtain ⟨d1, e1, -⟩ := tellAll_spec k on (fun a c hc => (drun_inv n os e a c hc).2.hist) n
  exact ⟨d1, by unfold dstep; dsimp only; rw [e1]; rfl⟩

/-- C128 fails for what was told before the connection: whatever the application tells before (here as the last thing, after any
history), the first frames of a connection that is made afterwards show the default. -/
theorem C128_fails_before (n : Nat) (os : List DOp) (k : Call) (on : Bool) (a : Nat) (cs : List Cfg) (hg : ∀ x ∈ cs, Good x) (i : Nat) (x : Cfg)
    (hx : cs[i]? = some x) (junk : Vector Byte bufSize) (t0 now : BitVec 32) (ok ethOk addOk : Bool) (d : Dev) (t : DTrace)
    (e : drun n (os ++ [.api k on, .alloc a cs, .call a (.create i junk), .call a (.activate i t0 ok)]) = some (d, t))
    (ha : ∃ t', t = t' ++ [(.api k on, .ret 0), (.alloc a cs, .ret 0), (.call a (.create i junk), .ret 0), (.call a (.activate i t0 ok), .activated ok)])
    (hd : ∃ c, d a = some c ∧ c.cs = cs) (d' : Dev) (frame : List Byte) (nx : Option (BitVec 32)) (er : Bool)
    (hs : dstep n d (.call a (.fire i now ethOk addOk)) = some (d', .fired frame nx er)) :
    ∃ payload counter status, frame = wire x payload counter status ∧ payload.length = x.cSdu ∧ status.getLsbD k.bit = default k.bit := by
  obtain ⟨c, hc, rfl⟩ := hd
  obtain ⟨payload, counter, status, hf, hl, hb⟩ := C128_status_partial n _ d t e a c hc hg i x hx now ethOk addOk d' frame nx er hs
  refine ⟨payload, counter, status, hf, hl, ?_⟩
  obtain ⟨t', rfl⟩ := ha
  rw [hb k.bit (by cases k <;> decide)]
  simp only [shown, List.foldl_append, List.foldl_cons, List.foldl_nil, and_self, if_true]

/-- The status byte of the frame that the last step sends. -/
def lastStatus (n : Nat) (os : List DOp) : Option Byte :=
  (drun n os).bind fun s => s.2.getLast?.bind fun e => match e.2 with
    | .fired f _ _ => f[f.length - 2]?
    | _ => none

/-- C128 in concrete cases: a device that tells "run" and "backup" after the connection was made shows this; told before, the frames
show stop and primary. -/
theorem C128_example :
    lastStatus 2 [.alloc 1 [exCfg], .call 1 (.create 0 (Vector.replicate _ 0xEE)), .call 1 (.activate 0 1000 true), .api .provider true,
      .api .primary false, .call 1 (.fire 0 2000 true true)] = some 0x34 ∧
    lastStatus 2 [.api .provider true, .api .primary false, .alloc 1 [exCfg], .call 1 (.create 0 (Vector.replicate _ 0xEE)),
      .call 1 (.activate 0 1000 true), .call 1 (.fire 0 2000 true true)] = some 0x25 := by
  decide +kernel

end Verif.Ppm
