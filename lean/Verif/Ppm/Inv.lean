import Verif.Ppm.Lemmas
/-! The invariant of the provider and its preservation. -/
set_option linter.unusedSimpArgs false
set_option linter.unusedVariables false
namespace Verif.Ppm
open Verif.Layout (IoData Key Kind Covers)

structure PInv (c : Cfg) (p : Ppm) (w : IoData → Kind → List Byte) (n : Nat) (t : Option (BitVec 32)) (s : Byte) : Prop where
  buf : BufOk c p.buf w
  send : ∀ s, p.send = some s → SendOk c s
  idle : p.send.isSome = true → p.run = false → t = none
  run : p.run = true → p.send.isSome = true ∧ t.isSome = true
  armed : p.armed = true → p.run = true ∧ p.ciRunning = true ∧
    ∃ t0, t = some t0 ∧ p.nextExec = t0 + BitVec.ofNat 32 (n + 1) * controlInterval c
  zero : t = none → n = 0
  cyc : c.scf * c.rr ∣ 65536 → p.cycle = (n + (if t.isSome then 1 else 0)) * (c.scf * c.rr) % 65536
  status : p.status = s

def Inv (cs : List Cfg) (st : St) (h : Hist) : Prop :=
  ∀ i c, cs[i]? = some c → PInv c (st i) (want cs h i) (sent h i) (actTime h i) (statusOf cs h i)

theorem want_snoc_none {cs h i e} (he : ∀ d k, wrote d k e = none) : want cs (h ++ [e]) i = want cs h i := by
  funext d k
  unfold want
  split
  · simp [lastSet, List.foldl_append, he]
  · rfl

theorem good_at {cs : List Cfg} (hg : ∀ c ∈ cs, Good c) {i : Nat} {c} (h : cs[i]? = some c) : Good c :=
  hg c (List.mem_of_getElem? h)

theorem upd_same {st i p} : upd st i p i = p := by simp [upd]
theorem upd_other {st i p j} (h : j ≠ i) : upd st i p j = st j := by simp [upd, h]

theorem init_inv {cs : List Cfg} (hg : ∀ c ∈ cs, Good c) : Inv cs (fun _ => fresh) [] := by
  intro i c hc
  have hgc := good_at hg hc
  have h1 := hgc.cSdu
  have hbl : (List.replicate bufSize (0 : Byte)).length = 1500 := by rw [List.length_replicate]; rfl
  refine ⟨⟨hbl, ?_, ?_⟩, by simp [fresh], by simp [fresh], by simp [fresh], by simp [fresh], by simp [sent], ?_, ?_⟩
  · intro d hd k
    have h2 := hgc.inside d hd k
    have hw : want cs [] i d k = List.replicate (len d k) 0 := by
      unfold want; split <;> rfl
    rw [hw]
    show slice (List.replicate bufSize 0) _ _ = _
    rw [slice_eq_some (by omega)]
    rw [List.length_replicate] at hbl
    rw [List.drop_replicate, List.take_replicate]
    congr 2
    omega
  · intro b hb _
    rw [List.length_replicate] at hbl
    show (List.replicate bufSize (0 : Byte))[b]? = _
    rw [List.getElem?_replicate, if_pos (by omega)]
  · intro _
    simp [fresh, sent, actTime]
  · simp [fresh, statusOf]

/-- Calls that only concern the machinery of one IOCR `i`. -/
theorem inv_single {cs st h i p e c} (hi : Inv cs st h) (hc : cs[i]? = some c) (hw : ∀ d k, wrote d k e = none)
    (hs : ∀ j ≠ i, sent (h ++ [e]) j = sent h j) (ha : ∀ j ≠ i, actTime (h ++ [e]) j = actTime h j)
    (hst : ∀ j ≠ i, statusOf cs (h ++ [e]) j = statusOf cs h j)
    (hp : PInv c p (want cs h i) (sent (h ++ [e]) i) (actTime (h ++ [e]) i) (statusOf cs (h ++ [e]) i)) :
    Inv cs (upd st i p) (h ++ [e]) := by
  intro j c' hc'
  rw [want_snoc_none hw]
  by_cases hj : j = i
  · subst hj
    rw [hc] at hc'
    cases hc'
    rw [upd_same]
    exact hp
  · rw [upd_other hj, hs j hj, ha j hj, hst j hj]
    exact hi j c' hc'

theorem inv_nothing {cs st h e} (hi : Inv cs st h) (hw : ∀ d k, wrote d k e = none)
    (hs : ∀ j, sent (h ++ [e]) j = sent h j) (ha : ∀ j, actTime (h ++ [e]) j = actTime h j)
    (hst : ∀ j, statusOf cs (h ++ [e]) j = statusOf cs h j) : Inv cs st (h ++ [e]) := by
  intro j c' hc'
  rw [want_snoc_none hw, hs j, ha j, hst j]
  exact hi j c' hc'

theorem bv_succ (n : Nat) (t ci : BitVec 32) :
    t + BitVec.ofNat 32 (n + 1) * ci + ci = t + BitVec.ofNat 32 (n + 1 + 1) * ci := by
  apply BitVec.eq_of_toNat_eq
  simp only [BitVec.toNat_add, BitVec.toNat_mul, BitVec.toNat_ofNat]
  rw [Nat.mod_mul_mod, Nat.mod_mul_mod]
  simp only [Nat.add_mod_mod, Nat.mod_add_mod]
  congr 1
  rw [Nat.add_mul (n + 1) 1, Nat.one_mul, Nat.add_assoc]

theorem next_pow {prev n I c scf rr} (hI : scf * rr = I) (h0 : 0 < I) (hd : I ∣ 65536) (hp : prev = n * I % 65536)
    (h : nextCycle prev scf rr = some c) : c = (n + 1) * I % 65536 := by
  unfold nextCycle at h
  simp only [hI] at h
  rw [if_neg (by omega)] at h
  injection h with h
  subst h
  obtain ⟨m, hm⟩ := hd
  have h1 : prev = (n % m) * I := by
    rw [hp, hm, Nat.mul_comm I m, Nat.mul_mod_mul_right]
  have hm0 : 0 < m := by
    rcases Nat.eq_zero_or_pos m with h | h
    · simp [h] at hm
    · exact h
  have hlt : n % m < 65536 := by
    have : n % m < m := Nat.mod_lt _ hm0
    have : m ≤ 65536 := Nat.le_of_dvd (by omega) ⟨I, by rw [hm, Nat.mul_comm]⟩
    omega
  rw [h1, Nat.mul_div_cancel _ h0, Nat.mod_eq_of_lt hlt, hm, Nat.mul_comm I m, Nat.mul_mod_mul_right,
    Nat.mul_mod_mul_right]
  congr 1
  simp

theorem cycle_lt {prev scf rr c} (h : nextCycle prev scf rr = some c) : c < 65536 := by
  unfold nextCycle at h
  simp only at h
  split at h
  · cases h
  · injection h with h
    subst h
    exact Nat.mod_lt _ (by omega)

theorem create_inv {cs st h i c junk st' o} (hg : ∀ c ∈ cs, Good c) (hi : Inv cs st h) (hc : cs[i]? = some c)
    (hs : step cs st (.create i junk) = some (st', o)) : Inv cs st' (h ++ [(.create i junk, o)]) := by
  simp only [step, hc] at hs
  have hp := hi i c hc
  unfold create at hs
  split at hs
  · rename_i hr
    simp only [Option.bind_eq_bind, Option.bind_some, Option.some.injEq, Prod.mk.injEq] at hs
    obtain ⟨rfl, rfl⟩ := hs
    have he : upd st i (st i) = st := by funext j; unfold upd; split <;> simp_all
    rw [he]
    apply inv_nothing hi
    · intro d k; simp [wrote]
    · intro j; simp [sent, List.foldl_append]
    · intro j; simp [actTime, List.foldl_append]
    · intro j; simp [statusOf, List.foldl_append]
  · rename_i hr
    obtain ⟨b, hb, hbo⟩ := initBuf_ok (good_at hg hc) (junk := junk.toList) (by rw [Vector.length_toList]; rfl)
    simp only [hb, Option.bind_eq_bind, Option.bind_some, Option.some.injEq, Prod.mk.injEq, if_true] at hs
    obtain ⟨rfl, rfl⟩ := hs
    apply inv_single hi hc
    · intro d k; simp [wrote]
    · intro j hj; simp [sent, List.foldl_append, Ne.symm hj]
    · intro j hj; simp [actTime, List.foldl_append, Ne.symm hj]
    · intro j hj; simp [statusOf, List.foldl_append, Ne.symm hj]
    · have e1 : sent (h ++ [(Op.create i junk, Out.ret 0)]) i = 0 := by simp [sent, List.foldl_append]
      have e2 : actTime (h ++ [(Op.create i junk, Out.ret 0)]) i = none := by simp [actTime, List.foldl_append]
      have e3 : statusOf cs (h ++ [(Op.create i junk, Out.ret 0)]) i = 0x25 := by simp [statusOf, List.foldl_append]
      rw [e1, e2, e3]
      refine ⟨hp.buf, ?_, ?_, ?_, ?_, fun _ => rfl, ?_, ?_⟩
      · intro s hs; simp at hs; subst hs; exact hbo
      · intros; rfl
      · intro hh; exact absurd hh hr
      · intro hh; exact absurd (hp.armed hh).1 hr
      · intro _; simp
      · rfl

theorem activate_inv {cs st h i c now ok st' o} (hg : ∀ c ∈ cs, Good c) (hi : Inv cs st h) (hc : cs[i]? = some c)
    (hs : step cs st (.activate i now ok) = some (st', o)) : Inv cs st' (h ++ [(.activate i now ok, o)]) := by
  simp only [step, hc] at hs
  have hp := hi i c hc
  have hgc := good_at hg hc
  unfold activate at hs
  split at hs
  · rename_i hr
    simp only [Option.bind_eq_bind, Option.bind_some, Option.some.injEq, Prod.mk.injEq] at hs
    obtain ⟨rfl, rfl⟩ := hs
    have he : upd st i (st i) = st := by funext j; unfold upd; split <;> simp_all
    rw [he]
    apply inv_nothing hi
    · intro d k; simp [wrote]
    · intro j; simp [sent, List.foldl_append]
    · intro j; simp [actTime, List.foldl_append]
    · intro j; simp [statusOf, List.foldl_append]
  · rename_i hr
    cases hsd : (st i).send with
    | none => simp [finish, hsd] at hs
    | some s =>
      obtain ⟨cyc, s', q1, q2, q3, q4⟩ := finish_ok (p := { st i with nextExec := now + controlInterval c, run := true, ciRunning := true }) hgc hp.buf.1 hsd (hp.send s hsd)
      rw [q2] at hs
      simp only [Option.bind_eq_bind, Option.bind_some, Option.some.injEq, Prod.mk.injEq] at hs
      obtain ⟨rfl, rfl⟩ := hs
      have ht : actTime h i = none := hp.idle (by simp [hsd]) (by simpa using hr)
      apply inv_single hi hc
      · intro d k; simp [wrote]
      · intro j hj; simp [sent, List.foldl_append, Ne.symm hj]
      · intro j hj; simp [actTime, List.foldl_append, Ne.symm hj]
      · intro j hj; simp [statusOf, List.foldl_append, Ne.symm hj]
      · have e1 : sent (h ++ [(Op.activate i now ok, Out.activated ok)]) i = sent h i := by simp [sent, List.foldl_append]
        have e2 : actTime (h ++ [(Op.activate i now ok, Out.activated ok)]) i = some now := by simp [actTime, List.foldl_append]
        have e3 : statusOf cs (h ++ [(Op.activate i now ok, Out.activated ok)]) i = statusOf cs h i := by simp [statusOf, List.foldl_append]
        rw [e1, e2, e3]
        refine ⟨hp.buf, ?_, ?_, ?_, ?_, by simp, ?_, hp.status⟩
        · intro x hx; simp at hx; subst hx; exact q3
        · intro _ hh; simp at hh
        · intro _; simp
        · intro _
          refine ⟨rfl, rfl, now, rfl, ?_⟩
          have hz : sent h i = 0 → now + controlInterval c = now + BitVec.ofNat 32 (sent h i + 1) * controlInterval c := by
            intro hz; rw [hz]; simp
          exact hz (hp.zero ht)
        · intro hd
          have := hp.cyc hd
          rw [ht] at this
          simp at this ⊢
          exact next_pow rfl hgc.interval hd this q1

theorem close_inv {cs st h i c st' o} (hg : ∀ c ∈ cs, Good c) (hi : Inv cs st h) (hc : cs[i]? = some c)
    (hs : step cs st (.close i) = some (st', o)) : Inv cs st' (h ++ [(.close i, o)]) := by
  simp only [step, hc] at hs
  have hp := hi i c hc
  unfold close at hs
  cases hsd : (st i).send with
  | none => simp [hsd] at hs
  | some s =>
    simp only [hsd, Option.bind_eq_bind, Option.bind_some, Option.some.injEq, Prod.mk.injEq] at hs
    obtain ⟨rfl, rfl⟩ := hs
    apply inv_single hi hc
    · intro d k; simp [wrote]
    · intro j hj; simp [sent, List.foldl_append, Ne.symm hj]
    · intro j hj; simp [actTime, List.foldl_append, Ne.symm hj]
    · intro j hj; simp [statusOf, List.foldl_append, Ne.symm hj]
    · have e1 : sent (h ++ [(Op.close i, Out.ret 0)]) i = sent h i := by simp [sent, List.foldl_append]
      have e2 : actTime (h ++ [(Op.close i, Out.ret 0)]) i = actTime h i := by simp [actTime, List.foldl_append]
      have e3 : statusOf cs (h ++ [(Op.close i, Out.ret 0)]) i = 0 := by simp [statusOf, List.foldl_append]
      rw [e1, e2, e3]
      exact ⟨hp.buf, by simp, by simp, by simp, by simp, hp.zero, hp.cyc, rfl⟩

theorem setBit_inv {cs st h i c m on st' o} (hi : Inv cs st h) (hc : cs[i]? = some c)
    (hs : step cs st (.setBit i m on) = some (st', o)) : Inv cs st' (h ++ [(.setBit i m on, o)]) := by
  simp only [step, hc, Option.some.injEq, Prod.mk.injEq] at hs
  obtain ⟨rfl, rfl⟩ := hs
  have hp := hi i c hc
  apply inv_single hi hc
  · intro d k; simp [wrote]
  · intro j hj; simp [sent, List.foldl_append, Ne.symm hj]
  · intro j hj; simp [actTime, List.foldl_append, Ne.symm hj]
  · intro j hj; simp [statusOf, List.foldl_append, Ne.symm hj]
  · have e1 : sent (h ++ [(Op.setBit i m on, Out.ret 0)]) i = sent h i := by simp [sent, List.foldl_append]
    have e2 : actTime (h ++ [(Op.setBit i m on, Out.ret 0)]) i = actTime h i := by simp [actTime, List.foldl_append]
    have e3 : statusOf cs (h ++ [(Op.setBit i m on, Out.ret 0)]) i = setBit (statusOf cs h i) m on := by
      simp [statusOf, List.foldl_append, setBit]
    rw [e1, e2, e3]
    exact ⟨hp.buf, hp.send, hp.idle, hp.run, hp.armed, hp.zero, hp.cyc, by simp only [hp.status]⟩

theorem setProblem_inv {cs st h b} (hi : Inv cs st h) :
    Inv cs (setProblem cs st b) (h ++ [(.setProblem b, .nothing)]) := by
  intro j c hc
  have hp := hi j c hc
  rw [want_snoc_none (by intro d k; simp [wrote])]
  have e1 : sent (h ++ [(Op.setProblem b, Out.nothing)]) j = sent h j := by simp [sent, List.foldl_append]
  have e2 : actTime (h ++ [(Op.setProblem b, Out.nothing)]) j = actTime h j := by simp [actTime, List.foldl_append]
  have e3 : statusOf cs (h ++ [(Op.setProblem b, Out.nothing)]) j =
      if c.input then setBit (statusOf cs h j) 0x20 (!b) else statusOf cs h j := by
    simp [statusOf, List.foldl_append, setBit, hc]
    split
    · cases b <;> simp
    · rfl
  rw [e1, e2, e3]
  unfold setProblem
  simp only [hc]
  split
  · exact ⟨hp.buf, hp.send, hp.idle, hp.run, hp.armed, hp.zero, hp.cyc, by simp only [hp.status]⟩
  · exact hp

theorem fire_inv {cs st h i c now e a st' o} (hg : ∀ c ∈ cs, Good c) (hi : Inv cs st h) (hc : cs[i]? = some c)
    (hs : step cs st (.fire i now e a) = some (st', o)) : Inv cs st' (h ++ [(.fire i now e a, o)]) ∧
    ((st i).armed = true → ∃ cyc t0, (sent h i + 1 ≤ sent (h ++ [(.fire i now e a, o)]) i) ∧
      (st i).run = true ∧ actTime h i = some t0 ∧ nextCycle (st i).cycle c.scf c.rr = some cyc ∧
      o = .fired (frameSpec c (st i).buf cyc (st i).status)
        (if e = true ∧ a = true then some (t0 + BitVec.ofNat 32 (sent h i + 1 + 1) * controlInterval c - now) else none)
        (e && !a)) := by
  simp only [step, hc] at hs
  have hp := hi i c hc
  have hgc := good_at hg hc
  unfold fire at hs
  split at hs
  · rename_i hr
    simp only [Option.bind_eq_bind, Option.bind_some, Option.some.injEq, Prod.mk.injEq] at hs
    obtain ⟨rfl, rfl⟩ := hs
    have he : upd st i (st i) = st := by funext j; unfold upd; split <;> simp_all
    rw [he]
    refine ⟨?_, fun hh => by rw [hr] at hh; cases hh⟩
    apply inv_nothing hi
    · intro d k; simp [wrote]
    · intro j; simp [sent, List.foldl_append]
    · intro j; simp [actTime, List.foldl_append]
    · intro j; simp [statusOf, List.foldl_append]
  · rename_i hr
    have hr : (st i).armed = true := by simpa using hr
    obtain ⟨a1, a2, t0, a3, a4⟩ := hp.armed hr
    obtain ⟨b1, b2⟩ := hp.run a1
    obtain ⟨s, hsd⟩ := Option.isSome_iff_exists.1 b1
    obtain ⟨cyc, s', q1, q2, q3, q4⟩ := finish_ok (p := { st i with armed := false }) hgc hp.buf.1 hsd (hp.send s hsd)
    simp only [if_pos a2, q2, Option.bind_eq_bind, Option.bind_some, q4] at hs
    have common : ∀ (p : Ppm) (o : Out), (∃ f nx er, o = Out.fired f nx er) →
        p.buf = (st i).buf → p.send = some s' → p.run = true → (p.armed = true → p.ciRunning = true ∧ p.nextExec = t0 + BitVec.ofNat 32 (sent h i + 1 + 1) * controlInterval c) →
        p.cycle = cyc → p.status = (st i).status →
        Inv cs (upd st i p) (h ++ [(.fire i now e a, o)]) ∧ sent (h ++ [(.fire i now e a, o)]) i = sent h i + 1 := by
      rintro p o ⟨f, nx, er, rfl⟩ g1 g2 g3 g4 g5 g6
      have e1 : sent (h ++ [(Op.fire i now e a, Out.fired f nx er)]) i = sent h i + 1 := by simp [sent, List.foldl_append]
      refine ⟨?_, e1⟩
      apply inv_single hi hc
      · intro d k; simp [wrote]
      · intro j hj; simp [sent, List.foldl_append, Ne.symm hj]
      · intro j hj; simp [actTime, List.foldl_append, Ne.symm hj]
      · intro j hj; simp [statusOf, List.foldl_append, Ne.symm hj]
      · have e2 : actTime (h ++ [(Op.fire i now e a, Out.fired f nx er)]) i = actTime h i := by simp [actTime, List.foldl_append]
        have e3 : statusOf cs (h ++ [(Op.fire i now e a, Out.fired f nx er)]) i = statusOf cs h i := by simp [statusOf, List.foldl_append]
        rw [e1, e2, e3]
        refine ⟨g1 ▸ hp.buf, ?_, ?_, ?_, ?_, by simp [a3], ?_, by rw [g6]; exact hp.status⟩
        · intro x hx; rw [g2] at hx; injection hx with hx; subst hx; exact q3
        · intro _ hh; rw [g3] at hh; cases hh
        · intro _; rw [g2]; exact ⟨rfl, b2⟩
        · intro hh
          exact ⟨g3, (g4 hh).1, t0, a3, (g4 hh).2⟩
        · intro hd
          have := hp.cyc hd
          rw [g5]
          have := next_pow rfl hgc.interval hd this q1
          rw [this]
          congr 2
          omega
    have hne : (st i).nextExec + controlInterval c = t0 + BitVec.ofNat 32 (sent h i + 1 + 1) * controlInterval c := by
      rw [a4]; exact bv_succ _ _ _
    cases e with
    | false =>
      simp only [Bool.false_eq_true, if_false, Option.bind_some, Option.some.injEq, Prod.mk.injEq] at hs
      obtain ⟨rfl, rfl⟩ := hs
      obtain ⟨x1, x2⟩ := common { st i with armed := false, cycle := cyc, send := some s' } _ ⟨_, _, _, rfl⟩ rfl rfl a1 (by simp) rfl rfl
      exact ⟨x1, fun _ => ⟨cyc, t0, Nat.le_of_eq x2.symm, a1, a3, q1, by simp⟩⟩
    | true =>
      cases a with
      | false =>
        simp only [Bool.false_eq_true, if_false, if_true, Option.bind_some, Option.some.injEq, Prod.mk.injEq] at hs
        obtain ⟨rfl, rfl⟩ := hs
        obtain ⟨x1, x2⟩ := common { st i with armed := false, cycle := cyc, send := some s', nextExec := (st i).nextExec + controlInterval c } _ ⟨_, _, _, rfl⟩ rfl rfl a1 (by simp) rfl rfl
        exact ⟨x1, fun _ => ⟨cyc, t0, Nat.le_of_eq x2.symm, a1, a3, q1, by simp⟩⟩
      | true =>
        simp only [if_true, Option.bind_some, Option.some.injEq, Prod.mk.injEq] at hs
        obtain ⟨rfl, rfl⟩ := hs
        obtain ⟨x1, x2⟩ := common { st i with armed := true, cycle := cyc, send := some s', nextExec := (st i).nextExec + controlInterval c } _ ⟨_, _, _, rfl⟩ rfl rfl a1 (fun _ => ⟨a2, hne⟩) rfl rfl
        exact ⟨x1, fun _ => ⟨cyc, t0, Nat.le_of_eq x2.symm, a1, a3, q1, by simp [hne]⟩⟩

theorem want_snoc {cs h i e d k} : want cs (h ++ [e]) i d k =
    open Classical in if Target cs d.key i then (wrote d k e).getD (want cs h i d k) else want cs h i d k := by
  unfold want
  split
  · simp [lastSet, List.foldl_append]
  · rfl

theorem inv_buf {cs st h i e c b} (hi : Inv cs st h) (hc : cs[i]? = some c)
    (hs : ∀ j, sent (h ++ [e]) j = sent h j) (ha : ∀ j, actTime (h ++ [e]) j = actTime h j)
    (hst : ∀ j, statusOf cs (h ++ [e]) j = statusOf cs h j)
    (hother : ∀ j ≠ i, ∀ d k, want cs (h ++ [e]) j d k = want cs h j d k)
    (hb : BufOk c b (want cs (h ++ [e]) i)) : Inv cs (upd st i { st i with buf := b }) (h ++ [e]) := by
  intro j c' hc'
  have hp := hi j c' hc'
  rw [hs, ha, hst]
  by_cases hj : j = i
  · subst hj
    rw [hc] at hc'
    cases hc'
    rw [upd_same]
    exact ⟨hb, hp.send, hp.idle, hp.run, hp.armed, hp.zero, hp.cyc, hp.status⟩
  · rw [upd_other hj]
    exact ⟨bufOk_congr hp.buf (fun d hd k => hother j hj d k), hp.send, hp.idle, hp.run, hp.armed, hp.zero, hp.cyc, hp.status⟩

theorem setData_inv {cs st h k w x nl y st' o} (hg : ∀ c ∈ cs, Good c) (hi : Inv cs st h)
    (hs : step cs st (.setData k w x nl y) = some (st', o)) : Inv cs st' (h ++ [(.setData k w x nl y, o)]) := by
  simp only [step] at hs
  unfold setData at hs
  have refuse : Inv cs st (h ++ [(.setData k w x nl y, .ret (-1))]) := by
    apply inv_nothing hi
    · intro d k; simp [wrote]
    · intro j; simp [sent, List.foldl_append]
    · intro j; simp [actTime, List.foldl_append]
    · intro j; simp [statusOf, List.foldl_append]
  split at hs
  · simp only [Option.some.injEq, Prod.mk.injEq] at hs
    obtain ⟨rfl, rfl⟩ := hs
    exact refuse
  · rename_i i d hf
    obtain ⟨ho, ht, c, hc, hin, hd, hk⟩ := find_some hf
    have hgc := good_at hg hc
    have hp := hi i c hc
    split at hs
    · rename_i hlen
      obtain ⟨b1, w1, ok1⟩ : ∃ b1, (if nl = true then some (st i).buf else writeAt (st i).buf d.dataOff x) = some b1 ∧
          BufOk c b1 (fun d' k' => open Classical in if (d' = d ∧ k' = Kind.data) ∧ nl = false then x else want cs h i d' k') := by
        cases nl with
        | true => exact ⟨_, rfl, bufOk_congr hp.buf (fun d' _ k' => by simp)⟩
        | false =>
          obtain ⟨b, e1, e2⟩ := bufOk_write (k := .data) hgc hp.buf hd hlen.1
          exact ⟨b, by simpa [off] using e1, bufOk_congr e2 (fun d' _ k' => by simp)⟩
      obtain ⟨b2, w2, ok2⟩ := bufOk_write (k := .iops) hgc ok1 hd hlen.2
      simp only [off] at w2
      simp only [w1, Option.bind_eq_bind, Option.bind_some, w2, Option.some.injEq, Prod.mk.injEq] at hs
      obtain ⟨rfl, rfl⟩ := hs
      apply inv_buf hi hc
      · intro j; simp [sent, List.foldl_append]
      · intro j; simp [actTime, List.foldl_append]
      · intro j; simp [statusOf, List.foldl_append]
      · intro j hj d' k'
        rw [want_snoc]
        split
        · rename_i ht'
          have : k ≠ d'.key := by
            intro hh
            rw [← hh] at ht'
            exact hj (target_unique ht' ht)
          cases k' <;> simp [wrote, this]
        · rfl
      · apply bufOk_congr ok2
        intro d' hd' k'
        rw [want_snoc]
        by_cases hdd : d' = d
        · subst hdd
          rw [if_pos (by rw [hk]; exact ht)]
          cases k' <;> simp [wrote, hk]
          cases nl <;> simp
        · have hkk : k ≠ d'.key := by
            intro hh
            exact hdd (key_inj hgc hd' hd (by rw [hk, hh]))
          have : wrote d' k' (Op.setData k w x nl y, Out.ret 0) = none := by
            cases k' <;> simp [wrote, hkk]
          simp [this, hdd]
    · simp only [Option.some.injEq, Prod.mk.injEq] at hs
      obtain ⟨rfl, rfl⟩ := hs
      exact refuse

theorem setIocs_inv {cs st h k w x st' o} (hg : ∀ c ∈ cs, Good c) (hi : Inv cs st h)
    (hs : step cs st (.setIocs k w x) = some (st', o)) : Inv cs st' (h ++ [(.setIocs k w x, o)]) := by
  simp only [step] at hs
  unfold setIocs at hs
  have refuse : Inv cs st (h ++ [(.setIocs k w x, .ret (-1))]) := by
    apply inv_nothing hi
    · intro d k; simp [wrote]
    · intro j; simp [sent, List.foldl_append]
    · intro j; simp [actTime, List.foldl_append]
    · intro j; simp [statusOf, List.foldl_append]
  split at hs
  · simp only [Option.some.injEq, Prod.mk.injEq] at hs
    obtain ⟨rfl, rfl⟩ := hs
    exact refuse
  · rename_i i d hf
    obtain ⟨ho, ht, c, hc, hin, hd, hk⟩ := find_some hf
    have hgc := good_at hg hc
    have hp := hi i c hc
    have fin : ∀ b, BufOk c b (fun d' k' => open Classical in if d' = d ∧ k' = Kind.iocs then x.take d.iocsLen else want cs h i d' k') →
        Inv cs (upd st i { st i with buf := b }) (h ++ [(.setIocs k w x, .ret 0)]) := by
      intro b hb
      apply inv_buf hi hc
      · intro j; simp [sent, List.foldl_append]
      · intro j; simp [actTime, List.foldl_append]
      · intro j; simp [statusOf, List.foldl_append]
      · intro j hj d' k'
        rw [want_snoc]
        split
        · rename_i ht'
          have : k ≠ d'.key := by
            intro hh
            rw [← hh] at ht'
            exact hj (target_unique ht' ht)
          cases k' <;> simp [wrote, this]
        · rfl
      · apply bufOk_congr hb
        intro d' hd' k'
        rw [want_snoc]
        by_cases hdd : d' = d
        · subst hdd
          rw [if_pos (by rw [hk]; exact ht)]
          cases k' <;> simp [wrote, hk]
        · have hkk : k ≠ d'.key := by
            intro hh
            exact hdd (key_inj hgc hd' hd (by rw [hk, hh]))
          have : wrote d' k' (Op.setIocs k w x, Out.ret 0) = none := by
            cases k' <;> simp [wrote, hkk]
          simp [this, hdd]
    split at hs
    · rename_i hlen
      obtain ⟨b2, w2, ok2⟩ := bufOk_write (k := .iocs) hgc hp.buf hd hlen
      simp only [off] at w2
      simp only [Option.bind_eq_bind, Option.bind_some, w2, Option.some.injEq, Prod.mk.injEq] at hs
      obtain ⟨rfl, rfl⟩ := hs
      apply fin
      rw [← hlen, List.take_length]
      exact ok2
    · rename_i hlen
      split at hs
      · rename_i hz
        simp only [Option.some.injEq, Prod.mk.injEq] at hs
        obtain ⟨rfl, rfl⟩ := hs
        have := fin (st i).buf (bufOk_congr hp.buf (by
          intro d' hd' k'
          by_cases hh : d' = d ∧ k' = Kind.iocs
          · rw [if_pos hh, hz]
            have := hp.buf.2.1 d' hd' k'
            have hl := slice_length this
            rw [hh.1, hh.2] at hl ⊢
            simp only [len, hz] at hl
            rw [List.length_eq_zero_iff.1 hl]
            simp
          · rw [if_neg hh]))
        have he : upd st i { st i with buf := (st i).buf } = st := by
          funext j; unfold upd; split <;> simp_all
        rwa [he] at this
      · simp only [Option.some.injEq, Prod.mk.injEq] at hs
        obtain ⟨rfl, rfl⟩ := hs
        exact refuse

theorem get_inv {cs st h op o} (hi : Inv cs st h) (hop : (∃ k w a b, op = Op.getData k w a b) ∨ ∃ k w a, op = Op.getIocs k w a) :
    Inv cs st (h ++ [(op, o)]) := by
  rcases hop with ⟨k, w, a, b, rfl⟩ | ⟨k, w, a, rfl⟩
  all_goals
    apply inv_nothing hi
    · intro d k; cases k <;> simp [wrote]
    · intro j; simp [sent, List.foldl_append]
    · intro j; simp [actTime, List.foldl_append]
    · intro j; simp [statusOf, List.foldl_append]

theorem absent_inv {cs st h op} (hi : Inv cs st h) (hop : ∀ b, op ≠ Op.setProblem b) : Inv cs st (h ++ [(op, .nothing)]) := by
  apply inv_nothing hi
  · intro d k; simp [wrote]
  · intro j; cases op <;> simp [sent, List.foldl_append]
  · intro j; cases op <;> simp [actTime, List.foldl_append]
  · intro j
    cases op with
    | setProblem b => exact absurd rfl (hop b)
    | _ => simp [statusOf, List.foldl_append]

theorem step_inv {cs st h op st' o} (hg : ∀ c ∈ cs, Good c) (hi : Inv cs st h)
    (hs : step cs st op = some (st', o)) : Inv cs st' (h ++ [(op, o)]) := by
  have ab : ∀ op' : Op, op' = op → (∀ b, op ≠ Op.setProblem b) → some (st, Out.nothing) = some (st', o) → Inv cs st' (h ++ [(op, o)]) := by
    intro op' _ hn he
    simp only [Option.some.injEq, Prod.mk.injEq] at he
    obtain ⟨rfl, rfl⟩ := he
    exact absent_inv hi hn
  cases op with
  | create i junk =>
    cases hc : cs[i]? with
    | none => exact ab _ rfl (by simp) (by simpa [step, hc] using hs)
    | some c => exact create_inv hg hi hc hs
  | activate i now ok =>
    cases hc : cs[i]? with
    | none => exact ab _ rfl (by simp) (by simpa [step, hc] using hs)
    | some c => exact activate_inv hg hi hc hs
  | close i =>
    cases hc : cs[i]? with
    | none => exact ab _ rfl (by simp) (by simpa [step, hc] using hs)
    | some c => exact close_inv hg hi hc hs
  | setData k w x nl y => exact setData_inv hg hi hs
  | setIocs k w x => exact setIocs_inv hg hi hs
  | getData k w a b =>
    simp only [step, Option.bind_eq_bind, Option.bind_eq_some_iff, Option.some.injEq, Prod.mk.injEq] at hs
    obtain ⟨_, _, rfl, rfl⟩ := hs
    exact get_inv hi (Or.inl ⟨_, _, _, _, rfl⟩)
  | getIocs k w a =>
    simp only [step, Option.bind_eq_bind, Option.bind_eq_some_iff, Option.some.injEq, Prod.mk.injEq] at hs
    obtain ⟨_, _, rfl, rfl⟩ := hs
    exact get_inv hi (Or.inr ⟨_, _, _, rfl⟩)
  | setBit i m on =>
    cases hc : cs[i]? with
    | none => exact ab _ rfl (by simp) (by simpa [step, hc] using hs)
    | some c => exact setBit_inv hi hc hs
  | setProblem b =>
    simp only [step, Option.some.injEq, Prod.mk.injEq] at hs
    obtain ⟨rfl, rfl⟩ := hs
    exact setProblem_inv hi
  | fire i now e a =>
    cases hc : cs[i]? with
    | none => exact ab _ rfl (by simp) (by simpa [step, hc] using hs)
    | some c => exact (fire_inv hg hi hc hs).1

theorem exec_inv {cs ops st h} (hg : ∀ c ∈ cs, Good c) (he : exec cs ops = some (st, h)) :
    Inv cs st h ∧ h.map (·.1) = ops := by
  have : ∀ (ops : List Op) (s : St × Hist) (s' : St × Hist), Inv cs s.1 s.2 → ops.foldlM (execStep cs) s = some s' →
      Inv cs s'.1 s'.2 ∧ s'.2.map (·.1) = s.2.map (·.1) ++ ops := by
    intro ops
    induction ops with
    | nil => intro s s' h1 h2; simp at h2; subst h2; simpa using h1
    | cons op ops ih =>
      intro s s' h1 h2
      simp only [List.foldlM_cons, Option.bind_eq_bind, Option.bind_eq_some_iff] at h2
      obtain ⟨s1, h3, h4⟩ := h2
      unfold execStep at h3
      simp only [Option.bind_eq_bind, Option.bind_eq_some_iff, Option.some.injEq] at h3
      obtain ⟨⟨st, o⟩, h5, rfl⟩ := h3
      obtain ⟨g1, g2⟩ := ih _ _ (step_inv hg h1 h5) h4
      exact ⟨g1, by rw [g2]; simp⟩
  obtain ⟨g1, g2⟩ := this ops _ _ (init_inv hg) he
  exact ⟨g1, by simpa using g2⟩

end Verif.Ppm
