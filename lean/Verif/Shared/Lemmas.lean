import Verif.Shared.Spec
set_option linter.unusedSimpArgs false
set_option linter.unusedVariables false
namespace Verif.Shared
open Verif.Layout (Key Kind IoData)

theorem live_iff {st : Device.St} {i : Nat} : live st i = true ↔ ∃ x, Device.Live st i x := by
  unfold live Device.Live
  cases h : st.ars[i]? with
  | none => simp
  | some x => simp

theorem not_live_iff {st : Device.St} {i : Nat} : live st i = false ↔ ∀ x, ¬ Device.Live st i x := by
  rw [← Bool.not_eq_true, live_iff]; simp

theorem starts_iff {e : Event} {i : Nat} : e.starts i ↔ live e.before i = false ∧ live e.after i = true := by
  unfold Event.starts
  rw [not_live_iff, live_iff]

theorem controls_iff {s : Sys} {i : Nat} {k : Key} : Controls s.dev i k ↔ owner s k = some i := by
  unfold Controls owner Device.ownerOf
  cases h : Device.getSub s.dev.apis k.api k.slot k.subslot with
  | none => simp
  | some y => simp

/-! ### Providers -/

theorem ppm_snoc {cs st h op st' o} (he : Ppm.exec cs (h.map (·.1)) = some (st, h))
    (hs : Ppm.step cs st op = some (st', o)) :
    Ppm.exec cs ((h ++ [(op, o)]).map (·.1)) = some (st', h ++ [(op, o)]) := by
  unfold Ppm.exec at he ⊢
  rw [List.map_append, List.foldlM_append, he]
  simp [Ppm.execStep, hs]

theorem lastSet_snoc (h : Ppm.Hist) (e : Ppm.Op × Ppm.Out) (d : IoData) (k : Kind) :
    Ppm.lastSet (h ++ [e]) d k = (Ppm.wrote d k e).getD (Ppm.lastSet h d k) := by
  unfold Ppm.lastSet
  rw [List.foldl_append]; rfl

theorem gives_iff {e : Event} {i : Nat} {d : IoData} {k : Kind} {c : InCall} {o : Ppm.Out} {v : List Byte}
    (he : e.op = .input c) (ho : e.out = .prov o) (hc : Controls e.before i c.key) :
    e.Gives i d k v ↔ Ppm.wrote d k (c.toPpm true, o) = some v := by
  constructor
  · intro g
    cases g with
    | data x iops h ok hc =>
      rw [he] at h; rw [ho] at ok
      injection h with h; injection ok with ok
      subst h; subst ok
      simp [Ppm.wrote, InCall.toPpm]
    | iops x null iops h ok hc =>
      rw [he] at h; rw [ho] at ok
      injection h with h; injection ok with ok
      subst h; subst ok
      simp [Ppm.wrote, InCall.toPpm]
    | iocs w h ok hc =>
      rw [he] at h; rw [ho] at ok
      injection h with h; injection ok with ok
      subst h; subst ok
      simp [Ppm.wrote, InCall.toPpm]
  · intro g
    unfold Ppm.wrote at g
    by_cases hr : o = .ret 0
    · subst hr
      simp only [if_true] at g
      cases c with
      | setData key x null p =>
        cases k with
        | data =>
          simp only [InCall.toPpm] at g
          by_cases hk : key = d.key ∧ null = false
          · rw [if_pos hk] at g
            obtain ⟨rfl, rfl⟩ := hk
            cases g
            exact .data _ _ he ho hc
          · rw [if_neg hk] at g; cases g
        | iops =>
          simp only [InCall.toPpm] at g
          by_cases hk : key = d.key
          · rw [if_pos hk] at g
            subst hk
            cases g
            exact .iops _ _ _ he ho hc
          · rw [if_neg hk] at g; cases g
        | iocs => simp [InCall.toPpm] at g
      | setIocs key x =>
        cases k with
        | iocs =>
          simp only [InCall.toPpm] at g
          by_cases hk : key = d.key
          · rw [if_pos hk] at g
            subst hk
            cases g
            exact .iocs _ he ho hc
          · rw [if_neg hk] at g; cases g
        | data => simp [InCall.toPpm] at g
        | iops => simp [InCall.toPpm] at g
      | getData key a b => cases k <;> simp [InCall.toPpm] at g
      | getIocs key a => cases k <;> simp [InCall.toPpm] at g
    · simp only at g
      rw [if_neg hr] at g; cases g

theorem gives_controls {e : Event} {i d k v} (g : e.Gives i d k v) :
    ∃ c o, e.op = .input c ∧ e.out = .prov o ∧ Controls e.before i c.key := by
  cases g with
  | data x iops h ok hc => exact ⟨_, _, h, ok, hc⟩
  | iops x null iops h ok hc => exact ⟨_, _, h, ok, hc⟩
  | iocs v h ok hc => exact ⟨_, _, h, ok, hc⟩

theorem wrote_provider (d : IoData) (k : Kind) (p : Provider) (o : Ppm.Out) :
    Ppm.wrote d k (p.toPpm, o) = none := by
  unfold Ppm.wrote
  split
  · cases p <;> rfl
  · rfl

/-! ### Consumers -/

theorem run_snoc : ∀ {ops : List Cpm.Op} {c c' c'' : Cpm.Cpm} {outs o op}, Cpm.run c ops = some (c', outs) →
    Cpm.step c' op = some (c'', o) → Cpm.run c (ops ++ [op]) = some (c'', outs ++ [o]) ∧ ops.length = outs.length := by
  intro ops
  induction ops with
  | nil =>
    intro c c' c'' outs o op h hs
    simp only [Cpm.run, Option.some.injEq, Prod.mk.injEq] at h
    obtain ⟨rfl, rfl⟩ := h
    simp [Cpm.run, hs]
  | cons a ops ih =>
    intro c c' c'' outs o op h hs
    simp only [Cpm.run, Option.bind_eq_bind, Option.bind_eq_some_iff] at h
    obtain ⟨⟨c1, o1⟩, h1, ⟨c2, os⟩, h2, h3⟩ := h
    simp only [Option.some.injEq, Prod.mk.injEq] at h3
    obtain ⟨rfl, rfl⟩ := h3
    obtain ⟨q1, q2⟩ := ih h2 hs
    simp [Cpm.run, h1, q1, q2]

theorem hist_snoc {ops : List Cpm.Op} {outs : List Cpm.Out} {op o} (hl : ops.length = outs.length) :
    Cpm.hist (ops ++ [op]) (outs ++ [o]) = (op, o) :: Cpm.hist ops outs := by
  unfold Cpm.hist
  rw [List.zip_append hl]
  simp

theorem ended_cons (h : Cpm.Hist) (op o) :
    Cpm.Ended ((op, o) :: h) ↔ (.stop ∈ o.evs ∨ op = .close) ∨ Cpm.Ended h := by
  simp [Cpm.Ended]

/-! ### The invariant -/

structure Fine (s : Sys) (t : Trace) (i : Nat) : Prop where
  good : (s.conn i).neg.Good
  prov : ∃ h : Ppm.Hist, Ppm.exec (s.conn i).neg.ins (h.map (·.1)) = some ((s.conn i).ppm, h) ∧
    ∀ d k, Latest i d k t (Ppm.lastSet h d k)
  cons : ∀ (crep : Nat) (c : OutCr), (s.conn i).neg.outs[crep]? = some c →
    ∃ ops outs, Cpm.run (Cpm.start c.cfg) ops = some ((s.conn i).cpm crep, outs) ∧ (∀ op ∈ ops, Cpm.EnvOk c.cfg op) ∧
      LastFrame i crep t (Cpm.lastDelivered (Cpm.hist ops outs)) ∧ (Cpm.Ended (Cpm.hist ops outs) ↔ Lost i crep t)

structure Inv (s : Sys) (t : Trace) : Prop where
  up : ∀ i, live s.dev i = true → Fine s t i
  down : ∀ i, live s.dev i = false → s.conn i = Conn.zero

theorem lost_keep {i crep : Nat} {e : Event} {t : Trace} (hns : ¬ e.starts i)
    (h : ∀ c o, e.op = .consumer i crep c → e.out = .cons o → ¬ (Cpm.Ev.stop ∈ o.evs ∨ c = .close)) :
    Lost i crep (e :: t) ↔ Lost i crep t := by
  constructor
  · intro l
    cases l with
    | now _ _ h1 c o ho hr hs => exact absurd hs (h c o ho hr)
    | before _ _ h1 r => exact r
  · intro l; exact .before _ _ hns l

/-- A connection that an event does not concern. -/
theorem Fine.other {s s' : Sys} {t : Trace} {e : Event} {i : Nat} (hf : Fine s t i) (hc : s'.conn i = s.conn i)
    (hns : ¬ e.starts i) (hg : ∀ d k v, ¬ e.Gives i d k v) (hd : ∀ crep c, e.op ≠ .consumer i crep c) :
    Fine s' (e :: t) i := by
  obtain ⟨h1, ⟨h, h2, h3⟩, h4⟩ := hf
  refine ⟨by rw [hc]; exact h1, ⟨h, by rw [hc]; exact h2, fun d k => .keep _ _ _ hns (hg d k) (h3 d k)⟩, ?_⟩
  intro crep c hcr
  rw [hc] at hcr ⊢
  obtain ⟨ops, outs, q1, q2, q3, q4⟩ := h4 crep c hcr
  refine ⟨ops, outs, q1, q2, .keep _ _ _ hns (fun f g => hd crep _ g.1) q3, ?_⟩
  rw [lost_keep hns (fun c o ho => absurd ho (hd crep c))]
  exact q4

theorem not_starts {e : Event} (h : e.after = e.before) (i : Nat) : ¬ e.starts i := by
  rw [starts_iff, h]; rintro ⟨a, b⟩; rw [a] at b; cases b

/-- Calls about input data and the stack's own calls, for the provider that makes the step. -/
theorem Fine.prov_step {s : Sys} {t : Trace} {e : Event} {i : Nat} (hf : Fine s t i) (hns : ¬ e.starts i)
    (hd : ∀ crep c, e.op ≠ .consumer i crep c) (op : Ppm.Op) {st : Ppm.St} {o : Ppm.Out}
    (hs : Ppm.step (s.conn i).neg.ins (s.conn i).ppm op = some (st, o))
    (hw : ∀ d k v, e.Gives i d k v ↔ Ppm.wrote d k (op, o) = some v) :
    Fine { s with conn := updConn s.conn i { s.conn i with ppm := st } } (e :: t) i := by
  obtain ⟨h1, ⟨h, h2, h3⟩, h4⟩ := hf
  refine ⟨by simpa [updConn] using h1, ⟨h ++ [(op, o)], ?_, ?_⟩, ?_⟩
  · simpa [updConn] using ppm_snoc h2 hs
  · intro d k
    rw [lastSet_snoc]
    cases hv : Ppm.wrote d k (op, o) with
    | some v => exact .given _ _ _ hns ((hw d k v).2 hv)
    | none =>
      refine .keep _ _ _ hns (fun w g => ?_) (h3 d k)
      rw [hw d k w, hv] at g; cases g
  · intro crep c hcr
    simp only [updConn, if_true] at hcr ⊢
    obtain ⟨ops, outs, q1, q2, q3, q4⟩ := h4 crep c hcr
    refine ⟨ops, outs, q1, q2, .keep _ _ _ hns (fun f g => hd crep _ g.1) q3, ?_⟩
    rw [lost_keep hns (fun c o ho => absurd ho (hd crep c))]
    exact q4

/-- A step of a consumer. -/
theorem Fine.cons_step {s : Sys} {t : Trace} {e : Event} {i crep : Nat} (hf : Fine s t i) (hns : ¬ e.starts i)
    (hg : ∀ d k v, ¬ e.Gives i d k v) (op : Cpm.Op) {x : Cpm.Cpm} {o : Cpm.Out}
    (hs : Cpm.step ((s.conn i).cpm crep) op = some (x, o))
    (henv : ∀ c, (s.conn i).neg.outs[crep]? = some c → Cpm.EnvOk c.cfg op)
    (hoth : ∀ j c, e.op = .consumer i j c → j = crep)
    (hfr : ∀ h : Cpm.Hist, (∀ f, e.Delivers i crep f → Cpm.lastDelivered ((op, o) :: h) = some f) ∧
      ((∀ f, ¬ e.Delivers i crep f) → Cpm.lastDelivered ((op, o) :: h) = Cpm.lastDelivered h))
    (hl : (∃ c o, e.op = .consumer i crep c ∧ e.out = .cons o ∧ (Cpm.Ev.stop ∈ o.evs ∨ c = .close)) ↔
      (Cpm.Ev.stop ∈ o.evs ∨ op = .close)) :
    Fine { s with conn := updConn s.conn i { s.conn i with
        cpm := fun j => if j = crep then x else (s.conn i).cpm j } } (e :: t) i := by
  obtain ⟨h1, ⟨h, h2, h3⟩, h4⟩ := hf
  refine ⟨by simpa [updConn] using h1, ⟨h, ?_, fun d k => .keep _ _ _ hns (hg d k) (h3 d k)⟩, ?_⟩
  · simpa [updConn] using h2
  · intro cr c hcr
    simp only [updConn, if_true] at hcr ⊢
    obtain ⟨ops, outs, q1, q2, q3, q4⟩ := h4 cr c hcr
    by_cases hcc : cr = crep
    · subst hcc
      simp only [if_true]
      obtain ⟨r1, r2⟩ := run_snoc q1 hs
      refine ⟨ops ++ [op], outs ++ [o], r1, ?_, ?_, ?_⟩
      · intro a ha
        rcases List.mem_append.1 ha with ha | ha
        · exact q2 a ha
        · rw [List.mem_singleton.1 ha]; exact henv c hcr
      · rw [hist_snoc r2]
        by_cases hdv : ∃ f, e.Delivers i cr f
        · obtain ⟨f, hdv⟩ := hdv
          rw [(hfr _).1 f hdv]
          exact .new _ _ _ hns hdv
        · have hdv : ∀ f, ¬ e.Delivers i cr f := fun f hf => hdv ⟨f, hf⟩
          rw [(hfr _).2 hdv]
          exact .keep _ _ _ hns hdv q3
      · rw [hist_snoc r2, ended_cons, ← hl, q4]
        constructor
        · rintro (⟨c', o', a, b, d⟩ | r)
          · exact .now _ _ hns c' o' a b d
          · exact .before _ _ hns r
        · intro l
          cases l with
          | now _ _ h1 c' o' ho hr hs' => exact Or.inl ⟨c', o', ho, hr, hs'⟩
          | before _ _ h1 r => exact Or.inr r
    · simp only [if_neg hcc]
      refine ⟨ops, outs, q1, q2, .keep _ _ _ hns (fun f g => hcc (hoth cr _ g.1)) q3, ?_⟩
      rw [lost_keep hns (fun c o ho => absurd (hoth cr c ho) hcc)]
      exact q4

theorem ppm_nil {st st' : Ppm.St} {c : InCall} {o : Ppm.Out}
    (h : Ppm.step [] st (c.toPpm true) = some (st', o)) : st' = st := by
  cases c <;> simp [InCall.toPpm, Ppm.step, Ppm.setData, Ppm.setIocs, Ppm.getData, Ppm.getIocs, Ppm.find, Ppm.findFrom] at h <;>
    exact h.1.symm

theorem updConn_same (f : Nat → Conn) (i : Nat) : updConn f i (f i) = f := by
  funext j; unfold updConn; split
  · rename_i h; rw [h]
  · rfl

theorem findOut_some {k : Key} : ∀ {outs : List OutCr} {n crep : Nat} {d : Cpm.Desc}, findOut k n outs = some (crep, d) →
    ∃ c, n ≤ crep ∧ outs[crep - n]? = some c ∧ c.consumer = true ∧ (k, d) ∈ c.descs ∧
      ∀ j < crep - n, ∀ c, outs[j]? = some c → c.consumer = true → ∀ d, (k, d) ∉ c.descs := by
  intro outs
  induction outs with
  | nil => intro n crep d h; cases h
  | cons a outs ih =>
    intro n crep d h
    unfold findOut at h
    have rest : findOut k (n + 1) outs = some (crep, d) → (a.consumer = true → ∀ d, (k, d) ∉ a.descs) →
        ∃ c, n ≤ crep ∧ (a :: outs)[crep - n]? = some c ∧ c.consumer = true ∧ (k, d) ∈ c.descs ∧
          ∀ j < crep - n, ∀ c, (a :: outs)[j]? = some c → c.consumer = true → ∀ d, (k, d) ∉ c.descs := by
      intro h hn
      obtain ⟨c, h1, h2, h3, h4, h5⟩ := ih h
      have e : crep - n = (crep - (n + 1)) + 1 := by omega
      refine ⟨c, by omega, by rw [e]; simpa using h2, h3, h4, ?_⟩
      intro j hj c' hc' hcc
      cases j with
      | zero => simp at hc'; subst hc'; exact hn hcc
      | succ j => exact h5 j (by omega) c' (by simpa using hc') hcc
    by_cases hc : a.consumer = true
    · rw [if_pos hc] at h
      cases hf : a.descs.find? (fun d => d.1 == k) with
      | some y =>
        rw [hf] at h
        simp only [Option.some.injEq, Prod.mk.injEq] at h
        obtain ⟨rfl, rfl⟩ := h
        refine ⟨a, Nat.le_refl _, by simp, hc, ?_, by intro j hj; omega⟩
        have m := List.mem_of_find?_eq_some hf
        have q := List.find?_some hf
        simp only [beq_iff_eq] at q
        subst q; exact m
      | none =>
        rw [hf] at h
        refine rest h (fun _ d hd => ?_)
        have := List.find?_eq_none.1 hf (k, d) hd
        simp at this
    · rw [if_neg hc] at h
      exact rest h (fun c => absurd c hc)

theorem findOut_none {k : Key} : ∀ {outs : List OutCr} {n : Nat}, findOut k n outs = none →
    ∀ c ∈ outs, c.consumer = true → ∀ d, (k, d) ∉ c.descs := by
  intro outs
  induction outs with
  | nil => intro n h c hc; cases hc
  | cons a outs ih =>
    intro n h
    unfold findOut at h
    by_cases hc : a.consumer = true
    · rw [if_pos hc] at h
      cases hf : a.descs.find? (fun d => d.1 == k) with
      | some y => rw [hf] at h; cases h
      | none =>
        rw [hf] at h
        intro c hm
        rcases List.mem_cons.1 hm with rfl | hm
        · intro _ d hd
          have := List.find?_eq_none.1 hf (k, d) hd
          simp at this
        · exact ih h c hm
    · rw [if_neg hc] at h
      intro c hm
      rcases List.mem_cons.1 hm with rfl | hm
      · intro h'; exact absurd h' hc
      · exact ih h c hm

theorem target_iff {outs : List OutCr} (hn : ∀ c ∈ outs, (c.descs.map (·.1)).Nodup) {k crep d} :
    OutTarget outs k crep d ↔ findOut k 0 outs = some (crep, d) := by
  constructor
  · rintro ⟨⟨c, h1, h2, h3⟩, h4⟩
    cases hf : findOut k 0 outs with
    | none => exact absurd h3 (findOut_none hf c (List.mem_of_getElem? h1) h2 d)
    | some y =>
      obtain ⟨crep', d'⟩ := y
      obtain ⟨c', _, q1, q2, q3, q4⟩ := findOut_some hf
      simp only [Nat.sub_zero] at q1 q4
      have e : crep' = crep := by
        rcases Nat.lt_trichotomy crep' crep with h | h | h
        · exact absurd q3 (h4 crep' h c' q1 q2 d')
        · exact h
        · exact absurd h3 (q4 crep h c h1 h2 d)
      subst e
      rw [h1] at q1; cases q1
      have hnd := hn c (List.mem_of_getElem? h1)
      have : (k, d') = (k, d) := by
        clear h4 q4 hf h1 h2 q2 hn
        generalize c.descs = l at h3 q3 hnd
        induction l with
        | nil => cases h3
        | cons a l ih =>
          simp only [List.map_cons, List.nodup_cons] at hnd
          rcases List.mem_cons.1 h3 with e1 | e1 <;> rcases List.mem_cons.1 q3 with e2 | e2
          · rw [e1, e2]
          · exact absurd (List.mem_map.2 ⟨_, e2, by rw [← e1]⟩) hnd.1
          · exact absurd (List.mem_map.2 ⟨_, e1, by rw [← e2]⟩) hnd.1
          · exact ih e1 e2 hnd.2
      rw [(Prod.mk.inj this).2]
  · intro h
    obtain ⟨c, _, q1, q2, q3, q4⟩ := findOut_some h
    simp only [Nat.sub_zero] at q1 q4
    exact ⟨⟨c, q1, q2, q3⟩, q4⟩

theorem inv_step {s s' : Sys} {t : Trace} {op : Op} {o : Out} (hi : Inv s t) (hok : op.Ok)
    (hs : step s op = some (s', o)) : Inv s' (⟨s.dev, op, o, s'.dev⟩ :: t) := by
  cases op with
  | dev a n =>
    simp only [step, Option.some.injEq, Prod.mk.injEq] at hs
    obtain ⟨rfl, rfl⟩ := hs
    generalize hd : (Device.step s.dev a).1 = d
    refine ⟨fun i hl => ?_, fun i hl => by simp only at hl; simp only [reconnect, hl]; rfl⟩
    simp only at hl
    by_cases hb : live s.dev i = true
    · refine (hi.up i hb).other (by simp [reconnect, hl, hb]) ?_ ?_ (by intro _ _ h; cases h)
      · rw [starts_iff]; rintro ⟨h, _⟩; simp only at h; rw [hb] at h; cases h
      · intro _ _ _ g
        obtain ⟨c, _, h, _⟩ := gives_controls g
        cases h
    · have hb : live s.dev i = false := by simpa using hb
      have hst : Event.starts ⟨s.dev, .dev a n, .dev (Device.step s.dev a).2, d⟩ i := by
        rw [starts_iff]; exact ⟨hb, hl⟩
      refine ⟨?_, ⟨[], ?_, fun d k => .start _ _ hst⟩, ?_⟩
      · simp only [reconnect, hl, hb]; exact hok
      · simp only [reconnect, hl, hb]; rfl
      · intro crep c hc
        simp only [reconnect, hl, hb, if_true, Conn.start, Bool.false_eq_true, if_false] at hc ⊢
        refine ⟨[], [], by simp [Cpm.run, hc], by simp, .start _ _ hst, ?_⟩
        simp only [Cpm.hist, List.zip_nil_left, List.reverse_nil, Cpm.Ended, List.not_mem_nil, false_and, exists_false,
          false_iff]
        intro l
        cases l with
        | now _ _ h => exact h hst
        | before _ _ h => exact h hst
  | input c =>
    simp only [step, input] at hs
    cases ho : owner s c.key with
    | none =>
      rw [ho] at hs
      simp only [Option.some.injEq, Prod.mk.injEq] at hs
      obtain ⟨rfl, rfl⟩ := hs
      refine ⟨fun i hl => (hi.up i hl).other rfl (not_starts rfl i) ?_ (by intro _ _ h; cases h), hi.down⟩
      intro _ _ _ g
      obtain ⟨c', _, h, _, hc⟩ := gives_controls g
      cases h
      rw [controls_iff.1 hc] at ho; cases ho
    | some i =>
      rw [ho] at hs
      simp only [Option.bind_eq_bind, Option.bind_eq_some_iff] at hs
      obtain ⟨⟨st, o'⟩, hs1, hs2⟩ := hs
      simp only [Option.some.injEq, Prod.mk.injEq] at hs2
      obtain ⟨rfl, rfl⟩ := hs2
      refine ⟨fun j hl => ?_, fun j hl => ?_⟩
      · by_cases hj : j = i
        · subst hj
          refine (hi.up j hl).prov_step (not_starts rfl j) (by intro _ _ h; cases h) _ hs1 ?_
          intro d k v
          exact gives_iff rfl rfl (controls_iff.2 ho)
        · refine (hi.up j hl).other (by simp [updConn, hj]) (not_starts rfl j) ?_ (by intro _ _ h; cases h)
          intro _ _ _ g
          obtain ⟨c', _, h, _, hc⟩ := gives_controls g
          cases h
          have := controls_iff.1 hc
          rw [this] at ho; cases ho; exact hj rfl
      · have hz := hi.down j hl
        by_cases hj : j = i
        · subst hj
          simp only [updConn, if_true]
          rw [hz] at hs1 ⊢
          rw [ppm_nil hs1]
        · simp only [updConn, hj, if_false]; exact hz
  | output c =>
    have hsame : ∀ o, Inv s (⟨s.dev, .output c, o, s.dev⟩ :: t) := fun o =>
      ⟨fun i hl => (hi.up i hl).other rfl (not_starts rfl i)
        (by intro _ _ _ g; obtain ⟨c', _, h, _⟩ := gives_controls g; cases h) (by intro _ _ h; cases h), hi.down⟩
    simp only [step, output] at hs
    cases ho : owner s c.key with
    | none =>
      rw [ho] at hs
      simp only [Option.some.injEq, Prod.mk.injEq] at hs
      obtain ⟨rfl, rfl⟩ := hs
      exact hsame _
    | some i =>
      rw [ho] at hs
      simp only at hs
      cases hf : findOut c.key 0 (s.conn i).neg.outs with
      | none =>
        rw [hf] at hs
        simp only [Option.some.injEq, Prod.mk.injEq] at hs
        obtain ⟨rfl, rfl⟩ := hs
        exact hsame _
      | some x =>
        obtain ⟨crep, d⟩ := x
        rw [hf] at hs
        simp only [Option.bind_eq_bind, Option.bind_eq_some_iff] at hs
        obtain ⟨⟨x, o'⟩, hs1, hs2⟩ := hs
        simp only [Option.some.injEq, Prod.mk.injEq] at hs2
        obtain ⟨rfl, rfl⟩ := hs2
        obtain ⟨cr, _, q1, q2, q3, q4⟩ := findOut_some hf
        simp only [Nat.sub_zero] at q1
        have hnd : ∀ f, ¬ Event.Delivers ⟨s.dev, .output c, .cons o', s.dev⟩ i crep f := by
          intro f g; cases g.1
        refine ⟨fun j hl => ?_, fun j hl => ?_⟩
        · by_cases hj : j = i
          · subst hj
            have hgood := (hi.up j hl).good.2 cr (List.mem_of_getElem? q1)
            refine (hi.up j hl).cons_step (not_starts rfl j)
              (by intro _ _ _ g; obtain ⟨c', _, h, _⟩ := gives_controls g; cases h) _ hs1 ?_
              (by intro _ _ h; cases h) ?_ ?_
            · intro c' hc'
              rw [q1] at hc'; cases hc'
              have := hgood.2.2 _ q3
              cases c with
              | getData k a b => exact ⟨this.1, this.2.1⟩
              | getIocs k a => exact this.2.2
            · intro h
              refine ⟨fun f hf => absurd hf (hnd f), fun _ => ?_⟩
              cases c <;> rfl
            · constructor
              · rintro ⟨_, _, h, _⟩; cases h
              · intro h
                exfalso
                cases c with
                | getData k a b =>
                  simp only [OutCall.toCpm, Cpm.step, Option.map_eq_some_iff] at hs1
                  obtain ⟨y, _, hy⟩ := hs1
                  simp only [Prod.mk.injEq] at hy
                  rw [← hy.2] at h
                  simp [OutCall.toCpm] at h
                | getIocs k a =>
                  simp only [OutCall.toCpm, Cpm.step, Option.map_eq_some_iff] at hs1
                  obtain ⟨y, _, hy⟩ := hs1
                  simp only [Prod.mk.injEq] at hy
                  rw [← hy.2] at h
                  simp [OutCall.toCpm] at h
          · exact (hi.up j hl).other (by simp [updConn, hj]) (not_starts rfl j)
              (by intro _ _ _ g; obtain ⟨c', _, h, _⟩ := gives_controls g; cases h) (by intro _ _ h; cases h)
        · have hz := hi.down j hl
          by_cases hj : j = i
          · subst hj
            rw [hz] at q1; simp [Conn.zero] at q1
          · simp only [updConn, hj, if_false]; exact hz
  | provider i p =>
    simp only [step] at hs
    by_cases hl' : live s.dev i = true
    · rw [if_pos hl'] at hs
      simp only [Option.bind_eq_bind, Option.bind_eq_some_iff] at hs
      obtain ⟨⟨st, o'⟩, hs1, hs2⟩ := hs
      simp only [Option.some.injEq, Prod.mk.injEq] at hs2
      obtain ⟨rfl, rfl⟩ := hs2
      refine ⟨fun j hl => ?_, fun j hl => ?_⟩
      · by_cases hj : j = i
        · subst hj
          refine (hi.up j hl).prov_step (not_starts rfl j) (by intro _ _ h; cases h) _ hs1 ?_
          intro d k v
          rw [wrote_provider]
          constructor
          · intro g; obtain ⟨c', _, h, _⟩ := gives_controls g; cases h
          · intro h; cases h
        · exact (hi.up j hl).other (by simp [updConn, hj]) (not_starts rfl j)
            (by intro _ _ _ g; obtain ⟨c', _, h, _⟩ := gives_controls g; cases h) (by intro _ _ h; cases h)
      · have hj : j ≠ i := by rintro rfl; simp only at hl; rw [hl'] at hl; cases hl
        simp only [updConn, hj, if_false]; exact hi.down j hl
    · rw [if_neg hl'] at hs
      simp only [Option.some.injEq, Prod.mk.injEq] at hs
      obtain ⟨rfl, rfl⟩ := hs
      exact ⟨fun j hl => (hi.up j hl).other rfl (not_starts rfl j)
        (by intro _ _ _ g; obtain ⟨c', _, h, _⟩ := gives_controls g; cases h) (by intro _ _ h; cases h), hi.down⟩
  | consumer i crep c =>
    simp only [step] at hs
    by_cases hl' : live s.dev i = true ∧ crep < (s.conn i).neg.outs.length
    · rw [if_pos hl'] at hs
      simp only [Option.bind_eq_bind, Option.bind_eq_some_iff] at hs
      obtain ⟨⟨x, o'⟩, hs1, hs2⟩ := hs
      simp only [Option.some.injEq, Prod.mk.injEq] at hs2
      obtain ⟨rfl, rfl⟩ := hs2
      refine ⟨fun j hl => ?_, fun j hl => ?_⟩
      · by_cases hj : j = i
        · subst hj
          refine (hi.up j hl).cons_step (not_starts rfl j)
            (by intro _ _ _ g; obtain ⟨c', _, h, _⟩ := gives_controls g; cases h) _ hs1 ?_
            (by intro _ _ h; cases h; rfl) ?_ ?_
          · intro c' _
            cases c with
            | frame f => exact hok
            | tick a => trivial
            | close => trivial
          · intro h
            cases c with
            | frame f =>
              refine ⟨fun g hg => ?_, fun hg => ?_⟩
              · obtain ⟨h1, o2, h2, h3⟩ := hg
                cases h1; cases h2
                simp only [Consumer.toCpm, Cpm.lastDelivered]
                rw [if_pos h3]
              · simp only [Consumer.toCpm, Cpm.lastDelivered]
                rw [if_neg]
                intro h3
                exact hg f ⟨rfl, o', rfl, h3⟩
            | tick a => exact ⟨fun g hg => (by cases hg.1), fun _ => rfl⟩
            | close => exact ⟨fun g hg => (by cases hg.1), fun _ => rfl⟩
          · constructor
            · rintro ⟨_, _, h1, h2, h3⟩
              cases h1; cases h2
              rcases h3 with h3 | h3
              · exact Or.inl h3
              · subst h3; exact Or.inr rfl
            · rintro (h | h)
              · exact ⟨_, _, rfl, rfl, Or.inl h⟩
              · refine ⟨_, _, rfl, rfl, Or.inr ?_⟩
                cases c <;> first | rfl | cases h
        · refine (hi.up j hl).other (by simp [updConn, hj]) (not_starts rfl j)
            (by intro _ _ _ g; obtain ⟨c', _, h, _⟩ := gives_controls g; cases h) ?_
          intro cr c' h
          cases h; exact hj rfl
      · have hj : j ≠ i := by rintro rfl; simp only at hl; rw [hl'.1] at hl; cases hl
        simp only [updConn, hj, if_false]; exact hi.down j hl
    · rw [if_neg hl'] at hs
      simp only [Option.some.injEq, Prod.mk.injEq] at hs
      obtain ⟨rfl, rfl⟩ := hs
      have key : ∀ j crep', (⟨s.dev, .consumer i crep c, .nothing, s.dev⟩ : Event).Delivers j crep' = fun _ => False := by
        intro j cr; funext f; simp [Event.Delivers]
      refine ⟨fun j hl => ?_, hi.down⟩
      have hns := not_starts (e := ⟨s.dev, .consumer i crep c, .nothing, s.dev⟩) rfl j
      obtain ⟨h1, ⟨h, h2, h3⟩, h4⟩ := hi.up j hl
      refine ⟨h1, ⟨h, h2, fun d k => .keep _ _ _ hns ?_ (h3 d k)⟩, ?_⟩
      · intro _ g; obtain ⟨c', _, h, _⟩ := gives_controls g; cases h
      · intro cr c' hcr
        obtain ⟨ops, outs, q1, q2, q3, q4⟩ := h4 cr c' hcr
        refine ⟨ops, outs, q1, q2, .keep _ _ _ hns (fun f => by rw [key]; exact id) q3, ?_⟩
        rw [lost_keep hns (fun _ _ _ ho => by cases ho)]
        exact q4

theorem inv_exec : ∀ {ops : List Op} {s s' : Sys} {t t' : Trace}, Inv s t → (∀ op ∈ ops, op.Ok) →
    exec s ops t = some (s', t') → Inv s' t' := by
  intro ops
  induction ops with
  | nil =>
    intro s s' t t' hi _ h
    simp only [exec, Option.some.injEq, Prod.mk.injEq] at h
    obtain ⟨rfl, rfl⟩ := h
    exact hi
  | cons op ops ih =>
    intro s s' t t' hi hok h
    simp only [exec, Option.bind_eq_bind, Option.bind_eq_some_iff] at h
    obtain ⟨⟨s1, o⟩, h1, h2⟩ := h
    exact ih (inv_step hi (hok op (List.mem_cons_self ..)) h1) (fun a ha => hok a (List.mem_cons_of_mem _ ha)) h2

theorem inv_init (nA nS nB n : Nat) : Inv (init nA nS nB n) [] := by
  refine ⟨fun i hl => ?_, fun _ _ => rfl⟩
  exfalso
  rw [live_iff] at hl
  obtain ⟨x, h1, h2⟩ := hl
  simp only [init, Device.init, List.getElem?_replicate] at h1
  split at h1
  · cases h1; cases h2
  · cases h1

end Verif.Shared
