import Verif.Cpm.Spec
set_option linter.unusedSimpArgs false
set_option linter.unusedVariables false
namespace Verif.Cpm

theorem checkCycle_iff {prev : Int} {p now : Nat} (hp : prev % 65536 = (p : Int)) (hp2 : p < 65536)
    (hn : now < 65536) : checkCycle prev now = true ↔ Ahead p now := by
  unfold checkCycle Ahead
  rw [hp]
  simp only [Bool.and_eq_true, decide_eq_true_eq]
  constructor
  · rintro ⟨h1, h2⟩
    refine ⟨(((now : Int) - p) % 65536).toNat, by omega, by omega, by omega⟩
  · rintro ⟨k, h1, h2, h3⟩
    omega

theorem and4_iff : ∀ b : Byte, (b &&& 4#8 ≠ 0) ↔ b.getLsbD 2 = true := by decide

theorem tail_spec {f : Frame} (h : ValidRx f) : ∃ t, slice f.bytes (f.bytes.length - 4) 4 = some t ∧
    t.getD 0 0 = f.byteFromEnd 4 ∧ t.getD 1 0 = f.byteFromEnd 3 ∧ t.getD 2 0 = f.byteFromEnd 2 ∧
    t.getD 3 0 = f.byteFromEnd 1 := by
  obtain ⟨h1, h2, h3⟩ := h
  have hle : f.bytes.length - 4 + 4 ≤ f.bytes.length := by omega
  refine ⟨_, slice_eq_some hle, ?_⟩
  have hg := slice_get (slice_eq_some hle)
  have key : ∀ i k, i < 4 → f.bytes.length - 4 + i = f.bytes.length - k →
      (List.take 4 (List.drop (f.bytes.length - 4) f.bytes)).getD i 0 = f.byteFromEnd k := by
    intro i k hi hk
    rw [List.getD_eq_getElem?_getD, hg i, if_pos hi, hk, Frame.byteFromEnd, List.getD_eq_getElem?_getD]
  exact ⟨key 0 4 (by omega) (by omega), key 1 3 (by omega) (by omega), key 2 2 (by omega) (by omega),
    key 3 1 (by omega) (by omega)⟩

def phaseOf : St → Phase
  | .wStart => .down
  | .frun => .waiting
  | .run => .running

/-- The implementation state represents the abstract state. -/
structure R (cfg : Cfg) (c : Cpm) (v : View) : Prop where
  phase : phaseOf c.state = v.phase
  sa : c.sa = cfg.sa
  dhf : c.dataHoldFactor = cfg.dataHoldFactor
  blen : c.bufferLength = cfg.cSduLength + 20
  timer : c.timer = v.timer
  down : v.phase = .down → v.timer = false
  ci : v.phase ≠ .down → c.ciRunning = true
  cyc : c.cycle % 65536 = (v.lastCounter : Int)
  status : c.dataStatus = v.lastStatus
  dht : v.phase = .running → c.dht = v.missed ∧ v.missed ≤ cfg.dataHoldFactor
  unread : c.newBuf = v.unread
  buf : v.phase ≠ .down → (if c.newBuf then c.bufCpm else c.bufApp) = v.last.map Frame.bytes
  pos : ∀ f, v.last = some f → c.bufferPos = f.frameIdPos + 2 ∧ ValidRx f ∧ WellFormed cfg f

theorem R_init (cfg : Cfg) : R cfg (start cfg) View.init := by
  constructor <;> simp [start, activate, fresh, View.init, phaseOf, View.lastCounter, View.lastStatus]
  omega

theorem lastCounter_lt (v : View) : v.lastCounter < 65536 := by
  unfold View.lastCounter
  cases v.last with
  | none => simp
  | some f => exact be16_lt _ _

theorem src_spec {c : Cpm} {f : Frame} (h : ValidRx f) :
    checkSrcAddr c f = some (decide ((f.bytes.drop 6).take 6 = c.sa)) := by
  obtain ⟨h1, h2, h3⟩ := h
  simp [checkSrcAddr, slice_eq_some (show 6 + 6 ≤ f.bytes.length by omega)]

/-- The frame handler in terms of the specification's notions. -/
theorem cDataInd_deliver {cfg c v f} (hcfg : CfgOk cfg) (h : R cfg c v) (hf : ValidRx f)
    (hp : v.phase ≠ .down) (hd : Deliverable cfg v.lastCounter f) :
    cDataInd c f = some ({ c with
        bufCpm := some f.bytes, newBuf := true, bufferPos := f.frameIdPos + 2,
        dht := 0, cycle := f.counter, dataStatus := f.status, state := .run },
      (if v.phase = .waiting then [Ev.start] else []) ++ [Ev.newData] ++
          (if f.status ≠ v.lastStatus then [Ev.statusChanged (v.lastStatus ^^^ f.status) f.status] else [])) := by
  obtain ⟨⟨hlen, hsa, htr⟩, hval, hah⟩ := hd
  obtain ⟨t, ht, t0, t1, t2, t3⟩ := tail_spec hf
  obtain ⟨h1, h2, h3⟩ := hf
  have hpos : (f.bytes.length + 65536 - 4) % 65536 = f.bytes.length - 4 := by omega
  have hl : (f.bytes.length + 65536 - f.frameIdPos + 14) % 65536 = c.bufferLength := by
    rw [h.blen]; unfold CfgOk at hcfg; omega
  have hdv : (f.byteFromEnd 2 &&& 4#8 ≠ 0) := (and4_iff _).2 hval
  have hcc : checkCycle c.cycle f.counter = true :=
    (checkCycle_iff h.cyc (lastCounter_lt v) (be16_lt _ _)).2 hah
  have hst : (if c.state = .frun then [Ev.start] else []) = (if v.phase = .waiting then [Ev.start] else []) := by
    rw [← h.phase]; cases c.state <;> simp [phaseOf]
  have hxor : (c.dataStatus ^^^ f.status ≠ 0) ↔ f.status ≠ v.lastStatus := by
    rw [h.status]
    exact not_congr (BitVec.xor_eq_zero_iff.trans eq_comm)
  have hsc : c.state ≠ .wStart := by
    intro hh; apply hp; rw [← h.phase, hh]; rfl
  have hpb : (f.byteFromEnd 2 &&& 1#8 ≠ 0) ∨ (f.byteFromEnd 2 &&& 1#8 = 0) := by
    by_cases hh : f.byteFromEnd 2 &&& 1#8 = 0
    · exact .inr hh
    · exact .inl hh
  have hup : (decide (f.byteFromEnd 2 &&& 1#8 ≠ 0) || decide (f.byteFromEnd 2 &&& 1#8 = 0)) = true := by
    rcases hpb with hh | hh <;> simp [hh]
  unfold cDataInd
  rw [if_neg hsc]
  · simp only [hpos, ht]
    simp only [bind, Option.bind, src_spec ⟨h1, h2, h3⟩, t0, t1, t2, t3]
    rw [← h.sa] at hsa
    have hcc' : checkCycle c.cycle (be16 (f.byteFromEnd 4) (f.byteFromEnd 3)) = true := hcc
    simp only [htr, hl, hsa, hcc', decide_eq_true hdv, decide_true, Bool.and_self, Bool.true_or, Bool.true_and, hup,
      Bool.and_true, if_true, putBuf]
    have hx : (c.dataStatus ^^^ f.byteFromEnd 2 ≠ 0) ↔ f.status ≠ v.lastStatus := hxor
    rw [hst]
    simp only [Bool.true_eq_false, if_false]
    have hx2 : (if c.dataStatus ^^^ f.byteFromEnd 2 ≠ 0 then
        [Ev.statusChanged (c.dataStatus ^^^ f.byteFromEnd 2) (f.byteFromEnd 2)] else []) =
        (if f.status ≠ v.lastStatus then [Ev.statusChanged (v.lastStatus ^^^ f.status) f.status] else []) := by
      rw [← h.status]
      by_cases hs : f.status ≠ v.lastStatus
      · rw [if_pos (hx.2 hs), if_pos (by rw [h.status]; exact hs)]; rfl
      · rw [if_neg (mt hx.1 hs), if_neg (by rw [h.status]; exact hs)]
    rw [hx2]
    rfl

theorem cDataInd_ignore {cfg c v f} (hcfg : CfgOk cfg) (h : R cfg c v) (hf : ValidRx f)
    (hd : ¬ (v.phase ≠ .down ∧ Deliverable cfg v.lastCounter f)) :
    cDataInd c f = some (c, []) := by
  unfold cDataInd
  split
  · rfl
  · rename_i hs
    have hp : v.phase ≠ .down := by
      rw [← h.phase]; revert hs; cases c.state <;> simp [phaseOf]
    obtain ⟨t, ht, t0, t1, t2, t3⟩ := tail_spec hf
    have hf' := hf
    obtain ⟨h1, h2, h3⟩ := hf
    have hpos : (f.bytes.length + 65536 - 4) % 65536 = f.bytes.length - 4 := by omega
    simp only [hpos, ht]
    simp only [bind, Option.bind, src_spec hf', t0, t1, t2, t3]
    by_cases hv : f.byteFromEnd 2 &&& 4#8 ≠ 0
    · simp only [decide_eq_true hv, Bool.true_eq_false, if_false]
      split
      · rename_i hr
        exfalso; apply hd
        refine ⟨hp, ?_, (and4_iff _).1 hv, ?_⟩
        · simp only [Bool.and_eq_true, decide_eq_true_eq] at hr
          obtain ⟨⟨⟨⟨ha, hb⟩, hc⟩, _⟩, _⟩ := hr
          refine ⟨?_, by rw [← h.sa]; exact hb, ha⟩
          rw [h.blen] at hc
          unfold CfgOk at hcfg
          omega
        · simp only [Bool.and_eq_true] at hr
          exact (checkCycle_iff h.cyc (lastCounter_lt v) (be16_lt _ _)).1 hr.1.2
      · rfl
    · simp only [decide_eq_false hv, if_true]

theorem field_slice {cfg} {f : Frame} {off len : Nat} (hw : WellFormed cfg f) (hl : off + len ≤ cfg.cSduLength) :
    slice f.bytes (f.frameIdPos + 2 + off) len = some (f.field off len) := by
  rw [slice_eq_some]
  · rfl
  · have := hw.1; omega

/-- Making the newest buffer the application's. -/
theorem getBuf_spec {cfg c v} (h : R cfg c v) (hp : v.phase ≠ .down) :
    (getBuf c).2 = v.unread ∧ (getBuf c).1.bufApp = v.last.map Frame.bytes ∧
    (getBuf c).1.bufferPos = c.bufferPos ∧ R cfg (getBuf c).1 { v with unread := false } := by
  have hb := h.buf hp
  unfold getBuf
  by_cases hn : c.newBuf = true
  · simp only [hn, if_true] at hb ⊢
    refine ⟨by rw [← h.unread, hn], hb, trivial, ?_⟩
    exact ⟨h.phase, h.sa, h.dhf, h.blen, h.timer, h.down, h.ci, h.cyc, h.status, h.dht, rfl,
      fun _ => by simpa using hb, h.pos⟩
  · have hn' : c.newBuf = false := by simpa using hn
    simp only [hn', Bool.false_eq_true, if_false] at hb ⊢
    refine ⟨by rw [← h.unread, hn'], hb, trivial, ?_⟩
    exact ⟨h.phase, h.sa, h.dhf, h.blen, h.timer, h.down, h.ci, h.cyc, h.status, h.dht, hn',
      fun _ => by simpa [hn'] using hb, h.pos⟩

theorem R_unread_none {cfg c v} (h : R cfg c v) (hp : v.phase ≠ .down) (hl : v.last = none) :
    R cfg (getBuf c).1 { v with unread := false } := (getBuf_spec h hp).2.2.2

/-- Reachable abstract states: nothing is unread before the first frame. -/
def VInv (v : View) : Prop := v.last = none → v.unread = false

theorem step_sim {cfg c v op} (hcfg : CfgOk cfg) (h : R cfg c v) (hv : VInv v) (he : EnvOk cfg op) :
    ∃ c', step c op = some (c', (specStep cfg v op).2) ∧ R cfg c' (specStep cfg v op).1 ∧
      VInv (specStep cfg v op).1 := by
  cases op with
  | frame f =>
    by_cases hd : v.phase ≠ .down ∧ Deliverable cfg v.lastCounter f
    · have e := cDataInd_deliver hcfg h he hd.1 hd.2
      refine ⟨_, by simp only [step, e, Option.map_some, specStep]; rw [if_pos hd], ?_, ?_⟩
      · simp only [specStep]
        rw [if_pos hd]
        refine ⟨rfl, h.sa, h.dhf, h.blen, h.timer, fun hh => (by cases hh), fun _ => h.ci hd.1, ?_, rfl,
          fun _ => ⟨rfl, Nat.zero_le _⟩, rfl, fun _ => rfl, ?_⟩
        · simp only [View.lastCounter, Option.map_some, Option.getD_some]
          have : f.counter < 65536 := be16_lt _ _
          omega
        · intro g hg
          cases hg
          exact ⟨rfl, he, hd.2.1⟩
      · simp only [specStep]
        rw [if_pos hd]
        intro hh; cases hh
    · refine ⟨c, by simp only [step, cDataInd_ignore hcfg h he hd, Option.map_some, specStep]; rw [if_neg hd], ?_, ?_⟩
      · simp only [specStep]; rw [if_neg hd]; exact h
      · simp only [specStep]; rw [if_neg hd]; exact hv
  | tick ok =>
    by_cases ht : v.timer = false
    · have ht' : c.timer = false := by rw [h.timer]; exact ht
      exact ⟨c, by simp [step, ciExpired, ht', specStep, ht], by simpa [specStep, ht] using h,
        by simpa [specStep, ht] using hv⟩
    · have ht1 : v.timer = true := by simpa using ht
      have ht' : c.timer = true := by rw [h.timer]; exact ht1
      have hnd : v.phase ≠ .down := fun hh => ht (h.down hh)
      have hci := h.ci hnd
      cases hph : v.phase with
      | down => exact absurd hph hnd
      | waiting =>
        have hs : c.state = .frun := by
          have := h.phase; rw [hph] at this; revert this; cases c.state <;> simp [phaseOf]
        cases ok with
        | true =>
          refine ⟨{ c with timer := true }, by simp [step, ciExpired, ht', hci, hs, specStep, ht1, hph], ?_,
            by simpa [specStep, ht1, hph, VInv] using hv⟩
          have : (specStep cfg v (.tick true)).1 = { v with timer := true } := by simp [specStep, ht1, hph]
          rw [this]
          exact ⟨h.phase, h.sa, h.dhf, h.blen, rfl, fun hh => absurd hh hnd, h.ci, h.cyc, h.status, h.dht, h.unread,
            h.buf, h.pos⟩
        | false =>
          refine ⟨{ c with timer := false }, by simp [step, ciExpired, ht', hci, hs, specStep, ht1, hph], ?_,
            by simpa [specStep, ht1, hph, VInv] using hv⟩
          have : (specStep cfg v (.tick false)).1 = { v with timer := false } := by simp [specStep, ht1, hph]
          rw [this]
          exact ⟨h.phase, h.sa, h.dhf, h.blen, rfl, fun _ => rfl, h.ci, h.cyc, h.status, h.dht, h.unread,
            h.buf, h.pos⟩
      | running =>
        have hs : c.state = .run := by
          have := h.phase; rw [hph] at this; revert this; cases c.state <;> simp [phaseOf]
        obtain ⟨hd1, hd2⟩ := h.dht hph
        by_cases hm : v.missed = cfg.dataHoldFactor
        · have hge : c.dht ≥ c.dataHoldFactor := by rw [hd1, h.dhf, hm]; exact Nat.le_refl _
          refine ⟨{ c with timer := false, dht := 0, ciRunning := false, state := .wStart },
            by simp [step, ciExpired, ht', hci, hs, specStep, ht1, hph, hm, hge], ?_,
            by simpa [specStep, ht1, hph, VInv, hm] using hv⟩
          have : (specStep cfg v (.tick ok)).1 = { v with phase := .down, timer := false } := by
            simp [specStep, ht1, hph, hm]
          rw [this]
          exact ⟨rfl, h.sa, h.dhf, h.blen, rfl, fun _ => rfl, fun hh => absurd rfl hh, h.cyc, h.status,
            fun hh => (by cases hh), h.unread, fun hh => absurd rfl hh, h.pos⟩
        · have hlt : ¬ c.dht ≥ c.dataHoldFactor := by rw [hd1, h.dhf]; omega
          have hlt' : ¬ c.dataHoldFactor ≤ c.dht := hlt
          refine ⟨{ c with timer := ok, dht := c.dht + 1 }, ?_, ?_, ?_⟩
          · cases ok <;> simp [step, ciExpired, ht', hci, hs, specStep, ht1, hph, hm, hlt']
          · have : (specStep cfg v (.tick ok)).1 = { v with missed := v.missed + 1, timer := ok } := by
              simp [specStep, ht1, hph, hm]
            rw [this]
            exact ⟨h.phase, h.sa, h.dhf, h.blen, rfl, fun hh => absurd hh hnd, h.ci, h.cyc, h.status,
              fun _ => ⟨by simp [hd1], by simp; omega⟩, h.unread, h.buf, h.pos⟩
          · simpa [specStep, ht1, hph, VInv, hm] using hv
  | getData d dl il =>
    by_cases hp : v.phase = .down
    · have hs : c.state = .wStart := by
        have := h.phase; rw [hp] at this; revert this; cases c.state <;> simp [phaseOf]
      exact ⟨c, by simp [step, getData, hs, specStep, hp], by simpa [specStep, hp] using h,
        by simpa [specStep, hp] using hv⟩
    · have hs : c.state ≠ .wStart := by
        intro hh; apply hp; rw [← h.phase, hh]; rfl
      by_cases hsz : dl < d.dataLen ∨ il < d.iopsLen
      · refine ⟨c, ?_, by simpa [specStep, hsz] using h, by simpa [specStep, hsz] using hv⟩
        simp only [step, getData, specStep, hsz, or_true, if_true, hs, if_false, Option.map_some]
      · obtain ⟨g1, g2, g3, g4⟩ := getBuf_spec h hp
        cases hl : v.last with
        | none =>
          have hu : v.unread = false := hv hl
          have hnb : c.newBuf = false := by rw [h.unread, hu]
          have hgb : getBuf c = (c, false) := by simp [getBuf, hnb]
          have hba : c.bufApp = none := by
            have := h.buf hp; simpa [hnb, hl] using this
          refine ⟨c, ?_, by simpa [specStep, hp, hsz, hl] using h, by simpa [specStep, hp, hsz, hl] using hv⟩
          simp only [step, getData, specStep, hsz, hp, hl, or_self, if_false, hgb, hba, hs, Option.map_some]
        | some f =>
          obtain ⟨hpos, hvr, hwf⟩ := h.pos f hl
          have hb : (getBuf c).1.bufApp = some f.bytes := by rw [g2, hl]; rfl
          refine ⟨(getBuf c).1, ?_, ?_, ?_⟩
          · simp only [step, getData, specStep, hsz, hp, hl, or_self, if_false, hs]
            simp only [hb, g3, hpos, field_slice hwf he.1, field_slice hwf he.2, bind, Option.bind, g1,
                Option.map_some]
          · simpa [specStep, hp, hsz, hl] using g4
          · simp [specStep, hp, hsz, hl, VInv]
  | getIocs d il =>
    by_cases hp : v.phase = .down
    · have hs : c.state = .wStart := by
        have := h.phase; rw [hp] at this; revert this; cases c.state <;> simp [phaseOf]
      exact ⟨c, by simp [step, getIocs, hs, specStep, hp], by simpa [specStep, hp] using h,
        by simpa [specStep, hp] using hv⟩
    · have hs : c.state ≠ .wStart := by
        intro hh; apply hp; rw [← h.phase, hh]; rfl
      by_cases hsz : il < d.iocsLen ∨ d.iocsLen = 0
      · refine ⟨c, ?_, by simpa [specStep, hsz] using h, by simpa [specStep, hsz] using hv⟩
        simp only [step, getIocs, specStep, hsz, or_true, if_true, hs, if_false]
        rcases hsz with hh | hh <;> simp [hh]
      · have hsz1 : ¬ il < d.iocsLen := fun hh => hsz (.inl hh)
        have hsz2 : ¬ d.iocsLen = 0 := fun hh => hsz (.inr hh)
        obtain ⟨g1, g2, g3, g4⟩ := getBuf_spec h hp
        cases hl : v.last with
        | none =>
          have hu : v.unread = false := hv hl
          have hnb : c.newBuf = false := by rw [h.unread, hu]
          have hgb : getBuf c = (c, false) := by simp [getBuf, hnb]
          have hba : c.bufApp = none := by
            have := h.buf hp; simpa [hnb, hl] using this
          refine ⟨c, ?_, by simpa [specStep, hp, hsz, hl] using h, by simpa [specStep, hp, hsz, hl] using hv⟩
          simp only [step, getIocs, specStep, hsz1, hsz2, hp, hl, or_self, if_false, hgb, hba, hs, Option.map_some]
        | some f =>
          obtain ⟨hpos, hvr, hwf⟩ := h.pos f hl
          have hb : (getBuf c).1.bufApp = some f.bytes := by rw [g2, hl]; rfl
          refine ⟨(getBuf c).1, ?_, ?_, ?_⟩
          · simp only [step, getIocs, specStep, hsz1, hsz2, hp, hl, or_self, if_false, hs]
            simp only [hb, g3, hpos, field_slice hwf he, bind, Option.bind, g1, Option.map_some]
          · simpa [specStep, hp, hsz1, hsz2, hl] using g4
          · simp [specStep, hp, hsz1, hsz2, hl, VInv]
  | close =>
    refine ⟨close c, by simp [step, specStep], ?_, by simpa [specStep, VInv] using hv⟩
    simp only [specStep]
    exact ⟨rfl, h.sa, h.dhf, h.blen, rfl, fun _ => rfl, fun hh => absurd rfl hh, h.cyc, h.status,
      fun hh => (by cases hh), h.unread, fun hh => absurd rfl hh, h.pos⟩

theorem run_sim {cfg} (hcfg : CfgOk cfg) (ops : List Op) : ∀ {c v}, R cfg c v → VInv v →
    (∀ op ∈ ops, EnvOk cfg op) →
    ∃ c', run c ops = some (c', (specRun cfg v ops).2) ∧ R cfg c' (specRun cfg v ops).1 := by
  induction ops with
  | nil => intro c v h _ _; exact ⟨c, rfl, h⟩
  | cons op ops ih =>
    intro c v h hv he
    obtain ⟨c1, e1, h1, hv1⟩ := step_sim hcfg h hv (he op (by simp))
    obtain ⟨c2, e2, h2⟩ := ih h1 hv1 (fun o ho => he o (by simp [ho]))
    exact ⟨c2, by simp [run, e1, e2, specRun], by simpa [specRun] using h2⟩

end Verif.Cpm
