import Verif.Shared.Lemmas
/-!
# C143: data calls act on the connection that controls the submodule
-/
set_option linter.unusedVariables false
namespace Verif.Shared
open Verif.Layout (Key Kind IoData)

theorem latest_unique {i : Nat} {d : IoData} {k : Kind} {t : Trace} {v w : List Byte} (hv : Latest i d k t v)
    (hw : Latest i d k t w) : v = w := by
  have gu : ∀ {e : Event} {v w}, e.Gives i d k v → e.Gives i d k w → v = w := by
    intro e v w g1 g2
    obtain ⟨c, o, h1, h2, h3⟩ := gives_controls g1
    rw [gives_iff h1 h2 h3] at g1 g2
    rw [g1] at g2; exact Option.some.inj g2
  induction hv generalizing w with
  | start e t h =>
    cases hw with
    | start => rfl
    | given _ _ _ h' => exact absurd h h'
    | keep _ _ _ h' => exact absurd h h'
  | given e t v h g =>
    cases hw with
    | start _ _ h' => exact absurd h' h
    | given _ _ _ h' g' => exact gu g g'
    | keep _ _ _ h' g' => exact absurd g (g' _)
  | keep e t v h g r ih =>
    cases hw with
    | start _ _ h' => exact absurd h' h
    | given _ _ _ h' g' => exact absurd g' (g _)
    | keep _ _ _ h' g' r' => exact ih r'

theorem lastFrame_unique {i crep : Nat} {t : Trace} {v w : Option Cpm.Frame} (hv : LastFrame i crep t v)
    (hw : LastFrame i crep t w) : v = w := by
  induction hv generalizing w with
  | start e t h =>
    cases hw with
    | start => rfl
    | new _ _ _ h' => exact absurd h h'
    | keep _ _ _ h' => exact absurd h h'
  | new e t f h g =>
    cases hw with
    | start _ _ h' => exact absurd h' h
    | new _ _ f' h' g' =>
      have := g.1.symm.trans g'.1
      injection this with _ _ h3
      injection h3 with h4
      rw [h4]
    | keep _ _ _ h' g' => exact absurd g (g' _)
  | keep e t v h g r ih =>
    cases hw with
    | start _ _ h' => exact absurd h' h
    | new _ _ _ h' g' => exact absurd g' (g _)
    | keep _ _ _ h' g' r' => exact ih r'

/-- **C143, other connections.** A call about the data of a submodule leaves every connection that does not
control the submodule exactly as it was, and all plugged submodules with their owners.  If no connection
controls the submodule, the call is refused. -/
theorem C143_others_untouched (s s' : Sys) (o : Out) (k : Key) :
    (∀ c : InCall, c.key = k → step s (.input c) = some (s', o) →
      s'.dev = s.dev ∧ (∀ j, ¬ Controls s.dev j k → s'.conn j = s.conn j) ∧
      ((∀ j, ¬ Controls s.dev j k) → o = .prov (.ret (-1)))) ∧
    (∀ c : OutCall, c.key = k → step s (.output c) = some (s', o) →
      s'.dev = s.dev ∧ (∀ j, ¬ Controls s.dev j k → s'.conn j = s.conn j) ∧
      ((∀ j, ¬ Controls s.dev j k) → o = .cons ⟨[], .err⟩)) := by
  constructor
  · intro c hk hs
    subst hk
    simp only [step, input] at hs
    cases ho : owner s c.key with
    | none =>
      rw [ho] at hs
      simp only [Option.some.injEq, Prod.mk.injEq] at hs
      obtain ⟨rfl, rfl⟩ := hs
      exact ⟨rfl, fun _ _ => rfl, fun _ => rfl⟩
    | some i =>
      rw [ho] at hs
      simp only [Option.bind_eq_bind, Option.bind_eq_some_iff] at hs
      obtain ⟨⟨st, o'⟩, hs1, hs2⟩ := hs
      simp only [Option.some.injEq, Prod.mk.injEq] at hs2
      obtain ⟨rfl, rfl⟩ := hs2
      have hc := controls_iff.2 ho
      refine ⟨rfl, fun j hj => ?_, fun h => absurd hc (h i)⟩
      have : j ≠ i := by rintro rfl; exact hj hc
      simp [updConn, this]
  · intro c hk hs
    subst hk
    simp only [step, output] at hs
    cases ho : owner s c.key with
    | none =>
      rw [ho] at hs
      simp only [Option.some.injEq, Prod.mk.injEq] at hs
      obtain ⟨rfl, rfl⟩ := hs
      exact ⟨rfl, fun _ _ => rfl, fun _ => rfl⟩
    | some i =>
      rw [ho] at hs
      have hc := controls_iff.2 ho
      simp only at hs
      cases hf : findOut c.key 0 (s.conn i).neg.outs with
      | none =>
        rw [hf] at hs
        simp only [Option.some.injEq, Prod.mk.injEq] at hs
        obtain ⟨rfl, rfl⟩ := hs
        exact ⟨rfl, fun _ _ => rfl, fun _ => rfl⟩
      | some x =>
        obtain ⟨crep, d⟩ := x
        rw [hf] at hs
        simp only [Option.bind_eq_bind, Option.bind_eq_some_iff] at hs
        obtain ⟨⟨x, o'⟩, hs1, hs2⟩ := hs
        simp only [Option.some.injEq, Prod.mk.injEq] at hs2
        obtain ⟨rfl, rfl⟩ := hs2
        refine ⟨rfl, fun j hj => ?_, fun h => absurd hc (h i)⟩
        have : j ≠ i := by rintro rfl; exact hj hc
        simp [updConn, this]

/-- **C143, input data.** Whatever connections come and go and whatever submodules are plugged and
pulled: a frame sent by a connection carries, in every field of a submodule, the value most recently given by
a call that was made while this connection controlled the submodule (zeros if there was none since the
connection exists).  Only for fields within the transmitted part of the frame, see C54. -/
theorem C143_frame_content (nA nS nB n : Nat) (ops : List Op) (hok : ∀ op ∈ ops, op.Ok) (s : Sys) (t : Trace)
    (he : exec (init nA nS nB n) ops [] = some (s, t)) (i m : Nat) (c : Ppm.Cfg) (hc : (s.conn i).neg.ins[m]? = some c)
    (now : BitVec 32) (ethOk addOk : Bool) (s' : Sys) (frame : List Byte) (nx : Option (BitVec 32)) (er : Bool)
    (hs : step s (.provider i (.fire m now ethOk addOk)) = some (s', .prov (.fired frame nx er))) :
    ∃ payload counter status, frame = Ppm.wire c payload counter status ∧ payload.length = c.cSdu ∧
      ∀ d ∈ c.descs, ∀ k, Ppm.off d k + Ppm.len d k ≤ c.inLen → Ppm.Target (s.conn i).neg.ins d.key m →
        ∃ v, slice payload (Ppm.off d k) (Ppm.len d k) = some v ∧ Latest i d k t v := by
  have hi := inv_exec (inv_init nA nS nB n) hok he
  simp only [step] at hs
  by_cases hl : live s.dev i = true
  · rw [if_pos hl] at hs
    simp only [Option.bind_eq_bind, Option.bind_eq_some_iff] at hs
    obtain ⟨⟨st, o'⟩, hs1, hs2⟩ := hs
    simp only [Option.some.injEq, Prod.mk.injEq, Out.prov.injEq] at hs2
    obtain ⟨_, rfl⟩ := hs2
    obtain ⟨hgood, ⟨h, h1, h2⟩, _⟩ := hi.up i hl
    obtain ⟨payload, counter, q1, q2, q3, _⟩ :=
      Ppm.C54_frame_content_partial _ hgood.1 _ _ h h1 m c hc now ethOk addOk _ frame nx er hs1
    refine ⟨payload, counter, _, q1, q2, fun d hd k hk ht => ⟨_, q3 d hd k hk, ?_⟩⟩
    unfold Ppm.want
    rw [if_pos ht]
    exact h2 d k
  · rw [if_neg hl] at hs
    simp only [Option.some.injEq, Prod.mk.injEq] at hs
    cases hs.2

/-- **C143, acceptance.** A call that gives data and provider status to a submodule is accepted exactly if
the connection that controls the submodule provides it and the lengths are the negotiated ones. -/
theorem C143_set_accepted (nA nS nB n : Nat) (ops : List Op) (hok : ∀ op ∈ ops, op.Ok) (s : Sys) (t : Trace)
    (he : exec (init nA nS nB n) ops [] = some (s, t)) (k : Key) (x : List Byte) (null : Bool) (iops : List Byte) :
    ∃ s' r, step s (.input (.setData k x null iops)) = some (s', .prov (.ret r)) ∧ (r = 0 ∨ r = -1) ∧
      (r = 0 ↔ ∃ i m c d, Controls s.dev i k ∧ (∃ a, Device.Live s.dev i a) ∧ (s.conn i).neg.ins[m]? = some c ∧
        Ppm.Target (s.conn i).neg.ins k m ∧ d ∈ c.descs ∧ d.key = k ∧ x.length = d.dataLen ∧ iops.length = d.iopsLen) := by
  have hi := inv_exec (inv_init nA nS nB n) hok he
  simp only [step, input, InCall.key, InCall.toPpm]
  cases ho : owner s k with
  | none =>
    refine ⟨s, -1, rfl, Or.inr rfl, ?_⟩
    constructor
    · intro h; cases h
    · rintro ⟨i, _, _, _, hc, _⟩
      rw [controls_iff.1 hc] at ho; cases ho
  | some i =>
    have hcon : ∀ {j}, Controls s.dev j k → j = i := by
      intro j hj
      have := controls_iff.1 hj
      rw [ho] at this; exact (Option.some.inj this).symm
    simp only [Ppm.step]
    cases hf : Ppm.find (s.conn i).neg.ins k true with
    | none =>
      refine ⟨_, -1, by simp only [Ppm.setData, hf]; rfl, Or.inr rfl, ?_⟩
      constructor
      · intro h; cases h
      · rintro ⟨j, m, c, d, hc, _, hm, ht, hd, hk, _⟩
        obtain rfl := hcon hc
        simp only [Ppm.find, if_true] at hf
        have := Ppm.findFrom_spec k (s.conn j).neg.ins 0
        rw [hf] at this
        obtain ⟨⟨c', a1, a2, a3⟩, _⟩ := ht
        exact absurd a3 (this m c' a1 a2)
    | some y =>
      obtain ⟨m, d⟩ := y
      have hl : live s.dev i = true := by
        cases hl : live s.dev i with
        | true => rfl
        | false =>
          rw [hi.down i hl] at hf
          simp [Conn.zero, Ppm.find, Ppm.findFrom] at hf
      obtain ⟨hgood, ⟨h, h1, h2⟩, _⟩ := hi.up i hl
      obtain ⟨_, ht, c, hm, hin, hd, hk⟩ := Ppm.find_some hf
      obtain ⟨st', hst⟩ := Ppm.C05_accepts_exact_lengths _ hgood.1 _ _ h h1 k true m d hf x iops null
      simp only [Ppm.step] at hst
      refine ⟨_, if x.length = d.dataLen ∧ iops.length = d.iopsLen then 0 else -1, by rw [hst]; rfl, ?_, ?_⟩
      · split
        · exact Or.inl rfl
        · exact Or.inr rfl
      · by_cases hlen : x.length = d.dataLen ∧ iops.length = d.iopsLen
        · rw [if_pos hlen]
          simp only [true_iff]
          exact ⟨i, m, c, d, controls_iff.2 ho, live_iff.1 hl, hm, ht, hd, hk, hlen.1, hlen.2⟩
        · rw [if_neg hlen]
          constructor
          · intro h; cases h
          · rintro ⟨j, m', c', d', hc, _, hm', ht', hd', hk', l1, l2⟩
            obtain rfl := hcon hc
            have e := Ppm.target_unique ht ht'
            subst e
            rw [hm] at hm'; cases hm'
            have hgc := hgood.1 c (List.mem_of_getElem? hm)
            have e : d' = d := Ppm.key_inj hgc hd' hd (by rw [hk', hk])
            subst e
            exact absurd ⟨l1, l2⟩ hlen

/-- **C143, output data.** Reading the output data of a submodule returns the bytes in the last frame delivered on
the first output IOCR, of the connection that controls the submodule, which lists it; the read is refused
exactly if reception on that IOCR was lost or closed, the buffers are too small, or nothing was delivered
since the connection exists. -/
theorem C143_output_data (nA nS nB n : Nat) (ops : List Op) (hok : ∀ op ∈ ops, op.Ok) (s : Sys) (t : Trace)
    (he : exec (init nA nS nB n) ops [] = some (s, t)) (i : Nat) (k : Key) (x : Device.Ar) (hx : Device.Live s.dev i x)
    (hc : Controls s.dev i k) (crep : Nat) (d : Cpm.Desc) (ht : OutTarget (s.conn i).neg.outs k crep d) (dl il : Nat) :
    ∃ s' o last, step s (.output (.getData k dl il)) = some (s', .cons o) ∧ LastFrame i crep t last ∧
      (o.res = .err ↔ Lost i crep t ∨ dl < d.dataLen ∨ il < d.iopsLen ∨ last = none) ∧
      (o.res ≠ .err → ∃ f new, last = some f ∧
        o.res = .data new (f.field d.dataOff d.dataLen) (f.field d.iopsOff d.iopsLen)) := by
  have hi := inv_exec (inv_init nA nS nB n) hok he
  obtain ⟨hgood, _, hcons⟩ := hi.up i (live_iff.2 ⟨x, hx⟩)
  obtain ⟨⟨cr, h1, h2, h3⟩, h4⟩ := ht
  have hf := (target_iff (fun c hc => (hgood.2 c hc).2.1)).1 ⟨⟨cr, h1, h2, h3⟩, h4⟩
  obtain ⟨ops', outs, q1, q2, q3, q4⟩ := hcons crep cr h1
  have g := hgood.2 cr (List.mem_of_getElem? h1)
  have g' := g.2.2 _ h3
  obtain ⟨c, outs', c', o, e1, e2, e3, e4⟩ :=
    Cpm.C09_reads_last_delivered cr.cfg g.1 ops' q2 d dl il ⟨g'.1, g'.2.1⟩
  rw [q1] at e1
  cases e1
  simp only [step, output, OutCall.key, controls_iff.1 hc, hf, OutCall.toCpm, e2]
  refine ⟨_, o, _, rfl, q3, ?_, ?_⟩
  · rw [← q4]; exact e3
  · intro h
    obtain ⟨f, a, b⟩ := e4 h
    exact ⟨f, _, a, b⟩

/-- **C143, control.** Nobody controls a submodule that is not plugged, and never do two connections control the same
submodule. -/
theorem C143_one_controller (st : Device.St) (i j : Nat) (k : Key) (hi : Controls st i k) (hj : Controls st j k) : i = j := by
  obtain ⟨y, h1, h2⟩ := hi
  obtain ⟨z, h3, h4⟩ := hj
  rw [h1] at h3; cases h3
  rw [h2] at h4; exact Option.some.inj h4

/-! ### A concrete history -/

/-- One input byte and one status byte for the submodule in slot `s`. -/
def exIn (s : Nat) : Ppm.Cfg :=
  ⟨true, 40, 2, [⟨⟨0, s, 1⟩, 0, 1, 1, 1, 0, 0⟩], [1, 2, 3, 4, 5, 6], [6, 5, 4, 3, 2, 1], 0, 6, 0x8000 + s, 32, 1⟩

def exNeg (s : Nat) : Neg := ⟨[exIn s], [⟨true, Cpm.exCfg, [(⟨0, s, 1⟩, Cpm.exDesc)]⟩]⟩

theorem exNeg_good (s : Nat) : (exNeg s).Good := by
  refine ⟨?_, ?_⟩
  · intro c hc
    simp only [exNeg, List.mem_singleton] at hc
    subst hc
    refine ⟨by simp [exIn], ?_, ?_, by simp [exIn], by simp [exIn], rfl, rfl, by simp [exIn]⟩
    · intro d hd k
      simp only [exIn, List.mem_singleton] at hd
      subst hd
      cases k <;> simp [exIn, Ppm.off, Ppm.len]
    · intro d hd d' hd' k k' b hb hb'
      simp only [exIn, List.mem_singleton] at hd hd'
      subst hd; subst hd'
      refine ⟨rfl, ?_⟩
      cases k <;> cases k' <;> simp [Layout.Covers] at hb hb' ⊢ <;> omega
  · intro c hc
    simp only [exNeg, List.mem_singleton] at hc
    subst hc
    refine ⟨by simp [Cpm.CfgOk, Cpm.exCfg], by simp, ?_⟩
    intro d hd
    simp only [List.mem_singleton] at hd
    subst hd
    simp [Cpm.exCfg, Cpm.exDesc]

/-- Two controllers connect, the application sets the input data of both submodules, both send, both receive. -/
def exOps : List Op :=
  [.dev Device.samplePlug ⟨[], []⟩, .dev Device.samplePlug2 ⟨[], []⟩,
   .dev (.connect (Device.sampleRequest 7 Device.sampleExp true)) (exNeg 1),
   .dev (.connect (Device.sampleRequest 8 Device.sampleExp2 true)) (exNeg 2),
   .provider 0 (.create 0 (Vector.replicate _ 0)), .provider 1 (.create 0 (Vector.replicate _ 0)),
   .provider 0 (.activate 0 1000 true), .provider 1 (.activate 0 1000 true),
   .input (.setData ⟨0, 1, 1⟩ [0xA1] false [0x80]), .input (.setData ⟨0, 2, 1⟩ [0xA2] false [0x80]),
   .consumer 0 0 (.frame (Cpm.exFrame 8 0xB1)), .consumer 1 0 (.frame (Cpm.exFrame 8 0xB2))]

/-- The bytes at the place of the data and the provider status in the frame. -/
def fieldsOf : Option (Sys × Out) → Option (List Byte)
  | some (_, .prov (.fired f _ _)) => some ((f.drop 20).take 2)
  | _ => none

def dataOf : Option (Sys × Out) → Option (List Byte)
  | some (_, .cons ⟨_, .data _ d _⟩) => some d
  | _ => none

def after (ops : List Op) (op : Op) : Option (Sys × Out) :=
  (exec (init 1 2 2 2) ops []).bind fun r => step r.1 op

/-- The history meets the hypotheses; each connection sends and delivers the data of its own submodule. -/
theorem C143_example : (∀ op ∈ exOps, op.Ok) ∧
    fieldsOf (after exOps (.provider 0 (.fire 0 2000 true true))) = some [0xA1, 0x80] ∧
    fieldsOf (after exOps (.provider 1 (.fire 0 2000 true true))) = some [0xA2, 0x80] ∧
    dataOf (after exOps (.output (.getData ⟨0, 1, 1⟩ 1 1))) = some [0xB1] ∧
    dataOf (after exOps (.output (.getData ⟨0, 2, 1⟩ 1 1))) = some [0xB2] := by
  refine ⟨?_, by decide +kernel, by decide +kernel, by decide +kernel, by decide +kernel⟩
  intro op hop
  simp only [exOps, List.mem_cons, List.not_mem_nil, or_false] at hop
  have h0 : Neg.Good ⟨[], []⟩ := ⟨by simp, by simp⟩
  rcases hop with rfl | rfl | rfl | rfl | rfl | rfl | rfl | rfl | rfl | rfl | rfl | rfl
  · exact h0
  · exact h0
  · exact exNeg_good 1
  · exact exNeg_good 2
  all_goals first | exact trivial | skip
  · show Cpm.ValidRx _; unfold Cpm.ValidRx; decide
  · show Cpm.ValidRx _; unfold Cpm.ValidRx; decide

/-- **Consequence of C19's stale owner.** After a connect request that was refused late (connection 1), the
submodule it expected stays with the connection that never came to be; a controller that connects afterwards and
is accepted expects that submodule, but the application's data for it is refused. -/
theorem C143_stale_owner_blocks :
    (after [.dev Device.samplePlug ⟨[], []⟩, .dev Device.samplePlug2 ⟨[], []⟩,
      .dev (.connect (Device.sampleRequest 7 Device.sampleExp2 true)) (exNeg 2),
      .dev (.connect (Device.sampleRequest 8 Device.sampleExp false)) (exNeg 1),
      .dev (.abort 0 []) ⟨[], []⟩,
      .dev (.connect (Device.sampleRequest 9 Device.sampleExp true)) (exNeg 1)]
      (.input (.setData ⟨0, 1, 1⟩ [0xA1] false [0x80]))).map (fun r => (r.2, (r.1.dev.order, (r.1.conn 0).neg.ins)))
    = some (.prov (.ret (-1)), ([0], [exIn 1])) := by decide +kernel

end Verif.Shared
