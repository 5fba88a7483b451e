import Verif.Ppm.Inv
/-!
# C05 Writing one submodule's input data changes nothing else in the sent frame
# C06 Sent cycle counters advance by the update interval
# C51 Cyclic sending continues as long as the connection is up
# C54 Input data set by the application is what the next cyclic frame carries
-/
set_option linter.unusedSimpArgs false
set_option linter.unusedVariables false
namespace Verif.Ppm
open Verif.Layout (IoData Key Kind Covers)

/-- A cyclic frame on the wire: addresses, VLAN tag, Ethertype 0x8892, frame id, payload, cycle
counter, data status, transfer status. -/
def wire (c : Cfg) (payload : List Byte) (counter : Nat) (status : Byte) : List Byte :=
  c.da ++ c.sa ++ [0x81, 0x00] ++ toBe16 (c.vlan % 4096 + (c.prio % 8) * 8192) ++ [0x88, 0x92] ++
    toBe16 c.frameId ++ payload ++ toBe16 counter ++ [status, 0]

/-- The payload the code puts on the wire. -/
def payloadOf (c : Cfg) (buf : List Byte) : List Byte := buf.take c.inLen ++ List.replicate (c.cSdu - c.inLen) 0

theorem frameSpec_wire {c buf n s} : frameSpec c buf n s = wire c (payloadOf c buf) n s := by
  simp [frameSpec, wire, payloadOf, header, toBe16]

theorem payload_facts {c buf w} (hg : Good c) (hb : BufOk c buf w) :
    (payloadOf c buf).length = c.cSdu ∧
    (∀ d ∈ c.descs, ∀ k, off d k + len d k ≤ c.inLen → slice (payloadOf c buf) (off d k) (len d k) = some (w d k)) ∧
    (∀ b < c.cSdu, (∀ d ∈ c.descs, ∀ k, ¬ Covers d k b) → (payloadOf c buf)[b]? = some 0) := by
  have h1 := hg.cSdu
  have h2 := hg.inLen
  have hl : (payloadOf c buf).length = c.cSdu := by simp [payloadOf, hb.1]; omega
  refine ⟨hl, ?_, ?_⟩
  · intro d hd k hlen
    rw [← hb.2.1 d hd k, slice_eq_some (by omega), slice_eq_some (by rw [hb.1]; omega)]
    congr 1
    apply List.ext_getElem?
    intro i
    rw [List.getElem?_take, List.getElem?_take]
    split
    · rw [List.getElem?_drop, List.getElem?_drop]
      unfold payloadOf
      rw [List.getElem?_append_left (by simp [hb.1]; omega), List.getElem?_take, if_pos (by omega)]
    · rfl
  · intro b hbc hn
    unfold payloadOf
    by_cases hbi : b < c.inLen
    · rw [List.getElem?_append_left (by simp [hb.1]; omega), List.getElem?_take, if_pos hbi]
      exact hb.2.2 b (by omega) hn
    · rw [List.getElem?_append_right (by simp; omega), List.getElem?_replicate, if_pos]
      simp [hb.1]; omega

/-- **C54 (partial), C05.** Every cyclic frame sent, after any history of calls, is a well-formed
wire frame with the negotiated addresses, tag and frame id; it carries at the negotiated offset of each
submodule the data, provider status and consumer status most recently set by the application (zeros
before that), the current data status, and zeros in all payload bytes that belong to nobody.

Partial: only for fields that end within the first `in_length` bytes, where `in_length` is the *sum* of
the field lengths, not the end of the last field. In a layout without gaps that is all fields
(`C54_gapfree`); the full claim is false, see `C54_gap_not_sent`. -/
theorem C54_frame_content_partial (cs : List Cfg) (hg : ∀ c ∈ cs, Good c) (ops : List Op) (st : St) (h : Hist)
    (he : exec cs ops = some (st, h)) (i : Nat) (c : Cfg) (hc : cs[i]? = some c)
    (now : BitVec 32) (ethOk addOk : Bool) (st' : St) (frame : List Byte) (nx : Option (BitVec 32)) (er : Bool)
    (hs : step cs st (.fire i now ethOk addOk) = some (st', .fired frame nx er)) :
    ∃ payload counter, frame = wire c payload counter (statusOf cs h i) ∧ payload.length = c.cSdu ∧
      (∀ d ∈ c.descs, ∀ k, off d k + len d k ≤ c.inLen →
        slice payload (off d k) (len d k) = some (want cs h i d k)) ∧
      (∀ b < c.cSdu, (∀ d ∈ c.descs, ∀ k, ¬ Covers d k b) → payload[b]? = some 0) := by
  obtain ⟨hi, _⟩ := exec_inv hg he
  have hgc := good_at hg hc
  have hp := hi i c hc
  have ha : (st i).armed = true := by
    cases ha : (st i).armed with
    | true => rfl
    | false => simp [step, hc, fire, ha] at hs
  obtain ⟨_, hf⟩ := fire_inv hg hi hc hs
  obtain ⟨cyc, t0, _, _, _, _, ho⟩ := hf ha
  injection ho with ho _ _
  rw [frameSpec_wire, hp.status] at ho
  obtain ⟨q1, q2, q3⟩ := payload_facts hgc hp.buf
  exact ⟨_, cyc, ho, q1, q2, q3⟩

/-- **C05, read back.** While the IOCR runs, reading a submodule's input data or status back returns what the
application set last. -/
theorem C05_read_back (cs : List Cfg) (hg : ∀ c ∈ cs, Good c) (ops : List Op) (st : St) (h : Hist)
    (he : exec cs ops = some (st, h)) (k : Key) (i : Nat) (c : Cfg) (d : IoData) (hc : cs[i]? = some c)
    (ht : Target cs k i) (hd : d ∈ c.descs) (hk : d.key = k) (hrun : (st i).run = true)
    (n m : Nat) (hn : d.dataLen ≤ n) (hm : d.iopsLen ≤ m) :
    step cs st (.getData k true n m) = some (st, .data (lastSet h d .data) (lastSet h d .iops)) ∧
    (∀ m, d.iocsLen ≤ m → step cs st (.getIocs k true m) = some (st, .iocs (lastSet h d .iocs))) := by
  obtain ⟨hi, _⟩ := exec_inv hg he
  have hgc := good_at hg hc
  have hp := hi i c hc
  have hf : find cs k true = some (i, d) := by
    unfold find
    simp only [if_true]
    have := findFrom_spec k cs 0
    cases hff : findFrom k 0 cs with
    | none =>
      rw [hff] at this
      obtain ⟨⟨c', a1, a2, a3⟩, _⟩ := ht
      exact absurd a3 (this i c' a1 a2)
    | some x =>
      obtain ⟨i', d'⟩ := x
      have hff' : find cs k true = some (i', d') := by simp [find, hff]
      obtain ⟨_, b1, c', b2, b3, b4, b5⟩ := find_some hff'
      have : i' = i := target_unique b1 ht
      subst this
      rw [hc] at b2
      cases b2
      rw [key_inj hgc b4 hd (by rw [b5, hk])]
  have hw : ∀ kd, want cs h i d kd = lastSet h d kd := by
    intro kd; unfold want; rw [if_pos (by rw [hk]; exact ht)]
  have s1 := hp.buf.2.1 d hd .data
  have s2 := hp.buf.2.1 d hd .iops
  have s3 := hp.buf.2.1 d hd .iocs
  rw [hw] at s1 s2 s3
  simp only [off, len] at s1 s2 s3
  refine ⟨?_, ?_⟩
  · simp [step, getData, hf, hrun, hn, hm, s1, s2]
  · intro m hm
    simp [step, getIocs, hf, hrun, hm, s3]

/-- **C05, isolation.** A call for one submodule does not touch what another submodule's fields should
contain; and a refused call changes nothing at all. -/
theorem C05_isolation (cs : List Cfg) (h : Hist) (i : Nat) (d : IoData) (kd : Kind) (k : Key) (hk : k ≠ d.key)
    (w : Bool) (x y : List Byte) (nl : Bool) (o : Out) :
    want cs (h ++ [(.setData k w x nl y, o)]) i d kd = want cs h i d kd ∧
    want cs (h ++ [(.setIocs k w x, o)]) i d kd = want cs h i d kd := by
  constructor <;> rw [want_snoc] <;> split <;> try rfl
  · cases kd <;> simp [wrote, hk]
  · cases kd <;> simp [wrote, hk]

theorem C05_refused_changes_nothing (cs : List Cfg) (st st' : St) (k : Key) (w : Bool) (x y : List Byte) (nl : Bool) (r : Int)
    (hr : r ≠ 0) (h : step cs st (.setData k w x nl y) = some (st', .ret r) ∨ step cs st (.setIocs k w x) = some (st', .ret r)) :
    st' = st := by
  rcases h with h | h
  · simp only [step, setData] at h
    split at h
    · simp at h; exact h.1.symm
    · split at h
      · simp only [Option.bind_eq_some_iff] at h
        obtain ⟨_, _, _, _, h⟩ := h
        simp at h
        exact absurd h.2.symm hr
      · simp at h; exact h.1.symm
  · simp only [step, setIocs] at h
    split at h
    · simp at h; exact h.1.symm
    · split at h
      · simp only [Option.bind_eq_bind, Option.bind_eq_some_iff] at h
        obtain ⟨_, _, h⟩ := h
        simp at h
        exact absurd h.2.symm hr
      · split at h
        · simp at h; exact h.1.symm
        · simp at h; exact h.1.symm

/-- **C05, acceptance.** A call with exactly the negotiated lengths for an owned submodule is
accepted; with other lengths it is refused. -/
theorem C05_accepts_exact_lengths (cs : List Cfg) (hg : ∀ c ∈ cs, Good c) (ops : List Op) (st : St) (h : Hist)
    (he : exec cs ops = some (st, h)) (k : Key) (w : Bool) (i : Nat) (d : IoData) (hf : find cs k w = some (i, d))
    (x y : List Byte) (nl : Bool) :
    ∃ st', step cs st (.setData k w x nl y) =
      some (st', .ret (if x.length = d.dataLen ∧ y.length = d.iopsLen then 0 else -1)) := by
  obtain ⟨hi, _⟩ := exec_inv hg he
  obtain ⟨ho, ht, c, hc, hin, hd, hk⟩ := find_some hf
  have hgc := good_at hg hc
  have hp := hi i c hc
  simp only [step, setData, hf]
  split
  · rename_i hl
    cases nl with
    | true =>
      obtain ⟨b, w2, _⟩ := bufOk_write (k := .iops) hgc hp.buf hd hl.2
      simp only [off] at w2
      simp [w2]
    | false =>
      obtain ⟨b, w1, ok1⟩ := bufOk_write (k := .data) hgc hp.buf hd hl.1
      obtain ⟨b2, w2, _⟩ := bufOk_write (k := .iops) hgc ok1 hd hl.2
      simp only [off] at w1 w2
      simp [w1, w2]
  · exact ⟨_, rfl⟩

/-- No call accesses memory outside the buffers or a missing buffer, as long as the connection
machinery activates and closes only created IOCRs. -/
theorem C05_defined (cs : List Cfg) (hg : ∀ c ∈ cs, Good c) (ops : List Op) (ho : Ordered cs ops) :
    (exec cs ops).isSome = true := by
  -- the send buffer exists exactly while the IOCR is created
  have key : ∀ (ops : List Op), Ordered cs ops → ∃ st h, exec cs ops = some (st, h) ∧
      ∀ i, i < cs.length → (st i).send.isSome = created ops i := by
    intro ops
    induction ops using List.reverseRecOn with
    | nil => intro _; exact ⟨_, _, rfl, by intro i _; simp [created, fresh]⟩
    | append_singleton ops op ih =>
      intro ho
      have ho' : Ordered cs ops := by
        intro n op' hn
        have hlt : n < ops.length := (List.getElem?_eq_some_iff.1 hn).1
        have := ho n op' (by rw [List.getElem?_append_left hlt]; exact hn)
        rw [List.take_append_of_le_length (by omega)] at this
        exact this
      have hop := ho ops.length op (by simp)
      rw [List.take_left] at hop
      obtain ⟨st, h, he, hsd⟩ := ih ho'
      obtain ⟨hi, _⟩ := exec_inv hg he
      have hex : exec cs (ops ++ [op]) = (step cs st op).map fun x => (x.1, h ++ [(op, x.2)]) := by
        unfold exec at he ⊢
        rw [List.foldlM_append, he]
        simp [execStep, Option.map_eq_bind]
      have hlt : ∀ {i c}, cs[i]? = some c → i < cs.length := fun h => (List.getElem?_eq_some_iff.1 h).1
      have hcr : ∀ i, created (ops ++ [op]) i = match op with
          | .create j _ => if j = i then true else created ops i
          | .close j => if j = i then false else created ops i
          | _ => created ops i := by
        intro i; simp only [created, List.foldl_append, List.foldl_cons, List.foldl_nil]; cases op <;> rfl
      suffices ∃ st' o, step cs st op = some (st', o) ∧ ∀ i, i < cs.length → (st' i).send.isSome = created (ops ++ [op]) i by
        obtain ⟨st', o, h1, h2⟩ := this
        exact ⟨st', _, by rw [hex, h1]; rfl, h2⟩
      have single : ∀ (i : Nat) (p : Ppm), p.send.isSome = created (ops ++ [op]) i →
          (∀ j ≠ i, created (ops ++ [op]) j = created ops j) →
          ∀ j, j < cs.length → (upd st i p j).send.isSome = created (ops ++ [op]) j := by
        intro i p h1 h2 j hj
        by_cases hji : j = i
        · subst hji; rw [upd_same]; exact h1
        · rw [upd_other hji, h2 j hji]; exact hsd j hj
      cases op with
      | create i junk =>
        cases hc : cs[i]? with
        | none =>
          refine ⟨st, .nothing, by simp [step, hc], ?_⟩
          intro j hj
          rw [hcr, hsd j hj]
          have : i ≠ j := by rintro rfl; simp [List.getElem?_eq_none_iff] at hc; omega
          simp [this]
        | some c =>
          have hp := hi i c hc
          by_cases hr : (st i).run = true
          · refine ⟨upd st i (st i), .ret (-1), by simp [step, hc, create, hr], ?_⟩
            apply single
            · rw [hcr]; simpa using (hp.run hr).1
            · intro j hj; rw [hcr]; simp [Ne.symm hj]
          · obtain ⟨b, hb, _⟩ := initBuf_ok (good_at hg hc) (junk := junk.toList) (by rw [Vector.length_toList]; rfl)
            refine ⟨_, .ret 0, by simp [step, hc, create, hr, hb]; rfl, ?_⟩
            apply single
            · rw [hcr]; simp
            · intro j hj; rw [hcr]; simp [Ne.symm hj]
      | activate i now ok =>
        cases hc : cs[i]? with
        | none => exact ⟨st, .nothing, by simp [step, hc], by intro j hj; rw [hcr, hsd j hj]⟩
        | some c =>
          have hp := hi i c hc
          have hs1 := hsd i (hlt hc)
          rw [hop (hlt hc)] at hs1
          by_cases hr : (st i).run = true
          · refine ⟨upd st i (st i), .ret (-1), by simp [step, hc, activate, hr], ?_⟩
            apply single
            · rw [hcr]; exact hsd i (hlt hc)
            · intro j hj; rw [hcr]
          · obtain ⟨s, hsd'⟩ := Option.isSome_iff_exists.1 hs1
            obtain ⟨cyc, s', q1, q2, q3, q4⟩ := finish_ok (p := { st i with nextExec := now + controlInterval c, run := true, ciRunning := true }) (good_at hg hc) hp.buf.1 hsd' (hp.send s hsd')
            refine ⟨_, .activated ok, by simp only [step, hc, activate, if_neg hr, q2]; rfl, ?_⟩
            apply single
            · rw [hcr]; simp; exact hop (hlt hc)
            · intro j hj; rw [hcr]
      | close i =>
        cases hc : cs[i]? with
        | none =>
          refine ⟨st, .nothing, by simp [step, hc], ?_⟩
          intro j hj
          rw [hcr, hsd j hj]
          have : i ≠ j := by rintro rfl; simp [List.getElem?_eq_none_iff] at hc; omega
          simp [this]
        | some c =>
          have hs1 := hsd i (hlt hc)
          rw [hop (hlt hc)] at hs1
          obtain ⟨s, hsd'⟩ := Option.isSome_iff_exists.1 hs1
          refine ⟨_, .ret 0, by simp only [step, hc, close, hsd']; rfl, ?_⟩
          apply single
          · rw [hcr]; simp
          · intro j hj; rw [hcr]; simp [Ne.symm hj]
      | setData k w x nl y =>
        cases hf : find cs k w with
        | none => exact ⟨st, .ret (-1), by simp [step, setData, hf], by intro j hj; rw [hcr, hsd j hj]⟩
        | some z =>
          obtain ⟨i, d⟩ := z
          obtain ⟨st', h1⟩ := C05_accepts_exact_lengths cs hg ops st h he k w i d hf x y nl
          refine ⟨st', _, h1, ?_⟩
          intro j hj
          rw [hcr, ← hsd j hj]
          simp only [step, setData, hf] at h1
          split at h1
          · simp only [Option.bind_eq_some_iff] at h1
            obtain ⟨_, _, _, _, h1⟩ := h1
            simp only [Option.some.injEq, Prod.mk.injEq] at h1
            rw [← h1.1]
            unfold upd; split
            · rename_i hji; subst hji; rfl
            · rfl
          · simp only [Option.some.injEq, Prod.mk.injEq] at h1
            rw [← h1.1]
      | setIocs k w x =>
        cases hf : find cs k w with
        | none => exact ⟨st, .ret (-1), by simp [step, setIocs, hf], by intro j hj; rw [hcr, hsd j hj]⟩
        | some z =>
          obtain ⟨i, d⟩ := z
          obtain ⟨_, _, c, hc, _, hd, _⟩ := find_some hf
          have hp := hi i c hc
          by_cases hl : x.length = d.iocsLen
          · obtain ⟨b, w1, _⟩ := bufOk_write (k := .iocs) (good_at hg hc) hp.buf hd hl
            simp only [off] at w1
            refine ⟨_, .ret 0, by simp only [step, setIocs, hf, if_pos hl, w1]; rfl, ?_⟩
            apply single
            · rw [hcr]; exact hsd i (hlt hc)
            · intro j hj; rw [hcr]
          · by_cases hz : d.iocsLen = 0
            · exact ⟨st, .ret 0, by simp only [step, setIocs, hf, if_neg hl, if_pos hz], by intro j hj; rw [hcr, hsd j hj]⟩
            · exact ⟨st, .ret (-1), by simp only [step, setIocs, hf, if_neg hl, if_neg hz], by intro j hj; rw [hcr, hsd j hj]⟩
      | getData k w a b =>
        have fin : ∀ o, step cs st (.getData k w a b) = some (st, o) → _ := fun o ho =>
          (⟨st, o, ho, by intro j hj; rw [hcr, hsd j hj]⟩ : ∃ st' o, step cs st (.getData k w a b) = some (st', o) ∧ ∀ i, i < cs.length → (st' i).send.isSome = created (ops ++ [.getData k w a b]) i)
        cases hf : find cs k w with
        | none => exact fin (.ret (-1)) (by simp [step, getData, hf])
        | some z =>
          obtain ⟨i, d⟩ := z
          obtain ⟨_, _, c, hc, _, hd, _⟩ := find_some hf
          have hp := hi i c hc
          have s1 := hp.buf.2.1 d hd .data
          have s2 := hp.buf.2.1 d hd .iops
          simp only [off, len] at s1 s2
          by_cases hq : (st i).run = true ∧ d.dataLen ≤ a ∧ d.iopsLen ≤ b
          · exact fin _ (by simp only [step, getData, hf, if_pos hq, s1, s2]; rfl)
          · exact fin _ (by simp only [step, getData, hf, if_neg hq]; rfl)
      | getIocs k w a =>
        have fin : ∀ o, step cs st (.getIocs k w a) = some (st, o) → _ := fun o ho =>
          (⟨st, o, ho, by intro j hj; rw [hcr, hsd j hj]⟩ : ∃ st' o, step cs st (.getIocs k w a) = some (st', o) ∧ ∀ i, i < cs.length → (st' i).send.isSome = created (ops ++ [.getIocs k w a]) i)
        cases hf : find cs k w with
        | none => exact fin (.ret (-1)) (by simp [step, getIocs, hf])
        | some z =>
          obtain ⟨i, d⟩ := z
          obtain ⟨_, _, c, hc, _, hd, _⟩ := find_some hf
          have hp := hi i c hc
          have s1 := hp.buf.2.1 d hd .iocs
          simp only [off, len] at s1
          by_cases hq : (st i).run = true ∧ d.iocsLen ≤ a
          · exact fin _ (by simp only [step, getIocs, hf, if_pos hq, s1]; rfl)
          · exact fin _ (by simp only [step, getIocs, hf, if_neg hq]; rfl)
      | setBit i m on =>
        cases hc : cs[i]? with
        | none => exact ⟨st, .nothing, by simp [step, hc], by intro j hj; rw [hcr, hsd j hj]⟩
        | some c =>
          refine ⟨_, .ret 0, by simp only [step, hc]; rfl, ?_⟩
          apply single
          · rw [hcr]; exact hsd i (hlt hc)
          · intro j hj; rw [hcr]
      | setProblem b =>
        refine ⟨_, .nothing, rfl, ?_⟩
        intro j hj
        rw [hcr, ← hsd j hj]
        unfold setProblem
        split
        · split <;> rfl
        · rfl
      | fire i now e a =>
        cases hc : cs[i]? with
        | none => exact ⟨st, .nothing, by simp [step, hc], by intro j hj; rw [hcr, hsd j hj]⟩
        | some c =>
          have hp := hi i c hc
          by_cases hr : (st i).armed = false
          · refine ⟨upd st i (st i), .nothing, by simp [step, hc, fire, hr], ?_⟩
            apply single
            · rw [hcr]; exact hsd i (hlt hc)
            · intro j hj; rw [hcr]
          · obtain ⟨a1, a2, t0, a3, a4⟩ := hp.armed (by simpa using hr)
            obtain ⟨b1, b2⟩ := hp.run a1
            obtain ⟨s, hsd'⟩ := Option.isSome_iff_exists.1 b1
            obtain ⟨cyc, s', q1, q2, q3, q4⟩ := finish_ok (p := { st i with armed := false }) (good_at hg hc) hp.buf.1 hsd' (hp.send s hsd')
            have hcr1 : created (ops ++ [Op.fire i now e a]) i = true := by
              rw [hcr]; show created ops i = true; rw [← hsd i (hlt hc)]; exact b1
            cases e with
            | false =>
              refine ⟨_, _, by simp only [step, hc, fire, if_neg hr, if_pos a2, q2]; rfl, ?_⟩
              apply single
              · rw [hcr1]; rfl
              · intro j hj; rw [hcr]
            | true =>
              cases a with
              | false =>
                refine ⟨_, _, by simp only [step, hc, fire, if_neg hr, if_pos a2, q2]; rfl, ?_⟩
                apply single
                · rw [hcr1]; rfl
                · intro j hj; rw [hcr]
              | true =>
                refine ⟨_, _, by simp only [step, hc, fire, if_neg hr, if_pos a2, q2]; rfl, ?_⟩
                apply single
                · rw [hcr1]; rfl
                · intro j hj; rw [hcr]
  obtain ⟨st, h, he, _⟩ := key ops ho
  rw [he]; rfl

/-! ### C06 -/

/-- **C06 (partial).** If the update interval (send clock factor times reduction ratio, in units of
31.25 µs) divides 2^16, the frame sent after `n` others since the creation of the IOCR carries the
counter (n + 2) * interval modulo 2^16: consecutive frames differ by exactly the interval.

Partial: the claim is for all negotiable intervals, but the counter goes wrong at its first wrap-around
for others, see `C06_wrong_after_wrap`; `C06_before_wrap` covers the frames before. -/
theorem C06_counter_partial (cs : List Cfg) (hg : ∀ c ∈ cs, Good c) (ops : List Op) (st : St) (h : Hist)
    (he : exec cs ops = some (st, h)) (i : Nat) (c : Cfg) (hc : cs[i]? = some c)
    (hd : c.scf * c.rr ∣ 65536)
    (now : BitVec 32) (ethOk addOk : Bool) (st' : St) (frame : List Byte) (nx : Option (BitVec 32)) (er : Bool)
    (hs : step cs st (.fire i now ethOk addOk) = some (st', .fired frame nx er)) :
    ∃ payload, payload.length = c.cSdu ∧
      frame = wire c payload ((sent h i + 2) * (c.scf * c.rr) % 65536) (statusOf cs h i) := by
  obtain ⟨hi, _⟩ := exec_inv hg he
  have hgc := good_at hg hc
  have hp := hi i c hc
  have ha : (st i).armed = true := by
    cases ha : (st i).armed with
    | true => rfl
    | false => simp [step, hc, fire, ha] at hs
  obtain ⟨_, hf⟩ := fire_inv hg hi hc hs
  obtain ⟨cyc, t0, _, _, ht, hn, ho⟩ := hf ha
  injection ho with ho _ _
  rw [frameSpec_wire, hp.status] at ho
  obtain ⟨q1, _, _⟩ := payload_facts hgc hp.buf
  have hcy := hp.cyc hd
  rw [ht] at hcy
  simp only [Option.isSome_some, if_true] at hcy
  have := next_pow rfl hgc.interval hd hcy hn
  rw [this] at ho
  exact ⟨_, q1, ho⟩

/-- From a counter which is a multiple of the interval, the next counter is the sum (modulo 2^16),
for any interval. -/
theorem C06_before_wrap (m scf rr : Nat) (h0 : 0 < scf * rr) (h : m * (scf * rr) < 65536) :
    nextCycle (m * (scf * rr)) scf rr = some ((m * (scf * rr) + scf * rr) % 65536) := by
  apply nextCycle_some h0
  have : m < 65536 := by
    have := Nat.le_mul_of_pos_right m h0
    omega
  rw [Nat.mul_div_cancel _ h0, Nat.mod_eq_of_lt this, Nat.add_mul, Nat.one_mul]

/-- **The full C06 is false**: with the (accepted) reduction ratio 3 the counter goes 65535, 2, 3. -/
theorem C06_wrong_after_wrap : nextCycle 65535 1 3 = some 2 ∧ nextCycle 2 1 3 = some 3 := by decide

/-! ### C51 -/

/-- **C51 (partial).** When the armed timer fires and both the transmission and the re-arming
succeed, the next frame is scheduled, and the requested delay makes the `n`-th frame since activation due at
exactly activation time + (n + 1) * interval (modulo 2^32 µs), whatever the lateness of the previous
calls. If the re-arming fails, an error is indicated.

Partial: a failing transmission ends the sending silently, see `C51_stops_silently`. -/
theorem C51_no_drift_partial (cs : List Cfg) (hg : ∀ c ∈ cs, Good c) (ops : List Op) (st : St) (h : Hist)
    (he : exec cs ops = some (st, h)) (i : Nat) (c : Cfg) (hc : cs[i]? = some c) (ha : (st i).armed = true)
    (now : BitVec 32) (addOk : Bool) :
    ∃ st' frame t0, actTime h i = some t0 ∧
      (st i).nextExec = t0 + BitVec.ofNat 32 (sent h i + 1) * controlInterval c ∧
      step cs st (.fire i now true addOk) = some (st',
        if addOk then .fired frame (some (t0 + BitVec.ofNat 32 (sent h i + 2) * controlInterval c - now)) false
        else .fired frame none true) ∧
      ((st' i).armed = addOk) := by
  obtain ⟨hi, _⟩ := exec_inv hg he
  have hp := hi i c hc
  obtain ⟨a1, a2, t0, a3, a4⟩ := hp.armed ha
  obtain ⟨b1, b2⟩ := hp.run a1
  obtain ⟨s, hsd'⟩ := Option.isSome_iff_exists.1 b1
  obtain ⟨cyc, s', q1, q2, q3, q4⟩ := finish_ok (p := { st i with armed := false }) (good_at hg hc) hp.buf.1 hsd' (hp.send s hsd')
  have hr : ¬ (st i).armed = false := by simp [ha]
  cases addOk with
  | false =>
    refine ⟨upd st i { st i with armed := false, cycle := cyc, send := some s', nextExec := (st i).nextExec + controlInterval c },
      s'.take (frameLen c), t0, a3, a4, by simp only [step, hc, fire, if_neg hr, if_pos a2, q2]; rfl, by rw [upd_same]⟩
  | true =>
    refine ⟨upd st i { st i with armed := true, cycle := cyc, send := some s', nextExec := (st i).nextExec + controlInterval c },
      s'.take (frameLen c), t0, a3, a4, ?_, by rw [upd_same]⟩
    simp only [step, hc, fire, if_neg hr, if_pos a2, q2]
    simp only [Option.bind_eq_bind, Option.bind_some, if_true]
    rw [a4, bv_succ]

/-- The control interval is the negotiated one: send clock factor * reduction ratio * 31.25 µs. -/
theorem C51_interval (c : Cfg) (h : c.scf * c.rr ≤ 128 * 16384) :
    (controlInterval c).toNat = c.scf * c.rr * 1000 / 32 ∧
    32 * (controlInterval c).toNat ≤ c.scf * c.rr * 1000 ∧ c.scf * c.rr * 1000 < 32 * (controlInterval c).toNat + 32 := by
  have : (controlInterval c).toNat = c.scf * c.rr * 1000 / 32 := by
    unfold controlInterval
    rw [BitVec.toNat_ofNat]
    rw [Nat.mod_eq_of_lt (a := c.scf * c.rr * 1000) (by omega), Nat.mod_eq_of_lt (by omega)]
  omega

/-! ### From an accepted connect request to a sound layout -/

/-- The layouts accepted at connect (C04) are sound for the provider, if no consumer status lies on its
own submodule's data, the API numbers are distinct and the payload has a legal size. -/
theorem good_of_accept (cap : Nat) (e : Layout.Exp) (ps : List Layout.IocrParam) (ss : List Layout.Setup)
    (h : Layout.accept cap e ps = some (ss, true)) (i : Nat) (p : Layout.IocrParam) (s : Layout.Setup)
    (hp : ps[i]? = some p) (hs : ss[i]? = some s) (hd : (p.apis.map (·.api)).Nodup) (hlt : s.inLen < 65536)
    (hown : ∀ d ∈ s.descs, ∀ k b, k ≠ .iocs → ¬ (Covers d k b ∧ Covers d .iocs b)) (hin : p.isInput = true)
    (c : Cfg) (h1 : c.cSdu = p.cSdu) (h2 : c.inLen = s.inLen) (h3 : c.descs = s.descs) (h4 : p.cSdu ≤ 1476)
    (h5 : c.da.length = 6) (h6 : c.sa.length = 6) (h7 : 0 < c.scf * c.rr) : Good c := by
  obtain ⟨q1, q2⟩ := Layout.C04_fields_disjoint_partial cap e ps ss h i p s hp hs (by omega)
  obtain ⟨_, r2⟩ := Layout.accept_get h hp hs
  unfold Layout.checkIocr at r2
  rw [Bool.and_eq_true] at r2
  obtain ⟨c1, _, _⟩ := Layout.checkDescs_spec _ _ r2.2
  refine ⟨?_, ?_, ?_, ?_, by omega, h5, h6, h7⟩
  · rw [h3]; exact Layout.C04_one_descriptor cap e ps ss h i p s hp hs
  · intro d hd k
    rw [h3] at hd
    have := c1 d hd
    cases k <;> simp only [off, len] <;> omega
  · intro d hd d' hd' k k' b hb hb'
    rw [h3] at hd hd'
    obtain ⟨j, hj, rfl⟩ := List.mem_iff_getElem.1 hd
    obtain ⟨j', hj', rfl⟩ := List.mem_iff_getElem.1 hd'
    obtain ⟨e1, e2⟩ := q2 j j' _ _ (List.getElem?_eq_getElem hj) (List.getElem?_eq_getElem hj') k k' b hb hb'
    subst e1
    refine ⟨rfl, ?_⟩
    by_cases hkk : k = k'
    · exact hkk
    · rcases e2 with e2 | e2 | e2
      · exact e2
      · subst e2
        exact absurd ⟨hb', hb⟩ (hown _ hd k' b (Ne.symm hkk))
      · subst e2
        exact absurd ⟨hb, hb'⟩ (hown _ hd k b hkk)
  · rw [h1, h2]
    exact Layout.C04_total_within_payload cap e ps ss h i p s hp hs (by omega) hd hlt hown hin

/-! ### Layouts without gaps -/

theorem card_le_cover (l : List (Nat × Nat)) : ∀ S : Finset Nat,
    (∀ b ∈ S, ∃ f ∈ l, f.1 ≤ b ∧ b < f.1 + f.2) → S.card ≤ (l.map (·.2)).sum := by
  induction l with
  | nil =>
    intro S h
    have : S = ∅ := Finset.eq_empty_of_forall_notMem fun b hb => by obtain ⟨f, hf, _⟩ := h b hb; simp at hf
    simp [this]
  | cons f l ih =>
    intro S h
    have h1 := Finset.card_inter_add_card_sdiff S (Finset.Ico f.1 (f.1 + f.2))
    have h2 : (S ∩ Finset.Ico f.1 (f.1 + f.2)).card ≤ f.2 := by
      refine Nat.le_trans (Finset.card_le_card Finset.inter_subset_right) ?_
      simp
    have h3 := ih (S \ Finset.Ico f.1 (f.1 + f.2)) (by
      intro b hb
      simp only [Finset.mem_sdiff, Finset.mem_Ico] at hb
      obtain ⟨g, hg, hgb⟩ := h b hb.1
      rcases List.mem_cons.1 hg with rfl | hg
      · exact absurd hgb hb.2
      · exact ⟨g, hg, hgb⟩)
    simp only [List.map_cons, List.sum_cons]
    omega

/-- No unused byte before the end of a field. -/
def GapFree (c : Cfg) : Prop :=
  ∀ d ∈ c.descs, ∀ k b, Covers d k b → ∀ b' < b, ∃ d' ∈ c.descs, ∃ k', Covers d' k' b'

/-- **C54 for layouts without gaps.** If there are no unused bytes before the end of any field, and `in_length` is
the sum of the field lengths (`C04_fields_as_requested`), every non-empty field is in each sent frame as set. -/
theorem C54_gapfree (c : Cfg) (hgf : GapFree c) (hsum : c.inLen = (c.descs.map Layout.IoData.total).sum)
    (d : IoData) (hd : d ∈ c.descs) (k : Kind) (hk : 0 < len d k) : off d k + len d k ≤ c.inLen := by
  let fl : List (Nat × Nat) := c.descs.flatMap fun d => [(d.dataOff, d.dataLen), (d.iopsOff, d.iopsLen), (d.iocsOff, d.iocsLen)]
  have hs : (fl.map (·.2)).sum = (c.descs.map Layout.IoData.total).sum := by
    show ((c.descs.flatMap fun d => [(d.dataOff, d.dataLen), (d.iopsOff, d.iopsLen), (d.iocsOff, d.iocsLen)]).map (·.2)).sum = _
    clear fl hgf hsum hd
    induction c.descs with
    | nil => rfl
    | cons x xs ih => simp [Layout.IoData.total] at ih ⊢; omega
  have := card_le_cover fl (Finset.range (off d k + len d k)) (by
    intro b hb
    simp only [Finset.mem_range] at hb
    have hc : Covers d k (off d k + len d k - 1) := covers_iff.2 (by omega)
    have : ∃ d' ∈ c.descs, ∃ k', Covers d' k' b := by
      by_cases hbe : b = off d k + len d k - 1
      · exact ⟨d, hd, k, hbe ▸ hc⟩
      · exact hgf d hd k _ hc b (by omega)
    obtain ⟨d', hd', k', hcov⟩ := this
    refine ⟨(off d' k', len d' k'), List.mem_flatMap.2 ⟨d', hd', ?_⟩, covers_iff.1 hcov⟩
    cases k' <;> simp [off, len])
  simp at this
  omega

/-! ### Concrete instances and witnesses -/

/-- The input frame of the layout example: submodule without I/O in slot 0, two bytes in slot 1. -/
def exCfg : Cfg := ⟨true, 40, 5, [⟨⟨0, 0, 1⟩, 0, 0, 0, 1, 0, 0⟩, ⟨⟨0, 1, 1⟩, 1, 2, 3, 1, 4, 1⟩],
  [1, 2, 3, 4, 5, 6], [6, 5, 4, 3, 2, 1], 0, 6, 0x8001, 32, 1⟩

theorem exCfg_good : Good exCfg := by
  refine good_of_accept 4 Layout.exExp [Layout.exIn, Layout.exOut]
    [⟨[⟨⟨0, 0, 1⟩, 0, 0, 0, 1, 0, 0⟩, ⟨⟨0, 1, 1⟩, 1, 2, 3, 1, 4, 1⟩], 5, 0⟩,
      ⟨[⟨⟨0, 1, 1⟩, 0, 1, 1, 1, 3, 1⟩, ⟨⟨0, 0, 1⟩, 0, 0, 0, 0, 2, 1⟩], 0, 4⟩] (by decide +kernel) 0 _ _ rfl rfl
    (by decide) (by decide) ?_ rfl exCfg rfl rfl rfl (by decide) rfl rfl (by decide)
  intro d hd k b hk
  simp at hd
  rcases hd with rfl | rfl <;> cases k <;> simp [Covers] at hk ⊢ <;> omega

def exOps : List Op := [.create 0 (Vector.replicate _ 0xEE), .activate 0 1000 true,
  .setData ⟨0, 1, 1⟩ true [0xAB, 0xCD] false [0x80], .setIocs ⟨0, 1, 1⟩ true [0x80],
  .setData ⟨0, 1, 1⟩ true [0xAB] false [0x80], .setBit 0 0x10 true]

example : Ordered [exCfg] exOps := by
  intro n op hn
  match n with
  | 0 | 1 | 2 | 3 | 4 | 5 => simp [exOps] at hn; subst hn; simp [exOps, created]
  | n + 6 => simp [exOps] at hn

/-- The outcome of a history: what the last call returned. -/
def lastOut (cs : List Cfg) (ops : List Op) : Option Out := (exec cs ops).bind fun s => s.2.getLast?.map (·.2)

set_option maxRecDepth 100000 in
/-- A concrete frame: two data bytes, good statuses, counter 2 * 32, data status 0x35. -/
example : lastOut [exCfg] (exOps ++ [.fire 0 2003 true true]) = some (.fired
    ([1, 2, 3, 4, 5, 6] ++ [6, 5, 4, 3, 2, 1] ++ [0x81, 0, 0xC0, 0, 0x88, 0x92, 0x80, 1] ++ [0, 0xAB, 0xCD, 0x80, 0x80] ++
      List.replicate 35 0 ++ [0, 64, 0x35, 0]) (some 997) false) := by decide +kernel

/-- **The full C51 is false**: after one failed transmission nothing is sent any more, and nobody
is told (no error indication). -/
theorem C51_stops_silently :
    (∃ f, lastOut [exCfg] (exOps ++ [.fire 0 2003 false true]) = some (.fired f none false)) ∧
    lastOut [exCfg] (exOps ++ [.fire 0 2003 false true, .fire 0 3000 true true]) = some .nothing := by
  refine ⟨⟨[1, 2, 3, 4, 5, 6] ++ [6, 5, 4, 3, 2, 1] ++ [0x81, 0, 0xC0, 0, 0x88, 0x92, 0x80, 1] ++ [0, 0xAB, 0xCD, 0x80, 0x80] ++
    List.replicate 35 0 ++ [0, 64, 0x35, 0], by decide +kernel⟩, by decide +kernel⟩

/-- More generally: once the transmission has failed, the IOCR stays silent until it is closed or
created anew, for every continuation. -/
theorem C51_silent_forever (cs : List Cfg) (st : St) (i : Nat) (hr : (st i).run = true) (ha : (st i).armed = false)
    (op : Op) (hop : op ≠ .close i) (st' : St) (o : Out) (h : step cs st op = some (st', o)) :
    (st' i).run = true ∧ (st' i).armed = false ∧ (∀ now e a, op = .fire i now e a → o = .nothing) := by
  have other : ∀ (j : Nat) (p : Ppm), (j = i → p.run = true ∧ p.armed = false) →
      (upd st j p i).run = true ∧ (upd st j p i).armed = false := by
    intro j p hp
    unfold upd
    split
    · rename_i hij; exact hp hij.symm
    · exact ⟨hr, ha⟩
  cases op with
  | create j junk =>
    simp only [step] at h
    split at h
    · simp at h; obtain ⟨rfl, rfl⟩ := h; exact ⟨hr, ha, by simp⟩
    · simp only [Option.bind_eq_bind, Option.bind_eq_some_iff, Option.some.injEq, Prod.mk.injEq] at h
      obtain ⟨⟨p, ok⟩, h1, rfl, rfl⟩ := h
      obtain ⟨x, y⟩ := other j p (by
        rintro rfl
        simp only [create, if_pos hr] at h1
        simp at h1
        rw [← h1.1]; exact ⟨hr, ha⟩)
      exact ⟨x, y, by simp⟩
  | activate j now ok =>
    simp only [step] at h
    split at h
    · simp at h; obtain ⟨rfl, rfl⟩ := h; exact ⟨hr, ha, by simp⟩
    · simp only [Option.bind_eq_bind, Option.bind_eq_some_iff, Option.some.injEq, Prod.mk.injEq] at h
      obtain ⟨⟨p, ok⟩, h1, rfl, rfl⟩ := h
      obtain ⟨x, y⟩ := other j p (by
        rintro rfl
        simp only [activate, if_pos hr] at h1
        simp at h1
        rw [← h1.1]; exact ⟨hr, ha⟩)
      exact ⟨x, y, by simp⟩
  | close j =>
    simp only [step] at h
    split at h
    · simp at h; obtain ⟨rfl, rfl⟩ := h; exact ⟨hr, ha, by simp⟩
    · simp only [Option.bind_eq_bind, Option.bind_eq_some_iff, Option.some.injEq, Prod.mk.injEq] at h
      obtain ⟨⟨p, ok⟩, h1, rfl, rfl⟩ := h
      obtain ⟨x, y⟩ := other j p (by rintro rfl; exact absurd rfl hop)
      exact ⟨x, y, by simp⟩
  | setData k w x nl y =>
    refine (fun (q : (st' i).run = true ∧ (st' i).armed = false) => ⟨q.1, q.2, by simp⟩) ?_
    simp only [step, setData] at h
    split at h
    · simp at h; obtain ⟨rfl, rfl⟩ := h; exact ⟨hr, ha⟩
    · split at h
      · simp only [Option.bind_eq_some_iff, Option.some.injEq, Prod.mk.injEq] at h
        obtain ⟨_, _, _, _, rfl, rfl⟩ := h
        exact other _ _ (by rintro rfl; exact ⟨hr, ha⟩)
      · simp at h; obtain ⟨rfl, rfl⟩ := h; exact ⟨hr, ha⟩
  | setIocs k w x =>
    refine (fun (q : (st' i).run = true ∧ (st' i).armed = false) => ⟨q.1, q.2, by simp⟩) ?_
    simp only [step, setIocs] at h
    split at h
    · simp at h; obtain ⟨rfl, rfl⟩ := h; exact ⟨hr, ha⟩
    · split at h
      · simp only [Option.bind_eq_bind, Option.bind_eq_some_iff, Option.some.injEq, Prod.mk.injEq] at h
        obtain ⟨_, _, rfl, rfl⟩ := h
        exact other _ _ (by rintro rfl; exact ⟨hr, ha⟩)
      · split at h
        · simp at h; obtain ⟨rfl, rfl⟩ := h; exact ⟨hr, ha⟩
        · simp at h; obtain ⟨rfl, rfl⟩ := h; exact ⟨hr, ha⟩
  | getData k w a b =>
    simp only [step, Option.bind_eq_bind, Option.bind_eq_some_iff, Option.some.injEq, Prod.mk.injEq] at h
    obtain ⟨_, _, rfl, rfl⟩ := h
    exact ⟨hr, ha, by simp⟩
  | getIocs k w a =>
    simp only [step, Option.bind_eq_bind, Option.bind_eq_some_iff, Option.some.injEq, Prod.mk.injEq] at h
    obtain ⟨_, _, rfl, rfl⟩ := h
    exact ⟨hr, ha, by simp⟩
  | setBit j m on =>
    simp only [step] at h
    split at h
    · simp at h; obtain ⟨rfl, rfl⟩ := h; exact ⟨hr, ha, by simp⟩
    · simp only [Option.some.injEq, Prod.mk.injEq] at h
      obtain ⟨rfl, rfl⟩ := h
      obtain ⟨x, y⟩ := other j { st j with status := setBit (st j).status m on } (by rintro rfl; exact ⟨hr, ha⟩)
      exact ⟨x, y, by simp⟩
  | setProblem b =>
    simp only [step, Option.some.injEq, Prod.mk.injEq] at h
    obtain ⟨rfl, rfl⟩ := h
    unfold setProblem
    refine ⟨?_, ?_, by simp⟩
    all_goals split <;> (try split) <;> assumption
  | fire j now e a =>
    simp only [step] at h
    split at h
    · simp at h; obtain ⟨rfl, rfl⟩ := h; exact ⟨hr, ha, by simp⟩
    · simp only [Option.bind_eq_bind, Option.bind_eq_some_iff, Option.some.injEq, Prod.mk.injEq] at h
      obtain ⟨⟨p, o⟩, h1, rfl, rfl⟩ := h
      have hj : j = i → p = st i ∧ o = .nothing := by
        rintro rfl
        simp only [fire, if_pos ha] at h1
        simp at h1
        exact ⟨h1.1.symm, h1.2.symm⟩
      obtain ⟨x, y⟩ := other j p (fun hji => by rw [(hj hji).1]; exact ⟨hr, ha⟩)
      refine ⟨x, y, ?_⟩
      intro now' e' a' heq
      injection heq with h1
      exact (hj h1).2

/-- A layout with a gap that is accepted at connect (`Layout.C04_gap_accepted`). -/
def exGap : Cfg := { exCfg with descs := [⟨⟨0, 0, 1⟩, 0, 0, 0, 1, 0, 0⟩, ⟨⟨0, 1, 1⟩, 20, 2, 22, 1, 30, 1⟩] }

/-- **The full C54 is false**: the data AB CD set (successfully) for the submodule at offset 20 is not in the
frame; the frame has zeros there, including the provider status "bad". -/
theorem C54_gap_not_sent : lastOut [exGap] (exOps.take 3) = some (.ret 0) ∧
    lastOut [exGap] (exOps ++ [.fire 0 2003 true true]) = some (.fired
      ([1, 2, 3, 4, 5, 6] ++ [6, 5, 4, 3, 2, 1] ++ [0x81, 0, 0xC0, 0, 0x88, 0x92, 0x80, 1] ++
        List.replicate 40 0 ++ [0, 64, 0x35, 0]) (some 997) false) := by
  refine ⟨by decide +kernel, by decide +kernel⟩

end Verif.Ppm
