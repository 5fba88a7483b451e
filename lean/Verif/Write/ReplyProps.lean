import Verif.Write.Reply
import Verif.Write.Props
import Verif.Control.Lemmas
import Verif.ConnRsp.Props
/-!
C157: the response to a write request, byte by byte.
-/
set_option linter.unusedVariables false
set_option linter.unusedSimpArgs false

namespace Verif.Write
open Verif.Wire
open Verif.DiagRead (each Emits emits_of emits_each)
open Verif.Read (putNdr Ready Within Appends)
open Verif.Control (encAnswer)
open Verif.Records (num32)

/-! ## Specification -/

/-- A block IODWriteResHeader of 64 bytes: the names of the write it belongs to, no data, two additional values,
the status. -/
def encResult (x : Res × More) : List Byte :=
  encBlockHeader true ⟨0x8008, 60, 1, 0⟩ ++ (enc16 true x.1.seqNmb ++ encUuid true x.1.uuid ++ enc32 true x.1.api ++
    enc16 true x.1.slot ++ enc16 true x.1.subslot ++ [0] ++ [0] ++ enc16 true x.1.index ++ enc32 true 0 ++ enc16 true x.2.add1 ++
    enc16 true x.2.add2 ++ [x.1.status.code, x.1.status.decode, x.2.code1, x.2.code2] ++ List.replicate 16 0)

/-- The result blocks of a response, one after the other. -/
def encResults (l : List (Res × More)) : List Byte := l.flatMap encResult

/-- The status of a response and its lengths when they are those of the request, without any block. -/
def encEcho (ndr : Ndr) (s : Wire.Status) : List Byte :=
  Read.encStatus s ++ (enc32 true ndr.argsLen ++ enc32 true ndr.maxCount ++ enc32 true ndr.offset ++ enc32 true ndr.actual)

/-! ## Lemmas -/

theorem encResult_length {x : Res × More} (h : x.1.uuid.d4.length = 8) : (encResult x).length = 64 := by
  simp [encResult, encBlockHeader, enc16_length, enc32_length, Read.encUuid_length h]

theorem encResults_length {l : List (Res × More)} (h : ∀ x ∈ l, x.1.uuid.d4.length = 8) : (encResults l).length = 64 * l.length := by
  induction l with
  | nil => rfl
  | cons a l ih =>
    have := ih (fun x hx => h x (by simp [hx]))
    unfold encResults at this ⊢
    rw [List.flatMap_cons, List.length_append, encResult_length (h a (by simp)), this, List.length_cons]
    omega

theorem emits_result {x : Res × More} (h : x.1.uuid.d4.length = 8) : Emits (putResult x) (encResult x) := by
  have hb : Writes (putU16 true x.1.seqNmb ;; putUuid true x.1.uuid ;; putU32 true x.1.api ;; putU16 true x.1.slot ;; putU16 true x.1.subslot ;;
      putByte 0 ;; putByte 0 ;; putU16 true x.1.index ;; putU32 true 0 ;; putU16 true x.2.add1 ;; putU16 true x.2.add2 ;;
      putStatus true (whole x.1.status x.2.code1 x.2.code2) ;; putPadding 16)
      (enc16 true x.1.seqNmb ++ encUuid true x.1.uuid ++ enc32 true x.1.api ++
    enc16 true x.1.slot ++ enc16 true x.1.subslot ++ [0] ++ [0] ++ enc16 true x.1.index ++ enc32 true 0 ++ enc16 true x.2.add1 ++
    enc16 true x.2.add2 ++ [x.1.status.code, x.1.status.decode, x.2.code1, x.2.code2] ++ List.replicate 16 0) := by
    refine Writes.seq (Writes.seq (Writes.seq (Writes.seq (Writes.seq (Writes.seq (Writes.seq (Writes.seq (Writes.seq (Writes.seq
      (Writes.seq (Writes.seq ?_ ?_) ?_) ?_) ?_) ?_) ?_) ?_) ?_) ?_) ?_) ?_) ?_
    · exact writes_putU16 _ _
    · exact writes_putUuid _ _
    · exact writes_putU32 _ _
    · exact writes_putU16 _ _
    · exact writes_putU16 _ _
    · exact writes_putByte _
    · exact writes_putByte _
    · exact writes_putU16 _ _
    · exact writes_putU32 _ _
    · exact writes_putU16 _ _
    · exact writes_putU16 _ _
    · exact Read.writes_putStatus _
    · exact writes_putPadding _
  have hs : WSafe (putU16 true x.1.seqNmb ;; putUuid true x.1.uuid ;; putU32 true x.1.api ;; putU16 true x.1.slot ;; putU16 true x.1.subslot ;;
      putByte 0 ;; putByte 0 ;; putU16 true x.1.index ;; putU32 true 0 ;; putU16 true x.2.add1 ;; putU16 true x.2.add2 ;;
      putStatus true (whole x.1.status x.2.code1 x.2.code2) ;; putPadding 16) := by
    refine WSafe.seq (WSafe.seq (WSafe.seq (WSafe.seq (WSafe.seq (WSafe.seq (WSafe.seq (WSafe.seq (WSafe.seq (WSafe.seq
      (WSafe.seq (WSafe.seq ?_ ?_) ?_) ?_) ?_) ?_) ?_) ?_) ?_) ?_) ?_) ?_) ?_
    · exact wsafe_putU16 _ _
    · exact wsafe_putUuid _ _
    · exact wsafe_putU32 _ _
    · exact wsafe_putU16 _ _
    · exact wsafe_putU16 _ _
    · exact wsafe_putByte _
    · exact wsafe_putByte _
    · exact wsafe_putU16 _ _
    · exact wsafe_putU32 _ _
    · exact wsafe_putU16 _ _
    · exact wsafe_putU16 _ _
    · exact Read.wsafe_putStatus _
    · exact wsafe_putPadding _
  have hl : (enc16 true x.1.seqNmb ++ encUuid true x.1.uuid ++ enc32 true x.1.api ++
    enc16 true x.1.slot ++ enc16 true x.1.subslot ++ [0] ++ [0] ++ enc16 true x.1.index ++ enc32 true 0 ++ enc16 true x.2.add1 ++
    enc16 true x.2.add2 ++ [x.1.status.code, x.1.status.decode, x.2.code1, x.2.code2] ++ List.replicate 16 0).length = 58 := by
    simp [enc16_length, enc32_length, Read.encUuid_length h]
  have hw := writes_putBlock (be := true) (t := 0x8008) hb (by rw [hl]; decide)
  rw [hl] at hw
  exact emits_of hw (wsafe_putBlock hs)

theorem reply_at (ndr : Ndr) (p : Bool) (first last : Wire.Status) {l : List (Res × More)} (h : ∀ x ∈ l, x.1.uuid.d4.length = 8)
    {w : Wr} (hw : Ready w) :
    ∃ w', reply ndr p first last l w = some w' ∧ Within w w' ∧
      (p = true → w.pos + 20 + 64 * l.length ≤ w.cap → Appends w w' (encAnswer ndr last (encResults l))) ∧
      (p = true → w.pos + 4 ≤ w.cap → DiagRead.Holds w'.buf w.pos (Read.encStatus last)) ∧
      (p = false → l = [] → w.pos + 20 ≤ w.cap → Appends w w' (encEcho ndr first)) := by
  have hq : Emits (each putResult l) (encResults l) := emits_each l (fun a ha => emits_result (h a ha))
  have hlen := encResults_length h
  unfold reply
  obtain ⟨w1, e1, h1, r1⟩ := Read.within_of_emits (emits_of (Read.writes_putStatus first) (Read.wsafe_putStatus _)) hw
  obtain ⟨w2, e2, h2, r2⟩ := Read.within_of_emits (emits_of (Read.writes_putNdr ndr) (Read.wsafe_putNdr _)) (h1.ready hw)
  have h02 := h1.trans h2
  obtain ⟨w3, e3, h3, r3⟩ := Read.within_of_emits hq (h02.ready hw)
  have h03 := h02.trans h3
  have ls : ∀ s : Wire.Status, (Read.encStatus s).length = 4 := fun _ => rfl
  have ln : ∀ n : Ndr, (enc32 true n.argsLen ++ enc32 true n.maxCount ++ enc32 true n.offset ++ enc32 true n.actual).length = 16 := by
    intro n; simp [enc32_length]
  have two : w.pos + 20 ≤ w.cap → Appends w w2 (encEcho ndr first) ∧ w1.pos = w.pos + 4 := by
    intro hr
    have c1 := h1.1
    have a1 := r1 (by rw [ls]; omega)
    have p1' := a1.2.2.1
    rw [ls] at p1'
    have a2 := r2 (by rw [ln]; omega)
    exact ⟨a1.trans (by have := h1.2.2.2.1; omega) a2, p1'⟩
  cases p with
  | false =>
    refine ⟨w3, by rw [e1, Option.bind_some, e2, Option.bind_some, e3, Option.bind_some]; simp, h03, by simp, by simp, ?_⟩
    rintro - rfl hr
    cases e3
    exact (two hr).1
  | true =>
    obtain ⟨w5, e5, h5, r5⟩ := Read.patch (pre := Read.encStatus first)
      (old := enc32 true ndr.argsLen ++ enc32 true ndr.maxCount ++ enc32 true ndr.offset ++ enc32 true ndr.actual) (post := encResults l)
      (Read.writes_putNdr { ndr with argsLen := BitVec.ofNat 32 (w3.pos - w2.pos), actual := BitVec.ofNat 32 (w3.pos - w2.pos) })
      (Read.wsafe_putNdr _) (by rw [ln, ln]) hw h03 (k := w1.pos) h1.2.2.1
    obtain ⟨w6, e6, h6, r6⟩ := Control.restatus ndr first last (encResults l) hw h5
    simp only at e6 h6 r6
    refine ⟨{ w6 with pos := w3.pos }, ?_, h6, ?_, ?_, by simp⟩
    · rw [e1, Option.bind_some, e2, Option.bind_some, e3, Option.bind_some]
      simp only [if_true, e5, Option.bind_some, e6, Option.map_some]
    · intro _ hr
      obtain ⟨a02, p1'⟩ := two (by omega)
      have p2' := a02.2.2.1
      have le : (encEcho ndr first).length = 20 := by unfold encEcho; rw [List.length_append, ls, ln]
      rw [le] at p2'
      have k2 := r3 (by have := h02.1; omega)
      have a03 := a02.trans (by have := h02.2.2.2.1; have := h02.1; omega) k2
      have b5 := r5 (by simpa [encEcho] using a03) (by rw [ls]; omega)
      have hn : w3.pos - w2.pos = (encResults l).length := by have := k2.2.2.1; omega
      rw [hn] at b5
      exact r6 b5
    · intro _ hr
      have h5' : w5.cap = w.cap ∧ w5.buf.length = w.buf.length := ⟨h5.1, h5.2.1⟩
      obtain ⟨b, hb, he⟩ := Read.writes_putStatus last { w5 with pos := w.pos } (by simp only; have := hw.1; omega)
        (by simp only [ls]; omega)
      rw [e6] at he
      cases Option.some.inj he
      intro i hi
      show b[w.pos + i]? = _
      rw [writeAt_get hb, if_pos (by simp only; omega)]
      simp only
      congr 1
      omega

/-! ## The blocks of a response -/

theorem cmwrrInd_uuid (env : Env) (q : WriteReq) (dl : Nat) (s : S) : (cmwrrInd env q dl s).2.res.uuid = q.uuid := by
  unfold cmwrrInd
  dsimp only
  split
  · unfold cmwrrWrite advance
    dsimp only
    rw [(deliver_cases env _ _).2.1]
    rfl
  · rfl

theorem ifNotSet_res (x : Bool × S) : (ifNotSet x).2.res = x.2.res := by
  unfold ifNotSet
  split
  · rfl
  · split <;> rfl

theorem setRes_uuid (x : Bool × S) : (setRes x).2.res.uuid = x.2.res.uuid := by
  unfold setRes
  split <;> rfl

theorem performOne_uuid {env : Env} {q : WriteReq} {s : S} {x : Bool × S} (h : performOne env q s = some x) :
    x.2.res.uuid = s.res.uuid ∨ x.2.res.uuid = q.uuid := by
  obtain ⟨y, hy, rfl⟩ := Option.map_eq_some_iff.mp h
  rw [setRes_uuid]
  unfold performCore at hy
  split at hy
  · cases hy; exact .inl rfl
  · split at hy
    · cases hy; exact .inl rfl
    · split at hy
      · split at hy
        · cases hy
          rw [ifNotSet_res]
          exact .inr (cmwrrInd_uuid _ _ _ _)
        · obtain ⟨z, _, rfl⟩ := Option.map_eq_some_iff.mp hy
          rw [ifNotSet_res]
          exact .inr (cmwrrInd_uuid _ _ _ _)
      · cases hy; exact .inl rfl

theorem post_getWriteReq : Rpc.Post (fun q => q.uuid.d4.length = 8) getWriteReq := by
  unfold getWriteReq
  refine Rpc.Post.bind (Rpc.Post.any _) fun _ _ => Rpc.Post.bind Rpc.post_getUuid fun u hu => ?_
  iterate 7 refine Rpc.Post.bind (Rpc.Post.any _) fun _ _ => ?_
  exact Rpc.Post.pure hu

theorem interpret_uuid {old q : WriteReq} {r r' : Rd} (ho : old.uuid.d4.length = 8) (h : interpret old r = some (.ok q, r')) :
    q.uuid.d4.length = 8 := by
  unfold interpret at h
  split at h
  · obtain ⟨⟨a, r1⟩, _, h2⟩ := Option.bind_eq_some_iff.mp h
    unfold interpretBlock at h2
    dsimp only at h2
    split at h2
    · split at h2
      · obtain ⟨⟨q', r2⟩, h3, h4⟩ := Option.map_eq_some_iff.mp h2
        cases h4
        exact post_getWriteReq _ _ _ h3
      · split at h2
        · cases h2; exact ho
        · cases h2
    · cases h2
  · cases h

theorem multi_uuid (env : Env) : ∀ (n : Nat) (q0 : WriteReq) (ret : Bool) (blocks : List Res) (s : S) x,
    q0.uuid.d4.length = 8 → s.res.uuid.d4.length = 8 → (∀ b ∈ blocks, b.uuid.d4.length = 8) →
    multi env n q0 ret blocks s = some x → ∀ b ∈ x.2.1, b.uuid.d4.length = 8 := by
  intro n
  induction n with
  | zero => intro _ _ _ _ _ _ _ _ h; cases h
  | succ n ih =>
    intro q0 ret blocks s x h1 h2 h3 h
    rw [multi] at h
    split at h
    · split at h
      · cases h
      · rename_i q r hi
        have hq := interpret_uuid h1 hi
        split at h
        · cases h
        · rename_i ok s' ht
          obtain ⟨y, hy, e⟩ := Option.map_eq_some_iff.mp ht
          cases e
          have hu : y.2.res.uuid.d4.length = 8 := by
            rcases performOne_uuid hy with e | e
            · rw [e]; exact h2
            · rw [e]; exact hq
          refine ih _ _ _ { align y.2 with stat := noError } _ hq hu ?_ h
          intro b hb
          rcases List.mem_append.mp hb with hb | hb
          · exact h3 b hb
          · cases List.mem_singleton.mp hb
            exact hu
      · cases h; exact h3
    · cases h; exact h3

/-- Whatever the request consists of, the result blocks carry UUIDs of the proper length. -/
theorem blocks_uuid {env : Env} {fuel : Nat} {args : U32} {st : Status} {r : Rd} {o : Out}
    (h : writeInd env fuel args st r = some o) : ∀ b ∈ o.blocks, b.uuid.d4.length = 8 := by
  unfold writeInd at h
  obtain ⟨⟨i, r1⟩, h1, h2⟩ := Option.bind_eq_some_iff.mp h
  cases i with
  | unknown => cases h2; simp
  | bad => cases h2; simp
  | ok q =>
    have hq := interpret_uuid rfl h1
    dsimp only at h2
    split at h2
    · cases h2; simp
    · split at h2
      · obtain ⟨x, hx, e⟩ := Option.map_eq_some_iff.mp h2
        cases e
        refine multi_uuid env _ _ _ _ _ _ rfl rfl ?_ hx
        intro b hb
        cases List.mem_singleton.mp hb
        exact hq
      · obtain ⟨x, hx, e⟩ := Option.map_eq_some_iff.mp h2
        cases e
        intro b hb
        cases List.mem_singleton.mp hb
        rcases performOne_uuid hx with e | e
        · rw [e]; exact hq
        · rw [e]; exact hq

theorem withMore_uuid {more : Nat → More} {l : List Res} (h : ∀ b ∈ l, b.uuid.d4.length = 8) :
    ∀ x ∈ withMore more l, x.1.uuid.d4.length = 8 := by
  intro x hx
  obtain ⟨y, hy, rfl⟩ := List.mem_map.mp hx
  exact h _ (List.fst_mem_of_mem_zipIdx hy)

theorem withMore_length (more : Nat → More) (l : List Res) : (withMore more l).length = l.length := by
  simp [withMore]

theorem withMore_fst (more : Nat → More) (l : List Res) : (withMore more l).map Prod.fst = l := by
  unfold withMore
  rw [List.map_map]
  have : (Prod.fst ∘ fun (x : Res × Nat) => (x.1, more x.2)) = Prod.fst := rfl
  rw [this, List.zipIdx_map_fst]

/-! ## C157 -/

/-- C157: whatever the request consists of, if its first block can be read and there is room for the response, the response consists
of the status, the lengths and one block of 64 bytes for each result, and of nothing else.  Nothing outside the
free part of the response buffer is changed. -/
theorem C157_bytes_partial (env : Env) (fuel : Nat) (ndr : Ndr) (st : Status) (r : Rd) (more : Nat → More)
    (ends : (Byte × Byte) × Byte × Byte) (w : Wr) (o : Out) (hw : Ready w) (h : writeInd env fuel ndr.argsLen st r = some o)
    (hp : parsed r = true) (hr : w.pos + 20 + 64 * o.blocks.length ≤ w.cap) :
    ∃ w', writeRsp env fuel ndr st r more ends w = some (o, w') ∧
      Appends w w' (encAnswer ndr ⟨o.status.code, o.status.decode, ends.2.1, ends.2.2⟩ (encResults (withMore more o.blocks))) := by
  obtain ⟨w', e, _, a, _⟩ := reply_at ndr (parsed r) (whole (statusBefore st r) ends.1.1 ends.1.2) (whole o.status ends.2.1 ends.2.2)
    (withMore_uuid (more := more) (blocks_uuid h)) hw
  rw [withMore_length] at a
  exact ⟨w', by unfold writeRsp; rw [h, Option.bind_some, e]; rfl, a hp hr⟩

/-- C157, the part that holds for every request and every size of the response buffer: the response is built without leaving the
buffer. -/
theorem C157_stays (env : Env) (fuel : Nat) (ndr : Ndr) (st : Status) (r : Rd) (more : Nat → More)
    (ends : (Byte × Byte) × Byte × Byte) (w : Wr) (o : Out) (hw : Ready w) (h : writeInd env fuel ndr.argsLen st r = some o) :
    ∃ w', writeRsp env fuel ndr st r more ends w = some (o, w') ∧ Within w w' := by
  obtain ⟨w', e, a, _⟩ := reply_at ndr (parsed r) (whole (statusBefore st r) ends.1.1 ends.1.2) (whole o.status ends.2.1 ends.2.2)
    (withMore_uuid (more := more) (blocks_uuid h)) hw
  exact ⟨w', by unfold writeRsp; rw [h, Option.bind_some, e]; rfl, a⟩

theorem encResult_inj {x y : Res × More} (hx : x.1.uuid.d4.length = 8) (hy : y.1.uuid.d4.length = 8) (h : encResult x = encResult y) :
    x = y := by
  unfold encResult at h
  have h0 := List.append_cancel_left h
  simp only [List.append_assoc] at h0
  obtain ⟨a1, h0⟩ := List.append_inj h0 (by simp [enc16_length])
  obtain ⟨a2, h0⟩ := List.append_inj h0 (by rw [Read.encUuid_length hx, Read.encUuid_length hy])
  obtain ⟨a3, h0⟩ := List.append_inj h0 (by simp [enc32_length])
  obtain ⟨a4, h0⟩ := List.append_inj h0 (by simp [enc16_length])
  obtain ⟨a5, h0⟩ := List.append_inj h0 (by simp [enc16_length])
  have h0 := List.append_cancel_left (List.append_cancel_left h0)
  obtain ⟨a6, h0⟩ := List.append_inj h0 (by simp [enc16_length])
  have h0 := List.append_cancel_left h0
  obtain ⟨a7, h0⟩ := List.append_inj h0 (by simp [enc16_length])
  obtain ⟨a8, h0⟩ := List.append_inj h0 (by simp [enc16_length])
  obtain ⟨a9, _⟩ := List.append_inj h0 rfl
  obtain ⟨⟨x1, x2, x3, x4, x5, x6, ⟨x7, x8⟩⟩, ⟨x9, x10, x11, x12⟩⟩ := x
  obtain ⟨⟨y1, y2, y3, y4, y5, y6, ⟨y7, y8⟩⟩, ⟨y9, y10, y11, y12⟩⟩ := y
  simp only at a1 a2 a3 a4 a5 a6 a7 a8 a9
  simp only [List.cons.injEq, and_true] at a9
  rw [ConnRsp.enc16_inj a1, ConnRsp.uuid_inj a2, ConnRsp.enc32_inj a3, ConnRsp.enc16_inj a4, ConnRsp.enc16_inj a5, ConnRsp.enc16_inj a6,
    ConnRsp.enc16_inj a7, ConnRsp.enc16_inj a8, a9.1, a9.2.1, a9.2.2.1, a9.2.2.2]

theorem encResults_inj {l l' : List (Res × More)} (hl : ∀ x ∈ l, x.1.uuid.d4.length = 8)
    (hl' : ∀ x ∈ l', x.1.uuid.d4.length = 8) (h : encResults l = encResults l') : l = l' := by
  induction l generalizing l' with
  | nil =>
    cases l' with
    | nil => rfl
    | cons y l' =>
      have := congrArg List.length h
      rw [encResults_length hl, encResults_length hl'] at this
      simp at this
  | cons x l ih =>
    cases l' with
    | nil =>
      have := congrArg List.length h
      rw [encResults_length hl, encResults_length hl'] at this
      simp at this
    | cons y l' =>
      unfold encResults at h
      rw [List.flatMap_cons, List.flatMap_cons] at h
      obtain ⟨h1, h2⟩ := List.append_inj h (by rw [encResult_length (hl x (by simp)), encResult_length (hl' y (by simp))])
      rw [encResult_inj (hl x (by simp)) (hl' y (by simp)) h1, ih (fun z hz => hl z (by simp [hz])) (fun z hz => hl' z (by simp [hz])) h2]

/-- C157: a response tells the status, and for each result block the names of the write and its status: two responses with the same bytes
tell the same. -/
theorem C157_tells {ndr ndr' : Ndr} {s s' : Wire.Status} {l l' : List (Res × More)} (hl : ∀ x ∈ l, x.1.uuid.d4.length = 8)
    (hl' : ∀ x ∈ l', x.1.uuid.d4.length = 8) (h : encAnswer ndr s (encResults l) = encAnswer ndr' s' (encResults l')) :
    s = s' ∧ l = l' := by
  unfold encAnswer at h
  simp only [List.append_assoc] at h
  obtain ⟨h1, h⟩ := List.append_inj h rfl
  obtain ⟨_, h⟩ := List.append_inj h (by simp [Records.num32_length])
  obtain ⟨_, h⟩ := List.append_inj h (by simp [enc32_length])
  obtain ⟨_, h⟩ := List.append_inj h (by simp [enc32_length])
  obtain ⟨_, h⟩ := List.append_inj h (by simp [Records.num32_length])
  refine ⟨?_, encResults_inj hl hl' h⟩
  unfold Read.encStatus at h1
  obtain ⟨a, b, c, d⟩ := s
  obtain ⟨a', b', c', d'⟩ := s'
  simp only [List.cons.injEq, and_true] at h1
  rw [h1.1, h1.2.1, h1.2.2.1, h1.2.2.2]

theorem parsed_of {q : WriteReq} (hu : q.uuid.d4.length = 8) {rest : List Byte} {r : Rd} {be : Bool} (h : Sent be (encHead be q ++ rest) r) :
    parsed r = true := by
  obtain ⟨f1, _⟩ := first_block hu h
  unfold parsed
  rw [f1]
  simp [h.err]

/-- C157 for a multiple write as a controller sends it, of records whose connection and API exist (and functions that report a failure with an
error code): if there is room for it, the response has a block for the request as a whole and then one for each write
that was looked at, in the order of the request, with the names of that write and its status. -/
theorem C157_multiple_partial (env : Env) (a : Nat → Answer) (ha : ∀ k c, env.ans k c = a k)
    (hf : ∀ k e, a k = .fail e → e.code ≠ 0) (padLast : Bool) (q : WriteReq) (items : List Item) (fuel : Nat)
    (ndr : Ndr) (st : Status) (r : Rd) (more : Nat → More) (ends : (Byte × Byte) × Byte × Byte) (w : Wr) (hw : Ready w)
    (hu : q.uuid.d4.length = 8) (hq : q.index = 0xe040)
    (hit : ∀ it ∈ items, it.Wf ∧ env.arKnown it.req.uuid = true ∧ (it.req.api = 0 ∨ env.apiKnown it.req.api = true))
    (hs : Sent true (encMulti true padLast q items) r) (hp : r.pos % 4 = 0) (hlen : r.len ≤ 65000)
    (hargs : ndr.argsLen.toNat = (encMulti true padLast q items).length) (hfuel : items.length < fuel)
    (hr : w.pos + 20 + 64 * (1 + (expected env a 0 items).length) ≤ w.cap) :
    ∃ o w' l, writeRsp env fuel ndr st r more ends w = some (o, w') ∧
      Appends w w' (encAnswer ndr ⟨st.code, st.decode, ends.2.1, ends.2.2⟩ (encResults l)) ∧
      l.map Prod.fst = resOf q st :: (expected env a 0 items).map (fun x => resOf x.1.req x.2.1) ∧
      o.calls.map (fun c => (c.req, slice r.buf c.pos c.len)) =
        ((expected env a 0 items).filter (fun x => x.2.2)).map (fun x => (x.1.req, some x.1.record)) := by
  obtain ⟨o, h1, h2, h3, h4, _⟩ := C71_in_order_partial env a ha hf true padLast q items fuel ndr.argsLen st r hu hq hit hs hp hlen hargs hfuel
  have hlen' : o.blocks.length = 1 + (expected env a 0 items).length := by rw [h3]; simp; omega
  obtain ⟨w', e, ap⟩ := C157_bytes_partial env fuel ndr st r more ends w o hw h1 (parsed_of hu hs) (by rw [hlen']; exact hr)
  rw [h4] at ap
  exact ⟨o, w', _, e, ap, by rw [withMore_fst, h3], h2⟩

/-- C157 for a single write as a controller sends it, that is accepted: the response is that of 84 bytes with one block. -/
theorem C157_single_partial (env : Env) (fuel : Nat) (ndr : Ndr) (st : Status) (it : Item) (r : Rd) (more : Nat → More)
    (ends : (Byte × Byte) × Byte × Byte) (w : Wr) (hw : Ready w)
    (hwf : it.Wf) (hi : it.req.index ≠ 0xe040) (hs : Sent true (encItem true it) r) (hlen : r.len ≤ 65000)
    (hk : env.arKnown it.req.uuid = true) (hapi : it.req.api = 0 ∨ env.apiKnown it.req.api = true)
    (hr : refused env it.req = none) (ha : ∀ k c, env.ans k c = .ok) (hargs : ndr.argsLen.toNat = (encItem true it).length)
    (hroom : w.pos + 84 ≤ w.cap) :
    ∃ o w', writeRsp env fuel ndr st r more ends w = some (o, w') ∧
      Appends w w' (encAnswer ndr ⟨st.code, st.decode, ends.2.1, ends.2.2⟩ (encResult (resOf it.req st, more 0))) ∧
      o.calls.map (fun c => (c.req, slice r.buf c.pos c.len)) = [(it.req, some it.record)] := by
  obtain ⟨o, h1, h2, h3, _, h5⟩ := C72_accepted env fuel ndr.argsLen st true it r hwf hi hs hlen hk hapi hr ha
  rw [if_pos hargs] at h5
  obtain ⟨w', e, ap⟩ := C157_bytes_partial env fuel ndr st r more ends w o hw h1 (parsed_of hwf.uuid (rest := it.data) hs)
    (by rw [h3]; simp; omega)
  rw [h5, h3] at ap
  exact ⟨o, w', e, by simpa [withMore, encResults] using ap, h2⟩

/-! ## C157 is false in general -/

theorem inv_rep (n : Nat) : Inv true (rep n getByte) (fun _ bs => bs.length = n) := by
  induction n with
  | zero => exact (Inv.pure _).mono (fun a bs h => by rw [h.2]; rfl)
  | succ n ih =>
    refine (Inv.bind (inv_getByte true) fun a => Inv.bind ih fun l => Inv.pure _).mono ?_
    rintro _ _ ⟨a, x, y, rfl, rfl, l, z, t, rfl, h1, _, rfl⟩
    simp [h1]

theorem inv_getWriteReq : Inv true getWriteReq (fun _ bs => bs.length = 58) := by
  unfold getWriteReq
  refine (Inv.bind (inv_getU16 true) fun a => Inv.bind Read.inv_getUuid fun b => Inv.bind inv_getU32 fun c => Inv.bind (inv_getU16 true) fun d =>
    Inv.bind (inv_getU16 true) fun e => Inv.bind (inv_rep 2) fun f => Inv.bind (inv_getU16 true) fun g => Inv.bind inv_getU32 fun h =>
    Inv.bind (inv_rep 24) fun i => Inv.pure _).mono ?_
  rintro _ _ ⟨_, _, _, rfl, rfl, _, _, _, rfl, ⟨rfl, hu⟩, _, _, _, rfl, rfl, _, _, _, rfl, rfl, _, _, _, rfl, rfl, _, _, _, rfl, h2, _, _, _, rfl, rfl,
    _, _, _, rfl, rfl, _, _, _, rfl, h3, _, rfl⟩
  simp [enc16_length, enc32_length, Read.encUuid_length hu, h2, h3]

/-- C157 is false for a request that consists of one block which is called a write request but is too short for one: nothing is written,
no error is reported, and the response announces the lengths of the request although there is no block in it. -/
theorem C157_fails_parse (env : Env) (fuel : Nat) (ndr : Ndr) (r : Rd) (more : Nat → More) (ends : (Byte × Byte) × Byte × Byte) (w : Wr)
    (hw : Ready w) (L : U16) (vh vl : Byte) (rest : List Byte) (hs : Sent true (encBlockHeader true ⟨8, L, vh, vl⟩ ++ rest) r)
    (hL : L.toNat ≤ rest.length + 2) (hrest : rest.length < 58) (hroom : w.pos + 20 ≤ w.cap) :
    ∃ w', writeRsp env fuel ndr noError r more ends w = some (⟨[], [], noError, false⟩, w') ∧
      Appends w w' ([0, 0, ends.1.1, ends.1.2] ++ (enc32 true ndr.argsLen ++ enc32 true ndr.maxCount ++ enc32 true ndr.offset ++
        enc32 true ndr.actual)) := by
  have l6 : (encBlockHeader true ⟨8, L, vh, vl⟩).length = 6 := by simp [encBlockHeader, enc16_length]
  have hlen := hs.len
  rw [List.length_append, l6] at hlen
  have hb := sent_room hs
  obtain ⟨s1, s2⟩ := slice_append hs.bytes
  rw [l6] at s1 s2
  have e1 := parses_getBlockHeader true ⟨8, L, vh, vl⟩ r hs.err hs.null hs.be (by rw [l6]; omega) (by rw [l6]; exact s1)
  obtain ⟨q, r2, e2, b2, n2, l2, m2, x2, t2⟩ := safe_getWriteReq { r with pos := r.pos + 6 } (fun _ => hb)
  have he : r2.err ≠ .ok := by
    intro he
    obtain ⟨bs, k1, k2, k3, k4⟩ := inv_getWriteReq.2 { r with pos := r.pos + 6 } q r2 hs.be hs.err (by simp only; omega)
      (by simp only; omega) e2 he
    simp only at k3
    omega
  have hi : interpret zeroReq r = some (.ok q, r2) := by
    unfold interpret
    rw [if_pos (by omega), e1, Option.bind_some, l6]
    dsimp only
    unfold interpretBlock
    rw [if_pos ⟨by dsimp only; omega, hs.err⟩, if_pos rfl]
    have e2' := e2
    rw [hs.be] at e2'
    rw [e2']
    rfl
  have ho : writeInd env fuel ndr.argsLen noError r = some ⟨[], [], noError, false⟩ := by
    unfold writeInd
    rw [hi, Option.bind_some]
    dsimp only
    rw [if_pos he]
  have hp : parsed r = false := by unfold parsed; rw [hi]; simp [he]
  have hst : statusBefore noError r = noError := by unfold statusBefore; rw [hi]
  obtain ⟨w', e, _, _, _, a⟩ := reply_at ndr (parsed r) (whole (statusBefore noError r) ends.1.1 ends.1.2) (whole noError ends.2.1 ends.2.2)
    (l := []) (by simp) hw
  refine ⟨w', ?_, ?_⟩
  · unfold writeRsp
    rw [ho, Option.bind_some]
    show ((reply ndr (parsed r) (whole (statusBefore noError r) ends.1.1 ends.1.2) (whole noError ends.2.1 ends.2.2) [] w).map _) = _
    rw [e]
    rfl
  · have := a hp rfl hroom
    rw [hst] at this
    exact this

/-- C157 is false if the controller has left too little room for the response (its `args_maximum` counts for it): for every multiple
write all of whose records are taken, all of them are written and no error is reported, but there is no place for
all result blocks in the response. -/
theorem C157_fails_room (env : Env) (ha : ∀ k c, env.ans k c = .ok) (padLast : Bool) (q : WriteReq) (items : List Item) (fuel : Nat)
    (ndr : Ndr) (r : Rd) (more : Nat → More) (ends : (Byte × Byte) × Byte × Byte) (w : Wr) (hw : Ready w)
    (hu : q.uuid.d4.length = 8) (hq : q.index = 0xe040)
    (hit : ∀ it ∈ items, it.Wf ∧ env.arKnown it.req.uuid = true ∧ (it.req.api = 0 ∨ env.apiKnown it.req.api = true))
    (hfree : ∀ it ∈ items, refused env it.req = none)
    (hs : Sent true (encMulti true padLast q items) r) (hp : r.pos % 4 = 0) (hlen : r.len ≤ 65000)
    (hargs : ndr.argsLen.toNat = (encMulti true padLast q items).length) (hfuel : items.length < fuel)
    (h4 : w.pos + 4 ≤ w.cap) (hr : w.cap < w.pos + 20 + 64 * (1 + items.length)) :
    ∃ o w', writeRsp env fuel ndr noError r more ends w = some (o, w') ∧
      o.calls.map (fun c => (c.req, slice r.buf c.pos c.len)) = items.map (fun it => (it.req, some it.record)) ∧
      DiagRead.Holds w'.buf w.pos [0, 0, ends.2.1, ends.2.2] ∧ w'.pos < w.pos + 20 + 64 * (1 + items.length) := by
  have hx : ∀ k, expected env (fun _ => .ok) k items = items.map (fun it => (it, ⟨0, 0⟩, true)) := by
    clear hit hs hargs hfuel hr
    induction items with
    | nil => intro k; rfl
    | cons it l ih =>
      intro k
      rw [expected, hfree it (by simp)]
      dsimp only
      rw [ih (fun x hx => hfree x (by simp [hx]))]
      rfl
  obtain ⟨o, h1, h2, h3, h5, _⟩ := C71_in_order_partial env (fun _ => .ok) ha (fun _ _ h => by cases h) true padLast q items fuel ndr.argsLen
    noError r hu hq hit hs hp hlen hargs hfuel
  obtain ⟨w', e, a, _, hh, _⟩ := reply_at ndr (parsed r) (whole (statusBefore noError r) ends.1.1 ends.1.2) (whole o.status ends.2.1 ends.2.2)
    (withMore_uuid (more := more) (blocks_uuid h1)) hw
  refine ⟨o, w', by unfold writeRsp; rw [h1, Option.bind_some, e]; rfl, ?_, ?_, ?_⟩
  · rw [h2, hx]
    clear * -
    induction items with
    | nil => rfl
    | cons it l ih => simpa using ih
  · have := hh (parsed_of hu hs) h4
    rw [h5] at this
    exact this
  · have := a.2.2.2.1
    omega

/-! ## Concrete cases -/

def exMore : Nat → More := fun k => ⟨0, 0, BitVec.ofNat 16 k, 7⟩
def exEnds : (Byte × Byte) × Byte × Byte := ((0, 0), 0, 0)
def exNdr (n : U32) : Ndr := ⟨4096, n, 4096, 0, n⟩

/-- A response buffer of 1000 bytes of which `cap` may be used; 80 are in use. -/
def exWr (cap : Nat) : Wr := ⟨List.replicate 1000 0xee, cap, 80⟩

theorem exReady {cap : Nat} (h : 80 ≤ cap) (h' : cap ≤ 1000) : Ready (exWr cap) :=
  ⟨by show cap ≤ (List.replicate 1000 _).length; rw [List.length_replicate]; exact h', by show cap < 65536; omega, h⟩

/-- Two records are written: three blocks. -/
example : ∃ o w' l, writeRsp exEnv 3 (exNdr 204) noError (exRd (encMulti true false exMulti exItems)) exMore exEnds (exWr 292) = some (o, w') ∧
    Appends (exWr 292) w' (encAnswer (exNdr 204) ⟨0, 0, 0, 0⟩ (encResults l)) ∧
    l.map Prod.fst = [resOf exMulti noError, resOf (exReq 2 5 3) noError, resOf (exReq 3 0xaff1 8) noError] := by
  obtain ⟨o, w', l, h1, h2, h3, _⟩ := C157_multiple_partial exEnv (fun _ => .ok) (fun _ _ => rfl) (fun _ _ h => by cases h) false
    exMulti exItems 3 (exNdr 204) noError _ exMore exEnds (exWr 292) (exReady (by decide) (by decide)) rfl rfl exItems_ok (exSent _) rfl
    (by decide +kernel) (by decide +kernel) (by decide) (by decide +kernel)
  exact ⟨o, w', l, h1, h2, h3⟩

/-- The same request with room for the first of the three blocks only: both records are written. -/
example : ∃ o w', writeRsp exEnv 3 (exNdr 204) noError (exRd (encMulti true false exMulti exItems)) exMore exEnds (exWr 164) = some (o, w') ∧
    o.calls.map (fun c => (c.req, slice (exRd (encMulti true false exMulti exItems)).buf c.pos c.len)) =
      [(exReq 2 5 3, some [1, 2, 3]), (exReq 3 0xaff1 8, some [9, 8])] ∧
    DiagRead.Holds w'.buf 80 [0, 0, 0, 0] ∧ w'.pos < 80 + 20 + 64 * 3 := by
  obtain ⟨o, w', h1, h2, h3, h4⟩ := C157_fails_room exEnv (fun _ _ => rfl) false
    exMulti exItems 3 (exNdr 204) _ exMore exEnds (exWr 164) (exReady (by decide) (by decide)) rfl rfl exItems_ok
    (by intro it hit; simp only [exItems, List.mem_cons, List.not_mem_nil, or_false] at hit; rcases hit with rfl | rfl <;> rfl) (exSent _) rfl
    (by decide +kernel) (by decide +kernel) (by decide) (by decide) (by decide)
  exact ⟨o, w', h1, h2, h3, h4⟩

/-- A single write. -/
example : ∃ o w', writeRsp exEnv 0 (exNdr 67) noError (exRd (encItem true ⟨exReq 2 5 3, [1, 2, 3]⟩)) exMore exEnds (exWr 164) = some (o, w') ∧
    Appends (exWr 164) w' (encAnswer (exNdr 67) ⟨0, 0, 0, 0⟩ (encResult (resOf (exReq 2 5 3) noError, exMore 0))) := by
  obtain ⟨o, w', h1, h2, _⟩ := C157_single_partial exEnv 0 (exNdr 67) noError ⟨exReq 2 5 3, [1, 2, 3]⟩ _ exMore exEnds (exWr 164)
    (exReady (by decide) (by decide)) (exItems_ok _ (by simp [exItems])).1 (by decide) (exSent _) (by decide +kernel) rfl (.inl rfl) rfl
    (fun _ _ => rfl) (by decide +kernel) (by decide)
  exact ⟨o, w', h1, h2⟩

/-- A block of 16 bytes that is called a write request: the response announces 16 bytes and has none. -/
example : ∃ w', writeRsp exEnv 0 (exNdr 16) noError (exRd (encBlockHeader true ⟨8, 12, 1, 0⟩ ++ List.replicate 10 0)) exMore exEnds (exWr 900) =
      some (⟨[], [], noError, false⟩, w') ∧
    Appends (exWr 900) w' ([0, 0, 0, 0] ++ (enc32 true 16 ++ enc32 true 4096 ++ enc32 true 0 ++ enc32 true 16)) :=
  C157_fails_parse exEnv 0 (exNdr 16) _ exMore exEnds (exWr 900) (exReady (by decide) (by decide)) 12 1 0 (List.replicate 10 0) (exSent _)
    (by decide) (by decide) (by decide)

end Verif.Write
