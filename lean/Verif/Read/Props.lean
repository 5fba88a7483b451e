import Verif.Read.Lemmas

/-!
C91: the answer to a read carries the record and the names from the request.
C92: records of the application.
C93: reads that are not carried out.
-/
set_option linter.unusedVariables false

namespace Verif.Read
open Verif.Wire hiding ExpApi ExpMod ExpSub

attribute [local irreducible] encAnswer encHead encReq carryOut interpret

variable {A : Type}

/-! ## C91 -/

/-- C91.  The message is one read request that is carried out for connection `ar`; the record is built by the stack as
`bs`.  Then, if there is room, exactly the answer is appended to the response: the status is that of the
result, or "invalid index" if the record cannot be read; the block with the names carries sequence number,
connection, place and index from the request and the length of the record; the record follows.  In any case,
also without room, nothing else in memory is changed, and the application is not called. -/
theorem C91_read_answer {e : Env A} {implicit : Bool} {ndr : Ndr} {res : Result} {r : Rd} {w : Wr} {q : ReadReq}
    {ar : Option A} {rec : Rec} {ok : Bool} {bs : List Byte} (hr : Fit r) (hw : Ready w) (hq : Requests ndr r q)
    (hs : res.status.code = 0) (hc : CarriedOut e implicit q ar) (hi : 0x7FFF < q.index.toNat)
    (hrec : e.stock ar q = some rec) (hm : Makes rec ok bs) :
    ∃ w' res', readInd e implicit ndr res r w = some (w', res', []) ∧ Within w w' ∧
      (w.pos + 84 + bs.length ≤ w.cap →
        res' = (if ok then res else { res with status := saysInvalidIndex }) ∧ Appends w w' (encAnswer ndr q res' bs)) := by
  have hu : q.uuid.d4.length = 8 := by obtain ⟨_, _, _, _, _, h, _⟩ := hq; exact h
  rw [readInd_carried hr hq hs hc]
  obtain ⟨w', res', e1, h1, r1⟩ := carryOut_spec (e := e) (ar := ar) (ndr := ndr) (res := res) (res1 := res) hu hw (d := [])
    (bs := bs) (calls := []) (ok := ok)
    (by intro n _ _; unfold fspmRead; rw [if_neg (by omega)])
    (by
      intro x hx _ _
      unfold putRecord
      rw [if_neg (by omega), hrec]
      exact hm x hx)
  refine ⟨w', res', e1, h1, fun hroom => ?_⟩
  obtain ⟨a, b⟩ := r1 hroom
  subst a
  exact ⟨rfl, b⟩

/-- C91.  An index above 0x7FFF that the stack does not know is answered with "invalid index" and an empty record. -/
theorem C91_unknown_index {e : Env A} {implicit : Bool} {ndr : Ndr} {res : Result} {r : Rd} {w : Wr} {q : ReadReq}
    {ar : Option A} (hr : Fit r) (hw : Ready w) (hq : Requests ndr r q) (hs : res.status.code = 0)
    (hc : CarriedOut e implicit q ar) (hi : 0x7FFF < q.index.toNat) (hrec : e.stock ar q = none) :
    ∃ w' res', readInd e implicit ndr res r w = some (w', res', []) ∧ Within w w' ∧
      (w.pos + 84 ≤ w.cap → res' = { res with status := saysInvalidIndex } ∧ Appends w w' (encAnswer ndr q res' [])) := by
  have hu : q.uuid.d4.length = 8 := by obtain ⟨_, _, _, _, _, h, _⟩ := hq; exact h
  rw [readInd_carried hr hq hs hc]
  obtain ⟨w', res', e1, h1, r1⟩ := carryOut_spec (e := e) (ar := ar) (ndr := ndr) (res := res) (res1 := res) hu hw (d := [])
    (bs := []) (calls := []) (ok := false)
    (by intro n _ _; unfold fspmRead; rw [if_neg (by omega)])
    (by
      intro x hx _ _
      unfold putRecord
      rw [if_neg (by omega), hrec]
      exact ⟨false, x, rfl, within_refl hx, fun _ => ⟨rfl, appends_nil x⟩⟩)
  refine ⟨w', res', e1, h1, fun hroom => ?_⟩
  obtain ⟨a, b⟩ := r1 (by simpa using hroom)
  subst a
  exact ⟨rfl, b⟩

/-- C91.  A message is understood as the request `q` exactly if it is that request: header of type 0x0009, 64 bytes in
all, nothing behind it, and the length in front of the blocks agrees. -/
theorem C91_request_understood {ndr : Ndr} {r : Rd} (hr : Fit r) (q : ReadReq) :
    (∃ r', interpret ndr r = some (.ok q, r')) ↔ Requests ndr r q :=
  interpret_iff hr.1 hr.2.1 hr.2.2.1 hr.2.2.2.1 hr.2.2.2.2 q

/-! ## C92 -/

/-- C92.  A record of the application is read over a connection.  The callback is called exactly once, with the
connection, the place, the index and the sequence number from the request, and with a maximum of all that is
left in the response.  If there is room, the answer holds the data as the callback returned them (none if it
failed) and the status and additional values it set. -/
theorem C92_application_record_partial {e : Env A} {implicit : Bool} {ndr : Ndr} {res : Result} {r : Rd} {w : Wr} {q : ReadReq}
    {a : A} {f : Call A → Result → Supply} (hr : Fit r) (hw : Ready w) (hw20 : w.pos + 20 ≤ w.cap) (hq : Requests ndr r q)
    (hs : res.status.code = 0) (hc : CarriedOut e implicit q (some a)) (hi : q.index.toNat ≤ 0x7FFF) (hf : e.app = some f)
    {c : Call A} (hcall : c = ⟨a, q.api, q.slot, q.subslot, q.index, q.seqNmb, w.cap - w.pos - 20⟩)
    {d : List Byte} (hd : d = if (f c res).ok then (f c res).data else []) :
    ∃ w' res', readInd e implicit ndr res r w = some (w', res', [c]) ∧ Within w w' ∧
      (w.pos + 84 + d.length ≤ w.cap → res' = (f c res).result ∧ Appends w w' (encAnswer ndr q (f c res).result d)) := by
  have hu : q.uuid.d4.length = 8 := by obtain ⟨_, _, _, _, _, h, _⟩ := hq; exact h
  rw [readInd_carried hr hq hs hc]
  obtain ⟨w', res', e1, h1, r1⟩ := carryOut_spec (e := e) (ar := some a) (ndr := ndr) (res := res) (res1 := (f c res).result) hu hw
    (d := d) (bs := d) (calls := [c]) (ok := true)
    (by
      intro n _ hn
      have := hn hw20
      subst this
      unfold fspmRead
      rw [if_pos hi, hf]
      simp only [← hcall, ← hd])
    (by
      intro x hx _ _
      unfold putRecord
      rw [if_pos hi]
      exact makes_putApp d x hx)
  exact ⟨w', res', e1, h1, r1⟩

/-- C92.  Data that are longer than the maximum the callback was given, reduced by 64, are not delivered: the answer is "invalid
index" with an empty record. -/
theorem C92_maximum_too_large {e : Env A} {implicit : Bool} {ndr : Ndr} {res : Result} {r : Rd} {w : Wr} {q : ReadReq}
    {a : A} {f : Call A → Result → Supply} (hr : Fit r) (hw : Ready w) (hw84 : w.pos + 84 ≤ w.cap) (hq : Requests ndr r q)
    (hs : res.status.code = 0) (hc : CarriedOut e implicit q (some a)) (hi : q.index.toNat ≤ 0x7FFF) (hf : e.app = some f)
    {c : Call A} (hcall : c = ⟨a, q.api, q.slot, q.subslot, q.index, q.seqNmb, w.cap - w.pos - 20⟩)
    (hok : (f c res).ok = true) (hd : c.max < (f c res).data.length + 64) :
    ∃ w', readInd e implicit ndr res r w = some (w', { (f c res).result with status := saysInvalidIndex }, [c]) ∧
      Appends w w' (encAnswer ndr q { (f c res).result with status := saysInvalidIndex } []) := by
  have hu : q.uuid.d4.length = 8 := by obtain ⟨_, _, _, _, _, h, _⟩ := hq; exact h
  have hmax : c.max = w.cap - w.pos - 20 := by rw [hcall]
  rw [readInd_carried hr hq hs hc]
  obtain ⟨w', res', e1, h1, r1⟩ := carryOut_spec (e := e) (ar := some a) (ndr := ndr) (res := res) (res1 := (f c res).result) hu hw
    (d := (f c res).data) (bs := []) (calls := [c]) (ok := false)
    (by
      intro n _ hn
      have := hn (by omega)
      subst this
      unfold fspmRead
      rw [if_pos hi, hf]
      simp only [← hcall]
      rw [if_pos hok])
    (by
      intro x hx hcx hpx
      unfold putRecord putApp
      rw [if_pos hi, if_neg (by have := hpx hw84; omega)]
      exact ⟨false, x, rfl, within_refl hx, fun _ => ⟨rfl, appends_nil x⟩⟩)
  obtain ⟨k1, k2⟩ := r1 (by simpa using hw84)
  subst k1
  exact ⟨w', e1, k2⟩

/-- C92.  A callback that fails without setting an error is answered with success and an empty record. -/
theorem C92_failure_reported_as_success {e : Env A} {implicit : Bool} {ndr : Ndr} {r : Rd} {w : Wr} {q : ReadReq}
    {a : A} {f : Call A → Result → Supply} (hr : Fit r) (hw : Ready w) (hw84 : w.pos + 84 ≤ w.cap) (hq : Requests ndr r q)
    (hc : CarriedOut e implicit q (some a)) (hi : q.index.toNat ≤ 0x7FFF) (hf : e.app = some f)
    (hfail : ∀ c res, (f c res).ok = false ∧ (f c res).result = res) :
    ∃ w' calls, readInd e implicit ndr noResult r w = some (w', noResult, calls) ∧
      Appends w w' (encAnswer ndr q noResult []) := by
  obtain ⟨w', res', e1, _, r1⟩ := C92_application_record_partial (e := e) (implicit := implicit) (ndr := ndr) (res := noResult)
    hr hw (by omega) hq rfl hc hi hf rfl rfl
  have h2 := r1 (by rw [if_neg (by simp [(hfail _ _).1])]; simpa using hw84)
  rw [(hfail _ _).2, if_neg (by simp [(hfail _ _).1])] at h2
  obtain ⟨rfl, h2⟩ := h2
  exact ⟨w', _, e1, h2⟩

/-- C92.  Without a callback, records of the application are answered with "feature not supported" and an empty record. -/
theorem C92_no_callback {e : Env A} {implicit : Bool} {ndr : Ndr} {res : Result} {r : Rd} {w : Wr} {q : ReadReq}
    {ar : Option A} (hr : Fit r) (hw : Ready w) (hq : Requests ndr r q) (hs : res.status.code = 0)
    (hc : CarriedOut e implicit q ar) (hi : q.index.toNat ≤ 0x7FFF) (hf : e.app = none) :
    ∃ w' res', readInd e implicit ndr res r w = some (w', res', []) ∧ Within w w' ∧
      (w.pos + 84 ≤ w.cap → res' = { res with status := saysNotSupported } ∧ Appends w w' (encAnswer ndr q res' [])) := by
  have hu : q.uuid.d4.length = 8 := by obtain ⟨_, _, _, _, _, h, _⟩ := hq; exact h
  rw [readInd_carried hr hq hs hc]
  obtain ⟨w', res', e1, h1, r1⟩ := carryOut_spec (e := e) (ar := ar) (ndr := ndr) (res := res)
    (res1 := { res with status := notSupported }) hu hw (d := []) (bs := []) (calls := []) (ok := true)
    (by intro n _ _; unfold fspmRead; rw [if_pos hi, hf]; rfl)
    (by
      intro x hx _ _
      unfold putRecord
      rw [if_pos hi]
      exact makes_putApp [] x hx)
  refine ⟨w', res', e1, h1, fun hroom => ?_⟩
  obtain ⟨k1, k2⟩ := r1 (by simpa using hroom)
  simp only [if_true] at k1 k2
  subst k1
  exact ⟨rfl, k2⟩

/-- C92.  A record of the application is read without a connection — explicitly with an unknown UUID, or implicitly
without a target: the stack dereferences a null pointer. -/
theorem C92_no_connection {e : Env A} {implicit : Bool} {ndr : Ndr} {res : Result} {r : Rd} {w : Wr} {q : ReadReq}
    {f : Call A → Result → Supply} (hr : Fit r) (hq : Requests ndr r q)
    (hs : res.status.code = 0) (hc : CarriedOut e implicit q none) (hi : q.index.toNat ≤ 0x7FFF) (hf : e.app = some f) :
    readInd e implicit ndr res r w = none := by
  rw [readInd_carried hr hq hs hc]
  have h : ∀ w2, cmrdr e none q res w2 = none := by
    intro w2
    unfold cmrdr fspmRead
    rw [if_pos hi, hf]
    rfl
  unfold carryOut
  cases putStatus true res.status w with
  | none => rfl
  | some w1 =>
    rw [Option.bind_some]
    cases putNdr true ndr w1 with
    | none => rfl
    | some w2 => rw [Option.bind_some, h w2]; rfl

/-! ## C93 -/

/-- C93.  A read that is not carried out — a malformed message, a nil UUID in an explicit read, the UUID of an existing
connection in an implicit read, an unknown API — is answered with nothing at all: no status, no block. -/
theorem C93_refused_without_reason {e : Env A} {implicit : Bool} {ndr : Ndr} {res : Result} {r : Rd} {w : Wr} (hr : Fit r)
    (hno : ∀ q ar, Requests ndr r q → ¬ CarriedOut e implicit q ar) :
    ∃ res', readInd e implicit ndr res r w = some (w, res', []) := by
  unfold readInd
  by_cases hs : res.status.code = 0
  · rw [if_neg (by simp [hs])]
    obtain ⟨x, r', e1⟩ := interpret_some ndr hr
    rw [e1, Option.bind_some]
    cases x with
    | error s => cases s <;> exact ⟨_, rfl⟩
    | ok q =>
      have hq := (C91_request_understood hr q).1 ⟨r', e1⟩
      simp only
      split
      · exact ⟨_, rfl⟩
      split
      · exact ⟨_, rfl⟩
      split
      · exact ⟨_, rfl⟩
      rename_i h1 h2 h3
      exfalso
      cases implicit with
      | false =>
        refine hno q (e.find q.uuid) hq ⟨?_, Or.inl ⟨rfl, fun h => h1 ⟨h, rfl⟩, rfl⟩⟩
        by_cases c : q.api = 0
        · exact Or.inl c
        · refine Or.inr ?_
          cases hk : e.apiKnown q.api with
          | true => rfl
          | false => exact absurd ⟨c, hk⟩ h3
      | true =>
        refine hno q (e.find q.target) hq ⟨?_, Or.inr ⟨rfl, ?_, rfl⟩⟩
        · by_cases c : q.api = 0
          · exact Or.inl c
          · refine Or.inr ?_
            cases hk : e.apiKnown q.api with
            | true => rfl
            | false => exact absurd ⟨c, hk⟩ h3
        · cases hf : e.find q.uuid with
          | none => rfl
          | some a => exact absurd ⟨by rw [hf]; rfl, rfl⟩ h2
  · rw [if_pos (by simpa using hs)]
    exact ⟨_, rfl⟩

/-- C93.  The reason for the refusal is kept in the session: for each request the first of the reasons that applies.
Missing: the reason is not sent, see `C93_refused_without_reason`. -/
theorem C93_reason_kept_partial {e : Env A} {implicit : Bool} {ndr : Ndr} {res : Result} {r : Rd} {w : Wr} {q : ReadReq} (hr : Fit r)
    (hq : Requests ndr r q) (hs : res.status.code = 0) :
    (q.uuid = nilUuid → implicit = false →
      readInd e implicit ndr res r w = some (w, { res with status := saysNoUuid }, [])) ∧
    (∀ a, e.find q.uuid = some a → implicit = true →
      readInd e implicit ndr res r w = some (w, { res with status := saysNotImplicit }, [])) ∧
    ((implicit = false → q.uuid ≠ nilUuid) → (implicit = true → e.find q.uuid = none) → q.api ≠ 0 → e.apiKnown q.api = false →
      readInd e implicit ndr res r w = some (w, { res with status := saysUnknownApi }, [])) := by
  obtain ⟨r', e1, _⟩ := interpret_of hr.1 hr.2.1 hr.2.2.1 hr.2.2.2.1 hr.2.2.2.2 hq
  unfold readInd
  rw [if_neg (by simp [hs]), e1, Option.bind_some]
  simp only
  refine ⟨?_, ?_, ?_⟩
  · intro h1 h2
    rw [if_pos ⟨h1, h2⟩]; rfl
  · intro a h1 h2
    subst h2
    rw [if_neg (by simp), if_pos (by simp [h1])]; rfl
  · intro h1 h2 h3 h4
    rw [if_neg (by rintro ⟨x, y⟩; exact h1 y x), if_neg (by rintro ⟨x, y⟩; rw [h2 y] at x; cases x), if_pos ⟨h3, h4⟩]; rfl

/-! ## A concrete case -/

namespace Demo

/-- One connection, named 7; the application returns the index twice for slot 1 and fails otherwise. -/
def env : Env Nat where
  find u := if u = ⟨7, 0, 0, List.replicate 8 0⟩ then some 1 else none
  apiKnown _ := false
  app := some fun c res => ⟨c.slot == 1, enc16 true c.index ++ enc16 true c.index, res⟩
  stock _ q := if q.index = 0xF841 then some (fun w => (putU32 true 0xABCD w).map fun x => (true, x)) else none

def q (slot index : U16) : ReadReq :=
  ⟨3, ⟨7, 0, 0, List.replicate 8 0⟩, 0, slot, 2, index, 100, nilUuid⟩

def rd (slot index : U16) : Rd :=
  ⟨encReq ⟨9, 60, 1, 0⟩ (q slot index) [0, 0] (List.replicate 8 0), false, 64, true, .ok, 0⟩

def ndr : Ndr := ⟨500, 64, 500, 0, 64⟩
def w (n : Nat) : Wr := ⟨List.replicate 150 0xEE, n, 10⟩

/-- The hypotheses of the theorems are met. -/
theorem met (slot index : U16) (n : Nat) (h : n ≤ 150) (h2 : 10 ≤ n) : Fit (rd slot index) ∧ Ready (w n) ∧
    Requests ndr (rd slot index) (q slot index) ∧ noResult.status.code = 0 ∧ CarriedOut env false (q slot index) (some 1) := by
  have hl : (encReq ⟨9, 60, 1, 0⟩ (q slot index) [0, 0] (List.replicate 8 0)).length = 64 := encReq_length rfl rfl rfl rfl
  refine ⟨⟨rfl, rfl, rfl, Nat.le_of_eq hl.symm, Nat.zero_le _⟩, ⟨by simp [w]; omega, by simp [w]; omega, h2⟩, ?_, rfl, ?_⟩
  · refine ⟨⟨9, 60, 1, 0⟩, [0, 0], List.replicate 8 0, rfl, by decide, rfl, rfl, rfl, rfl, ?_, rfl⟩
    show slice (encReq _ _ _ _) 0 64 = _
    rw [slice_eq_some (by rw [hl]; omega), List.drop_zero, List.take_of_length_le (by rw [hl]; omega)]
  · exact ⟨Or.inl rfl, Or.inl ⟨rfl, by simp [q, nilUuid], rfl⟩⟩

/-- A record of the stack, one of the application, an unknown index, and a failing callback. -/
theorem answers :
    (readInd env false ndr noResult (rd 1 0xF841) (w 150)).map (fun x => ((x.1.buf.drop 10).take 88, x.2.1.status, x.2.2.length)) =
      some (encAnswer ndr (q 1 0xF841) noResult [0, 0, 0xAB, 0xCD], noResult.status, 0) ∧
    (readInd env false ndr noResult (rd 1 0x10) (w 150)).map (fun x => ((x.1.buf.drop 10).take 88, x.2.1.status, x.2.2.length)) =
      some (encAnswer ndr (q 1 0x10) noResult [0, 0x10, 0, 0x10], noResult.status, 1) ∧
    (readInd env false ndr noResult (rd 1 0xF842) (w 150)).map (fun x => ((x.1.buf.drop 10).take 84, x.2.1.status, x.2.2.length)) =
      some (encAnswer ndr (q 1 0xF842) { noResult with status := saysInvalidIndex } [], saysInvalidIndex, 0) ∧
    (readInd env false ndr noResult (rd 2 0x10) (w 150)).map (fun x => ((x.1.buf.drop 10).take 84, x.2.1.status, x.2.2.length)) =
      some (encAnswer ndr (q 2 0x10) noResult [], noResult.status, 1) := by
  refine ⟨?_, ?_, ?_, ?_⟩ <;> decide +kernel

end Demo

end Verif.Read
