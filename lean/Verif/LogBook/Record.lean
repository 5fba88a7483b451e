import Verif.LogBook.Props
import Verif.Records.Props
/-!
C160: the log book record, with the time of each entry.  Extends the ring of `Verif/LogBook/Props.lean` by the contents of the entries (src/device/pf_fspm.c) and by
the bytes of the record (src/device/pf_block_writer.c).
-/
set_option linter.unusedVariables false
namespace Verif.LogBook
open Verif.Wire (U16 U32 Uuid Status Wr W putU16 putU32 putUuid putStatus enc16 enc32 encUuid Ndr Rd ReadReq)
open Verif.Wire.W
open Verif.DiagRead (Emits Emits.seq emits_of each skip emits_skip emits_each)
open Verif.Records (num16 num32 encBlock)
open Verif.Read (Ready Appends Within Rec Env Result Fit Requests CarriedOut encAnswer encStatus)

/-! ## Model -/

/-- `pf_log_book_ts_t` (src/pf_types.h:2456-2462). -/
structure Ts where
  status : U16
  secHi : U16
  secLo : U32
  nano : U32
deriving DecidableEq

/-- `pf_log_book_entry_t` (src/pf_types.h:2477-2483). -/
structure Entry where
  ts : Ts
  uuid : Uuid
  status : Status
  detail : U32
deriving DecidableEq

/-- The time stamp in pf_fspm_create_log_book_entry (src/device/pf_fspm.c:456-503), from os_get_current_time_us. -/
def stamp (time : U32) : Ts := ⟨2, 0, time / 1000000, time % 1000000 * 1000⟩

/-- The log book with its own time stamp (`pf_log_book_t`, src/pf_types.h:2485-2491). -/
structure Log where
  book : Book Entry
  ts : Ts

/-- All zero after start-up (`memset` in pnet_init_only). -/
def zeroEntry : Entry := ⟨⟨0, 0, 0, 0⟩, ⟨0, 0, 0, List.replicate 8 0⟩, ⟨0, 0, 0, 0⟩, 0⟩
def Log.init (cap : Nat) : Log := ⟨LogBook.init cap zeroEntry, ⟨0, 0, 0, 0⟩⟩

/-- pf_fspm_create_log_book_entry (src/device/pf_fspm.c:456-503): `uuid` is `none` if pf_ar_find_by_arep fails; `now`: µs since start-up, the clock has 32 bits. -/
def Log.add (l : Log) (now : Nat) (uuid : Option Uuid) (status : Status) (detail : U32) : Option Log :=
  (create l.book (uuid.map fun u => ⟨stamp (BitVec.ofNat 32 now), u, status, detail⟩)).map fun b => { l with book := b }

/-- pf_put_time_timestamp (src/device/pf_block_writer.c:321-331): the seconds are converted to 16 bits. -/
def putTs (t : Ts) : W := putU16 true t.secHi ;; putU16 true (t.secLo.setWidth 16) ;; putU32 true t.nano

/-- One entry in pf_put_log_book_data (src/device/pf_block_writer.c:2595-2680). -/
def putEntry (e : Entry) : W := putTs e.ts ;; putUuid true e.uuid ;; putStatus true e.status ;; putU32 true e.detail

/-- The `while` loop of pf_put_log_book_data (src/device/pf_block_writer.c:2595-2680). `none` for an access out of bounds or for an endless loop. -/
def putLoop (b : Book Entry) : Nat → Nat → W
  | 0, ix => if ix = b.put then skip else fun _ => none
  | fuel + 1, ix =>
    if ix = b.put then skip
    else match b.entries[ix]? with
      | none => fun _ => none
      | some e => putEntry e ;; putLoop b fuel (if ix + 1 ≥ b.entries.length then 0 else ix + 1)

/-- pf_put_log_book_data (src/device/pf_block_writer.c:2595-2680); always big endian. -/
def putLog (l : Log) : W :=
  Ident.block 0x0019 1 0 (putTs l.ts ;;
    putU16 true (BitVec.ofNat 16 (if l.book.wrap then l.book.entries.length else l.book.put)) ;;
    putLoop l.book l.book.entries.length
      (if l.book.wrap then (if l.book.put + 1 ≥ l.book.entries.length then 0 else l.book.put + 1) else 0))

/-- The case PF_IDX_DEV_LOGBOOK_DATA in pf_cmrdr_rm_read_ind (src/device/pf_cmrdr.c:39-850) and in pf_fspm_cm_read_ind (src/device/pf_fspm.c:659-846). -/
def readLog (l : Log) : Rec := fun w => (putLog l w).map fun x => (true, x)

/-! ## Specification -/

/-- Something logged: when (µs since start-up), for which connection (`none`: there is no such connection), with which status and detail. -/
structure Ev where
  now : Nat
  uuid : Option Uuid
  status : Status
  detail : U32

def runLog (l : Log) (evs : List Ev) : Option Log :=
  evs.foldl (fun l e => l.bind fun l => l.add e.now e.uuid e.status e.detail) (some l)

/-- A time in a record: four bytes for the seconds, four bytes for the nanoseconds. -/
def encTime (us : Nat) : List Byte := num32 (us / 1000000) ++ num32 (us % 1000000 * 1000)

/-- What is told about an event: its time, the connection, status and detail; `t` is the time told. -/
def encEv (t : Nat) (u : Uuid) (s : Status) (d : U32) : List Byte := encTime t ++ encUuid true u ++ encStatus s ++ enc32 true d

/-- The events for existing connections, each with the time told for it by the clock `clk`. -/
def told (clk : Nat → Nat) (evs : List Ev) : List (List Byte) :=
  evs.filterMap fun e => e.uuid.map fun u => encEv (clk e.now) u e.status e.detail

/-- The record: time of reading, number of events, events. -/
def encLog (time : List Byte) (n : Nat) (l : List (List Byte)) : List Byte := encBlock 0x0019 0 (time ++ num16 n ++ l.flatten)

/-- **C160** as one would expect it: the record read at `now` holds this time and the newest events with the times at which they were logged. -/
def C160_statement : Prop :=
  ∀ (cap : Nat) (evs : List Ev) (l : Log) (now : Nat) (w : Wr), 0 < cap → cap < 65536 → runLog (Log.init cap) evs = some l →
    (∀ e ∈ evs, e.now ≤ now) → Ready w → w.pos + 16 + 32 * cap ≤ w.cap →
    ∃ w', putLog l w = some w' ∧
      Appends w w' (encLog (encTime now) (newest cap (told id evs)).length (newest cap (told id evs)))

/-! ## Proof -/

theorem emits16 (v : U16) : Emits (putU16 true v) (enc16 true v) := emits_of (Wire.writes_putU16 _ _) (Wire.wsafe_putU16 _ _)
theorem emits32 (v : U32) : Emits (putU32 true v) (enc32 true v) := emits_of (Wire.writes_putU32 _ _) (Wire.wsafe_putU32 _ _)

theorem enc_small {v : U32} (h : v.toNat < 65536) : enc16 true 0 ++ enc16 true (v.setWidth 16) = enc32 true v := by
  have h1 : (v.setWidth 16).toNat = v.toNat := by simp; omega
  unfold enc16 enc32
  rw [h1]
  have a : v.toNat / 16777216 = 0 := by omega
  have b : v.toNat / 65536 % 256 = 0 := by omega
  have c : v.toNat / 256 % 256 = v.toNat / 256 := by omega
  rw [a, b, c]
  rfl

theorem enc_stamp (now : Nat) :
    enc16 true (stamp (BitVec.ofNat 32 now)).secHi ++ enc16 true ((stamp (BitVec.ofNat 32 now)).secLo.setWidth 16) ++
      enc32 true (stamp (BitVec.ofNat 32 now)).nano = encTime (now % 2 ^ 32) := by
  unfold encTime stamp
  have hx : (BitVec.ofNat 32 now).toNat = now % 2 ^ 32 := by simp
  generalize BitVec.ofNat 32 now = x at hx
  rw [← hx]
  have h1 : (x / 1000000).toNat = x.toNat / 1000000 := by rw [BitVec.toNat_udiv]; rfl
  have h2 : (x % 1000000 * 1000).toNat = x.toNat % 1000000 * 1000 := by
    rw [BitVec.toNat_mul, BitVec.toNat_umod]
    show x.toNat % 1000000 * 1000 % 4294967296 = _
    omega
  have e1 : num32 (x.toNat / 1000000) = enc16 true 0 ++ enc16 true ((x / 1000000).setWidth 16) := by
    rw [enc_small (by rw [h1]; have := x.isLt; omega)]
    unfold num32
    congr 1
    apply BitVec.eq_of_toNat_eq
    rw [h1, BitVec.toNat_ofNat, Nat.mod_eq_of_lt]
    have := x.isLt; omega
  have e2 : num32 (x.toNat % 1000000 * 1000) = enc32 true (x % 1000000 * 1000) := by
    unfold num32
    congr 1
  rw [e1, e2]

theorem putLoop_eq (b : Book Entry) : ∀ (fuel ix : Nat) (l : List Entry), outLoop b fuel ix = some l → putLoop b fuel ix = each putEntry l
  | 0, ix, l, h => by
    unfold outLoop at h
    unfold putLoop
    split at h
    · rename_i hx; cases h; rw [if_pos hx]; rfl
    · cases h
  | fuel + 1, ix, l, h => by
    rw [outLoop] at h
    rw [putLoop]
    split at h
    · rename_i hx; cases h; rw [if_pos hx]; rfl
    rename_i hx
    rw [if_neg hx]
    cases he : b.entries[ix]? with
    | none => rw [he] at h; cases h
    | some e =>
      rw [he] at h
      dsimp only at h ⊢
      rw [Option.map_eq_some_iff] at h
      obtain ⟨l', h1, rfl⟩ := h
      rw [putLoop_eq b fuel _ l' h1]
      rfl

/-- The entry that is made for an event. -/
def entryOf (e : Ev) : Option Entry := e.uuid.map fun u => ⟨stamp (BitVec.ofNat 32 e.now), u, e.status, e.detail⟩

theorem runLog_snoc (l : Log) (evs : List Ev) (e : Ev) :
    runLog l (evs ++ [e]) = (runLog l evs).bind fun l => l.add e.now e.uuid e.status e.detail := by
  unfold runLog; rw [List.foldl_append]; rfl

theorem run_snoc {α : Type} (b : Book α) (ops : List (Option α)) (o : Option α) :
    run b (ops ++ [o]) = (run b ops).bind fun b => create b o := by
  unfold run; rw [List.foldl_append]; rfl

theorem runLog_book (cap : Nat) (evs : List Ev) :
    runLog (Log.init cap) evs = (run (init cap zeroEntry) (evs.map entryOf)).map fun b => ⟨b, ⟨0, 0, 0, 0⟩⟩ := by
  induction evs using List.reverseRecOn with
  | nil => rfl
  | append_singleton evs e ih =>
    rw [runLog_snoc, List.map_append, List.map_singleton, run_snoc, ih]
    cases run (init cap zeroEntry) (evs.map entryOf) with
    | none => rfl
    | some b => rfl

/-- The bytes of an entry. -/
def encEntry (e : Entry) : List Byte :=
  enc16 true e.ts.secHi ++ enc16 true (e.ts.secLo.setWidth 16) ++ enc32 true e.ts.nano ++ encUuid true e.uuid ++ encStatus e.status ++
    enc32 true e.detail

theorem emits_encEntry (e : Entry) : Emits (putEntry e) (encEntry e) :=
  Emits.seq (Emits.seq (Emits.seq (Emits.seq (Emits.seq (emits16 _) (emits16 _)) (emits32 _))
    (emits_of (Wire.writes_putUuid _ _) (Wire.wsafe_putUuid _ _))) (emits_of (Read.writes_putStatus _) (Read.wsafe_putStatus _))) (emits32 _)

theorem encEntry_stamp (now : Nat) (u : Uuid) (s : Status) (d : U32) :
    encEntry ⟨stamp (BitVec.ofNat 32 now), u, s, d⟩ = encEv (now % 2 ^ 32) u s d := by
  unfold encEntry encEv
  rw [enc_stamp]

/-- The clock that is used. -/
def clock (us : Nat) : Nat := us % 2 ^ 32

theorem made_told (evs : List Ev) : (made (evs.map entryOf)).map encEntry = told clock evs := by
  induction evs with
  | nil => rfl
  | cons e l ih =>
    unfold made told at ih ⊢
    rw [List.map_cons, List.filterMap_cons, List.filterMap_cons]
    cases hu : e.uuid with
    | none => simp only [entryOf, hu, Option.map_none, id_eq]; exact ih
    | some u =>
      simp only [entryOf, hu, Option.map_some, id_eq, List.map_cons, encEntry_stamp]
      rw [← ih]
      rfl

theorem newest_map {α β : Type} (f : α → β) (k : Nat) (l : List α) : (newest k l).map f = newest k (l.map f) := by
  unfold newest; rw [List.map_drop, List.length_map]

theorem wrap_iff (cap : Nat) (hc : 0 < cap) {α : Type} (z : α) (ops : List (Option α)) (b : Book α) (hb : run (init cap z) ops = some b) :
    (b.wrap = true ↔ cap ≤ (made ops).length) := by
  obtain ⟨b', h1, _, h3⟩ := C44_newest_entries cap hc z ops
  rw [hb] at h1; cases h1; exact h3

/-- **C160**, what the record holds for every history: eight zero bytes for the time of reading; the number of events held; the events with their times modulo 2^32 µs:
all of them as long as the capacity is not reached, after that all but the oldest.  Missing for the full statement: the time of reading, times after 2^32 µs (71.6 minutes), the
oldest event. -/
theorem C160_record_partial (cap : Nat) (hc : 0 < cap) (evs : List Ev) :
    ∃ l, runLog (Log.init cap) evs = some l ∧
      Emits (putLog l) (encLog (List.replicate 8 0) (min cap (told clock evs).length)
        (if (told clock evs).length < cap then told clock evs else newest (cap - 1) (told clock evs))) := by
  obtain ⟨b, hb, hw⟩ : ∃ b, run (init cap zeroEntry) (evs.map entryOf) = some b ∧ (b.wrap = true ↔ cap ≤ (made (evs.map entryOf)).length) := by
    obtain ⟨b, h1, _, h3⟩ := C44_newest_entries cap hc zeroEntry (evs.map entryOf)
    exact ⟨b, h1, h3⟩
  refine ⟨⟨b, ⟨0, 0, 0, 0⟩⟩, by rw [runLog_book, hb]; rfl, ?_⟩
  obtain ⟨l, h1, h2, h3⟩ := C58_read_out_partial cap hc zeroEntry (evs.map entryOf) b hb
  have hm := made_told evs
  have hlen : (told clock evs).length = (made (evs.map entryOf)).length := by rw [← hm, List.length_map]
  have hl : (if (told clock evs).length < cap then told clock evs else newest (cap - 1) (told clock evs)) = l.map encEntry := by
    rw [hlen]
    split
    · rename_i h; rw [h2 h, hm]
    · rename_i h; rw [h3 (by omega), newest_map, hm]
  unfold readOut at h1
  rw [Option.map_eq_some_iff] at h1
  obtain ⟨l', o1, o2⟩ := h1
  have hix : (if b.wrap then (if b.put + 1 ≥ b.entries.length then 0 else b.put + 1, b.entries.length) else (0, b.put)) =
      ((if b.wrap then (if b.put + 1 ≥ b.entries.length then 0 else b.put + 1) else 0), (if b.wrap then b.entries.length else b.put)) := by
    split <;> rfl
  rw [hix] at o1 o2
  dsimp only at o1 o2
  obtain ⟨o3, rfl⟩ := Prod.mk.inj o2
  rw [hl, hlen, ← o3]
  unfold putLog encLog
  rw [show (Verif.Records.encBlock 0x0019 0 = fun bs => Verif.Ident.encBlock 0x0019 0 bs) from funext fun bs => Verif.Records.encBlock_eq _ _ _]
  apply Ident.emits_fixed
  dsimp only
  rw [putLoop_eq b _ _ _ o1]
  refine Emits.seq (Emits.seq ?_ (emits16 _)) ?_
  · exact Emits.seq (Emits.seq (emits16 _) (emits16 _)) (emits32 _)
  · rw [← List.flatMap_def]
    exact emits_each _ fun e _ => emits_encEntry e

theorem told_clock {evs : List Ev} (h : ∀ e ∈ evs, e.now < 2 ^ 32) : told clock evs = told id evs := by
  unfold told
  apply List.filterMap_congr
  intro e he
  simp only [clock, Nat.mod_eq_of_lt (h e he), id_eq]

/-- **C160**, within 71.6 minutes after start-up and before the capacity is reached: all events with their exact times; only the time of reading is missing. -/
theorem C160_early_partial (cap : Nat) (hc : 0 < cap) (evs : List Ev) (ht : ∀ e ∈ evs, e.now < 2 ^ 32)
    (hn : (told id evs).length < cap) :
    ∃ l, runLog (Log.init cap) evs = some l ∧
      ∀ w, Ready w → w.pos + (encLog (List.replicate 8 0) (told id evs).length (told id evs)).length ≤ w.cap →
        ∃ w', putLog l w = some w' ∧ Appends w w' (encLog (List.replicate 8 0) (told id evs).length (told id evs)) := by
  obtain ⟨l, h1, h2⟩ := C160_record_partial cap hc evs
  rw [told_clock ht, if_pos hn, Nat.min_eq_right (by omega)] at h2
  refine ⟨l, h1, fun w hw hr => ?_⟩
  obtain ⟨w', e, _, a⟩ := Read.within_of_emits h2 hw
  exact ⟨w', e, a hr⟩

/-- The answer to a request to read the log book (index 0xF830) carries this record. -/
theorem C160_answer {A : Type} {e : Env A} {implicit : Bool} {ndr : Ndr} {res : Result} {r : Rd} {w : Wr} {q : ReadReq} {ar : Option A}
    (hr : Fit r) (hw : Ready w) (hq : Requests ndr r q) (hs : res.status.code = 0) (hcar : CarriedOut e implicit q ar)
    (hi : q.index = 0xF830) {cap : Nat} (hc : 0 < cap) {evs : List Ev} {l : Log} (hl : runLog (Log.init cap) evs = some l)
    (hst : e.stock ar q = some (readLog l)) {bs : List Byte}
    (hbs : bs = encLog (List.replicate 8 0) (min cap (told clock evs).length)
        (if (told clock evs).length < cap then told clock evs else newest (cap - 1) (told clock evs)))
    (room : w.pos + 84 + bs.length ≤ w.cap) :
    ∃ w', Read.readInd e implicit ndr res r w = some (w', res, []) ∧ Appends w w' (encAnswer ndr q res bs) := by
  obtain ⟨l', h1, h2⟩ := C160_record_partial cap hc evs
  rw [hl] at h1; cases h1
  rw [← hbs] at h2
  obtain ⟨w', res', e1, _, h3⟩ := Read.C91_read_answer hr hw hq hs hcar (by rw [hi]; decide) hst (Read.makes_of_emits h2)
  obtain ⟨rfl, h4⟩ := h3 room
  exact ⟨w', e1, h4⟩

/-! ## Where the statement fails -/

theorem encTime_zero : encTime 0 = List.replicate 8 0 := by decide

/-- The time of reading is never told: whatever was logged, the eight bytes are those of time 0. -/
theorem C160_fails_time_of_reading (cap : Nat) (hc : 0 < cap) (evs : List Ev) : ∃ l n evs',
    runLog (Log.init cap) evs = some l ∧ Emits (putLog l) (encLog (encTime 0) n evs') := by
  obtain ⟨l, h1, h2⟩ := C160_record_partial cap hc evs
  exact ⟨l, _, _, h1, by rw [encTime_zero]; exact h2⟩

/-- Two events that are a multiple of 71.6 minutes apart are told with the same time. -/
theorem C160_fails_same_time (cap : Nat) (hc : 2 < cap) (t k : Nat) (u : Uuid) (s : Status) (d : U32) :
    ∃ l, runLog (Log.init cap) [⟨t, some u, s, d⟩, ⟨t + 2 ^ 32 * k, some u, s, d⟩] = some l ∧
      Emits (putLog l) (encLog (encTime 0) 2 [encEv (t % 2 ^ 32) u s d, encEv (t % 2 ^ 32) u s d]) := by
  obtain ⟨l, h1, h2⟩ := C160_record_partial cap (by omega) [⟨t, some u, s, d⟩, ⟨t + 2 ^ 32 * k, some u, s, d⟩]
  refine ⟨l, h1, ?_⟩
  have e : told clock [⟨t, some u, s, d⟩, ⟨t + 2 ^ 32 * k, some u, s, d⟩] = [encEv (t % 2 ^ 32) u s d, encEv (t % 2 ^ 32) u s d] := by
    unfold told clock
    simp only [List.filterMap_cons, List.filterMap_nil, Option.map_some, Nat.add_mul_mod_self_left]
  rw [e, if_pos (by simpa using hc), ← encTime_zero, Nat.min_eq_right (by simp; omega)] at h2
  exact h2

/-- An event that comes later is told with an earlier time: the first is logged at any time that is not a multiple of 71.6 minutes, the second at the next such multiple, and is told
with time 0. -/
theorem C160_fails_order (cap : Nat) (hc : 2 < cap) (t : Nat) (ht : t % 2 ^ 32 ≠ 0) (u : Uuid) (s : Status) (d : U32) :
    t < 2 ^ 32 * (t / 2 ^ 32 + 1) ∧
    ∃ l, runLog (Log.init cap) [⟨t, some u, s, d⟩, ⟨2 ^ 32 * (t / 2 ^ 32 + 1), some u, s, d⟩] = some l ∧
      Emits (putLog l) (encLog (encTime 0) 2 [encEv (t % 2 ^ 32) u s d, encEv 0 u s d]) := by
  refine ⟨by omega, ?_⟩
  obtain ⟨l, h1, h2⟩ := C160_record_partial cap (by omega) [⟨t, some u, s, d⟩, ⟨2 ^ 32 * (t / 2 ^ 32 + 1), some u, s, d⟩]
  refine ⟨l, h1, ?_⟩
  have e : told clock [⟨t, some u, s, d⟩, ⟨2 ^ 32 * (t / 2 ^ 32 + 1), some u, s, d⟩] = [encEv (t % 2 ^ 32) u s d, encEv 0 u s d] := by
    unfold told clock
    simp only [List.filterMap_cons, List.filterMap_nil, Option.map_some, Nat.mul_mod_right]
  rw [e, if_pos (by simpa using hc), ← encTime_zero, Nat.min_eq_right (by simp; omega)] at h2
  exact h2

def demoUuid : Uuid := ⟨1, 2, 3, [4, 5, 6, 7, 8, 9, 10, 11]⟩

/-- A request and a log book with one event that meet the hypotheses of `C160_answer`. -/
theorem C160_answer_example (l : Log) (hl : runLog (Log.init 4) [⟨5, some demoUuid, ⟨0, 0, 0, 0⟩, 1⟩] = some l) :
    ∃ (e : Env Nat) (w' : Wr), e.stock (some 1) (Read.Demo.q 1 0xF830) = some (readLog l) ∧
      Read.readInd e false Read.Demo.ndr Read.noResult (Read.Demo.rd 1 0xF830) (Read.Demo.w 150) = some (w', Read.noResult, []) := by
  obtain ⟨h1, h2, h3, h4, h5⟩ := Read.Demo.met 1 0xF830 150 (by omega) (by omega)
  refine ⟨{ Read.Demo.env with stock := fun _ _ => some (readLog l) }, ?_⟩
  obtain ⟨w', h, _⟩ := C160_answer (e := { Read.Demo.env with stock := fun _ _ => some (readLog l) }) h1 h2 h3 h4 h5 rfl (by omega) hl rfl rfl
    (by decide)
  exact ⟨w', rfl, h⟩

/-- **C160** fails: the empty log book, read one second after start-up. -/
theorem C160_fails : ¬ C160_statement := fun hc => by
  obtain ⟨w', h1, h2⟩ := hc 1 [] (Log.init 1) 1000000 ⟨List.replicate 60 0, 60, 0⟩ (by decide) (by decide) rfl (by simp)
    ⟨by simp, by simp, by simp⟩ (by simp)
  have hr : (putLog (Log.init 1) ⟨List.replicate 60 0, 60, 0⟩).map (fun w => w.buf[9]?) = some (some 0) := by decide +kernel
  rw [h1] at hr
  have := h2.2.2.2.1 9 (by decide)
  simp only [Option.map_some, Option.some.injEq] at hr
  rw [show (⟨List.replicate 60 0, 60, 0⟩ : Wr).pos + 9 = 9 from rfl, hr] at this
  revert this
  decide

end Verif.LogBook
