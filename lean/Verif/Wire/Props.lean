import Verif.Wire.ConnLemmas
import Verif.Wire.ConnSafe
/-! Properties of reading requests and writing responses. -/
set_option linter.unusedSimpArgs false
set_option linter.unusedVariables false

namespace Verif.Wire

/-! ## C31 reading -/

/-- C31.  Every reader of the block reader, on every buffer, from every position, in both byte orders, and after
every earlier error: see `Safe`. -/
theorem C31_readers_stay_inside :
    Safe getByte ∧ Safe getU16 ∧ Safe getU32 ∧ (∀ n, Safe (getMem n)) ∧ Safe getUuid ∧ Safe getHandle ∧
    Safe getBlockHeader ∧ Safe getArParam ∧ (∀ m c, Safe (getIocrParam m c)) ∧ Safe getAlarmCr ∧ Safe getArRpc ∧
    Safe getControl ∧ Safe getNdr ∧ Safe getRpcHeader ∧ Safe getReadReq ∧ Safe getLookup ∧ Safe getWriteReq ∧
    (∀ a b, Safe (getIm1 a b)) ∧ Safe getAlarmFixed ∧ Safe getAlarmData ∧ Safe getAlarmAck ∧ Safe getStatus ∧
    Safe getPortData ∧ Safe getBoundary ∧ Safe getIntfAdjust :=
  ⟨safe_getByte, safe_getU16, safe_getU32, safe_getMem, safe_getUuid, safe_getHandle, safe_getBlockHeader,
    safe_getArParam, safe_getIocrParam, safe_getAlarmCr, safe_getArRpc, safe_getControl, safe_getNdr, safe_getRpcHeader,
    safe_getReadReq, safe_getLookup, safe_getWriteReq, safe_getIm1, safe_getAlarmFixed, safe_getAlarmData,
    safe_getAlarmAck, safe_getStatus, safe_getPortData, safe_getBoundary, safe_getIntfAdjust⟩

/-- Readers put together from these, in any way, behave the same. -/
theorem C31_composition {α β} {p : P α} {f : α → P β} (hp : Safe p) (hf : ∀ a, Safe (f a)) : Safe (p >>= f) :=
  Safe.bind hp hf

/-- C31 for the two readers that may write outside their destination (C33, C69), and for a connect request: with
destinations for every number that can be announced. -/
theorem C31_tables_partial {z : Sizes} (hz : 65536 ≤ z.maxSubslots) {a b : Nat} (ha : 256 ≤ a) (hb : 256 ≤ b) :
    (∀ tab, Safe (getExpApiModule z tab)) ∧ (∀ m, Safe (getCheckPeers a b m)) ∧
    (∀ maxCr ioCap args, Safe (connectInterpret ⟨maxCr, ioCap, z⟩ args)) :=
  ⟨fun tab => safe_getExpApiModule hz tab, fun m => safe_getCheckPeers ha hb m,
    fun maxCr ioCap args => safe_connectInterpret (z := ⟨maxCr, ioCap, z⟩) hz args⟩

/-- A reader at a position of a buffer. -/
def at' (buf : List Byte) (be : Bool) : Rd := ⟨buf, false, buf.length, be, .ok, 0⟩

example : (getU32 (at' [1, 2, 3, 4] true)).map (·.1) = some 0x01020304 := rfl
example : (getU32 (at' [1, 2, 3] true)).map (fun x => (x.2.err, x.2.pos)) = some (.endOfInput, 3) := by decide +kernel

/-! ## C32 round trips -/

/-- A value put into a buffer with room is read back, and only its bytes change. -/
def RoundTrip {α} (be be' : Bool) (put : W) (get : P α) (n : Nat) (v : α) : Prop :=
  ∀ w : Wr, w.cap ≤ w.buf.length → w.pos + n ≤ w.cap → ∃ w', put w = some w' ∧ w'.pos = w.pos + n ∧ w'.cap = w.cap ∧
    w'.buf.length = w.buf.length ∧ (∀ i, i < w.pos ∨ w.pos + n ≤ i → w'.buf[i]? = w.buf[i]?) ∧
    ∀ r : Rd, r.buf = w'.buf → r.pos = w.pos → w'.pos ≤ r.len → r.err = .ok → r.null = false → r.be = be →
      get r = some (v, { r with pos := w'.pos, be := be' })

theorem roundTrip_of {α} {be be' : Bool} {put : W} {get : P α} {bs : List Byte} {v : α} (hw : Writes put bs)
    (hp : ParsesTo be be' get bs v) : RoundTrip be be' put get bs.length v := by
  intro w hc hr
  obtain ⟨b, e1, e2⟩ := hw w hc hr
  refine ⟨_, e2, rfl, rfl, writeAt_length e1, ?_, ?_⟩
  · intro i hi
    rw [writeAt_get e1 i]
    split
    · omega
    · rfl
  · intro r hb hpos hl he hn hbe
    have := hp r he hn hbe (by rw [hpos]; exact hl) (by rw [hb, hpos]; exact slice_writeAt_same e1)
    rw [this, hpos]

/-- C32. -/
theorem C32_round_trip (be : Bool) :
    (∀ v, RoundTrip be be (putByte v) getByte 1 v) ∧ (∀ v, RoundTrip be be (putU16 be v) getU16 2 v) ∧
    (∀ v, RoundTrip be be (putU32 be v) getU32 4 v) ∧
    (∀ u : Uuid, u.d4.length = 8 → RoundTrip be be (putUuid be u) getUuid 16 u) ∧
    (∀ d : List Byte, RoundTrip be be (putMem d) (getMem d.length) d.length (some d)) ∧
    (∀ t l vh vl, RoundTrip be be (putBlockHeader be t l vh vl) getBlockHeader 6 ⟨t, l + 2, vh, vl⟩) := by
  refine ⟨fun v => roundTrip_of (writes_putByte v) (parses_getByte be v), fun v => ?_, fun v => ?_, fun u hu => ?_,
    fun d => roundTrip_of (writes_putMem d) (parses_getMem be d), fun t l vh vl => ?_⟩
  · have := roundTrip_of (writes_putU16 be v) (parses_getU16 be v)
    rwa [enc16_length] at this
  · have := roundTrip_of (writes_putU32 be v) (parses_getU32 be v)
    rwa [enc32_length] at this
  · have := roundTrip_of (writes_putUuid be u) (parses_getUuid hu)
    rwa [encUuid_length hu] at this
  · have := roundTrip_of (writes_putBlockHeader be t l vh vl) (parses_getBlockHeader be _)
    rwa [show (encBlockHeader be ⟨t, l + 2, vh, vl⟩).length = 6 by simp [encBlockHeader, enc16_length]] at this

/-- C32, records: the header of an RPC packet, whatever byte order the reader assumed before; the fixed part of an
alarm frame; a control block after its header; the status of a big-endian frame. -/
theorem C32_records (be : Bool) :
    (∀ h : RpcHeader, h.Wf → RoundTrip be h.isBe (putRpcHeader h) getRpcHeader 80 h) ∧
    (∀ a : AlarmFixed, a.Wf → RoundTrip be be (putAlarmFixed be a) getAlarmFixed 10 a) ∧
    (∀ t (c : Control), c.uuid.d4.length = 8 → RoundTrip be be (putControl be t c)
      (do let h ← getBlockHeader; let c ← getControl; pure (h, c)) 32 (⟨t, 28, 1, 0⟩, c)) ∧
    (∀ s : Status, RoundTrip true true (putStatus true s) getStatus 4 s) := by
  refine ⟨fun h hw => ?_, fun a hw => ?_, fun t c hc => ?_, fun s => ?_⟩
  · have := roundTrip_of (writes_putRpcHeader h) (parses_getRpcHeader hw be)
    rwa [encRpcHeader_length hw] at this
  · have := roundTrip_of (writes_putAlarmFixed hw) (parses_getAlarmFixed (be := be) hw)
    rwa [show (encAlarmFixed be a).length = 10 by simp [encAlarmFixed, enc16_length]] at this
  · have := roundTrip_of (writes_putControl (be := be) (t := t) hc)
      (ParsesTo.bind (f := fun h => do let c ← getControl; pure (h, c)) (parses_getBlockHeader be _)
        (ParsesTo.bind_nil (parses_getControl hc) (ParsesTo.pure _ _)))
    rwa [List.length_append, encControl_length hc,
      show (encBlockHeader be ⟨t, 28, 1, 0⟩).length = 6 by simp [encBlockHeader, enc16_length]] at this
  · exact roundTrip_of (writes_putStatus true s) (parses_getStatus true s)

/-- C32, bit fields: what was put into bits that were zero is taken out, and other bits are not affected. -/
theorem C32_bit_fields (v b : U32) {l p : Nat} (hl : l < 32) (h : p + l ≤ 32) (hb : bitsOf b.toNat p l = 0)
    (hv : v.toNat < 2 ^ l) :
    getBits (putBits v l p b) p l = v ∧
    ∀ l' p', p' + l' ≤ 32 → p' + l' ≤ p ∨ p + l ≤ p' → getBits (putBits v l p b) p' l' = getBits b p' l' := by
  refine ⟨?_, fun l' p' h' hd => getBits_putBits_other v b hl h h' hd⟩
  rw [getBits_putBits v b hl h hb]
  apply getBits_eq (by omega)
  unfold bitsOf
  rw [Nat.pow_zero, Nat.div_one, Nat.mod_eq_of_lt hv]

/-- C32, a response buffer of any fill level: no writer touches bytes before the position or after what it wrote, or
moves the position back or past the usable size.  `putBlock` goes back to the header it wrote. -/
theorem C32_writers_stay_inside (be : Bool) :
    (∀ d, WSafe (putMem d)) ∧ (∀ v, WSafe (putByte v)) ∧ (∀ v, WSafe (putU16 be v)) ∧ (∀ v, WSafe (putU32 be v)) ∧
    (∀ u, WSafe (putUuid be u)) ∧ (∀ n, WSafe (putPadding n)) ∧ (∀ t l a b, WSafe (putBlockHeader be t l a b)) ∧
    (∀ t body, WSafe body → WSafe (putBlock be t body)) ∧ (∀ t c, WSafe (putControl be t c)) ∧
    (∀ t d, WSafe (putRecordRead be t d)) ∧ (∀ a, WSafe (putAlarmFixed be a)) ∧ (∀ h, WSafe (putRpcHeader h)) ∧
    (∀ s, WSafe (putStatus be s)) ∧ ∀ a b, WSafe a → WSafe b → WSafe (a ;; b) := by
  refine ⟨wsafe_putMem, wsafe_putByte, wsafe_putU16 be, wsafe_putU32 be, wsafe_putUuid be, wsafe_putPadding,
    wsafe_putBlockHeader be, fun t body h => wsafe_putBlock h, fun t c => wsafe_putBlock ?_, fun t d => wsafe_putBlock (wsafe_putMem d),
    fun a => ?_, fun h => ?_, fun s => wsafe_putU32 be _, fun a b => WSafe.seq⟩
  · iterate 6 refine WSafe.seq ?_ (by first | exact wsafe_putU16 _ _ | exact wsafe_putUuid _ _ | exact wsafe_putByte _)
    exact wsafe_putByte _
  · unfold putAlarmFixed
    iterate 5 refine WSafe.seq ?_ (by first | exact wsafe_putU16 _ _ | exact wsafe_putByte _)
    exact wsafe_putU16 _ _
  · unfold putRpcHeader
    dsimp only
    iterate 20 refine WSafe.seq ?_ (by
      first | exact wsafe_putByte _ | exact wsafe_putU16 _ _ | exact wsafe_putU32 _ _ | exact wsafe_putUuid _ _)
    exact wsafe_putByte _

/-- A block of a response can be parsed again: its header announces its length. -/
theorem C32_block {be : Bool} {t : U16} {body : W} {bs : List Byte} (hb : Writes body bs) (hl : bs.length + 2 < 65536) :
    Writes (putBlock be t body) (encBlock be t bs) := writes_putBlock hb hl

example : RoundTrip false false (putU16 false 0x1234) getU16 2 0x1234 := (C32_round_trip false).2.1 _
example : putU16 false 0x1234 ⟨[0, 0, 0, 0], 4, 1⟩ = some ⟨[0, 0x34, 0x12, 0], 4, 3⟩ := rfl
example : getBits (putBits 5 3 4 0xf) 4 3 = 5 ∧ getBits (putBits 5 3 4 0xf) 0 4 = 0xf := by decide
/-- A header as sent by a device. -/
def sampleHeader : RpcHeader :=
  { version := 4, packetType := 2, lastFragment := true, fragment := false, noFack := true, maybe := false,
    idempotent := true, broadcast := false, cancelPending := false, isBe := false, floatRepr := 0, reserved := 0,
    serialHigh := 0, objUuid := ⟨1, 2, 3, List.replicate 8 4⟩, ifUuid := ⟨5, 6, 7, List.replicate 8 8⟩,
    actUuid := ⟨9, 10, 11, List.replicate 8 12⟩, bootTime := 13, ifVersion := 1, seqNmb := 14, opnum := 0,
    ifHint := 0xffff, actHint := 0xffff, lengthOfBody := 100, fragmentNmb := 0, auth := 0, serialLow := 0 }
example : sampleHeader.Wf := by simp [RpcHeader.Wf, sampleHeader]
example : (⟨1, 2, 3, 1, 1, 1, 0xffff, 0xfffe⟩ : AlarmFixed).Wf := by simp [AlarmFixed.Wf]

/-! ## C33 tables -/

/-- C33, partial: whatever the block, the tables stay within their sizes if the reader returns.  Missing: it may write
outside the table of submodules instead. -/
theorem C33_tables_partial {z : Sizes} {tab tab' : List ExpApi} {r r' : Rd} (hi : TabFits z tab)
    (h : getExpApiModule z tab r = some (tab', r')) : TabFits z tab' := getExpApiModule_table hi h

/-- The reader writes outside its tables only for a module with too many submodules: with room for those it reads the
same block without fault and stores such a module. -/
theorem C33_only_submodules {z : Sizes} {tab : List ExpApi} {r : Rd} (hr : r.null = false → r.len ≤ r.buf.length)
    (h : getExpApiModule z tab r = none) :
    ∃ tab' r', getExpApiModule { z with maxSubslots := 65536 } tab r = some (tab', r') ∧
      ∃ a ∈ tab', ∃ m ∈ a.mods, z.maxSubslots < m.subs.length := by
  obtain ⟨tab', r', e, _⟩ := safe_getExpApiModule (z := { z with maxSubslots := 65536 }) (Nat.le_refl _) tab r hr
  refine ⟨tab', r', e, ?_⟩
  by_cases hf : Fits z.maxSubslots tab'
  · rw [getExpApiModule_small e hf] at h; cases h
  · unfold Fits at hf
    simp only [not_forall, Nat.not_le] at hf
    obtain ⟨a, ha, m, hm, hlt⟩ := hf
    exact ⟨a, ha, m, hm, hlt⟩

theorem getSubs_none {cap n iy : Nat} {r : Rd} (hr : r.null = false → r.len ≤ r.buf.length) (h1 : iy ≤ cap)
    (h2 : cap < iy + n) : getSubs cap iy n r = none := by
  induction n generalizing iy r with
  | zero => omega
  | succ k ih =>
    obtain ⟨a, r', e, b1, n1, l1, _⟩ := safe_getExpSub r hr
    unfold getSubs
    simp only [P.bind_def, e, Option.bind_some]
    split
    · rfl
    · simp only [P.bind_def]
      rw [ih (by rw [b1, n1, l1]; exact hr) (by omega) (by omega)]
      rfl

/-- A block of sixteen bytes that announces one module with `n` submodules. -/
def overflowBlock (n : U16) : List Byte :=
  enc16 true 1 ++ (enc32 true 0 ++ (enc16 true 1 ++ (enc32 true 1 ++ (enc16 true 0 ++ enc16 true n))))

/-- C33 does not hold: whatever the sizes, a block of sixteen bytes that announces one submodule more than the table
holds makes the reader write outside the table, although none of the submodules is in the block. -/
theorem C33_overflow (z : Sizes) (h1 : 0 < z.maxApi) (h2 : 0 < z.maxSlots) (h3 : z.maxSubslots < 65535) :
    getExpApiModule z [] (at' (overflowBlock (BitVec.ofNat 16 (z.maxSubslots + 1))) true) = none := by
  have hl : ∀ v, (overflowBlock v).length = 16 := by intro v; simp [overflowBlock, enc16_length, enc32_length]
  unfold getExpApiModule
  have hs : slice (overflowBlock (BitVec.ofNat 16 (z.maxSubslots + 1))) 0
      (overflowBlock (BitVec.ofNat 16 (z.maxSubslots + 1))).length =
      some (overflowBlock (BitVec.ofNat 16 (z.maxSubslots + 1))) := by
    rw [slice_eq_some (by omega)]; simp
  obtain ⟨a1, s⟩ := slice_append (x := enc16 true 1) hs
  obtain ⟨a2, s⟩ := slice_append s
  obtain ⟨a3, s⟩ := slice_append s
  obtain ⟨a4, s⟩ := slice_append s
  obtain ⟨a5, a6⟩ := slice_append s
  simp only [enc16_length, enc32_length] at a1 a2 a3 a4 a5 a6
  have hbl := hl (BitVec.ofNat 16 (z.maxSubslots + 1))
  clear hs s
  generalize overflowBlock (BitVec.ofNat 16 (z.maxSubslots + 1)) = buf at *
  have g1 : getU16 (at' buf true) = some (1, ⟨buf, false, buf.length, true, .ok, 2⟩) :=
    parses_getU16 true 1 (at' buf true) rfl rfl rfl (by simp [at', hbl, enc16_length]) (by rw [enc16_length]; exact a1)
  rw [run_bind g1]
  have g2 : getU32 ⟨buf, false, buf.length, true, .ok, 2⟩ = some (0, ⟨buf, false, buf.length, true, .ok, 6⟩) :=
    parses_getU32 true 0 ⟨buf, false, buf.length, true, .ok, 2⟩ rfl rfl rfl (by simp [hbl, enc32_length])
    (by rw [enc32_length]; exact a2)
  have g3 : getU16 ⟨buf, false, buf.length, true, .ok, 6⟩ = some (1, ⟨buf, false, buf.length, true, .ok, 8⟩) :=
    parses_getU16 true 1 ⟨buf, false, buf.length, true, .ok, 6⟩ rfl rfl rfl (by simp [hbl, enc16_length])
    (by rw [enc16_length]; exact a3)
  have g4 : getU32 ⟨buf, false, buf.length, true, .ok, 8⟩ = some (1, ⟨buf, false, buf.length, true, .ok, 12⟩) :=
    parses_getU32 true 1 ⟨buf, false, buf.length, true, .ok, 8⟩ rfl rfl rfl (by simp [hbl, enc32_length])
    (by rw [enc32_length]; exact a4)
  have g5 : getU16 ⟨buf, false, buf.length, true, .ok, 12⟩ = some (0, ⟨buf, false, buf.length, true, .ok, 14⟩) :=
    parses_getU16 true 0 ⟨buf, false, buf.length, true, .ok, 12⟩ rfl rfl rfl (by simp [hbl, enc16_length])
    (by rw [enc16_length]; exact a5)
  have g6 : getU16 ⟨buf, false, buf.length, true, .ok, 14⟩ = some ((BitVec.ofNat 16 (z.maxSubslots + 1)), ⟨buf, false, buf.length, true, .ok, 16⟩) :=
    parses_getU16 true (BitVec.ofNat 16 (z.maxSubslots + 1)) ⟨buf, false, buf.length, true, .ok, 14⟩ rfl rfl rfl
    (by simp [hbl, enc16_length]) (by rw [enc16_length]; exact a6)
  have hn : (BitVec.ofNat 16 (z.maxSubslots + 1) : U16).toNat = z.maxSubslots + 1 := ofNat_len (by omega)
  have hround : expRound z ([], none) ⟨buf, false, buf.length, true, .ok, 2⟩ = none := by
    unfold expRound
    rw [run_bind g2]
    have hsel : selectApi z [] none 0 = ([⟨false, 0, []⟩], some 0) := by
      unfold selectApi
      rw [findApi_none (by simp)]
      simp [h1]
    rw [hsel]
    dsimp only
    have hadd : addModule z [⟨false, 0, []⟩] 0 ⟨buf, false, buf.length, true, .ok, 6⟩ = none := by
      unfold addModule
      rw [run_bind g3]
      simp only [List.getElem?_cons_zero, List.length_nil]
      rw [if_pos h2, run_bind g4, run_bind g5, run_bind g6, hn]
      simp only [P.bind_def]
      rw [getSubs_none (by simp) (by omega) (by omega)]
      rfl
    simp only [P.bind_def]
    rw [hadd]
    rfl
  have hloop : expLoop z 1 ([], none) ⟨buf, false, buf.length, true, .ok, 2⟩ = none := by
    unfold expLoop
    simp only [P.bind_def, hround]
    rfl
  simp only [P.bind_def]
  rw [show BitVec.toNat (1 : U16) = 1 from rfl, hloop]
  rfl

example : TabFits ⟨2, 3, 4⟩ [⟨true, 0, [⟨1, 2, 0, []⟩]⟩] := by simp [TabFits]

/-! ## C65 expected modules -/

/-- C65, partial: the modules of a block are stored under the APIs they name, if they all name the same. -/
theorem C65_expected_modules_partial {be : Bool} {z : Sizes} {l : List ModReq} {t : List ExpApi}
    (hl : l.length < 65536) (hm : ∀ m ∈ l, m.subs.length < 65536 ∧ ∀ s ∈ m.subs, s.Wf)
    (hs : ∀ m ∈ l, ∀ m' ∈ l, m.api = m'.api) (hg : GoodTab t) (hf : TabFits z (l.foldl place t)) :
    Parses be (getExpApiModule z t) ((Block.expected l).body be) (l.foldl place t) ∧ GoodTab (l.foldl place t) :=
  ⟨parses_getExpApiModule hl hm hs hg hf, foldl_place_good hg⟩

/-- A module without submodules. -/
def plainModule (api : U32) (slot : U16) : ModReq := ⟨api, slot, 7, 0, []⟩

/-- C65 does not hold: the second of two modules of different APIs is stored under the API of the first. -/
theorem C65_wrong_api :
    (getExpApiModule ⟨2, 4, 4⟩ [] (at' ((Block.expected [plainModule 0 1, plainModule 1 2]).body true) true)).map (·.1) =
      some [⟨true, 0, [⟨1, 7, 0, []⟩, ⟨2, 7, 0, []⟩]⟩] ∧
    [plainModule 0 1, plainModule 1 2].foldl place [] = [⟨true, 0, [⟨1, 7, 0, []⟩]⟩, ⟨true, 1, [⟨2, 7, 0, []⟩]⟩] := by
  constructor
  · decide +kernel
  · rfl

example : GoodTab [⟨true, 0, [⟨1, 2, 0, []⟩]⟩] := by simp [GoodTab]
example : TabFits ⟨2, 4, 4⟩ ([plainModule 0 1, plainModule 0 2].foldl place []) := by
  simp [TabFits, place, plainModule, ModReq.stored]

/-! ## C66 connect requests -/

/-- C66, partial: a well-formed connect request is stored as sent.  Excluded by `strict`: VLAN IDs above 2047 and
blocks that name several APIs. -/
theorem C66_connect_request_partial {be : Bool} {z : ConnSizes} {q : ConnReq} (hw : q.Wf true z be) (pre : List Byte)
    (hlen : pre.length + (q.enc be).length < 65536) :
    let r : Rd := ⟨pre ++ q.enc be, false, (pre ++ q.enc be).length, be, .ok, pre.length⟩
    connectInterpret z (q.enc be).length r = some ((true, q.stored), { r with pos := r.len }) := by
  intro r
  refine connectInterpret_faithful hw r rfl rfl rfl ?_ ?_ ?_
  · simpa [r] using hlen
  · simp [r]
  · simp only [r]
    rw [slice_eq_some (by simp)]
    simp

/-- A request with one IO connection of a given VLAN tag. -/
def sampleReq (tag : U16) : ConnReq :=
  ⟨⟨1, ⟨1, 2, 3, List.replicate 8 4⟩, 5, [1, 2, 3, 4, 5, 6], ⟨7, 8, 9, List.replicate 8 10⟩, 0x40000011, 600, 0x8892,
      [0x61, 0x62]⟩,
    [.iocr ⟨1, 1, 0x8892, 2, 40, 0x8001, 32, 32, 1, 0, 0xffffffff, 3, 3, tag, [1, 2, 3, 4, 5, 6], [⟨0, [⟨0, 1, 0⟩], []⟩]⟩,
      .alarm ⟨1, 0x8892, 0, 1, 3, 1, 200, 0xc000, 0xa000⟩,
      .expected [⟨0, 0, 1, 0, [⟨1, 2, 0, ⟨1, 0, 1, 1⟩, none⟩]⟩, ⟨0, 1, 3, 0, [⟨1, 4, 3, ⟨1, 2, 1, 1⟩, some ⟨2, 2, 1, 1⟩⟩]⟩]]⟩

def sampleSizes : ConnSizes := ⟨2, 4, ⟨1, 4, 4⟩⟩

theorem sampleReq_wf (tag : U16) (h : bitsOf tag.toNat 11 1 = 0) : (sampleReq tag).Wf true sampleSizes true := by
  refine ⟨by simp [sampleReq, ArReq.Wf], ?_, ?_, by simp [sampleReq, ConnReq.stored, Block.store, sampleSizes, Conn.empty], ?_, ?_⟩
  · intro b hb
    simp only [sampleReq, List.mem_cons, List.not_mem_nil, or_false] at hb
    rcases hb with rfl | rfl | rfl
    · exact ⟨by simp [IocrReq.Wf, sampleSizes], fun _ => h⟩
    · trivial
    · refine ⟨by simp, by simp [SubReq.Wf, bitsOf], by simp⟩
  · simp [sampleReq, ConnReq.enc, Block.enc, encBlock_length, Block.body, ArReq.enc, IocrReq.enc, AlarmReq.enc, ModReq.enc,
      SubReq.enc, encDataDesc, encApiEntry, encFrameDesc, encUuid, enc16_length, enc32_length]
  · have : (sampleReq tag).stored.exp = (sampleReq 0).stored.exp := rfl
    rw [this]
    simp [TabFits, sampleReq, ConnReq.stored, Block.store, place, ModReq.stored, sampleSizes, Conn.empty]
  · intro _; simp [sampleReq, bitsOf]

example : (sampleReq 0xc000).Wf true sampleSizes true := sampleReq_wf _ (by decide)

/-- C66 does not hold: VLAN ID 2048 of an IO connection is stored as 0. -/
theorem C66_vlan_id :
    let q := sampleReq 0xc800
    (connectInterpret sampleSizes (q.enc true).length (at' (q.enc true) true)).map
        (fun x => (x.1.1, x.1.2.iocrs.map (·.vlan))) = some (true, [0]) ∧
    q.stored.iocrs.map (·.vlan) = [2048] := by
  intro q
  constructor
  · decide +kernel
  · decide +kernel

/-! ## C67 accepted requests -/

/-- C67.  An accepted connect request was read to its last byte, without error, had the announced length, and contains
one AR block at most; all tables of the AR are within their sizes. -/
theorem C67_accepted_request {z : ConnSizes} {args : Nat} {c : Conn} {r r' : Rd}
    (h : connectInterpret z args r = some ((true, c), r')) :
    r'.err = .ok ∧ r'.pos = r'.len ∧ r'.pos - r.pos = args ∧ c.nbrAr ≤ 1 ∧ c.iocrs.length ≤ z.maxCr ∧
    (∀ i ∈ c.iocrs, i.apis.length ≤ z.tab.maxApi ∧ ∀ a ∈ i.apis, a.ioData.length ≤ z.ioCap ∧ a.iocs.length ≤ z.ioCap) ∧
    TabFits z.tab c.exp := by
  obtain ⟨⟨h1, h2, h3⟩, h4, h5, h6, h7⟩ := connectInterpret_accept h
  exact ⟨h5, h6, h7, h4, h2, h3, h1⟩

example : ∃ c r', connectInterpret sampleSizes ((sampleReq 0).enc true).length (at' ((sampleReq 0).enc true) true) =
    some ((true, c), r') := by
  have := C66_connect_request_partial (sampleReq_wf 0 (by decide)) [] (by decide +kernel)
  exact ⟨_, _, this⟩

/-! ## C68 alignment -/

theorem go_none (start align : Nat) (k : Nat) (w : Wr) (hf : w.cap ≤ w.pos) (hm : (w.pos - start) % align ≠ 0) :
    putPaddingAlign.go start align k w = none := by
  induction k with
  | zero => rfl
  | succ k ih =>
    unfold putPaddingAlign.go
    rw [if_neg hm]
    have : putByte 0 w = some w := by unfold putByte; rw [if_pos (by omega)]
    rw [this]
    exact ih

/-- C68 does not hold: a station name that fills the buffer to a position that is not aligned is never padded. -/
theorem C68_endless {be : Bool} {name : List Byte} {w : Wr} (hc : w.cap ≤ w.buf.length) (hn : name.length < 65000)
    (hp : w.pos + 8 + name.length = w.cap) (hm : (8 + name.length) % 4 ≠ 0) : putArServer be name w = none := by
  unfold putArServer putBlock
  have h1 := Writes.seq (writes_putBlockHeader be 0x8106 0 1 0)
    (Writes.seq (writes_putU16 be (BitVec.ofNat 16 name.length)) (writes_putMem name))
  obtain ⟨b, e1, e2⟩ := h1 w hc (by simp [encBlockHeader, enc16_length]; omega)
  have l1 : (encBlockHeader be ⟨0x8106, 0 + 2, 1, 0⟩ ++ (enc16 be (BitVec.ofNat 16 name.length) ++ name)).length =
      8 + name.length := by simp [encBlockHeader, enc16_length]; omega
  have : (putBlockHeader be 0x8106 0 1 0 ;;
      (putU16 be (BitVec.ofNat 16 name.length) ;; putMem name ;; putPaddingAlign w.pos 4)) w = none := by
    have e : ∀ a b c d : W, (a ;; (b ;; c ;; d)) w = ((a ;; (b ;; c)) w).bind d := by
      intro a b c d
      unfold W.seq
      cases a w with
      | none => rfl
      | some x =>
        simp only [Option.bind_some]
    rw [e, e2]
    simp only [Option.bind_some]
    unfold putPaddingAlign
    exact go_none _ _ _ _ (by simp only; rw [l1]; omega) (by simp only; rw [l1]; omega)
  rw [this]
  rfl

/-- C68, partial: with room for the padding the loop ends, at the next multiple, and only padding is written. -/
theorem C68_padding_partial {start align : Nat} {w : Wr} (ha : 0 < align) (hs : start ≤ w.pos) (hc : w.cap ≤ w.buf.length)
    (hr : w.pos + align ≤ w.cap) :
    ∃ n w', n < align ∧ putPaddingAlign start align w = some w' ∧ w'.pos = w.pos + n ∧ (w'.pos - start) % align = 0 ∧
      writeAt w.buf w.pos (List.replicate n 0) = some w'.buf := by
  have key : ∀ (k : Nat) (w : Wr), w.cap ≤ w.buf.length → start ≤ w.pos → w.pos + k ≤ w.cap →
      (∃ n, n < k ∧ (w.pos + n - start) % align = 0) →
      ∃ n w', n < k ∧ putPaddingAlign.go start align k w = some w' ∧ w'.pos = w.pos + n ∧ (w'.pos - start) % align = 0 ∧
        writeAt w.buf w.pos (List.replicate n 0) = some w'.buf := by
    intro k
    induction k with
    | zero => intro w _ _ _ ⟨n, h, _⟩; omega
    | succ k ih =>
      intro w hc hs hr ⟨n, hn, hm⟩
      unfold putPaddingAlign.go
      by_cases h0 : (w.pos - start) % align = 0
      · rw [if_pos h0]
        exact ⟨0, w, by omega, rfl, rfl, h0, writeAt_nil _ (by omega)⟩
      · rw [if_neg h0]
        obtain ⟨b, e1, e2⟩ := writes_putByte 0 w hc (by simp; omega)
        rw [e2]
        have hn0 : n ≠ 0 := by rintro rfl; exact h0 hm
        obtain ⟨n', w', h1, h2, h3, h4, h5⟩ := ih { w with buf := b, pos := w.pos + 1 }
          (by simp only; rw [writeAt_length e1]; exact hc) (by simp only; omega) (by simp only; omega)
          ⟨n - 1, by omega, by simp only; rw [show w.pos + 1 + (n - 1) - start = w.pos + n - start by omega]; exact hm⟩
        refine ⟨n' + 1, w', by omega, h2, by rw [h3]; simp only; omega, h4, ?_⟩
        have := writeAt_append (e := List.replicate n' 0) e1 (by simp; omega)
        simp only [List.length_singleton] at this
        rw [h5] at this
        rw [List.replicate_succ, ← List.singleton_append, ← this]
  have hm : ∃ n, n < align ∧ (w.pos + n - start) % align = 0 := by
    have hd := Nat.mod_lt (w.pos - start) ha
    have hmod := Nat.div_add_mod (w.pos - start) align
    by_cases h0 : (w.pos - start) % align = 0
    · exact ⟨0, ha, by simpa using h0⟩
    · refine ⟨align - (w.pos - start) % align, by omega, ?_⟩
      have : w.pos + (align - (w.pos - start) % align) - start = align * ((w.pos - start) / align + 1) := by
        rw [Nat.mul_add, Nat.mul_one]; omega
      rw [this]
      exact Nat.mul_mod_right _ _
  unfold putPaddingAlign
  exact key align w hc hs hr hm

example : putArServer true [1, 2, 3] ⟨List.replicate 11 0, 11, 0⟩ = none :=
  C68_endless (by decide) (by decide) (by decide) (by decide)
example : (putArServer true [1, 2, 3] ⟨List.replicate 12 0, 12, 0⟩).isSome = true := by decide +kernel

/-! ## C69 names of peers -/

/-- C69, partial: with fields of 256 bytes all names would fit. -/
theorem C69_peer_names_partial {a b : Nat} (ha : 256 ≤ a) (hb : 256 ≤ b) (m : Nat) : Safe (getCheckPeers a b m) :=
  safe_getCheckPeers ha hb m

/-- The fields of the code hold 256 and 241 bytes with the terminator: C69 does not hold, a station name of any length
from 241 on is written outside its field. -/
theorem C69_station_name_overflow (r : Rd) (n : Byte) (hn : 241 ≤ n.toNat) (he : r.err = .ok) (hnull : r.null = false)
    (hl : r.pos + 2 ≤ r.len) (hb : r.len ≤ r.buf.length) (h0 : r.buf[r.pos]? = some 0) (h1 : r.buf[r.pos + 1]? = some n) :
    getCheckPeer 256 241 r = none := by
  unfold getCheckPeer
  have g0 : getByte r = some (0, { r with pos := r.pos + 1 }) := by
    unfold getByte; rw [if_neg (by simp [he]), if_neg (by omega), if_neg (by simp [hnull]), h0]; rfl
  rw [run_bind g0]
  have gn : getName 256 (0 : Byte).toNat { r with pos := r.pos + 1 } = some ([], { r with pos := r.pos + 1 }) := by
    have gm := parses_getMem r.be [] { r with pos := r.pos + 1 } he hnull rfl (by simp; omega)
      (by rw [slice_eq_some (by simp; omega)]; simp)
    unfold getName
    rw [run_bind (p := getMem (BitVec.toNat (0 : Byte))) gm, if_neg (by decide)]
    rfl
  rw [run_bind gn]
  have g1 : getByte { r with pos := r.pos + 1 } = some (n, { r with pos := r.pos + 2 }) := by
    unfold getByte; rw [if_neg (by simp [he]), if_neg (by simp only; omega), if_neg (by simp [hnull]), h1]; rfl
  rw [run_bind g1]
  simp only [P.bind_def]
  have : getName 241 n.toNat { r with pos := r.pos + 2 } = none := by
    unfold getName
    obtain ⟨x, r', e, _⟩ := safe_getMem n.toNat { r with pos := r.pos + 2 } (fun _ => hb)
    simp only [P.bind_def, e, Option.bind_some]
    rw [if_pos (by omega)]
    rfl
  rw [this]
  rfl

end Verif.Wire
