import Verif.Records.Spec
import Verif.Read.Props
import Verif.Pdport.Records
import Verif.Pdport.Ports

/-! What the writers of the records put. -/
set_option linter.unusedVariables false
set_option linter.unusedSimpArgs false

namespace Verif.Records
open Verif.Wire hiding ExpApi ExpMod ExpSub bit
open Verif.DiagRead (n16 n32 each skip Holds)
open Verif.Read (Rec Ready Appends Within)
open Verif.Pdport (seq_assoc align4 padTo4)

theorem lh (h : BlockHeader) : (encBlockHeader true h).length = 6 := by simp [encBlockHeader, enc16_length]

theorem encBlock_eq (t : U16) (low : Byte) (bs : List Byte) :
    encBlock t low bs = encBlockHeader true ⟨t, BitVec.ofNat 16 (bs.length + 2), 1, low⟩ ++ bs := by
  simp [encBlock, encBlockHeader, num16]

theorem encBlock_length (t : U16) (low : Byte) (bs : List Byte) : (encBlock t low bs).length = bs.length + 6 := by
  rw [encBlock_eq, List.length_append, lh]; omega

theorem num8_length (n : Nat) : (num8 n).length = 1 := rfl
theorem num16_length (n : Nat) : (num16 n).length = 2 := enc16_length _ _
theorem num32_length (n : Nat) : (num32 n).length = 4 := enc32_length _ _

/-! ## Writers at a known alignment -/

/-- `p` writes exactly the bytes `bs` if it starts at a position that is `m` modulo 4 and there is room. -/
def WAt (m : Nat) (p : W) (bs : List Byte) : Prop :=
  ∀ x : Wr, x.cap ≤ x.buf.length → x.cap < 65536 → x.pos % 4 = m % 4 → x.pos + bs.length ≤ x.cap →
    ∃ b, writeAt x.buf x.pos bs = some b ∧ p x = some { x with buf := b, pos := x.pos + bs.length }

theorem wat_of {m : Nat} {p : W} {bs : List Byte} (h : Writes p bs) : WAt m p bs := fun x h1 _ _ h2 => h x h1 h2

theorem WAt.seq {m : Nat} {a b : W} {x y : List Byte} (ha : WAt m a x) (hb : WAt (m + x.length) b y) : WAt m (a ;; b) (x ++ y) := by
  intro w hc h6 hm hp
  rw [List.length_append] at hp
  obtain ⟨b1, w1, e1⟩ := ha w hc h6 hm (by omega)
  have hl := writeAt_length w1
  obtain ⟨b2, w2, e2⟩ := hb { w with buf := b1, pos := w.pos + x.length } (by simpa [hl] using hc) h6 (by simp only; omega)
    (by simp only; omega)
  refine ⟨b2, ?_, ?_⟩
  · rw [← writeAt_append w1 (by omega)]; exact w2
  · unfold W.seq
    rw [e1]
    simp only [Option.bind_some]
    rw [e2]
    simp [Nat.add_assoc]

theorem wat_cast {m : Nat} {p : W} {x y : List Byte} (h : WAt m p x) (e : x = y) : WAt m p y := e ▸ h

theorem wat_mod {m n : Nat} {p : W} {x : List Byte} (h : WAt m p x) (e : m % 4 = n % 4) : WAt n p x :=
  fun w h1 h6 h2 h3 => h w h1 h6 (by omega) h3

theorem writes_skip : Writes skip [] := by
  intro x hc hp
  exact ⟨x.buf, writeAt_nil _ (by simp at hp; omega), by simp [skip]⟩

theorem wat_align (m : Nat) : WAt m align (List.replicate ((4 - m % 4) % 4) 0) := by
  intro x hc _ hm hp
  rw [List.length_replicate] at hp
  have e : padTo4 (x.pos - 0) = (4 - m % 4) % 4 := by unfold padTo4; omega
  have h := align4 0 x (Nat.zero_le _) (by rw [e]; exact hp) hc
  unfold align
  rw [h, e]
  exact writes_putPadding _ x hc (by simpa using hp)

theorem wat_each {α : Type} {f : α → W} {g : α → List Byte} (l : List α)
    (h : ∀ a ∈ l, WAt 0 (f a) (g a)) (h4 : ∀ a ∈ l, (g a).length % 4 = 0) : WAt 0 (each f l) (l.flatMap g) := by
  induction l with
  | nil => exact wat_of writes_skip
  | cons a l ih =>
    rw [List.flatMap_cons]
    have := h4 a (by simp)
    exact WAt.seq (h a (by simp)) (wat_mod (ih (fun b hb => h b (by simp [hb])) (fun b hb => h4 b (by simp [hb]))) (by omega))

theorem writes_each {α : Type} {f : α → W} {g : α → List Byte} (l : List α) (h : ∀ a ∈ l, Writes (f a) (g a)) :
    Writes (each f l) (l.flatMap g) := by
  induction l with
  | nil => exact writes_skip
  | cons a l ih =>
    rw [List.flatMap_cons]
    exact Writes.seq (h a (by simp)) (ih (fun b hb => h b (by simp [hb])))

/-- Bytes that are replaced afterwards. -/
theorem writeAt_patch {l x : List Byte} {off : Nat} {a o n c : List Byte} (h : writeAt l off (a ++ o ++ c) = some x)
    (hn : n.length = o.length) : writeAt x (off + a.length) n = writeAt l off (a ++ n ++ c) := by
  have hx := writeAt_length h
  have hle : off + (a ++ o ++ c).length ≤ l.length := by
    unfold writeAt at h
    split at h
    · assumption
    · cases h
  simp only [List.length_append] at hle
  obtain ⟨y, hy⟩ : ∃ y, writeAt x (off + a.length) n = some y := ⟨_, writeAt_eq_some (by omega)⟩
  obtain ⟨z, hz⟩ : ∃ z, writeAt l off (a ++ n ++ c) = some z := ⟨_, writeAt_eq_some (by simp; omega)⟩
  rw [hy, hz]
  congr 1
  apply List.ext_getElem?
  intro i
  rw [writeAt_get hy, writeAt_get hz, writeAt_get h]
  simp only [List.length_append]
  by_cases c1 : off + a.length ≤ i ∧ i < off + a.length + n.length
  · rw [if_pos c1, if_pos (by omega), List.getElem?_append_left (by simp; omega), List.getElem?_append_right (by omega)]
    congr 1; omega
  · rw [if_neg c1]
    by_cases c2 : off ≤ i ∧ i < off + (a.length + o.length + c.length)
    · rw [if_pos c2, if_pos (by omega)]
      by_cases c3 : i < off + a.length
      · rw [List.append_assoc, List.append_assoc, List.getElem?_append_left (by omega), List.getElem?_append_left (by omega)]
      · rw [List.getElem?_append_right (by simp; omega), List.getElem?_append_right (by simp; omega)]
        congr 1
        simp; omega
    · rw [if_neg c2, if_neg (by omega)]

/-! ## Records as additions to the response -/

theorem appends_of_writeAt {w : Wr} {bs b : List Byte} (hr : w.pos + bs.length ≤ w.cap) (h : writeAt w.buf w.pos bs = some b) :
    Appends w { w with buf := b, pos := w.pos + bs.length } bs := by
  refine ⟨rfl, writeAt_length h, rfl, ?_, ?_⟩
  · intro i hi
    show b[w.pos + i]? = _
    rw [writeAt_get h, if_pos (by omega)]
    congr 1
    omega
  · intro i hi
    show b[i]? = _
    rw [writeAt_get h, if_neg (by omega)]

theorem appends_of_wat {p : W} {bs : List Byte} {m : Nat} (h : WAt m p bs) {w : Wr} (hw : Ready w) (hm : w.pos % 4 = m % 4)
    (hr : w.pos + bs.length ≤ w.cap) : ∃ w', p w = some w' ∧ Appends w w' bs := by
  obtain ⟨b, h1, h2⟩ := h w hw.1 hw.2.1 hm hr
  exact ⟨_, h2, appends_of_writeAt hr h1⟩

theorem within_of_appends {w w' : Wr} {bs : List Byte} (h : Appends w w' bs) (hr : w.pos + bs.length ≤ w.cap) : Within w w' := by
  obtain ⟨a, b, c, d, e⟩ := h
  exact ⟨a, b, by omega, by omega, e⟩

/-- The answer to a read whose record can be built if there is room. -/
theorem answer_with_room {A : Type} {e : Read.Env A} {implicit : Bool} {ndr : Ndr} {res : Read.Result} {r : Rd} {w : Wr} {q : ReadReq}
    {ar : Option A} {rec : Rec} {ok : Bool} {bs : List Byte} (hr : Read.Fit r) (hw : Ready w) (hq : Read.Requests ndr r q)
    (hs : res.status.code = 0) (hc : Read.CarriedOut e implicit q ar) (hi : 0x7FFF < q.index.toNat)
    (hrec : e.stock ar q = some rec) (hroom : w.pos + 84 + bs.length ≤ w.cap)
    (hm : ∀ x, Ready x → x.cap = w.cap → x.pos = w.pos + 84 → ∃ x', rec x = some (ok, x') ∧ Appends x x' bs) :
    ∃ w' res', Read.readInd e implicit ndr res r w = some (w', res', []) ∧
      res' = (if ok then res else { res with status := Read.invalidIndex }) ∧ Appends w w' (Read.encAnswer ndr q res' bs) := by
  have hu : q.uuid.d4.length = 8 := by obtain ⟨_, _, _, _, _, h, _⟩ := hq; exact h
  rw [Read.readInd_carried hr hq hs hc]
  obtain ⟨w', res', e1, h1, r1⟩ := Read.carryOut_spec (e := e) (ar := ar) (ndr := ndr) (res := res) (res1 := res) hu hw (d := [])
    (bs := bs) (calls := []) (ok := ok)
    (by intro n _ _; unfold Read.fspmRead; rw [if_neg (by omega)])
    (by
      intro x hx hcx hpx
      have hp := hpx (by omega)
      unfold Read.putRecord
      rw [if_neg (by omega), hrec]
      obtain ⟨x', k1, k2⟩ := hm x hx hcx hp
      exact ⟨ok, x', k1, within_of_appends k2 (by omega), fun _ => ⟨rfl, k2⟩⟩)
  obtain ⟨a, b⟩ := r1 hroom
  subst a
  exact ⟨w', _, e1, rfl, b⟩

/-! ## Cyclic data -/

theorem writes_n16 (n : Nat) : Writes (n16 n) (num16 n) := writes_putU16 _ _
theorem writes_n32 (n : Nat) : Writes (n32 n) (num32 n) := writes_putU32 _ _
theorem writes_num8 (n : Nat) : Writes (putByte (BitVec.ofNat 8 n)) (num8 n) := writes_putByte _
theorem wsafe_n16 (n : Nat) : WSafe (n16 n) := wsafe_putU16 _ _
theorem wsafe_n32 (n : Nat) : WSafe (n32 n) := wsafe_putU32 _ _

/-- A block whose body is known to write `bs` behind the header. -/
theorem block_at {t : U16} {body : W} {bs : List Byte} {x : Wr} (hc : x.cap ≤ x.buf.length) (h6 : x.cap < 65536)
    (hr : x.pos + 6 + bs.length ≤ x.cap)
    (hb : ∀ b1, b1.length = x.buf.length → ∃ b, writeAt b1 (x.pos + 6) bs = some b ∧
      body { x with buf := b1, pos := x.pos + 6 } = some { x with buf := b, pos := x.pos + 6 + bs.length }) :
    ∃ b, writeAt x.buf x.pos (encBlock t 0 bs) = some b ∧
      putBlock true t body x = some { x with buf := b, pos := x.pos + (encBlock t 0 bs).length } := by
  obtain ⟨b1, w1, e1⟩ := writes_putBlockHeader true t 0 1 0 x hc (by rw [lh]; omega)
  rw [lh] at e1
  obtain ⟨b2, w2, e2⟩ := hb b1 (writeAt_length w1)
  have w12 : writeAt x.buf x.pos (encBlockHeader true ⟨t, 0 + 2, 1, 0⟩ ++ bs) = some b2 := by
    rw [← writeAt_append w1 (by rw [lh]; omega), lh]; exact w2
  have hl2 := writeAt_length w12
  have hv : (BitVec.ofNat 16 (x.pos + 6 + bs.length) - BitVec.ofNat 16 (x.pos + 4) : U16) = BitVec.ofNat 16 (bs.length + 2) := by
    apply BitVec.eq_of_toNat_eq
    simp [BitVec.toNat_sub]
    omega
  obtain ⟨b3, w3, e3⟩ := writes_putU16 true (BitVec.ofNat 16 (bs.length + 2)) ⟨b2, x.cap, x.pos + 2⟩ (by simp only; omega)
    (by rw [enc16_length]; simp only; omega)
  refine ⟨b3, ?_, ?_⟩
  · have := writeAt_patch (a := enc16 true t) (o := enc16 true (0 + 2)) (n := enc16 true (BitVec.ofNat 16 (bs.length + 2)))
      (c := [1, 0] ++ bs) (l := x.buf) (x := b2) (off := x.pos) (by
        rw [← w12]; simp [encBlockHeader]) (by simp [enc16_length])
    rw [enc16_length] at this
    rw [← w3, this]
    simp [encBlock, num16]
  · unfold putBlock W.seq
    rw [e1]
    simp only [Option.bind_some]
    rw [e2]
    simp only [Option.bind_some, hv]
    rw [e3]
    simp only [Option.map_some, encBlock_length]
    congr 2
    omega

/-- `p` writes exactly `bs` if there is room. -/
def Puts (p : W) (bs : List Byte) : Prop := ∀ m, WAt m p bs

theorem puts_of {p : W} {bs : List Byte} (h : Writes p bs) : Puts p bs := fun _ => wat_of h
theorem Puts.seq {a b : W} {x y : List Byte} (ha : Puts a x) (hb : Puts b y) : Puts (a ;; b) (x ++ y) := fun m => WAt.seq (ha m) (hb _)
theorem Puts.cast {p : W} {x y : List Byte} (h : Puts p x) (e : x = y) : Puts p y := e ▸ h
theorem puts_n16 (n : Nat) : Puts (n16 n) (num16 n) := puts_of (writes_n16 n)
theorem puts_n32 (n : Nat) : Puts (n32 n) (num32 n) := puts_of (writes_n32 n)
theorem puts_u16n (n : Nat) : Puts (putU16 true (BitVec.ofNat 16 n)) (num16 n) := puts_of (writes_n16 n)
theorem puts_u32n (n : Nat) : Puts (putU32 true (BitVec.ofNat 32 n)) (num32 n) := puts_of (writes_n32 n)
theorem puts_num8 (n : Nat) : Puts (putByte (BitVec.ofNat 8 n)) (num8 n) := puts_of (writes_num8 n)
theorem puts_byte (b : Byte) : Puts (putByte b) [b] := puts_of (writes_putByte b)
theorem puts_u16 (v : U16) : Puts (putU16 true v) (enc16 true v) := puts_of (writes_putU16 _ _)
theorem puts_u32 (v : U32) : Puts (putU32 true v) (enc32 true v) := puts_of (writes_putU32 _ _)
theorem puts_uuid (v : Uuid) : Puts (putUuid true v) (encUuid true v) := puts_of (writes_putUuid _ _)
theorem puts_mem (d : List Byte) : Puts (putMem d) d := puts_of (writes_putMem _)
theorem puts_pad2 : Puts (putPadding 2) [0, 0] := puts_of (writes_putPadding 2)
theorem puts_skip : Puts skip [] := puts_of writes_skip

theorem puts_block {t : U16} {body : W} {bs : List Byte} (hb : Puts body bs) : Puts (putBlock true t body) (encBlock t 0 bs) := by
  intro m x hc h6 _ hr
  rw [encBlock_length] at hr
  refine block_at hc h6 (by omega) ?_
  intro b1 hb1
  exact hb (x.pos + 6) { x with buf := b1, pos := x.pos + 6 } (by simp only; omega) h6 rfl (by simp only; omega)

theorem puts_alignedBlock {t : U16} {a b : W} {x y : List Byte} (ha : Puts a x) (hb : Puts b y) :
    Puts (alignedBlock t a b) (encBlock t 0 (pad4h x ++ y)) := by
  intro m w hc h6 _ hr
  rw [encBlock_length] at hr
  unfold alignedBlock
  refine block_at hc h6 (by omega) ?_
  intro b1 hb1
  obtain ⟨k, hk⟩ : ∃ k, k = (4 - (6 + x.length) % 4) % 4 := ⟨_, rfl⟩
  have hxy : pad4h x ++ y = (x ++ List.replicate k 0) ++ y := by rw [hk]; rfl
  rw [hxy] at hr ⊢
  have h := Puts.seq (Puts.seq ha (puts_of (writes_putPadding k))) hb 0
  have hlen : ((x ++ List.replicate k 0) ++ y).length = x.length + k + y.length := by simp [Nat.add_assoc]
  rw [hlen] at hr
  obtain ⟨b2, k1, k2⟩ := Puts.seq (Puts.seq ha (puts_of (writes_putPadding k))) hb (w.pos + 6) { w with buf := b1, pos := w.pos + 6 }
    (by simp only; omega) h6 rfl (by rw [hlen]; simp only; omega)
  refine ⟨b2, k1, ?_⟩
  rw [← k2]
  obtain ⟨b3, g1, g2⟩ := ha (w.pos + 6) { w with buf := b1, pos := w.pos + 6 } (by simp only; omega) h6 rfl (by simp only; omega)
  have g3 := writeAt_length g1
  simp only at g3
  simp only [W.seq, g2, Option.bind_some]
  congr 1
  have := align4 w.pos { w with buf := b3, pos := w.pos + 6 + x.length } (by simp only; omega) (by
    simp only [padTo4]; omega) (by simp only; omega)
  rw [this]
  simp only [padTo4]
  congr 1
  rw [hk]
  have : w.pos + 6 + x.length - w.pos = 6 + x.length := by omega
  rw [this]

theorem puts_each {α : Type} {f : α → W} {g : α → List Byte} (l : List α) (h : ∀ a ∈ l, Puts (f a) (g a)) :
    Puts (each f l) (l.flatMap g) := by
  induction l with
  | nil => exact puts_skip
  | cons a l ih =>
    rw [List.flatMap_cons]
    exact Puts.seq (h a (by simp)) (ih (fun b hb => h b (by simp [hb])))

/-- Match the next primitive with the next part of the encoding. -/
macro "puts" : tactic => `(tactic| repeat first
  | with_reducible exact puts_n16 _
  | with_reducible exact puts_n32 _
  | with_reducible exact puts_num8 _
  | with_reducible exact puts_u16 _
  | with_reducible exact puts_u32 _
  | with_reducible exact puts_uuid _
  | with_reducible exact puts_pad2
  | with_reducible exact puts_byte _
  | with_reducible exact puts_mem _
  | with_reducible refine Puts.seq ?_ ?_)

attribute [local irreducible] putU16 putU32 enc16 enc32 encUuid putUuid n16 n32 num8 num16 num32 putByte putMem putPadding putBlock encBlock

/-! ## Physical device -/

theorem filterMau_eq (p : Port) : filterMau p = shownMau p := by
  unfold filterMau shownMau
  cases p.running <;> simp

theorem mediaType_eq (m : U16) : mediaType m = BitVec.ofNat 32 (medium m) := by
  have h : ∀ n : U16, (m = n ↔ m.toNat = n.toNat) := fun n => ⟨fun e => by rw [e], fun e => BitVec.eq_of_toNat_eq e⟩
  unfold mediaType medium
  simp only [h]
  simp only [BitVec.reduceToNat, BitVec.toNat_ofNat, List.mem_cons, List.not_mem_nil, or_false]
  by_cases c1 : m.toNat = 0
  · simp [c1]
  · by_cases c2 : m.toNat = 5 ∨ m.toNat = 15 ∨ m.toNat = 16 ∨ m.toNat = 29 ∨ m.toNat = 30
    · simp [c1, c2]
    · by_cases c3 : m.toNat = 17 ∨ m.toNat = 18 ∨ m.toNat = 21 ∨ m.toNat = 22
      · simp [c1, c2, c3]
      · simp [c1, c2, c3]

theorem puts_stats (s : Stats) : Puts (putStats s) (encStats s) := by
  unfold putStats encStats
  refine puts_block ?_
  puts

theorem puts_iface (i : Iface) : Puts (putIfaceReal i) (encIface i) := by
  unfold putIfaceReal encIface
  refine (puts_alignedBlock (x := num8 i.name.length ++ i.name) (y := i.mac ++ [0, 0] ++ enc32 true i.ip ++ enc32 true i.mask ++
    enc32 true i.gateway) ?_ ?_).cast (by simp only [List.append_assoc])
  · puts
  · puts

theorem puts_portTail (p : Port) : Puts (putPortTail p) (encPortTail p) := by
  unfold putPortTail encPortTail
  rw [filterMau_eq, mediaType_eq]
  refine Puts.seq ?_ (puts_u32n _)
  puts

theorem puts_port (ss : U16) (p : Port) : Puts (putPortReal ss p) (encPort ss p) := by
  unfold putPortReal encPort
  cases hp : p.peer with
  | none =>
    simp only
    refine puts_block (Puts.seq ?_ (puts_portTail p))
    unfold putPortHead
    rw [hp]
    simp only [Option.isSome_none, Bool.false_eq_true, if_false]
    puts
  | some q =>
    simp only
    refine (puts_alignedBlock (x := [0, 0] ++ num16 0 ++ enc16 true ss ++ num8 p.name.length ++ p.name ++ [1] ++ [0, 0] ++
        num8 q.portName.length ++ q.portName ++ num8 q.stationName.length ++ q.stationName)
      (y := enc32 true q.delay ++ q.mac ++ [0, 0] ++ encPortTail p) ?_ ?_).cast (by simp only [List.append_assoc])
    · unfold putPortHead
      rw [hp]
      simp only [Option.isSome_some, if_true]
      puts
    · refine Puts.seq ?_ (puts_portTail p)
      puts

theorem puts_ifaceMulti (api : U32) (i : Iface) : Puts (putIfaceMulti api i)
    (encBlock 0x0400 0 ([0, 0] ++ enc32 true api ++ num16 0 ++ num16 0x8000 ++ encIface i ++
      encStats (i.stats.getD ⟨0, 0, 0, 0, 0, 0⟩))) := by
  unfold putIfaceMulti
  refine puts_block (Puts.seq (Puts.seq ?_ (puts_iface i)) (puts_stats _))
  puts

theorem puts_portMulti (api : U32) (n : Nat) (p : Port) : Puts (putPortMulti api (BitVec.ofNat 16 (0x8000 + n)) p)
    (encBlock 0x0400 0 ([0, 0] ++ enc32 true api ++ num16 0 ++ num16 (0x8000 + n) ++ encPort (BitVec.ofNat 16 (0x8000 + n)) p ++
      encStats (p.stats.getD ⟨0, 0, 0, 0, 0, 0⟩))) := by
  unfold putPortMulti
  refine puts_block (Puts.seq (Puts.seq ?_ (puts_port _ p)) (puts_stats _))
  refine Puts.seq ?_ (puts_u16n _)
  puts

/-- The loop over the ports. -/
theorem puts_portLoop {f : Nat → W} {g : Nat → List Byte} {n : Nat} (h : ∀ k, 1 ≤ k → k ≤ n → Puts (f k) (g k)) :
    ∀ (k fuel : Nat), k ≤ n → k + 1 ≤ fuel →
      Puts (portLoop f fuel (if k = 0 then ⟨0, n⟩ else ⟨n - k + 1, n⟩)) ((List.range' (n - k + 1) k).flatMap g) := by
  intro k
  induction k with
  | zero =>
    intro fuel _ hf
    obtain ⟨fu, rfl⟩ : ∃ fu, fuel = fu + 1 := ⟨fuel - 1, by omega⟩
    rw [if_pos rfl]
    have : Pdport.Iter.getNext ⟨0, n⟩ = (0, ⟨0, n⟩) := by simp [Pdport.Iter.getNext]
    unfold portLoop
    rw [this, if_pos rfl]
    exact puts_skip
  | succ k ih =>
    intro fuel hk hf
    obtain ⟨fu, rfl⟩ : ∃ fu, fuel = fu + 1 := ⟨fuel - 1, by omega⟩
    rw [if_neg (by omega)]
    have : Pdport.Iter.getNext ⟨n - (k + 1) + 1, n⟩ = (n - k, if k = 0 then ⟨0, n⟩ else ⟨n - k + 1, n⟩) := by
      unfold Pdport.Iter.getNext
      by_cases c : k = 0
      · subst c
        rw [if_pos (by simp only; omega), if_pos rfl]
        congr 1
        simp only; omega
      · rw [if_neg (by simp only; omega), if_neg (by simp only; omega), if_neg c]
        have : n - (k + 1) + 1 = n - k := by omega
        rw [this]
    unfold portLoop
    rw [this, if_neg (by simp only; omega)]
    have e : n - (k + 1) + 1 = n - k := by omega
    rw [e, List.range'_succ, List.flatMap_cons]
    exact Puts.seq (h (n - k) (by omega) (by omega)) (ih fu (by omega) (by omega))

theorem zipIdx_flatMap (ports : List Port) (g : Port → Nat → List Byte) (d : Port) : ∀ a : Nat,
    ((ports.zipIdx a).flatMap fun (p, n) => g p n) =
      (List.range' a ports.length).flatMap fun n => g ((ports[n - a]?).getD d) n := by
  induction ports with
  | nil => intro a; rfl
  | cons p l ih =>
    intro a
    rw [List.zipIdx_cons, List.flatMap_cons, ih, List.length_cons, List.range'_succ, List.flatMap_cons]
    congr 1
    · simp
    · have : ∀ x ∈ List.range' (a + 1) l.length, (fun n => g ((l[n - (a + 1)]?).getD d) n) x =
          (fun n => g (((p :: l)[n - a]?).getD d) n) x := by
        intro x hx
        rw [List.mem_range'_1] at hx
        have : x - a = (x - (a + 1)) + 1 := by omega
        simp only
        rw [this, List.getElem?_cons_succ]
      rw [List.flatMap_def, List.flatMap_def, List.map_congr_left this]

theorem puts_device (api : U32) (i : Iface) (ports : List Port) (hn : ports.length ≤ 0x7000) :
    Puts (putDevice api i ports) (encDevice api i ports) := by
  unfold putDevice encDevice
  refine Puts.seq (puts_ifaceMulti api i) ?_
  rw [zipIdx_flatMap ports (fun p n => encBlock 0x0400 0 ([0, 0] ++ enc32 true api ++ num16 0 ++ num16 (0x8000 + n) ++
    encPort (BitVec.ofNat 16 (0x8000 + n)) p ++ encStats (p.stats.getD ⟨0, 0, 0, 0, 0, 0⟩))) ⟨[], none, 0, false, 0, none⟩ 1]
  by_cases c : ports.length = 0
  · have hnil := List.length_eq_zero_iff.1 c
    subst hnil
    have : Pdport.Iter.getNext (Pdport.Iter.init 0) = (0, ⟨0, 0⟩) := by decide
    simp only [List.length_nil, portLoop, this, if_true]
    exact puts_skip
  · have h := puts_portLoop (n := ports.length)
      (f := fun n w => (Pdport.portSubslot ports.length n).bind fun ss => (ports[n - 1]?).bind fun p => putPortMulti api ss p w)
      (g := fun n => encBlock 0x0400 0 ([0, 0] ++ enc32 true api ++ num16 0 ++ num16 (0x8000 + n) ++
        encPort (BitVec.ofNat 16 (0x8000 + n)) ((ports[n - 1]?).getD ⟨[], none, 0, false, 0, none⟩) ++
        encStats (((ports[n - 1]?).getD ⟨[], none, 0, false, 0, none⟩).stats.getD ⟨0, 0, 0, 0, 0, 0⟩)))
      (by
        intro k h1 h2
        have hk : k - 1 < ports.length := by omega
        have hs : Pdport.portSubslot ports.length k = some (BitVec.ofNat 16 (0x8000 + k)) := by
          unfold Pdport.portSubslot Pdport.isValid
          rw [if_pos (by simp; omega)]
          congr 2
          omega
        rw [hs, List.getElem?_eq_getElem hk]
        exact puts_portMulti api k ports[k - 1]) ports.length (ports.length + 1) (Nat.le_refl _) (Nat.le_refl _)
    rw [if_neg c, Nat.sub_self] at h
    exact h

end Verif.Records
