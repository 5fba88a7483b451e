import Verif.ConnRsp.Spec
import Verif.Records.Ends
import Verif.Connect.Props

/-! What the writers of the connect response put. -/
set_option linter.unusedVariables false
set_option linter.unusedSimpArgs false

namespace Verif.ConnRsp
open Verif.Wire hiding ExpApi ExpMod ExpSub bit encBlock encBlock_length
open Verif.DiagRead (n16 n32 each skip Holds)
open Verif.Read (Ready Appends Within)
open Verif.Records
open Verif.Device (ApiDiff ModDiff SubDiff)
open Verif.Connect (crAt)

/-! ## Numbers -/

/-- Numbers below 256 as bytes. -/
def bytes (l : List Nat) : List Byte := l.map (BitVec.ofNat 8)

theorem num16_bytes (n : Nat) : num16 n = bytes (Device.b16 n) := by
  unfold num16 enc16 bytes Device.b16
  simp only [BitVec.toNat_ofNat, if_true, List.map_cons, List.map_nil]
  refine List.cons_eq_cons.2 ⟨?_, List.cons_eq_cons.2 ⟨?_, rfl⟩⟩ <;>
    apply BitVec.eq_of_toNat_eq <;> simp only [BitVec.toNat_ofNat] <;> omega

theorem num32_bytes (n : Nat) : num32 n = bytes (Device.b32 n) := by
  unfold num32 enc32 bytes Device.b32
  simp only [BitVec.toNat_ofNat, if_true, List.map_cons, List.map_nil]
  refine List.cons_eq_cons.2 ⟨?_, List.cons_eq_cons.2 ⟨?_, List.cons_eq_cons.2 ⟨?_, List.cons_eq_cons.2 ⟨?_, rfl⟩⟩⟩⟩ <;>
    apply BitVec.eq_of_toNat_eq <;> simp only [BitVec.toNat_ofNat] <;> omega

theorem bytes_append (a b : List Nat) : bytes (a ++ b) = bytes a ++ bytes b := List.map_append
theorem bytes_flatMap {α : Type} (f : α → List Nat) (l : List α) : bytes (l.flatMap f) = l.flatMap fun a => bytes (f a) := by
  induction l with
  | nil => rfl
  | cons a l ih => rw [List.flatMap_cons, bytes_append, ih, List.flatMap_cons]

attribute [local irreducible] putU16 putU32 enc16 enc32 encUuid putUuid n16 n32 num8 num16 num32 putByte putMem putPadding putBlock encBlock
  Device.b16 Device.b32

/-! ## Module difference -/

theorem puts_subDiff (z : SubDiff) : Puts (putSubDiff z) (bytes (Device.putSub z)) := by
  unfold putSubDiff Device.putSub
  rw [bytes_append, bytes_append, ← num16_bytes, ← num16_bytes, ← num32_bytes]
  refine Puts.seq (Puts.seq (puts_n16 _) ?_) (puts_n16 _)
  split <;> exact puts_n32 _

theorem puts_modDiff (m : ModDiff) : Puts (putModDiff m) (bytes (Device.putMod m)) := by
  unfold putModDiff Device.putMod
  rw [bytes_append, bytes_append, bytes_append, ← num16_bytes, ← num16_bytes, ← num32_bytes]
  refine Puts.seq (Puts.seq (Puts.seq (puts_n16 _) ?_) (puts_n16 _)) ?_
  · split <;> exact puts_n32 _
  · by_cases h : m.state = .none
    · rw [if_pos h, if_pos h, ← num32_bytes]
      exact puts_n32 _
    · rw [if_neg h, if_neg h, bytes_append, ← num16_bytes, bytes_flatMap]
      exact Puts.seq (puts_n16 _) (puts_each _ fun a _ => puts_subDiff a)

theorem puts_apiDiff (x : ApiDiff) : Puts (putApiDiff x) (bytes (Device.putApi x)) := by
  unfold putApiDiff Device.putApi
  rw [bytes_append, bytes_append, ← num16_bytes, ← num32_bytes, bytes_flatMap]
  exact Puts.seq (Puts.seq (puts_n32 _) (puts_n16 _)) (puts_each _ fun a _ => puts_modDiff a)

theorem drop_diff {r : List ApiDiff} (h : r ≠ []) :
    (Device.putDiff r).drop 6 = Device.b16 r.length ++ r.flatMap Device.putApi := by
  unfold Device.putDiff
  rw [if_neg h]
  have l : ∀ n, ∃ a b, Device.b16 n = [a, b] := fun n => by unfold Device.b16; exact ⟨_, _, rfl⟩
  obtain ⟨a, b, e1⟩ := l 0x8104
  obtain ⟨c, d, e2⟩ := l ((Device.b16 r.length ++ r.flatMap Device.putApi).length + 2)
  simp only [e1, e2]
  rfl

theorem puts_arDiff {r : List ApiDiff} (h : r ≠ []) :
    Puts (putArDiff r) (encBlock 0x8104 0 (((Device.putDiff r).drop 6).map (BitVec.ofNat 8))) := by
  unfold putArDiff
  rw [if_pos (List.length_pos_of_ne_nil h), drop_diff h]
  refine puts_block ?_
  show Puts _ (bytes _)
  rw [bytes_append, ← num16_bytes, bytes_flatMap]
  exact Puts.seq (puts_n16 _) (puts_each _ fun a _ => puts_apiDiff a)

/-! ## Blocks -/

theorem puts_arRes (q : Req) (r : Res) : Puts (putArRes q r)
    (encBlock 0x8101 0 (enc16 true q.arType ++ encUuid true q.uuid ++ enc16 true q.key ++ r.mac ++ enc16 true r.udpPort)) := by
  unfold putArRes
  refine puts_block ?_
  puts

theorem puts_crRes (c : CrRes) : Puts (putCrRes c) (encBlock 0x8102 0 (enc16 true c.type ++ enc16 true c.ref ++ enc16 true c.frameId)) := by
  unfold putCrRes
  refine puts_block ?_
  puts

theorem puts_alarmRes (a : AlarmRes) : Puts (putAlarmRes a) (encBlock 0x8103 0 (enc16 true a.type ++ enc16 true a.ref ++ enc16 true a.maxLen)) := by
  unfold putAlarmRes
  refine puts_block ?_
  puts

theorem puts_rpcRes (p : U16) : Puts (putRpcRes p) (encBlock 0x8107 0 (enc16 true p)) := puts_block (puts_u16 _)

theorem seq_skip (p : W) : (p ;; skip) = p := by
  funext w
  unfold W.seq skip
  cases p w <;> rfl

theorem seq_assoc (a b c : W) : (a ;; (b ;; c)) = ((a ;; b) ;; c) := funext fun x => Pdport.seq_assoc a b c x

/-- The station name in the form used for blocks with padding. -/
theorem arServer_eq (name : List Byte) : putArServer true name = alignedBlock 0x8106 (n16 name.length ;; putMem name) skip := by
  funext w
  unfold putArServer alignedBlock n16
  rw [seq_skip]

theorem vendor_eq (d : List Byte) (v : U32 × U32) : putVendor d v =
    alignedBlock 0x8108 (putU32 true v.1 ;; putU32 true v.2 ;; n16 d.length ;; putMem d) skip := by
  funext w
  unfold putVendor alignedBlock
  rw [seq_skip]

theorem puts_server (name : List Byte) : Puts (putArServer true name) (encBlock 0x8106 0 (pad4h (num16 name.length ++ name))) := by
  rw [arServer_eq]
  have h := puts_alignedBlock (t := 0x8106) (Puts.seq (puts_n16 name.length) (puts_mem name)) puts_skip
  rwa [List.append_nil] at h

theorem puts_vendor (d : List Byte) (v : U32 × U32) : Puts (putVendor d v)
    (encBlock 0x8108 0 (pad4h (enc32 true v.1 ++ enc32 true v.2 ++ num16 d.length ++ d))) := by
  rw [vendor_eq]
  have h := puts_alignedBlock (t := 0x8108) (Puts.seq (Puts.seq (Puts.seq (puts_u32 v.1) (puts_u32 v.2)) (puts_n16 d.length)) (puts_mem d)) puts_skip
  rwa [List.append_nil] at h

/-- The blocks before the station name. -/
def putFront (q : Req) (r : Res) : W :=
  putArRes q r ;; each putCrRes r.crs ;; putAlarmRes r.alarm ;;
    (if r.diff.length > 0 then putArDiff r.diff else skip) ;; (if q.rpc then putRpcRes r.rpcPort else skip)

def putBack (q : Req) (r : Res) : W :=
  if q.advanced then putArServer true r.name ;; each (putVendor r.vendorData) q.vendors else skip

theorem putBlocks_eq (q : Req) (r : Res) : putBlocks q r = (putFront q r ;; putBack q r) := rfl

theorem encBlocks_append (a b : List (U16 × List Byte)) : encBlocks (a ++ b) = encBlocks a ++ encBlocks b := List.flatMap_append
theorem encBlocks_one (b : U16 × List Byte) : encBlocks [b] = encBlock b.1 0 b.2 := by
  unfold encBlocks; simp
theorem encBlocks_map {α : Type} (f : α → U16 × List Byte) (l : List α) :
    encBlocks (l.map f) = l.flatMap fun a => encBlock (f a).1 0 (f a).2 := by
  unfold encBlocks
  induction l with
  | nil => rfl
  | cons a l ih => simp only [List.map_cons, List.flatMap_cons, ih]

theorem puts_front (q : Req) (r : Res) : Puts (putFront q r) (encBlocks (front q r)) := by
  unfold putFront front
  rw [encBlocks_append, encBlocks_append, encBlocks_append, encBlocks_append, encBlocks_one, encBlocks_one, encBlocks_map]
  refine Puts.seq (Puts.seq (Puts.seq (Puts.seq (puts_arRes q r) (puts_each _ fun c _ => puts_crRes c)) (puts_alarmRes _)) ?_) ?_
  · by_cases h : r.diff = []
    · rw [if_pos h, h]
      exact puts_skip
    · rw [if_neg h, if_pos (List.length_pos_of_ne_nil h), encBlocks_one]
      exact puts_arDiff h
  · cases q.rpc
    · exact puts_skip
    · simp only [if_true]
      rw [encBlocks_one]
      exact puts_rpcRes _

theorem puts_back (q : Req) (r : Res) : Puts (putBack q r) (encBlocks (back q r)) := by
  unfold putBack back
  cases q.advanced
  · exact puts_skip
  · simp only [if_true]
    rw [← List.singleton_append, encBlocks_append, encBlocks_one, encBlocks_map]
    exact Puts.seq (puts_server _) (puts_each _ fun v _ => puts_vendor _ v)

theorem puts_blocks (q : Req) (r : Res) : Puts (putBlocks q r) (encBlocks (blocks q r)) := by
  rw [putBlocks_eq, blocks, encBlocks_append]
  exact Puts.seq (puts_front q r) (puts_back q r)

/-! ## Safety -/

theorem wsafe_each {α : Type} {f : α → W} (l : List α) (h : ∀ a ∈ l, WSafe (f a)) : WSafe (each f l) := by
  induction l with
  | nil => exact wsafe_skip
  | cons a l ih => exact WSafe.seq (h a (by simp)) (ih fun b hb => h b (by simp [hb]))

theorem wsafe_subDiff (z : SubDiff) : WSafe (putSubDiff z) := by
  unfold putSubDiff
  refine WSafe.seq (WSafe.seq (wsafe_n16 _) ?_) (wsafe_n16 _)
  split <;> exact wsafe_n32 _

theorem wsafe_modDiff (m : ModDiff) : WSafe (putModDiff m) := by
  unfold putModDiff
  refine WSafe.seq (WSafe.seq (WSafe.seq (wsafe_n16 _) ?_) (wsafe_n16 _)) ?_
  · split <;> exact wsafe_n32 _
  · split
    · exact wsafe_n32 _
    · exact WSafe.seq (wsafe_n16 _) (wsafe_each _ fun a _ => wsafe_subDiff a)

theorem wsafe_apiDiff (x : ApiDiff) : WSafe (putApiDiff x) :=
  WSafe.seq (WSafe.seq (wsafe_n32 _) (wsafe_n16 _)) (wsafe_each _ fun a _ => wsafe_modDiff a)

theorem wsafe_front (q : Req) (r : Res) : WSafe (putFront q r) := by
  unfold putFront
  refine WSafe.seq (WSafe.seq (WSafe.seq (WSafe.seq ?_ (wsafe_each _ fun c _ => ?_)) ?_) ?_) ?_
  · unfold putArRes; refine wsafe_putBlock ?_; safe
  · unfold putCrRes; refine wsafe_putBlock ?_; safe
  · unfold putAlarmRes; refine wsafe_putBlock ?_; safe
  · split
    · unfold putArDiff
      split
      all_goals first
        | exact wsafe_skip
        | exact wsafe_putBlock (WSafe.seq (wsafe_n16 _) (wsafe_each _ fun a _ => wsafe_apiDiff a))
    · exact wsafe_skip
  · split
    · exact wsafe_putBlock (wsafe_putU16 _ _)
    · exact wsafe_skip

theorem stays_each {α : Type} {f : α → W} (l : List α) (h : ∀ a ∈ l, Stays (f a)) : Stays (each f l) := by
  induction l with
  | nil => exact stays_of wsafe_skip
  | cons a l ih => exact Stays.seq (h a (by simp)) (ih fun b hb => h b (by simp [hb]))

theorem stays_blocks (q : Req) (r : Res) : Stays (putBlocks q r) := by
  rw [putBlocks_eq]
  refine Stays.seq (stays_of (wsafe_front q r)) ?_
  unfold putBack
  split
  · refine Stays.seq ?_ (stays_each _ fun v _ => ?_)
    · rw [arServer_eq]
      exact stays_alignedBlock (stays_of (WSafe.seq (wsafe_n16 _) (wsafe_putMem _))) (stays_of wsafe_skip)
    · rw [vendor_eq]
      exact stays_alignedBlock (stays_of (by safe)) (stays_of wsafe_skip)
  · exact stays_of wsafe_skip

/-! ## The response -/

theorem rsp_length (l : List (U16 × List Byte)) (ndr : Ndr) (s : Status) : (encRsp ndr s l).length = 20 + (encBlocks l).length := by
  unfold encRsp
  have ls : (Read.encStatus s).length = 4 := rfl
  simp only [List.length_append, ls, num32_length, enc32_length]

/-- The response, given what becomes of its body. -/
theorem rsp_at (ndr : Ndr) (s : Status) (p : W) (hp : Stays p) (bs : List Byte) {w : Wr} (hw : Ready w) (body : Option (Req × Res))
    (hb : putBody body = p) :
    ∃ x, Ready x ∧ x.cap = w.cap ∧ x.pos = min (w.pos + 20) w.cap ∧
      (p x = none → connectRsp ndr s body w = none) ∧
      (∀ x', p x = some x' → ∃ w', connectRsp ndr s body w = some w' ∧ Within w w' ∧
        (w.pos + 20 + bs.length ≤ w.cap → Appends x x' bs →
          Appends w w' (Read.encStatus s ++ (num32 bs.length ++ enc32 true ndr.maxCount ++ enc32 true ndr.offset ++ num32 bs.length) ++ bs))) := by
  obtain ⟨w1, e1, h1, r1⟩ := Read.within_of_emits (DiagRead.emits_of (Read.writes_putStatus s) (Read.wsafe_putStatus _)) hw
  obtain ⟨w2, e2, h2, r2⟩ := Read.within_of_emits (DiagRead.emits_of (Read.writes_putNdr ndr) (Read.wsafe_putNdr _)) (h1.ready hw)
  obtain ⟨w1', f1, _, p1⟩ := fills_status s w hw
  rw [e1] at f1; cases f1
  obtain ⟨w2', f2, _, p2⟩ := fills_ndr ndr w1 (h1.ready hw)
  rw [e2] at f2; cases f2
  have h02 := h1.trans h2
  have ls : (Read.encStatus s).length = 4 := rfl
  have ln : ∀ n : Ndr, (enc32 true n.argsLen ++ enc32 true n.maxCount ++ enc32 true n.offset ++ enc32 true n.actual).length = 16 := by
    intro n; simp [enc32_length]
  refine ⟨w2, h02.ready hw, h02.1, by have := h1.1; omega, ?_, ?_⟩
  · intro hn
    unfold connectRsp
    rw [e1, Option.bind_some, e2, Option.bind_some, hb, hn]
    rfl
  · intro w3 e3
    have h3 := hp w2 w3 (h02.ready hw) e3
    have h03 := h02.trans h3
    obtain ⟨w5, e5, h5, r5⟩ := Read.patch (pre := Read.encStatus s)
      (old := enc32 true ndr.argsLen ++ enc32 true ndr.maxCount ++ enc32 true ndr.offset ++ enc32 true ndr.actual) (post := bs)
      (Read.writes_putNdr { ndr with argsLen := BitVec.ofNat 32 (w3.pos - w2.pos), actual := BitVec.ofNat 32 (w3.pos - w2.pos) })
      (Read.wsafe_putNdr _) (by rw [ln, ln]) hw h03 (k := w1.pos) h1.2.2.1
    refine ⟨{ w5 with pos := w3.pos }, ?_, h5, ?_⟩
    · unfold connectRsp
      rw [e1, Option.bind_some, e2, Option.bind_some, hb, e3, Option.bind_some]
      simp only [e5, Option.map_some]
    · intro hr k2
      have c1 := h1.1
      have a1 := r1 (by rw [ls]; omega)
      have p1' := a1.2.2.1
      rw [ls] at p1'
      have a2 := r2 (by rw [ln]; omega)
      have a02 := a1.trans (by have := h1.2.2.2.1; omega) a2
      have a03 := a02.trans (by have := h02.2.2.2.1; have := h02.1; omega) k2
      have b5 := r5 (by simpa using a03) (by rw [ls]; omega)
      have hn : w3.pos - w2.pos = bs.length := by have := k2.2.2.1; omega
      rw [hn] at b5
      unfold num32
      exact b5

theorem stays_skip : Stays skip := stays_of wsafe_skip

/-- A response without blocks. -/
theorem rsp_none (ndr : Ndr) (s : Status) {w : Wr} (hw : Ready w) :
    ∃ w', connectRsp ndr s none w = some w' ∧ Within w w' ∧ (w.pos + 20 ≤ w.cap → Appends w w' (encRsp ndr s [])) := by
  obtain ⟨x, hx, _, _, _, hs⟩ := rsp_at ndr s skip stays_skip [] hw none rfl
  obtain ⟨w', e, h1, h2⟩ := hs x rfl
  exact ⟨w', e, h1, fun hr => h2 (by simpa using hr) (Read.appends_nil x)⟩

/-- A response with blocks, if there is room. -/
theorem rsp_some (ndr : Ndr) (s : Status) (q : Req) (r : Res) {w : Wr} (hw : Ready w)
    (hr : w.pos + 20 + (encBlocks (blocks q r)).length ≤ w.cap) :
    ∃ w', connectRsp ndr s (some (q, r)) w = some w' ∧ Within w w' ∧ Appends w w' (encRsp ndr s (blocks q r)) := by
  obtain ⟨x, hx, hc, hp, _, hs⟩ := rsp_at ndr s (putBlocks q r) (stays_blocks q r) (encBlocks (blocks q r)) hw (some (q, r)) rfl
  obtain ⟨x', e1, h1⟩ := appends_of_wat (puts_blocks q r x.pos) hx rfl (by omega)
  obtain ⟨w', e, h2, h3⟩ := hs x' e1
  exact ⟨w', e, h2, h3 hr h1⟩

/-- The blocks end exactly if the station name, the vendor blocks and their padding end. -/
theorem blocks_at (q : Req) (r : Res) {x : Wr} (hx : Ready x) : ∃ y, Ready y ∧ y.cap = x.cap ∧ putBlocks q r x = putBack q r y ∧
    (x.pos + (encBlocks (front q r)).length ≤ x.cap → y.pos = x.pos + (encBlocks (front q r)).length) := by
  obtain ⟨y, e, c, l, m, n, k⟩ := wsafe_front q r x hx.1
  have h : Within x y := ⟨c, l, m, by have := hx.2.2; omega, fun i hi => k i (by have := hx.2.2; omega)⟩
  refine ⟨y, h.ready hx, h.1, ?_, ?_⟩
  · rw [putBlocks_eq]
    unfold W.seq
    rw [e]
    rfl
  · intro hr
    obtain ⟨b, _, e2⟩ := puts_front q r x.pos x hx.1 hx.2.1 rfl hr
    rw [e] at e2
    cases e2
    rfl

/-- The station name never ends exactly if its padding (it is left out if there is no room for it) does not fit. -/
theorem server_none_iff (name : List Byte) {w : Wr} (hw : Ready w) :
    putArServer true name w = none ↔
      w.cap - w.pos < up4 (if 8 + name.length ≤ w.cap - w.pos then 8 + name.length else min (w.cap - w.pos) 8) := by
  obtain ⟨w1, e1, h1, p1⟩ := ((fills_header 0x8106 1 0).seq (fills_n16 name.length)) w hw
  obtain ⟨w2, e2, h2, p2⟩ := mem_pos name (h1.ready hw)
  have h02 := h1.trans h2
  have c1 := h1.1
  have c2 := h02.1
  have hpc := hw.2.2
  have hp : w2.pos - w.pos = if 8 + name.length ≤ w.cap - w.pos then 8 + name.length else min (w.cap - w.pos) 8 := by
    split at p2 <;> split <;> omega
  have hal := align_none_iff (h02.ready hw) h02.2.2.1
  have e3 : (putBlockHeader true 0x8106 0 1 0 ;; (n16 name.length ;; putMem name ;; putPaddingAlign w.pos 4)) w =
      putPaddingAlign w.pos 4 w2 := by
    unfold W.seq at e1 ⊢
    obtain ⟨u, f1, f2⟩ := Option.bind_eq_some_iff.1 e1
    simp only [f1, Option.bind_some, f2, e2]
  have key : putArServer true name w = none ↔ putPaddingAlign w.pos 4 w2 = none := by
    unfold putArServer putBlock
    change ((putBlockHeader true 0x8106 0 1 0 ;; (putU16 true (BitVec.ofNat 16 name.length) ;; putMem name ;; putPaddingAlign w.pos 4)) w).bind _ = none ↔ _
    rw [show putU16 true (BitVec.ofNat 16 name.length) = n16 name.length by unfold n16; rfl]
    rw [e3]
    cases c : putPaddingAlign w.pos 4 w2 with
    | none => simp
    | some w3 =>
      simp only [Option.bind_some, reduceCtorEq, iff_false]
      have hnn : ¬ w2.cap < w.pos + up4 (w2.pos - w.pos) := by
        rw [← hal, c]; simp
      obtain ⟨w3', f3, h3⟩ := align_some (h02.ready hw) h02.2.2.1 (by omega)
      rw [c] at f3; cases f3
      obtain ⟨w4, e4, _⟩ := patch_within hw (h02.trans h3) (k := w.pos + 2) (by omega) (BitVec.ofNat 16 w3.pos - BitVec.ofNat 16 (w.pos + 4))
      rw [e4]
      simp
  rw [key, hal, hp, c2]
  omega

end Verif.ConnRsp
