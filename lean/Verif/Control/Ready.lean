import Verif.Control.Demo
import Verif.Rpc.Lemmas

/-! The application ready request. -/
set_option linter.unusedVariables false
set_option linter.unusedSimpArgs false

namespace Verif.Control
open Verif.Wire
open Verif.Records (num16 num32 Puts puts_u32 puts_of)

theorem puts_over {p : W} {bs : List Byte} (h : Puts p bs) {pre old post : List Byte} {cap n : Nat} (hl : old.length = bs.length)
    (hn : n = pre.length) (hc : n + bs.length ≤ cap) (hb : cap ≤ pre.length + old.length + post.length) (h6 : cap < 65536) :
    p ⟨pre ++ (old ++ post), cap, n⟩ = some ⟨pre ++ (bs ++ post), cap, n + bs.length⟩ := by
  subst hn
  obtain ⟨b, h1, h2⟩ := h pre.length ⟨pre ++ (old ++ post), cap, pre.length⟩ (by simp only [List.length_append]; omega) h6 rfl hc
  simp only at h1 h2
  rw [writeAt_eq_some (by simp only [List.length_append]; omega)] at h1
  cases h1
  rw [h2]
  simp [List.drop_append, ← hl, List.take_append]

theorem encReadyHeader_eq (a : Ready) (frag : Bool) (len : Nat) :
    encReadyHeader a frag len = encRpcHeader { readyHeader a with fragment := frag, lengthOfBody := BitVec.ofNat 16 len } := by
  have e0 : (if frag then 0x24 else 0x20 : Byte) =
      BitVec.ofNat 8 (encFlags { readyHeader a with fragment := frag, lengthOfBody := BitVec.ofNat 16 len }) := by
    cases frag <;> simp [encFlags, readyHeader]
  have e1 : encUuid true (readyHeader a).ifUuid =
      [0xde, 0xa0, 0x00, 0x02, 0x6c, 0x97, 0x11, 0xd1, 0x82, 0x71, 0x00, 0xa0, 0x24, 0x42, 0xdf, 0x7d] := by
    simp only [readyHeader]
    decide +kernel
  have e2 : enc32 true (readyHeader a).bootTime ++ enc32 true (readyHeader a).ifVersion ++ enc32 true (readyHeader a).seqNmb ++
      enc16 true (readyHeader a).opnum ++ enc16 true (readyHeader a).ifHint ++ enc16 true (readyHeader a).actHint =
      [0, 0, 0, 0] ++ [0, 0, 0, 1] ++ [0, 0, 0, 0] ++ [0, 4] ++ [0xff, 0xff] ++ [0xff, 0xff] := by
    simp only [readyHeader]
    decide +kernel
  have e3 : enc16 true (readyHeader a).fragmentNmb ++ [(readyHeader a).auth, (readyHeader a).serialLow] = [0, 0] ++ [0, 0] := by
    simp only [readyHeader]
    decide +kernel
  have e4 : [(readyHeader a).version, (readyHeader a).packetType] = [4, 0] := by
    simp only [readyHeader]
  have e5 : [(readyHeader a).floatRepr, (readyHeader a).reserved, (readyHeader a).serialHigh] = [0, 0, 0] := by
    simp only [readyHeader]
  have e6 : (readyHeader a).isBe = true := by simp only [readyHeader]
  have e7 : (readyHeader a).objUuid = a.initiator := by simp only [readyHeader]
  have e8 : (readyHeader a).actUuid = a.act := by simp only [readyHeader]
  unfold encReadyHeader encRpcHeader num16
  rw [e0]
  generalize BitVec.ofNat 8 (encFlags { readyHeader a with fragment := frag, lengthOfBody := BitVec.ofNat 16 len }) = fl
  simp only [e6, e7, e8, if_true]
  rw [← e1]
  simp only [List.cons.injEq, and_true] at e4 e5
  rw [e4.1, e4.2, e5.1, e5.2.1, e5.2.2]
  have key : ∀ (p q r m1 m2 l n1 n2 : List Byte), m1 = m2 → n1 = n2 → p ++ q ++ r ++ (m1 ++ l ++ n1) = p ++ q ++ r ++ (m2 ++ l ++ n2) := by
    intros; subst_vars; rfl
  have := key ([4, 0, fl, 0, 0, 0, 0, 0] ++
    encUuid true a.initiator) (encUuid true (readyHeader a).ifUuid) (encUuid true a.act) _ _ (enc16 true (BitVec.ofNat 16 len)) _ _ e2.symm e3.symm
  simpa only [List.append_assoc, List.cons_append, List.nil_append] using this

/-- The application ready request consists of the RPC header, the lengths, the control block with the identification of the connection, and the
module difference.  If it does not fit in one datagram, the first one has the largest size and says so. -/
theorem C117_ready_request (c : Rpc.Cfg) (plug : Bool) (a : Ready) (h1 : 100 ≤ c.maxUdp) (h2 : c.maxUdp ≤ c.cap) (h3 : c.cap < 65536)
    (hi : a.initiator.d4.length = 8) (hu : a.uuid.d4.length = 8) (ha : a.act.d4.length = 8)
    (hr : 80 + (encReadyBody (c.maxUdp - 100) plug a).length ≤ c.cap) :
    ∃ rest, readyReq c plug a = some
      (encReadyHeader a (decide (c.maxUdp ≤ 80 + (encReadyBody (c.maxUdp - 100) plug a).length))
          (min (80 + (encReadyBody (c.maxUdp - 100) plug a).length) c.maxUdp - 80) ++ encReadyBody (c.maxUdp - 100) plug a ++ rest,
        80 + (encReadyBody (c.maxUdp - 100) plug a).length,
        min (80 + (encReadyBody (c.maxUdp - 100) plug a).length) c.maxUdp) := by
  have hok : Rpc.HOk (readyHeader a) := ⟨rfl, hi, rfl, ha⟩
  have hok' : Rpc.HOk { readyHeader a with fragment := true } := ⟨rfl, hi, rfl, ha⟩
  have hlh := Rpc.encHdr_length hok
  have hlh' := Rpc.encHdr_length hok'
  have pctl : Puts (putControl true (if plug then 0x0113 else 0x0112) ⟨a.uuid, a.key, if plug then a.alarmSeq else 0, 2, 0⟩)
      (encCtl ⟨if plug then 0x0113 else 0x0112, 28, 1, 0⟩ [0, 0] ⟨a.uuid, a.key, if plug then a.alarmSeq else 0, 2, 0⟩) := by
    rw [← enc_eq]
    exact puts_of (writes_putControl hu)
  have pdiff : Puts (ConnRsp.putArDiff a.diff) (encDiff a.diff) := by
    unfold encDiff
    by_cases hd : a.diff = []
    · rw [if_pos hd, hd]
      exact Records.puts_skip
    · rw [if_neg hd]
      exact ConnRsp.puts_arDiff hd
  have pndr : ∀ n : Ndr, Puts (putNdr5 n) (enc32 true n.argsMax ++ enc32 true n.argsLen ++ enc32 true n.maxCount ++ enc32 true n.offset ++ enc32 true n.actual) :=
    fun n => Puts.seq (Puts.seq (Puts.seq (Puts.seq (puts_u32 _) (puts_u32 _)) (puts_u32 _)) (puts_u32 _)) (puts_u32 _)
  have hlc : (encCtl ⟨if plug then 0x0113 else 0x0112, 28, 1, 0⟩ [0, 0] ⟨a.uuid, a.key, if plug then a.alarmSeq else 0, 2, 0⟩).length = 32 :=
    encCtl_length rfl hu
  generalize hC : encCtl ⟨if plug then 0x0113 else 0x0112, 28, 1, 0⟩ [0, 0] ⟨a.uuid, a.key, if plug then a.alarmSeq else 0, 2, 0⟩ = C at *
  have hbody : encReadyBody (c.maxUdp - 100) plug a = num32 (c.maxUdp - 100) ++ num32 (C ++ encDiff a.diff).length ++ num32 (c.maxUdp - 100) ++
      num32 0 ++ num32 (C ++ encDiff a.diff).length ++ (C ++ encDiff a.diff) := by
    unfold encReadyBody
    simp only [hC]
  have hbl : (encReadyBody (c.maxUdp - 100) plug a).length = 20 + 32 + (encDiff a.diff).length := by
    rw [hbody]
    simp only [List.length_append, Records.num32_length, hlc]
    omega
  generalize hD : encDiff a.diff = D at *
  rw [hbl] at hr
  -- the header and the room behind it
  have e0 : Rpc.putHdr (readyHeader a) ⟨List.replicate c.cap 0, c.cap, 0⟩ =
      some (⟨encRpcHeader (readyHeader a) ++ List.replicate (c.cap - 80) 0, c.cap, 80⟩, 74) := by
    rw [Rpc.putHdr_fits hok (by rw [List.length_replicate]) (by omega), List.drop_replicate]
  have hrep : ∀ n m : Nat, n ≤ m → List.replicate m (0 : Byte) = List.replicate n 0 ++ List.replicate (m - n) 0 := by
    intro n m h
    rw [List.replicate_append_replicate]
    congr 1
    omega
  generalize hN0 : (enc32 true (⟨0, 0, 0, 0, 0⟩ : Ndr).argsMax ++ enc32 true (⟨0, 0, 0, 0, 0⟩ : Ndr).argsLen ++ enc32 true (⟨0, 0, 0, 0, 0⟩ : Ndr).maxCount ++
    enc32 true (⟨0, 0, 0, 0, 0⟩ : Ndr).offset ++ enc32 true (⟨0, 0, 0, 0, 0⟩ : Ndr).actual) = N0
  have hN0l : N0.length = 20 := by rw [← hN0]; rfl
  have e1 : putNdr5 ⟨0, 0, 0, 0, 0⟩ ⟨encRpcHeader (readyHeader a) ++ List.replicate (c.cap - 80) 0, c.cap, 80⟩ =
      some ⟨encRpcHeader (readyHeader a) ++ (N0 ++ List.replicate (c.cap - 100) 0), c.cap, 100⟩ := by
    have := puts_over (by have := pndr ⟨0, 0, 0, 0, 0⟩; rw [hN0] at this; exact this) (pre := encRpcHeader (readyHeader a)) (old := List.replicate 20 0)
      (post := List.replicate (c.cap - 80 - 20) 0) (cap := c.cap) (n := 80) (by rw [List.length_replicate, hN0l]) (by omega) (by omega)
      (by simp only [List.length_replicate]; omega) h3
    rw [← hrep 20 (c.cap - 80) (by omega), hN0l] at this
    rw [this]
    rfl
  have e2 : putControl true (if plug then 0x0113 else 0x0112) ⟨a.uuid, a.key, if plug then a.alarmSeq else 0, 2, 0⟩
      ⟨encRpcHeader (readyHeader a) ++ (N0 ++ List.replicate (c.cap - 100) 0), c.cap, 100⟩ =
      some ⟨encRpcHeader (readyHeader a) ++ N0 ++ (C ++ List.replicate (c.cap - 132) 0), c.cap, 132⟩ := by
    have := puts_over pctl (pre := encRpcHeader (readyHeader a) ++ N0) (old := List.replicate 32 0)
      (post := List.replicate (c.cap - 100 - 32) 0) (cap := c.cap) (n := 100) (by rw [List.length_replicate, hlc])
      (by rw [List.length_append]; omega) (by omega) (by simp only [List.length_append, List.length_replicate]; omega) h3
    rw [← hrep 32 (c.cap - 100) (by omega), hlc] at this
    rw [← List.append_assoc, this]
    rfl
  have e3 : ConnRsp.putArDiff a.diff ⟨encRpcHeader (readyHeader a) ++ N0 ++ (C ++ List.replicate (c.cap - 132) 0), c.cap, 132⟩ =
      some ⟨encRpcHeader (readyHeader a) ++ (N0 ++ (C ++ D ++ List.replicate (c.cap - 132 - D.length) 0)), c.cap, 132 + D.length⟩ := by
    have := puts_over pdiff (pre := encRpcHeader (readyHeader a) ++ N0 ++ C) (old := List.replicate D.length 0)
      (post := List.replicate (c.cap - 132 - D.length) 0) (cap := c.cap) (n := 132) (by rw [List.length_replicate])
      (by simp only [List.length_append]; omega) (by omega) (by simp only [List.length_append, List.length_replicate]; omega) h3
    rw [← hrep D.length (c.cap - 132) (by omega)] at this
    rw [← List.append_assoc, this]
    simp only [List.append_assoc]
  -- the final header
  have hmax : BitVec.ofNat 32 c.maxUdp - BitVec.ofNat 32 100 = BitVec.ofNat 32 (c.maxUdp - 100) := by
    apply BitVec.eq_of_toNat_eq
    rw [BitVec.toNat_sub, BitVec.toNat_ofNat, BitVec.toNat_ofNat, BitVec.toNat_ofNat]
    omega
  have fin : ∀ (frag : Bool) (n : Nat), ∃ x, putU16 true (BitVec.ofNat 16 n)
        ⟨encRpcHeader { readyHeader a with fragment := frag } ++ (N0 ++ (C ++ D ++ List.replicate (c.cap - 132 - D.length) 0)), c.maxUdp, 74⟩ = some x ∧
      (putNdr5 ⟨BitVec.ofNat 32 (c.maxUdp - 100), BitVec.ofNat 32 (32 + D.length), BitVec.ofNat 32 (c.maxUdp - 100), 0, BitVec.ofNat 32 (32 + D.length)⟩
        ⟨x.buf, c.maxUdp, 80⟩) = some ⟨encReadyHeader a frag n ++ encReadyBody (c.maxUdp - 100) plug a ++ List.replicate (c.cap - 132 - D.length) 0, c.maxUdp, 100⟩ := by
    intro frag n
    have hokf : Rpc.HOk { readyHeader a with fragment := frag } := ⟨rfl, hi, rfl, ha⟩
    have q := Rpc.putLen hokf (t := N0 ++ (C ++ D ++ List.replicate (c.cap - 132 - D.length) 0)) (cap := c.maxUdp) n
      (by simp only [List.length_append, List.length_replicate]; omega) (by omega)
    refine ⟨_, q, ?_⟩
    have hl2 := Rpc.encHdr_length (Rpc.hOk_withLen hokf n)
    have hnum : (enc32 true (BitVec.ofNat 32 (c.maxUdp - 100)) ++ enc32 true (BitVec.ofNat 32 (32 + D.length)) ++ enc32 true (BitVec.ofNat 32 (c.maxUdp - 100)) ++
      enc32 true 0 ++ enc32 true (BitVec.ofNat 32 (32 + D.length))).length = 20 := by simp only [List.length_append, enc32_length]
    have := puts_over (pndr ⟨BitVec.ofNat 32 (c.maxUdp - 100), BitVec.ofNat 32 (32 + D.length), BitVec.ofNat 32 (c.maxUdp - 100), 0, BitVec.ofNat 32 (32 + D.length)⟩)
      (pre := encRpcHeader (Rpc.withLen { readyHeader a with fragment := frag } n)) (old := N0)
      (post := C ++ D ++ List.replicate (c.cap - 132 - D.length) 0) (cap := c.maxUdp) (n := 80) (by simp only; rw [hN0l, hnum]) (by omega)
      (by simp only; rw [hnum]; omega) (by rw [hl2, hN0l]; simp only [List.length_append, List.length_replicate, hlc]; omega) (by omega)
    simp only at this ⊢
    rw [this, hnum, hbody]
    have hz : num32 0 = enc32 true 0 := rfl
    have hcd : (C ++ D).length = 32 + D.length := by rw [List.length_append, hlc]
    rw [hcd, hz]
    rw [encReadyHeader_eq]
    unfold num32 Rpc.withLen
    simp only [List.append_assoc]
  unfold readyReq
  rw [e0, Option.bind_some]
  simp only
  rw [e1, Option.bind_some]
  simp only
  rw [e2, Option.bind_some, e3, Option.bind_some]
  simp only
  rw [hbl, show 132 + D.length - 100 = 32 + D.length by omega, hmax]
  by_cases cc : 132 + D.length < c.maxUdp
  · rw [if_pos cc, if_pos cc, Option.bind_some]
    simp only
    obtain ⟨x, f1, f2⟩ := fin false (132 + D.length - 80)
    have hf : ({ readyHeader a with fragment := false } : RpcHeader) = readyHeader a := rfl
    rw [hf] at f1
    rw [f1, Option.bind_some, f2, Option.map_some]
    refine ⟨List.replicate (c.cap - 132 - D.length) 0, ?_⟩
    rw [show decide (c.maxUdp ≤ 80 + (20 + 32 + D.length)) = false by simp; omega, show min (80 + (20 + 32 + D.length)) c.maxUdp = 132 + D.length by omega,
      show 80 + (20 + 32 + D.length) = 132 + D.length by omega]
  · rw [if_neg cc, if_neg cc]
    rw [Rpc.putHdr_fits hok' (by simp only [List.length_append, List.length_replicate]; omega) (by omega), Option.bind_some]
    simp only
    obtain ⟨x, f1, f2⟩ := fin true (c.maxUdp - 80)
    have hdrop : List.drop 80 (encRpcHeader (readyHeader a) ++ (N0 ++ (C ++ D ++ List.replicate (c.cap - 132 - D.length) 0))) =
        N0 ++ (C ++ D ++ List.replicate (c.cap - 132 - D.length) 0) := by
      rw [List.drop_append, hlh, List.drop_of_length_le (by omega)]
      simp
    rw [hdrop, f1, Option.bind_some, f2, Option.map_some]
    refine ⟨List.replicate (c.cap - 132 - D.length) 0, ?_⟩
    rw [show decide (c.maxUdp ≤ 80 + (20 + 32 + D.length)) = true by simp; omega, show min (80 + (20 + 32 + D.length)) c.maxUdp = c.maxUdp by omega,
      show 80 + (20 + 32 + D.length) = 132 + D.length by omega]

/-- A connection for which a module is missing. -/
def demoReady : Ready := ⟨demoU, demoU, 5, 0, [⟨0, [⟨1, 0x20, .none, []⟩]⟩], demoU⟩

theorem demo_ready : 100 ≤ (1464 : Nat) ∧ 80 + (encReadyBody (1464 - 100) false demoReady).length = 158 ∧ demoReady.initiator.d4.length = 8 ∧
    demoReady.uuid.d4.length = 8 ∧ demoReady.act.d4.length = 8 := ⟨by omega, by decide +kernel, rfl, rfl, rfl⟩

end Verif.Control
