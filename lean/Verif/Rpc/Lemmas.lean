import Verif.Rpc.Model
/-! Lemmas about the RPC layer: headers, the collection of fragments, the invariant. -/
set_option linter.unusedSimpArgs false
set_option linter.unusedVariables false

namespace Verif.Rpc
open Verif.Wire

/-! ## Reading a header -/

/-- `p` moves the position by at most `n`. -/
def Bnd {α} (n : Nat) (p : P α) : Prop := ∀ r a r', p r = some (a, r') → r'.pos ≤ r.pos + n

theorem Bnd.pure {α} (a : α) : Bnd 0 (Pure.pure a : P α) := by
  intro r b r' h
  cases h
  exact Nat.le_refl _

theorem Bnd.bind {α β} {n m : Nat} {p : P α} {f : α → P β} (hp : Bnd n p) (hf : ∀ a, Bnd m (f a)) :
    Bnd (n + m) (p >>= f) := by
  intro r b r' h
  rw [P.bind_def] at h
  obtain ⟨⟨a, r1⟩, h1, h2⟩ := Option.bind_eq_some_iff.mp h
  have := hp _ _ _ h1
  have := hf _ _ _ _ h2
  dsimp at *
  omega

theorem Bnd.ite {α} {n : Nat} {c : Prop} [Decidable c] {p q : P α} (hp : Bnd n p) (hq : Bnd n q) :
    Bnd n (if c then p else q) := by split <;> assumption

theorem Bnd.mono {α} {n m : Nat} {p : P α} (h : Bnd n p) (hm : n ≤ m) : Bnd m p := by
  intro r a r' e
  have := h _ _ _ e
  omega

theorem bnd_getByte : Bnd 1 getByte := by
  intro r a r' h
  unfold getByte at h
  split at h
  · cases h; simp
  · split at h
    · cases h; simp
    · split at h
      · cases h; simp
      · obtain ⟨b, hb, e⟩ := Option.map_eq_some_iff.mp h
        cases e; simp

theorem bnd_getMem (n : Nat) : Bnd n (getMem n) := by
  intro r a r' h
  unfold getMem at h
  split at h
  · cases h; simp
  · split at h
    · cases h; simp
    · split at h
      · cases h; simp
      · obtain ⟨b, hb, e⟩ := Option.map_eq_some_iff.mp h
        cases e; simp

theorem bnd_setBe (b : Bool) : Bnd 0 (setBe b) := by
  intro r a r' h
  cases h; simp
theorem bnd_isBe : Bnd 0 isBe := by
  intro r a r' h
  cases h; simp
theorem bnd_isOk : Bnd 0 isOk := by
  intro r a r' h
  cases h; simp

theorem bnd_getU16 : Bnd 2 getU16 := by
  unfold getU16
  refine Bnd.mono (Bnd.bind bnd_isOk fun _ => Bnd.ite (n := 2) ?_ ((Bnd.pure _).mono (by omega))) (by omega)
  refine Bnd.mono (Bnd.bind bnd_isBe fun _ => Bnd.ite (n := 2) ?_ ?_) (by omega)
  all_goals exact Bnd.bind bnd_getByte fun _ => Bnd.bind bnd_getByte fun _ => Bnd.pure _

theorem bnd_getU32 : Bnd 4 getU32 := by
  unfold getU32
  refine Bnd.mono (Bnd.bind bnd_isBe fun _ => Bnd.ite (n := 4) ?_ ?_) (by omega)
  all_goals exact Bnd.bind bnd_getByte fun _ => Bnd.bind bnd_getByte fun _ => Bnd.bind bnd_getByte fun _ =>
    Bnd.bind bnd_getByte fun _ => Bnd.pure _

theorem bnd_getArr (n : Nat) : Bnd n (getArr n) := by
  unfold getArr
  exact Bnd.bind (bnd_getMem n) fun _ => Bnd.pure _

theorem bnd_getUuid : Bnd 16 getUuid := by
  unfold getUuid
  exact Bnd.bind bnd_getU32 fun _ => Bnd.bind bnd_getU16 fun _ => Bnd.bind bnd_getU16 fun _ =>
    Bnd.bind (bnd_getArr 8) fun _ => Bnd.pure _

theorem Bnd.bind' {α β} {n k : Nat} {p : P α} {f : α → P β} (hp : Bnd n p) (hf : ∀ a, Bnd (k - n) (f a))
    (h : n ≤ k) : Bnd k (p >>= f) := (Bnd.bind hp hf).mono (by omega)

theorem bnd_getRpcHeader : Bnd 80 getRpcHeader := by
  unfold getRpcHeader
  iterate 5 refine Bnd.bind' bnd_getByte (fun _ => ?_) (by decide)
  refine Bnd.bind' (bnd_setBe _) (fun _ => ?_) (by decide)
  iterate 3 refine Bnd.bind' bnd_getByte (fun _ => ?_) (by decide)
  iterate 3 refine Bnd.bind' bnd_getUuid (fun _ => ?_) (by decide)
  iterate 3 refine Bnd.bind' bnd_getU32 (fun _ => ?_) (by decide)
  iterate 5 refine Bnd.bind' bnd_getU16 (fun _ => ?_) (by decide)
  iterate 2 refine Bnd.bind' bnd_getByte (fun _ => ?_) (by decide)
  exact (Bnd.pure _).mono (by decide)

/-- `Q` holds for everything `p` returns. -/
def Post {α} (Q : α → Prop) (p : P α) : Prop := ∀ r a r', p r = some (a, r') → Q a

theorem Post.bind {α β} {Q : α → Prop} {R : β → Prop} {p : P α} {f : α → P β} (hp : Post Q p)
    (hf : ∀ a, Q a → Post R (f a)) : Post R (p >>= f) := by
  intro r b r' h
  rw [P.bind_def] at h
  obtain ⟨⟨a, r1⟩, h1, h2⟩ := Option.bind_eq_some_iff.mp h
  exact hf _ (hp _ _ _ h1) _ _ _ h2

theorem Post.any {α} (p : P α) : Post (fun _ => True) p := fun _ _ _ _ => trivial

theorem Post.pure {α} {Q : α → Prop} {a : α} (h : Q a) : Post Q (Pure.pure a : P α) := by
  intro r b r' e
  cases e
  exact h

theorem post_getMem (n : Nat) : Post (fun d => ∀ x, d = some x → x.length = n) (getMem n) := by
  intro r a r' h
  unfold getMem at h
  split at h
  · cases h; intro x hx; cases hx
  · split at h
    · cases h; intro x hx; cases hx
    · split at h
      · cases h; intro x hx; cases hx
      · obtain ⟨b, hb, e⟩ := Option.map_eq_some_iff.mp h
        cases e
        intro x hx
        cases hx
        exact slice_length hb

theorem post_getUuid : Post (fun u => u.d4.length = 8) getUuid := by
  unfold getUuid
  refine Post.bind (Post.any _) fun _ _ => Post.bind (Post.any _) fun _ _ => Post.bind (Post.any _) fun _ _ => ?_
  unfold getArr
  refine Post.bind (Q := fun d => d.length = 8) ?_ fun d hd => Post.pure hd
  refine Post.bind (post_getMem 8) fun d hd => Post.pure ?_
  cases d with
  | none => rfl
  | some x => exact hd x rfl

/-- Fields of a header that was read. -/
def HOk (h : RpcHeader) : Prop :=
  h.floatRepr = 0 ∧ h.objUuid.d4.length = 8 ∧ h.ifUuid.d4.length = 8 ∧ h.actUuid.d4.length = 8

theorem post_getRpcHeader : Post HOk getRpcHeader := by
  unfold getRpcHeader
  iterate 5 refine Post.bind (Post.any _) fun _ _ => ?_
  dsimp only
  iterate 4 refine Post.bind (Post.any _) fun _ _ => ?_
  refine Post.bind post_getUuid fun _ h1 => ?_
  refine Post.bind post_getUuid fun _ h2 => ?_
  refine Post.bind post_getUuid fun _ h3 => ?_
  iterate 10 refine Post.bind (Post.any _) fun _ _ => ?_
  exact Post.pure ⟨rfl, h1, h2, h3⟩

/-! ## Writing a header -/

/-- The bytes of a header before and after the length of the body. -/
def encPre (h : RpcHeader) : List Byte :=
  [h.version, h.packetType, BitVec.ofNat 8 (encFlags h), 0, (if h.isBe then 0x00 else 0x10), h.floatRepr, h.reserved,
    h.serialHigh] ++
  encUuid h.isBe h.objUuid ++ encUuid h.isBe h.ifUuid ++ encUuid h.isBe h.actUuid ++
  enc32 h.isBe h.bootTime ++ enc32 h.isBe h.ifVersion ++ enc32 h.isBe h.seqNmb ++
  enc16 h.isBe h.opnum ++ enc16 h.isBe h.ifHint ++ enc16 h.isBe h.actHint

def encPost (h : RpcHeader) : List Byte := enc16 h.isBe h.fragmentNmb ++ [h.auth, h.serialLow]

theorem encRpcHeader_split (h : RpcHeader) :
    encRpcHeader h = encPre h ++ (enc16 h.isBe h.lengthOfBody ++ encPost h) := by
  simp [encRpcHeader, encPre, encPost]

theorem encPre_length {h : RpcHeader} (hw : HOk h) : (encPre h).length = 74 := by
  obtain ⟨_, h1, h2, h3⟩ := hw
  simp [encPre, enc16_length, enc32_length, encUuid_length h1, encUuid_length h2, encUuid_length h3]

theorem encPost_length (h : RpcHeader) : (encPost h).length = 4 := by simp [encPost, enc16_length]

theorem encHdr_length {h : RpcHeader} (hw : HOk h) : (encRpcHeader h).length = 80 := by
  rw [encRpcHeader_split]
  simp [encPre_length hw, encPost_length, enc16_length]

theorem writes_putRpcPre (h : RpcHeader) : Writes (putRpcPre h) (encPre h) := by
  unfold putRpcPre encPre
  dsimp only
  rw [flags_byte, repr_byte]
  have e1 : [h.version, h.packetType, BitVec.ofNat 8 (encFlags h), 0, (if h.isBe then 0x00 else 0x10 : Byte),
      h.floatRepr, h.reserved, h.serialHigh] = [h.version] ++ [h.packetType] ++ [BitVec.ofNat 8 (encFlags h)] ++ [0] ++
        [(if h.isBe then 0x00 else 0x10 : Byte)] ++ [h.floatRepr] ++ [h.reserved] ++ [h.serialHigh] := rfl
  rw [e1]
  iterate 16 refine Writes.seq ?_ (by
    first | exact writes_putByte _ | exact writes_putU16 _ _ | exact writes_putU32 _ _ | exact writes_putUuid _ _)
  exact writes_putByte _

theorem writes_putRpcPost (h : RpcHeader) :
    Writes (putRpcPost h) (enc16 h.isBe h.lengthOfBody ++ encPost h) := by
  unfold putRpcPost encPost
  rw [show [h.auth, h.serialLow] = [h.auth] ++ [h.serialLow] from rfl, ← List.append_assoc, ← List.append_assoc]
  iterate 3 refine Writes.seq ?_ (by
    first | exact writes_putByte _ | exact writes_putU16 _ _)
  exact writes_putU16 _ _

theorem wsafe_pre (h : RpcHeader) : WSafe (putRpcPre h) := by
  unfold putRpcPre
  dsimp only
  repeat' first
    | exact wsafe_putByte _ | exact wsafe_putU16 _ _ | exact wsafe_putU32 _ _ | exact wsafe_putUuid _ _
    | refine WSafe.seq ?_ ?_

theorem wsafe_post (h : RpcHeader) : WSafe (putRpcPost h) := by
  unfold putRpcPost
  repeat' first
    | exact wsafe_putByte _ | exact wsafe_putU16 _ _
    | refine WSafe.seq ?_ ?_

/-- A header that fits is written completely. -/
theorem putHdr_fits {h : RpcHeader} (hw : HOk h) {b : List Byte} {cap : Nat} (hc : cap ≤ b.length) (h80 : 80 ≤ cap) :
    putHdr h ⟨b, cap, 0⟩ = some (⟨encRpcHeader h ++ b.drop 80, cap, 80⟩, 74) := by
  have hl := encPre_length hw
  have hl' := encPost_length h
  have hl'' := enc16_length h.isBe h.lengthOfBody
  obtain ⟨b1, w1, e1⟩ := writes_putRpcPre h ⟨b, cap, 0⟩ hc (by simp; omega)
  have hb1 := writeAt_length w1
  obtain ⟨b2, w2, e2⟩ := writes_putRpcPost h ⟨b1, cap, 0 + (encPre h).length⟩ (by simp at hb1 ⊢; omega) (by simp; omega)
  unfold putHdr
  rw [e1]
  dsimp only [Option.bind_some]
  rw [e2]
  simp only [Option.map_some, Option.some.injEq, Prod.mk.injEq]
  refine ⟨?_, by omega⟩
  simp only [Wr.mk.injEq]
  refine ⟨?_, trivial, by simp; omega⟩
  simp only [writeAt] at w1
  rw [if_pos (by simp; omega)] at w1
  cases w1
  simp only [writeAt] at w2
  split at w2
  · cases w2
    rw [encRpcHeader_split]
    simp [hl, hl', hl'', List.take_append, List.drop_append, List.drop_drop]
  · cases w2

/-- A header leaves the buffer at most 80 bytes on, never past the limit. -/
theorem putHdr_safe (h : RpcHeader) (w : Wr) (hc : w.cap ≤ w.buf.length) (hp : w.pos ≤ w.cap) :
    ∃ x n, putHdr h w = some (x, n) ∧ x.cap = w.cap ∧ x.buf.length = w.buf.length ∧ w.pos ≤ x.pos ∧
      x.pos ≤ w.cap := by
  obtain ⟨a, ea, ca, la, ma, xa, _⟩ := wsafe_pre h w hc
  obtain ⟨b, eb, cb, lb, mb, xb, _⟩ := wsafe_post h a (by omega)
  refine ⟨b, a.pos, ?_, by omega, by omega, by omega, by omega⟩
  unfold putHdr
  rw [ea]
  dsimp only [Option.bind_some]
  rw [eb]
  rfl

/-- A header with this length of the body. -/
def withLen (h : RpcHeader) (n : Nat) : RpcHeader := { h with lengthOfBody := BitVec.ofNat 16 n }

theorem hOk_withLen {h : RpcHeader} (hw : HOk h) (n : Nat) : HOk (withLen h n) := hw

/-- The length of the body is put into a header that is there. -/
theorem putLen {h : RpcHeader} (hw : HOk h) {t : List Byte} {cap : Nat} (n : Nat) (hc : cap ≤ 80 + t.length)
    (h76 : 76 ≤ cap) :
    putU16 h.isBe (BitVec.ofNat 16 n) ⟨encRpcHeader h ++ t, cap, 74⟩ =
      some ⟨encRpcHeader (withLen h n) ++ t, cap, 76⟩ := by
  have hl := encPre_length hw
  have hl' := encPost_length h
  have hl'' := enc16_length h.isBe h.lengthOfBody
  have hl3 := enc16_length h.isBe (BitVec.ofNat 16 n)
  obtain ⟨b1, w1, e1⟩ := writes_putU16 h.isBe (BitVec.ofNat 16 n) ⟨encRpcHeader h ++ t, cap, 74⟩
    (by simp [encHdr_length hw]; omega) (by simp [hl3]; omega)
  rw [e1]
  simp only [hl3, Option.some.injEq, Wr.mk.injEq, and_true, true_and]
  simp only [writeAt] at w1
  rw [if_pos (by simp [encHdr_length hw, hl3]; omega)] at w1
  cases w1
  rw [encRpcHeader_split, encRpcHeader_split]
  have e2 : encPre (withLen h n) = encPre h := rfl
  have e3 : encPost (withLen h n) = encPost h := rfl
  rw [e2, e3]
  have e4 : enc16 (withLen h n).isBe (withLen h n).lengthOfBody = enc16 h.isBe (BitVec.ofNat 16 n) := rfl
  rw [e4]
  simp [hl, hl', hl'', hl3, List.take_append, List.drop_append]

end Verif.Rpc
