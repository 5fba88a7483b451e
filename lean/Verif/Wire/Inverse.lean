import Verif.Wire.Codec
/-! What a reader that ends without error has read: the inverse of `ParsesTo`. -/
set_option linter.unusedSimpArgs false
set_option linter.unusedVariables false

namespace Verif.Wire

/-- Without error at the end, `p` has started without error and has read bytes `bs` related to its result by `E`; an error at the
start stays. -/
def Inv {α} (be : Bool) (p : P α) (E : α → List Byte → Prop) : Prop :=
  (∀ r a r', p r = some (a, r') → r.err ≠ .ok → r'.err ≠ .ok) ∧
  ∀ r a r', r.be = be → r.err = .ok → r.pos ≤ r.len → r.pos ≤ r.buf.length → p r = some (a, r') → r'.err = .ok →
    ∃ bs, r' = { r with pos := r.pos + bs.length } ∧ slice r.buf r.pos bs.length = some bs ∧ r.pos + bs.length ≤ r.len ∧ E a bs

theorem Inv.mono {α} {be : Bool} {p : P α} {E E' : α → List Byte → Prop} (h : Inv be p E) (hE : ∀ a bs, E a bs → E' a bs) : Inv be p E' :=
  ⟨h.1, fun r a r' h0 h1 h2 h3 h4 h5 => by
    obtain ⟨bs, k1, k2, k3, k4⟩ := h.2 r a r' h0 h1 h2 h3 h4 h5
    exact ⟨bs, k1, k2, k3, hE _ _ k4⟩⟩

theorem Inv.pure {α} {be : Bool} (a : α) : Inv be (Pure.pure a : P α) (fun b bs => b = a ∧ bs = []) := by
  refine ⟨?_, ?_⟩
  · intro r b r' h h1
    cases h; exact h1
  · intro r b r' h0 h1 h2 h3 h4 h5
    cases h4
    exact ⟨[], rfl, by simp [slice, h3], by simpa using h2, rfl, rfl⟩

theorem slice_append_of {l x y : List Byte} {off : Nat} (h1 : slice l off x.length = some x) (h2 : slice l (off + x.length) y.length = some y) :
    slice l off (x ++ y).length = some (x ++ y) := by
  unfold slice at *
  split at h2
  · rename_i hle
    rw [if_pos (by simp; omega)]
    rw [if_pos (by omega)] at h1
    have e1 := Option.some.inj h1
    have e2 := Option.some.inj h2
    congr 1
    rw [List.length_append, List.take_add, e1, List.drop_drop, e2]
  · cases h2

theorem Inv.bind {α β} {be : Bool} {p : P α} {f : α → P β} {E : α → List Byte → Prop} {F : α → β → List Byte → Prop}
    (hp : Inv be p E) (hf : ∀ a, Inv be (f a) (F a)) :
    Inv be (p >>= f) (fun b bs => ∃ a x y, bs = x ++ y ∧ E a x ∧ F a b y) := by
  have hb : ∀ r, (p >>= f) r = (p r).bind fun x => f x.1 x.2 := fun _ => rfl
  refine ⟨?_, ?_⟩
  · intro r b r' h h1
    rw [hb] at h
    cases hq : p r with
    | none => rw [hq] at h; cases h
    | some x =>
      rw [hq, Option.bind_some] at h
      exact (hf x.1).1 x.2 b r' h (hp.1 r x.1 x.2 hq h1)
  · intro r b r' h0 h1 h2 h3 h4 h5
    rw [hb] at h4
    cases hq : p r with
    | none => rw [hq] at h4; cases h4
    | some x =>
      obtain ⟨a, r1⟩ := x
      rw [hq, Option.bind_some] at h4
      simp only at h4
      have hok : r1.err = .ok := by
        by_cases he : r1.err = .ok
        · exact he
        · exact absurd h5 ((hf a).1 r1 b r' h4 he)
      obtain ⟨x, k1, k2, k3, k4⟩ := hp.2 r a r1 h0 h1 h2 h3 hq hok
      subst k1
      have hle : r.pos + x.length ≤ r.buf.length := by
        have := slice_isSome.1 (by rw [k2]; rfl : (slice r.buf r.pos x.length).isSome = true)
        omega
      obtain ⟨y, m1, m2, m3, m4⟩ := (hf a).2 { r with pos := r.pos + x.length } b r' h0 h1 k3 hle h4 h5
      refine ⟨x ++ y, ?_, slice_append_of k2 m2, ?_, a, x, y, rfl, k4, m4⟩
      · rw [m1]; simp [Nat.add_assoc]
      · simp only [List.length_append]; simp only at m3; omega

theorem inv_getByte (be : Bool) : Inv be getByte (fun b bs => bs = [b]) := by
  refine ⟨?_, ?_⟩
  · intro r a r' h h1
    unfold getByte at h
    rw [if_pos h1] at h
    cases h; exact h1
  · intro r a r' h0 h1 h2 h3 h4 h5
    unfold getByte at h4
    rw [if_neg (by simp [h1])] at h4
    split at h4
    · cases h4; cases h5
    split at h4
    · cases h4; cases h5
    cases hg : r.buf[r.pos]? with
    | none => rw [hg] at h4; cases h4
    | some b =>
      rw [hg, Option.map_some] at h4
      cases h4
      have hlt : r.pos < r.buf.length := (List.getElem?_eq_some_iff.1 hg).1
      refine ⟨[a], rfl, ?_, by simp; omega, rfl⟩
      unfold slice
      rw [if_pos (by simp; omega)]
      congr 1
      have hd := List.drop_eq_getElem_cons hlt
      have : r.buf[r.pos] = a := (List.getElem?_eq_some_iff.1 hg).2
      rw [hd, this]
      rfl

theorem inv_getMem (be : Bool) (n : Nat) : Inv be (getMem n) (fun d bs => d = some bs ∧ bs.length = n) := by
  refine ⟨?_, ?_⟩
  · intro r a r' h h1
    unfold getMem at h
    rw [if_pos h1] at h
    cases h; exact h1
  · intro r a r' h0 h1 h2 h3 h4 h5
    unfold getMem at h4
    rw [if_neg (by simp [h1])] at h4
    split at h4
    · cases h4; cases h5
    split at h4
    · cases h4; cases h5
    cases hg : slice r.buf r.pos n with
    | none => rw [hg] at h4; cases h4
    | some b =>
      rw [hg, Option.map_some] at h4
      cases h4
      have hl := slice_length hg
      exact ⟨b, by rw [hl], by rw [hl]; exact hg, by omega, rfl, hl⟩

theorem inv_isBe (be : Bool) : Inv be isBe (fun b bs => b = be ∧ bs = []) := by
  refine ⟨?_, ?_⟩
  · intro r b r' h h1
    cases h; exact h1
  · intro r b r' h0 h1 h2 h3 h4 h5
    cases h4
    exact ⟨[], rfl, by simp [slice, h3], by simpa using h2, h0, rfl⟩

theorem inv_isOk (be : Bool) : Inv be isOk (fun b bs => b = true ∧ bs = []) := by
  refine ⟨?_, ?_⟩
  · intro r b r' h h1
    cases h; exact h1
  · intro r b r' h0 h1 h2 h3 h4 h5
    cases h4
    exact ⟨[], rfl, by simp [slice, h3], by simpa using h2, by simp [h5], rfl⟩

theorem inv_outside {α} (be : Bool) {E : α → List Byte → Prop} : Inv be (outside : P α) E :=
  ⟨fun _ _ _ h => (nomatch h), fun _ _ _ _ _ _ _ h => (nomatch h)⟩

theorem split16 (x y : Byte) : enc16 true ((x.setWidth 16 <<< 8) + y.setWidth 16) = [x, y] := by
  have hx := x.isLt
  have hy := y.isLt
  have e : ((x.setWidth 16 <<< 8) + y.setWidth 16 : U16).toNat = x.toNat * 256 + y.toNat := by
    simp [BitVec.toNat_add, BitVec.toNat_shiftLeft, BitVec.toNat_setWidth, Nat.shiftLeft_eq]
    omega
  unfold enc16
  simp only [e, if_true]
  congr 1
  · apply BitVec.eq_of_toNat_eq; simp; omega
  · congr 1; apply BitVec.eq_of_toNat_eq; simp; omega

theorem split16' (x y : Byte) : enc16 false (x.setWidth 16 + (y.setWidth 16 <<< 8)) = [x, y] := by
  have := split16 y x
  rw [BitVec.add_comm]
  unfold enc16 at *
  simp only [if_true, Bool.false_eq_true, if_false] at *
  injection this with a b
  injection b with b c
  rw [a, b]
  rfl

theorem split32 (x y z w : Byte) : enc32 true ((x.setWidth 32 <<< 24) + (y.setWidth 32 <<< 16) + (z.setWidth 32 <<< 8) + w.setWidth 32) =
    [x, y, z, w] := by
  have hx := x.isLt
  have hy := y.isLt
  have hz := z.isLt
  have hw := w.isLt
  have e : ((x.setWidth 32 <<< 24) + (y.setWidth 32 <<< 16) + (z.setWidth 32 <<< 8) + w.setWidth 32 : U32).toNat =
      x.toNat * 16777216 + y.toNat * 65536 + z.toNat * 256 + w.toNat := by
    simp [BitVec.toNat_add, BitVec.toNat_shiftLeft, BitVec.toNat_setWidth, Nat.shiftLeft_eq]
    omega
  unfold enc32
  simp only [e, if_true]
  congr 1
  · apply BitVec.eq_of_toNat_eq; simp; omega
  congr 1
  · apply BitVec.eq_of_toNat_eq; simp; omega
  congr 1
  · apply BitVec.eq_of_toNat_eq; simp; omega
  congr 1
  · apply BitVec.eq_of_toNat_eq; simp; omega

theorem inv_getU16 (be : Bool) : Inv be getU16 (fun v bs => bs = enc16 be v) := by
  unfold getU16
  refine (Inv.bind (F := fun b v bs => b = true → bs = enc16 be v) (inv_isOk be) ?_).mono ?_
  · intro b
    cases b with
    | false => exact (Inv.pure _).mono (fun a bs _ => nofun)
    | true =>
      simp only [if_true]
      refine (Inv.bind (F := fun b v bs => b = be → bs = enc16 be v) (inv_isBe be) ?_).mono ?_
      · intro b
        cases b with
        | true =>
          simp only [if_true]
          refine (Inv.bind (inv_getByte be) fun x => Inv.bind (inv_getByte be) fun y => Inv.pure _).mono ?_
          rintro v bs ⟨a, x, y, rfl, rfl, b, x', y', rfl, rfl, rfl, rfl⟩ hb
          rw [← hb, split16]; rfl
        | false =>
          simp only [Bool.false_eq_true, if_false]
          refine (Inv.bind (inv_getByte be) fun x => Inv.bind (inv_getByte be) fun y => Inv.pure _).mono ?_
          rintro v bs ⟨a, x, y, rfl, rfl, b, x', y', rfl, rfl, rfl, rfl⟩ hb
          rw [← hb, split16']; rfl
      · rintro v bs ⟨a, x, y, rfl, ⟨h, rfl⟩, k⟩ _
        exact k h
  · rintro v bs ⟨a, x, y, rfl, ⟨h, rfl⟩, k⟩
    exact k h

theorem inv_getU32 : Inv true getU32 (fun v bs => bs = enc32 true v) := by
  unfold getU32
  refine (Inv.bind (F := fun b v bs => b = true → bs = enc32 true v) (inv_isBe true) ?_).mono ?_
  · intro b
    cases b with
    | true =>
      simp only [if_true]
      refine (Inv.bind (inv_getByte true) fun x => Inv.bind (inv_getByte true) fun y =>
        Inv.bind (inv_getByte true) fun z => Inv.bind (inv_getByte true) fun w => Inv.pure _).mono ?_
      rintro v bs ⟨a, x, y, rfl, rfl, b, x', y', rfl, rfl, c, x'', y'', rfl, rfl, d, x3, y3, rfl, rfl, rfl, rfl⟩ hb
      rw [split32]; rfl
    | false =>
      simp only [Bool.false_eq_true, if_false]
      refine (Inv.bind (inv_getByte true) fun x => Inv.bind (inv_getByte true) fun y =>
        Inv.bind (inv_getByte true) fun z => Inv.bind (inv_getByte true) fun w => Inv.pure _).mono ?_
      intro v bs _ h
      cases h
  · rintro v bs ⟨a, x, y, rfl, ⟨h, rfl⟩, k⟩
    exact k h

theorem inv_getBlockHeader (be : Bool) : Inv be getBlockHeader (fun h bs => bs = encBlockHeader be h) := by
  unfold getBlockHeader
  refine (Inv.bind (inv_getU16 be) fun a => Inv.bind (inv_getU16 be) fun b => Inv.bind (inv_getByte be) fun c =>
    Inv.bind (inv_getByte be) fun d => Inv.pure _).mono ?_
  rintro v bs ⟨a, x, y, rfl, rfl, b, x', y', rfl, rfl, c, x'', y'', rfl, rfl, d, x3, y3, rfl, rfl, rfl, rfl⟩
  simp [encBlockHeader]

end Verif.Wire
