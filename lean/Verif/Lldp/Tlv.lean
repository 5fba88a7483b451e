import Verif.Lldp.Spec
/-! A frame is read as its fields say. -/
set_option linter.unusedSimpArgs false
set_option linter.unusedVariables false

namespace Verif.Lldp

open Verif.Wire

/-- The reader is in good order at `v`. -/
structure At (r : Rd) (v : List Byte) : Prop where
  ok : r.err = .ok
  null : r.null = false
  be : r.be = true
  len : r.len ≤ 64000
  inside : r.pos + v.length ≤ r.len
  here : slice r.buf r.pos v.length = some v

/-- The reader takes exactly `v`. -/
def Takes {α} (p : P α) (v : List Byte) (a : α) : Prop :=
  ∀ r, At r v → p r = some (a, { r with pos := r.pos + v.length })

/-- The reader refuses `v`. -/
def Errs {α} (p : P α) (v : List Byte) : Prop := ∀ r, At r v → ∃ a r', p r = some (a, r') ∧ r'.err ≠ .ok

theorem Takes.of {α} {p : P α} {v : List Byte} {a : α} (h : Parses true p v a) : Takes p v a := by
  intro r hr
  rw [h r hr.ok hr.null hr.be hr.inside hr.here]
  cases r; simp [hr.be]
  exact hr.be

theorem At.split {r : Rd} {x y : List Byte} (h : At r (x ++ y)) :
    At r x ∧ At { r with pos := r.pos + x.length } y := by
  obtain ⟨h1, h2⟩ := slice_append h.here
  have := h.inside
  rw [List.length_append] at this
  exact ⟨⟨h.ok, h.null, h.be, h.len, by omega, h1⟩, ⟨h.ok, h.null, h.be, h.len, by simp; omega, h2⟩⟩

theorem Takes.pure {α} (a : α) : Takes (Pure.pure a : P α) [] a := fun r _ => rfl

theorem Takes.bind {α β} {p : P α} {f : α → P β} {x y : List Byte} {a : α} {b : β} (hp : Takes p x a)
    (hf : Takes (f a) y b) : Takes (p >>= f) (x ++ y) b := by
  intro r h
  obtain ⟨h1, h2⟩ := h.split
  simp only [P.bind_def, hp r h1, Option.bind_some, hf _ h2]
  simp [Nat.add_assoc]

theorem Takes.bind_nil {α β} {p : P α} {f : α → P β} {x : List Byte} {a : α} {b : β} (hp : Takes p x a)
    (hf : Takes (f a) [] b) : Takes (p >>= f) x b := by
  have := Takes.bind hp hf
  rwa [List.append_nil] at this

theorem Takes.nil_bind {α β} {p : P α} {f : α → P β} {x : List Byte} {a : α} {b : β} (hp : Takes p [] a)
    (hf : Takes (f a) x b) : Takes (p >>= f) x b := Takes.bind (x := []) hp hf

theorem Takes.cast {α} {p : P α} {v v' : List Byte} {a : α} (h : Takes p v a) (e : v = v') : Takes p v' a := e ▸ h

theorem Errs.bind {α β} {p : P α} {f : α → P β} {x y : List Byte} {a : α} (hp : Takes p x a) (hf : Errs (f a) y) :
    Errs (p >>= f) (x ++ y) := by
  intro r h
  obtain ⟨h1, h2⟩ := h.split
  obtain ⟨b, r', e, k⟩ := hf _ h2
  exact ⟨b, r', by simp only [P.bind_def, hp r h1, Option.bind_some, e], k⟩

theorem errs_set {α} {x : α} {v : List Byte} : Errs (do setErr .other; pure x : P α) v :=
  fun r _ => ⟨x, _, rfl, by simp⟩

theorem Errs.map {α β} {p : P α} {f : α → β} {v : List Byte} (h : Errs p v) : Errs (p >>= fun a => pure (f a)) v := by
  intro r hr
  obtain ⟨a, r', e, k⟩ := h r hr
  exact ⟨f a, r', by simp [e], k⟩

theorem takes_skip (v : List Byte) (k : Nat) (hk : v.length + k ≤ 600) : Takes (skip (v.length + k) k) v () := by
  intro r h
  unfold skip
  have := h.inside
  have := h.len
  have e : (r.pos + (v.length + k) + 65536 - k) % 65536 = r.pos + v.length := by omega
  rw [e]

theorem takes_fill {a d : List Byte} (h : d.length < a.length) :
    Takes (fill a (some d) d.length) [] (d ++ 0 :: a.drop (d.length + 1)) := by
  intro r _
  unfold fill
  rw [Option.getD_some, writeAt_eq_some (by omega), Option.bind_some, writeAt_eq_some (by simp; omega)]
  have e : ∃ c t, a.drop d.length = c :: t ∧ a.drop (d.length + 1) = t := by
    refine ⟨a[d.length], a.drop (d.length + 1), List.drop_eq_getElem_cons h, rfl⟩
  obtain ⟨c, t, e1, e2⟩ := e
  have : List.drop (d.length + 1) (d ++ List.drop d.length a) = t := by
    rw [List.drop_append, List.drop_eq_nil_of_le (by omega), e1]; simp
  simp [e2, this]

theorem takes_copy {a d : List Byte} (h : d.length ≤ a.length) : Takes (copy a (some d)) [] (d ++ a.drop d.length) := by
  intro r _
  unfold copy
  rw [Option.getD_some, writeAt_eq_some (by omega)]
  simp

theorem num_two (a b : Byte) : enc16 true (BitVec.ofNat 16 (num [a, b])) = [a, b] := by
  have ha := a.isLt
  have hb := b.isLt
  have e : num [a, b] = 256 * a.toNat + b.toNat := by simp [num]
  have e2 : (BitVec.ofNat 16 (256 * a.toNat + b.toNat)).toNat = 256 * a.toNat + b.toNat := by
    rw [BitVec.toNat_ofNat]; omega
  rw [e]
  unfold enc16
  rw [e2]
  have h1 : (256 * a.toNat + b.toNat) / 256 = a.toNat := by omega
  have h2 : (256 * a.toNat + b.toNat) % 256 = b.toNat := by omega
  simp only [if_pos, h1, h2, BitVec.ofNat_toNat, BitVec.setWidth_eq]

theorem num_four (a b c d : Byte) : enc32 true (BitVec.ofNat 32 (num [a, b, c, d])) = [a, b, c, d] := by
  have ha := a.isLt
  have hb := b.isLt
  have hc := c.isLt
  have hd := d.isLt
  have e : num [a, b, c, d] = 16777216 * a.toNat + 65536 * b.toNat + 256 * c.toNat + d.toNat := by
    simp only [num, List.foldl_cons, List.foldl_nil]; omega
  have e2 : (BitVec.ofNat 32 (num [a, b, c, d])).toNat = num [a, b, c, d] := by
    rw [BitVec.toNat_ofNat, e]; omega
  unfold enc32
  rw [e2, e]
  have h1 : (16777216 * a.toNat + 65536 * b.toNat + 256 * c.toNat + d.toNat) / 16777216 = a.toNat := by omega
  have h2 : (16777216 * a.toNat + 65536 * b.toNat + 256 * c.toNat + d.toNat) / 65536 % 256 = b.toNat := by omega
  have h3 : (16777216 * a.toNat + 65536 * b.toNat + 256 * c.toNat + d.toNat) / 256 % 256 = c.toNat := by omega
  have h4 : (16777216 * a.toNat + 65536 * b.toNat + 256 * c.toNat + d.toNat) % 256 = d.toNat := by omega
  simp only [if_pos, h1, h2, h3, h4, BitVec.ofNat_toNat, BitVec.setWidth_eq]

theorem takes_u16 {v : List Byte} (h : v.length = 2) : Takes getU16 v (BitVec.ofNat 16 (num v)) := by
  match v, h with
  | [a, b], _ => exact (Takes.of (parses_getU16 true _)).cast (num_two a b)

theorem takes_u32 {v : List Byte} (h : v.length = 4) : Takes getU32 v (BitVec.ofNat 32 (num v)) := by
  match v, h with
  | [a, b, c, d], _ => exact (Takes.of (parses_getU32 true _)).cast (num_four a b c d)

theorem num_lt2 {v : List Byte} (h : v.length = 2) : num v < 65536 := by
  match v, h with
  | [a, b], _ =>
    have ha := a.isLt
    have hb := b.isLt
    simp only [num, List.foldl_cons, List.foldl_nil]; omega

theorem num_lt4 {v : List Byte} (h : v.length = 4) : num v < 4294967296 := by
  match v, h with
  | [a, b, c, d], _ =>
    have ha := a.isLt
    have hb := b.isLt
    have hc := c.isLt
    have hd := d.isLt
    simp only [num, List.foldl_cons, List.foldl_nil]; omega

theorem num_toNat2 {v : List Byte} (h : v.length = 2) : (BitVec.ofNat 16 (num v)).toNat = num v := by
  rw [BitVec.toNat_ofNat, Nat.mod_eq_of_lt (num_lt2 h)]

theorem num_toNat4 {v : List Byte} (h : v.length = 4) : (BitVec.ofNat 32 (num v)).toNat = num v := by
  rw [BitVec.toNat_ofNat, Nat.mod_eq_of_lt (num_lt4 h)]

theorem part_length {v : List Byte} {i n : Nat} (h : i + n ≤ v.length) : (part v i n).length = n := by
  simp [part]; omega

theorem drop_part (v : List Byte) (i n : Nat) : part v i n ++ v.drop (i + n) = v.drop i := by
  unfold part
  rw [← List.drop_drop]
  exact List.take_append_drop _ _

theorem drop_one {v : List Byte} {i : Nat} (h : i < v.length) : [v.getD i 0] ++ v.drop (i + 1) = v.drop i := by
  rw [List.drop_eq_getElem_cons h]
  simp [List.getD_eq_getElem?_getD, List.getElem?_eq_getElem h]

/-- Reading on in `v`. -/
theorem on_part {α β} {p : P α} {f : α → P β} {v : List Byte} {i n : Nat} {a : α} {b : β} (hp : Takes p (part v i n) a)
    (hf : Takes (f a) (v.drop (i + n)) b) : Takes (p >>= f) (v.drop i) b :=
  (Takes.bind hp hf).cast (drop_part v i n)

theorem on_byte {β} {f : Byte → P β} {v : List Byte} {i : Nat} {b : β} (h : i < v.length)
    (hf : Takes (f (v.getD i 0)) (v.drop (i + 1)) b) : Takes (getByte >>= f) (v.drop i) b :=
  (Takes.bind (Takes.of (parses_getByte true _)) hf).cast (drop_one h)

theorem on_u32 {β} {f : U32 → P β} {v : List Byte} {i : Nat} {b : β} (h : i + 4 ≤ v.length)
    (hf : Takes (f (BitVec.ofNat 32 (num (part v i 4)))) (v.drop (i + 4)) b) : Takes (getU32 >>= f) (v.drop i) b :=
  on_part (takes_u32 (part_length h)) hf

theorem on_u16 {β} {f : U16 → P β} {v : List Byte} {i : Nat} {b : β} (h : i + 2 ≤ v.length)
    (hf : Takes (f (BitVec.ofNat 16 (num (part v i 2)))) (v.drop (i + 2)) b) : Takes (getU16 >>= f) (v.drop i) b :=
  on_part (takes_u16 (part_length h)) hf

theorem on_mem {β} {f : Option (List Byte) → P β} {v : List Byte} {i n : Nat} {b : β} (h : i + n ≤ v.length)
    (hf : Takes (f (some (part v i n))) (v.drop (i + n)) b) : Takes (getMem n >>= f) (v.drop i) b := by
  refine on_part (n := n) ?_ hf
  have := Takes.of (parses_getMem true (part v i n))
  rwa [part_length h] at this

theorem on_end {α} {a : α} {v : List Byte} {i : Nat} (h : v.length ≤ i) : Takes (Pure.pure a : P α) (v.drop i) a := by
  rw [List.drop_eq_nil_of_le h]; exact Takes.pure a

/-! ## The fields -/

/-- Names are shorter than their arrays and end with a zero. -/
structure Tidy (z : Nat) (p : Peer) : Prop where
  chassis : p.chassis.valid = true → p.chassis.len < chassisSize ∧ p.chassis.str[p.chassis.len]? = some 0
  port : p.port.valid = true → p.port.len < portIdSize ∧ p.port.str[p.port.len]? = some 0
  desc : p.desc.valid = true → p.desc.len < z ∧ p.desc.str[p.desc.len]? = some 0
  mgmt : p.mgmt.valid = true → p.mgmt.len = 4

/-- What a name becomes. -/
def newId (size : Nat) (v : List Byte) (x : Id) : Id :=
  if v.length = 0 then x
  else if v.length - 1 > size - 1 then { x with len := v.length - 1 }
  else ⟨v.drop 1 ++ 0 :: x.str.drop (v.length - 1 + 1), v.getD 0 0, true, v.length - 1⟩

theorem takes_getId {size : Nat} {v : List Byte} {x : Id} (hs : x.str.length = size) (h1 : 1 ≤ size) (hv : v.length < 512) :
    Takes (getId size v.length x) v (newId size v x) := by
  unfold getId newId
  by_cases h : v.length = 0
  · rw [if_pos h, if_pos h]
    have : v = [] := List.length_eq_zero_iff.1 h
    subst this; exact Takes.pure _
  · rw [if_neg h, if_neg h]
    by_cases h2 : v.length - 1 > size - 1
    · rw [if_pos h2, if_pos h2]
      exact Takes.bind_nil (takes_skip v 0 (by omega)) (Takes.pure _)
    · rw [if_neg h2, if_neg h2]
      have e : v.drop 0 = v := rfl
      refine Takes.cast (v := v.drop 0) ?_ e
      refine on_byte (by omega) ?_
      refine on_mem (by omega) ?_
      have e3 : part v (0 + 1) (v.length - 1) = v.drop 1 := by
        unfold part; rw [List.take_of_length_le (by simp)]
      have e4 : (v.drop 1).length = v.length - 1 := by simp
      rw [e3, List.drop_eq_nil_of_le (i := 0 + 1 + (v.length - 1)) (by omega)]
      have := takes_fill (a := x.str) (d := v.drop 1) (by rw [e4]; omega)
      rw [e4] at this
      exact Takes.bind_nil this (Takes.pure _)

theorem newId_view {size : Nat} {v : List Byte} {x : Id} (hs : x.str.length = size) (h1 : 1 ≤ size)
    (hv : v.length ≤ size ∨ x.valid = false) :
    viewId (newId size v x) = if v.length = 0 ∨ size < v.length then viewId x else some (v.getD 0 0, v.drop 1) := by
  unfold newId
  by_cases h : v.length = 0
  · rw [if_pos h, if_pos (.inl h)]
  · rw [if_neg h]
    by_cases h2 : v.length - 1 > size - 1
    · rw [if_pos h2, if_pos (.inr (by omega))]
      have : x.valid = false := hv.resolve_left (by omega)
      simp [viewId, this]
    · rw [if_neg h2, if_neg (by omega)]
      have e4 : (v.drop 1).length = v.length - 1 := by simp
      simp only [viewId, if_pos]
      rw [List.take_append_of_le_length (by omega), List.take_of_length_le (by omega)]

theorem newId_str {size : Nat} {v : List Byte} {x : Id} (hs : x.str.length = size) (h1 : 1 ≤ size) :
    (newId size v x).str.length = size := by
  unfold newId
  repeat' split
  · exact hs
  · exact hs
  · simp; omega

theorem newId_tidy {size : Nat} {v : List Byte} {x : Id} (hs : x.str.length = size) (h1 : 1 ≤ size)
    (hv : v.length ≤ size ∨ x.valid = false)
    (hx : x.valid = true → x.len < size ∧ x.str[x.len]? = some 0) (hn : (newId size v x).valid = true) :
    (newId size v x).len < size ∧ (newId size v x).str[(newId size v x).len]? = some 0 := by
  unfold newId at *
  by_cases h : v.length = 0
  · rw [if_pos h] at *; exact hx hn
  · rw [if_neg h] at *
    by_cases h2 : v.length - 1 > size - 1
    · rw [if_pos h2] at *
      have : x.valid = false := hv.resolve_left (by omega)
      have hn : x.valid = true := hn
      rw [this] at hn; cases hn
    · rw [if_neg h2] at *
      have e4 : (v.drop 1).length = v.length - 1 := by simp
      refine ⟨by show v.length - 1 < size; omega, ?_⟩
      show (v.drop 1 ++ 0 :: x.str.drop (v.length - 1 + 1))[v.length - 1]? = some 0
      rw [List.getElem?_append_right (by omega), e4]; simp

theorem takes_getMgmt {v : List Byte} (hf : fits v) (hv : v.length < 512) :
    ∃ m, Takes (getMgmt v.length) v m ∧ m.value.length = 31 ∧ (m.isV4 = true ↔ v.getD 0 0 = 5 ∧ v.getD 1 0 = 1) ∧
      (m.isV4 = true → m.valid = true ∧ m.len = 4 ∧ m.value.take 4 = part v 2 4 ∧ m.ifSubtype = v.getD 6 0 ∧
        m.ifNumber.toNat = num (part v 7 4)) := by
  obtain ⟨h0, hl⟩ := hf
  have e : v.drop 0 = v := rfl
  have five : ∀ b : Byte, b = 5 ↔ b.toNat = 5 := fun b => ⟨fun h => by rw [h]; rfl, fun h => BitVec.eq_of_toNat_eq h⟩
  by_cases h : (v.getD 0 0).toNat = 0 ∨ (v.getD 0 0).toNat - 1 < 1 ∨ (v.getD 0 0).toNat - 1 > 31
  · refine ⟨{ (Peer.empty 0).mgmt with len := if (v.getD 0 0).toNat = 0 then 2 ^ 64 - 1 else (v.getD 0 0).toNat - 1 }, Takes.cast (v := v.drop 0) (on_byte (by omega) ?_) e, ?_, ?_, ?_⟩
    · rw [if_pos h]
      have hs := takes_skip (v.drop (0 + 1)) 1 (by simp; omega)
      have e2 : (v.drop (0 + 1)).length + 1 = v.length := by simp; omega
      rw [e2] at hs
      exact Takes.bind_nil hs (Takes.pure _)
    · rfl
    · simp only [five]
      constructor
      · intro k; cases k
      · intro k; omega
    · intro k; cases k
  · have h2 : 2 ≤ (v.getD 0 0).toNat := by omega
    have h3 : (v.getD 0 0).toNat ≤ 32 := by omega
    obtain ⟨h4, h5⟩ := hl h2 h3
    have hp := part_length (v := v) (i := 0 + 1 + 1) (n := (v.getD 0 0).toNat - 1) (by omega)
    refine ⟨⟨part v (0 + 1 + 1) ((v.getD 0 0).toNat - 1) ++ (Peer.empty 0).mgmt.value.drop ((v.getD 0 0).toNat - 1),
        v.getD 1 0, (v.getD 0 0).toNat - 1, v.getD ((v.getD 0 0).toNat + 1) 0,
        BitVec.ofNat 32 (num (part v ((v.getD 0 0).toNat + 2) 4)), true⟩, Takes.cast (v := v.drop 0) (on_byte (by omega) ?_) e, ?_, ?_, ?_⟩
    · rw [if_neg h]
      refine on_byte (by omega) ?_
      refine on_mem (by omega) ?_
      have hc := takes_copy (a := (Peer.empty 0).mgmt.value) (d := part v (0 + 1 + 1) ((v.getD 0 0).toNat - 1)) (by
        rw [hp]; show _ ≤ 31; omega)
      refine Takes.nil_bind hc ?_
      refine on_byte (by omega) ?_
      refine on_u32 (by omega) ?_
      refine on_byte (by omega) ?_
      have e1 : 0 + 1 + 1 + ((v.getD 0 0).toNat - 1) = (v.getD 0 0).toNat + 1 := by omega
      have e2 : 0 + 1 + 1 + ((v.getD 0 0).toNat - 1) + 1 = (v.getD 0 0).toNat + 2 := by omega
      have e3 : 0 + 1 + 1 + ((v.getD 0 0).toNat - 1) + 1 + 4 = (v.getD 0 0).toNat + 6 := by omega
      have hs := takes_skip (v.drop ((v.getD 0 0).toNat + 6 + 1)) 0 (by simp; omega)
      have e4 : (v.drop ((v.getD 0 0).toNat + 6 + 1)).length + 0 = (v.getD ((v.getD 0 0).toNat + 6) 0).toNat := by
        simp only [List.length_drop]; omega
      rw [e4] at hs
      rw [e3]
      refine Takes.bind_nil hs ?_
      rw [e2, e1, hp]
      exact Takes.pure _
    · simp only [List.length_append, hp, List.length_drop]
      have : (Peer.empty 0).mgmt.value.length = 31 := rfl
      omega
    · simp only [Mgmt.isV4, Bool.true_and, Bool.and_eq_true, decide_eq_true_eq, five]
      constructor
      · rintro ⟨k1, k2⟩
        exact ⟨by omega, k1⟩
      · rintro ⟨k1, k2⟩
        exact ⟨k2, by omega⟩
    · intro k
      simp only [Mgmt.isV4, Bool.true_and, Bool.and_eq_true, decide_eq_true_eq] at k
      have k5 : (v.getD 0 0).toNat = 5 := by omega
      refine ⟨rfl, k.2, ?_, ?_, ?_⟩
      · show List.take 4 (part v (0 + 1 + 1) ((v.getD 0 0).toNat - 1) ++ _) = _
        rw [k5] at hp ⊢
        rw [List.take_append_of_le_length (by omega), List.take_of_length_le (by omega)]
      · show v.getD ((v.getD 0 0).toNat + 1) 0 = _
        rw [k5]
      · show (BitVec.ofNat 32 (num (part v ((v.getD 0 0).toNat + 2) 4))).toNat = _
        rw [num_toNat4 (part_length (by omega)), k5]

/-- The part of an organisation field after its head. -/
theorem takes_org {v : List Byte} (h4 : 4 ≤ v.length) {β} {f : List Byte × Byte → P β} {b : β}
    (hf : Takes (f (v.take 3, v.getD 3 0)) (v.drop 4) b) : Takes (getOrg >>= f) v b := by
  have e : v.drop 0 = v := rfl
  have ho : Takes getOrg (v.take 4) (v.take 3, v.getD 3 0) := by
    unfold getOrg
    refine Takes.cast (v := (v.take 4).drop 0) ?_ rfl
    have e1 : part (v.take 4) 0 3 = v.take 3 := by simp [part, List.take_take]
    have e2 : (v.take 4).getD 3 0 = v.getD 3 0 := by
      simp [List.getD_eq_getElem?_getD, List.getElem?_take]
    refine on_mem (by simp; omega) ?_
    refine on_byte (by simp; omega) ?_
    rw [e1, e2]
    exact on_end (by simp; omega)
  exact (Takes.bind ho hf).cast (List.take_append_drop 4 v)

theorem errs_org {v : List Byte} (h4 : 4 ≤ v.length) {β} {f : List Byte × Byte → P β}
    (hf : Errs (f (v.take 3, v.getD 3 0)) (v.drop 4)) : Errs (getOrg >>= f) v := by
  have ho : Takes getOrg (v.take 4) (v.take 3, v.getD 3 0) := by
    unfold getOrg
    refine Takes.cast (v := (v.take 4).drop 0) ?_ rfl
    have e1 : part (v.take 4) 0 3 = v.take 3 := by simp [part, List.take_take]
    have e2 : (v.take 4).getD 3 0 = v.getD 3 0 := by
      simp [List.getD_eq_getElem?_getD, List.getElem?_take]
    refine on_mem (by simp; omega) ?_
    refine on_byte (by simp; omega) ?_
    rw [e1, e2]
    exact on_end (by simp; omega)
  have := Errs.bind ho hf
  rwa [List.take_append_drop 4 v] at this

theorem takes_skip4 {v : List Byte} (h4 : 4 ≤ v.length) (hv : v.length < 512) (p : Peer) :
    Takes (do skip v.length 4; pure p : P Peer) (v.drop 4) p := by
  have hs := takes_skip (v.drop 4) 4 (by simp; omega)
  have e : (v.drop 4).length + 4 = v.length := by simp; omega
  rw [e] at hs
  exact Takes.bind_nil hs (Takes.pure _)

/-- What is left alone by a field. -/
structure Same (t : Nat) (p q : Peer) : Prop where
  chassis : t ≠ 1 → q.chassis = p.chassis
  port : t ≠ 2 → q.port = p.port

theorem org_field {z : Nat} {v : List Byte} {p : Peer} (h4 : 4 ≤ v.length) (hv : v.length < 512) (hw : Wf z p) (ht : Tidy z p) :
    (∃ q, Takes (getOrgSpec v.length p) v q ∧ says z (127, v) (view p) = some (view q) ∧ Wf z q ∧ Tidy z q ∧ Same 127 p q) ∨
    (Errs (getOrgSpec v.length p) v ∧ says z (127, v) (view p) = none) := by
  have kind : ∀ (b : Byte) (n : Nat), n < 256 → (b = BitVec.ofNat 8 n ↔ b.toNat = n) := fun b n hn =>
    ⟨fun h => by rw [h, BitVec.toNat_ofNat]; omega, fun h => BitVec.eq_of_toNat_eq (by rw [h, BitVec.toNat_ofNat]; omega)⟩
  have hsays : says z (127, v) (view p) = saysOrg (v.take 3) (v.getD 3 0).toNat v (view p) := rfl
  rw [hsays]
  unfold saysOrg getOrgSpec
  by_cases ho : v.take 3 = orgPnio
  · rw [if_pos (show v.take 3 = [0x00, 0x0e, 0xcf] from ho)]
    by_cases k1 : (v.getD 3 0).toNat = 1
    · rw [if_pos k1]
      have k1' : v.getD 3 0 = (1 : Byte) := (kind _ 1 (by omega)).2 k1
      by_cases hl : v.length = 24
      · left
        rw [if_pos hl]
        refine ⟨{ p with delay := ⟨BitVec.ofNat 32 (num (part v 4 4)), BitVec.ofNat 32 (num (part v 8 4)),
            BitVec.ofNat 32 (num (part v 12 4)), BitVec.ofNat 32 (num (part v 16 4)),
            BitVec.ofNat 32 (num (part v 20 4)), true⟩ }, takes_org h4 ?_, ?_, ?_, ?_, ?_⟩
        · rw [if_pos ho, if_pos k1']
          refine Takes.bind_nil ?_ (Takes.pure _)
          unfold getDelay
          rw [if_neg (by omega)]
          refine on_u32 (by omega) ?_
          refine on_u32 (by omega) ?_
          refine on_u32 (by omega) ?_
          refine on_u32 (by omega) ?_
          refine on_u32 (by omega) ?_
          exact on_end (by omega)
        · have e := fun i (h : i + 4 ≤ v.length) => num_toNat4 (part_length (v := v) (i := i) (n := 4) h)
          simp only [view, if_pos, e 4 (by omega), e 8 (by omega), e 12 (by omega), e 16 (by omega), e 20 (by omega)]
        · exact ⟨hw.chassis, hw.port, hw.desc, hw.mgmt, hw.status, hw.mac⟩
        · exact ⟨ht.chassis, ht.port, ht.desc, ht.mgmt⟩
        · exact ⟨fun _ => rfl, fun _ => rfl⟩
      · right
        rw [if_neg hl]
        refine ⟨errs_org h4 ?_, rfl⟩
        rw [if_pos ho, if_pos k1']
        refine Errs.map ?_
        unfold getDelay
        rw [if_pos (by omega)]
        exact errs_set
    · rw [if_neg k1]
      have k1' : ¬v.getD 3 0 = 1 := fun h => k1 ((kind _ 1 (by omega)).1 h)
      by_cases k2 : (v.getD 3 0).toNat = 2
      · rw [if_pos k2]
        have k2' : v.getD 3 0 = (2 : Byte) := (kind _ 2 (by omega)).2 k2
        by_cases hl : v.length = 8
        · left
          rw [if_pos hl]
          have hpl := part_length (v := v) (i := 4) (n := 4) (by omega)
          refine ⟨{ p with status := part v 4 4 }, takes_org h4 ?_, rfl, ?_, ?_, ?_⟩
          · rw [if_pos ho, if_neg k1', if_pos k2']
            refine Takes.bind_nil ?_ (Takes.pure _)
            unfold getStatus
            rw [if_neg (by omega)]
            refine on_mem (by omega) ?_
            rw [List.drop_eq_nil_of_le (i := 4 + 4) (by omega)]
            have hc := takes_copy (a := p.status) (d := part v 4 4) (by rw [hpl, hw.status]; omega)
            rwa [List.drop_eq_nil_of_le (by rw [hpl, hw.status]; omega), List.append_nil] at hc
          · exact ⟨hw.chassis, hw.port, hw.desc, hw.mgmt, hpl, hw.mac⟩
          · exact ⟨ht.chassis, ht.port, ht.desc, ht.mgmt⟩
          · exact ⟨fun _ => rfl, fun _ => rfl⟩
        · right
          rw [if_neg hl]
          refine ⟨errs_org h4 ?_, rfl⟩
          rw [if_pos ho, if_neg k1', if_pos k2']
          refine Errs.map ?_
          unfold getStatus
          rw [if_pos (by omega)]
          exact errs_set
      · rw [if_neg k2]
        have k2' : ¬v.getD 3 0 = 2 := fun h => k2 ((kind _ 2 (by omega)).1 h)
        by_cases k3 : (v.getD 3 0).toNat = 5
        · rw [if_pos k3]
          have k3' : v.getD 3 0 = (5 : Byte) := (kind _ 5 (by omega)).2 k3
          by_cases hl : v.length = 10
          · left
            rw [if_pos hl]
            have hpl := part_length (v := v) (i := 4) (n := 6) (by omega)
            refine ⟨{ p with mac := part v 4 6 }, takes_org h4 ?_, rfl, ?_, ?_, ?_⟩
            · rw [if_pos ho, if_neg k1', if_neg k2', if_pos k3']
              refine Takes.bind_nil ?_ (Takes.pure _)
              unfold getMac
              rw [if_neg (by omega)]
              refine on_mem (by omega) ?_
              rw [List.drop_eq_nil_of_le (i := 4 + 6) (by omega)]
              have hc := takes_copy (a := p.mac) (d := part v 4 6) (by rw [hpl, hw.mac]; omega)
              rwa [List.drop_eq_nil_of_le (by rw [hpl, hw.mac]; omega), List.append_nil] at hc
            · exact ⟨hw.chassis, hw.port, hw.desc, hw.mgmt, hw.status, hpl⟩
            · exact ⟨ht.chassis, ht.port, ht.desc, ht.mgmt⟩
            · exact ⟨fun _ => rfl, fun _ => rfl⟩
          · right
            rw [if_neg hl]
            refine ⟨errs_org h4 ?_, rfl⟩
            rw [if_pos ho, if_neg k1', if_neg k2', if_pos k3']
            refine Errs.map ?_
            unfold getMac
            rw [if_pos (by omega)]
            exact errs_set
        · rw [if_neg k3]
          have k3' : ¬v.getD 3 0 = 5 := fun h => k3 ((kind _ 5 (by omega)).1 h)
          left
          refine ⟨p, takes_org h4 ?_, rfl, hw, ht, ⟨fun _ => rfl, fun _ => rfl⟩⟩
          rw [if_pos ho, if_neg k1', if_neg k2', if_neg k3']
          exact takes_skip4 h4 hv p
  · rw [if_neg (show ¬v.take 3 = [0x00, 0x0e, 0xcf] from ho)]
    by_cases hi : v.take 3 = orgIeee
    · rw [if_pos (show v.take 3 = [0x00, 0x12, 0x0f] from hi)]
      by_cases k1 : (v.getD 3 0).toNat = 1
      · rw [if_pos k1]
        have k1' : v.getD 3 0 = (1 : Byte) := (kind _ 1 (by omega)).2 k1
        by_cases hl : v.length = 9
        · left
          rw [if_pos hl]
          refine ⟨{ p with link := ⟨(v.getD 4 0).toNat % 2 = 1, (v.getD 4 0).toNat / 2 % 2 = 1,
              BitVec.ofNat 16 (num (part v 5 2)), BitVec.ofNat 16 (num (part v 7 2)), true⟩ }, takes_org h4 ?_, ?_, ?_, ?_, ?_⟩
          · rw [if_neg ho, if_pos hi, if_pos k1']
            refine Takes.bind_nil ?_ (Takes.pure _)
            unfold getLink
            rw [if_neg (by omega)]
            refine on_byte (by omega) ?_
            refine on_u16 (by omega) ?_
            refine on_u16 (by omega) ?_
            exact on_end (by omega)
          · have e := fun i (h : i + 2 ≤ v.length) => num_toNat2 (part_length (v := v) (i := i) (n := 2) h)
            simp only [view, if_pos, e 5 (by omega), e 7 (by omega)]
          · exact ⟨hw.chassis, hw.port, hw.desc, hw.mgmt, hw.status, hw.mac⟩
          · exact ⟨ht.chassis, ht.port, ht.desc, ht.mgmt⟩
          · exact ⟨fun _ => rfl, fun _ => rfl⟩
        · right
          rw [if_neg hl]
          refine ⟨errs_org h4 ?_, rfl⟩
          rw [if_neg ho, if_pos hi, if_pos k1']
          refine Errs.map ?_
          unfold getLink
          rw [if_pos (by omega)]
          exact errs_set
      · rw [if_neg k1]
        have k1' : ¬v.getD 3 0 = 1 := fun h => k1 ((kind _ 1 (by omega)).1 h)
        left
        refine ⟨p, takes_org h4 ?_, rfl, hw, ht, ⟨fun _ => rfl, fun _ => rfl⟩⟩
        rw [if_neg ho, if_pos hi, if_neg k1']
        exact takes_skip4 h4 hv p
    · rw [if_neg (show ¬v.take 3 = [0x00, 0x12, 0x0f] from hi)]
      left
      refine ⟨p, takes_org h4 ?_, rfl, hw, ht, ⟨fun _ => rfl, fun _ => rfl⟩⟩
      rw [if_neg ho, if_neg hi]
      exact takes_skip4 h4 hv p

end Verif.Lldp
