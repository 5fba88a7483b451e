import Verif.Dcp.Model
/-!
Reading of frames and writing of blocks.
-/
set_option linter.unusedVariables false
set_option linter.unusedSimpArgs false

namespace Verif.Dcp

/-! ## Memory -/

/-- The bytes `bs` stand at position `i`. -/
def At (m : Mem) (i : Nat) (bs : List Byte) : Prop := ∀ k, k < bs.length → m (i + k) = bs[k]?

/-- Everything below `n` may be read. -/
def Def (m : Mem) (n : Nat) : Prop := ∀ i, i < n → ∃ b, m i = some b

theorem At.append {m : Mem} {i : Nat} {a b : List Byte} : At m i (a ++ b) ↔ At m i a ∧ At m (i + a.length) b := by
  constructor
  · intro h
    refine ⟨fun k hk => ?_, fun k hk => ?_⟩
    · rw [h k (by simp; omega), List.getElem?_append_left hk]
    · rw [Nat.add_assoc, h (a.length + k) (by simp; omega), List.getElem?_append_right (by omega)]
      congr 1; omega
  · rintro ⟨h1, h2⟩ k hk
    by_cases c : k < a.length
    · rw [h1 k c, List.getElem?_append_left c]
    · have := h2 (k - a.length) (by simp at hk; omega)
      rw [List.getElem?_append_right (by omega), ← this]
      congr 1; omega

theorem At.cons {m : Mem} {i : Nat} {x : Byte} {b : List Byte} : At m i (x :: b) ↔ m i = some x ∧ At m (i + 1) b := by
  rw [show x :: b = [x] ++ b from rfl, At.append]
  constructor
  · rintro ⟨h1, h2⟩; exact ⟨by simpa using h1 0 (by simp), h2⟩
  · rintro ⟨h1, h2⟩; refine ⟨fun k hk => ?_, h2⟩
    have : k = 0 := by simpa using hk
    subst this; simpa using h1

theorem rdN_at {m : Mem} {i : Nat} {bs : List Byte} (h : At m i bs) : rdN m i bs.length = some bs := by
  induction bs generalizing i with
  | nil => rfl
  | cons x t ih =>
    obtain ⟨h1, h2⟩ := At.cons.mp h
    rw [List.length_cons, rdN, h1, Option.bind_some, ih h2]; rfl

theorem rdN_at' {m : Mem} {i n : Nat} {bs : List Byte} (h : At m i bs) (hn : bs.length = n) : rdN m i n = some bs := by
  subst hn; exact rdN_at h

theorem rdN_def {m : Mem} {k : Nat} (h : Def m k) : ∀ (n i : Nat), i + n ≤ k → ∃ bs, rdN m i n = some bs ∧ bs.length = n
  | 0, i, _ => ⟨[], rfl, rfl⟩
  | n + 1, i, hi => by
    obtain ⟨b, hb⟩ := h i (by omega)
    obtain ⟨bs, h1, h2⟩ := rdN_def h n (i + 1) (by omega)
    exact ⟨b :: bs, by rw [rdN, hb, Option.bind_some, h1]; rfl, by simp [h2]⟩

theorem rdN_length {m : Mem} : ∀ {n i : Nat} {bs : List Byte}, rdN m i n = some bs → bs.length = n
  | 0, i, bs, h => by cases h; rfl
  | n + 1, i, bs, h => by
    rw [rdN] at h
    cases hb : m i with
    | none => rw [hb] at h; cases h
    | some b =>
      rw [hb, Option.bind_some] at h
      cases hr : rdN m (i + 1) n with
      | none => rw [hr] at h; cases h
      | some t =>
        rw [hr, Option.bind_some] at h
        cases h
        simp [rdN_length hr]

theorem rdN_get {m : Mem} : ∀ {n i : Nat} {bs : List Byte}, rdN m i n = some bs → At m i bs
  | 0, i, bs, h => by cases h; intro k hk; simp at hk
  | n + 1, i, bs, h => by
    rw [rdN] at h
    cases hb : m i with
    | none => rw [hb] at h; cases h
    | some b =>
      rw [hb, Option.bind_some] at h
      cases hr : rdN m (i + 1) n with
      | none => rw [hr] at h; cases h
      | some t =>
        rw [hr, Option.bind_some] at h
        cases h
        exact At.cons.mpr ⟨hb, rdN_get hr⟩

theorem rd16_def {m : Mem} {k : Nat} (h : Def m k) (i : Nat) (hi : i + 2 ≤ k) : ∃ v, rd16 m i = some v ∧ v < 65536 := by
  obtain ⟨a, ha⟩ := h i (by omega)
  obtain ⟨b, hb⟩ := h (i + 1) (by omega)
  exact ⟨be16 a b, by rw [rd16, ha, Option.bind_some, hb]; rfl, be16_lt a b⟩

theorem rd16_lt {m : Mem} {i v : Nat} (h : rd16 m i = some v) : v < 65536 := by
  rw [rd16] at h
  cases ha : m i with
  | none => rw [ha] at h; cases h
  | some a =>
    rw [ha, Option.bind_some] at h
    cases hb : m (i + 1) with
    | none => rw [hb] at h; cases h
    | some b => rw [hb] at h; cases h; exact be16_lt a b

theorem rd16_at {m : Mem} {i : Nat} {v : Nat} (hv : v < 65536) (h : At m i (toBe16 v)) : rd16 m i = some v := by
  obtain ⟨h1, h2⟩ := At.cons.mp h
  obtain ⟨h2, _⟩ := At.cons.mp h2
  rw [rd16, h1, Option.bind_some, h2, Option.bind_some, be16_toBe16 hv]

/-- Two memories are the same below `n`. -/
def Same (m m' : Mem) (n : Nat) : Prop := ∀ i, i < n → m i = m' i

theorem rdN_same {m m' : Mem} {k : Nat} (h : Same m m' k) : ∀ (n i : Nat), i + n ≤ k → rdN m i n = rdN m' i n
  | 0, i, _ => rfl
  | n + 1, i, hi => by rw [rdN, rdN, h i (by omega), rdN_same h n (i + 1) (by omega)]

theorem rd16_same {m m' : Mem} {k : Nat} (h : Same m m' k) (i : Nat) (hi : i + 2 ≤ k) : rd16 m i = rd16 m' i := by
  rw [rd16, rd16, h i (by omega), h (i + 1) (by omega)]

/-! ## Writing -/

theorem app_fits {out bs : List Byte} (h : dstStart + out.length + bs.length ≤ dstMax) : app out bs = out ++ bs := by
  unfold app; rw [if_neg (by omega)]

theorem app_skip {out bs : List Byte} (h : dstMax < dstStart + out.length + bs.length) : app out bs = out := by
  unfold app; rw [if_pos h]

theorem app_le {out bs : List Byte} (h : dstStart + out.length ≤ dstMax) : dstStart + (app out bs).length ≤ dstMax := by
  unfold app; split
  · exact h
  · rw [List.length_append]; omega

theorem pad_total {out : List Byte} (h : dstStart + out.length ≤ dstMax) :
    ∃ o, pad out = some o ∧ dstStart + o.length ≤ dstMax ∧ o.length % 2 = 0 := by
  unfold pad
  split
  · rename_i e; exact ⟨out, rfl, h, by omega⟩
  · rename_i e
    rw [app_fits (by simp; omega)]
    have : (dstStart + (out ++ [0]).length) % 2 = 0 := by rw [List.length_append]; simp; omega
    rw [if_pos this]
    refine ⟨_, rfl, ?_, ?_⟩
    · rw [List.length_append]; simp; omega
    · rw [List.length_append]; simp; omega

theorem putInfo_le {out : List Byte} (i : Option (BitVec 16)) (h : dstStart + out.length ≤ dstMax) :
    dstStart + (putInfo out i).length ≤ dstMax := by
  cases i
  · exact h
  · exact app_le (app_le h)

/-- Writing a block always comes to an end, inside the buffer and at an even position. -/
theorem putBlk_total {out : List Byte} (b : Blk) (h : dstStart + out.length ≤ dstMax) (he : out.length % 2 = 0) :
    ∃ o, putBlk out b = some o ∧ dstStart + o.length ≤ dstMax ∧ o.length % 2 = 0 := by
  unfold putBlk
  split
  · exact ⟨out, rfl, h, he⟩
  · dsimp only
    split
    · exact pad_total (putInfo_le _ (app_le (app_le (app_le (app_le h)))))
    · exact pad_total (app_le (putInfo_le _ (app_le (app_le (app_le (app_le h))))))

/-- The bytes of a block info. -/
def infoBytes : Option (BitVec 16) → List Byte
  | none => []
  | some i => toBe16 i.toNat

theorem infoBytes_length (i : Option (BitVec 16)) : (infoBytes i).length = if i.isSome then 2 else 0 := by
  cases i <;> simp [infoBytes, toBe16]

/-- The bytes of a block. -/
def encBlk (b : Blk) : List Byte :=
  [b.opt, b.sub] ++ toBe16 b.len ++ infoBytes b.info ++ b.value ++
    (if b.value.length % 2 = 0 then [] else [0])

theorem encBlk_length (b : Blk) : (encBlk b).length = 4 + b.len + b.value.length % 2 := by
  unfold encBlk Blk.len
  simp only [List.length_append, infoBytes_length]
  have : (toBe16 (b.value.length + (if b.info.isSome then 2 else 0))).length = 2 := rfl
  rw [this]
  by_cases h : b.value.length % 2 = 0
  · rw [if_pos h, h]; simp; omega
  · rw [if_neg h]; simp; omega

theorem encBlk_even (b : Blk) : (encBlk b).length % 2 = 0 := by
  rw [encBlk_length]; unfold Blk.len; split <;> omega

theorem info_bytes (i : BitVec 16) : [(i >>> 8).setWidth 8, i.setWidth 8] = toBe16 i.toNat := by
  unfold toBe16
  have h1 : (i >>> 8).setWidth 8 = BitVec.ofNat 8 (i.toNat / 256) := by
    apply BitVec.eq_of_toNat_eq
    simp [BitVec.toNat_setWidth, Nat.shiftRight_eq_div_pow]
  have h2 : i.setWidth 8 = BitVec.ofNat 8 i.toNat := by
    apply BitVec.eq_of_toNat_eq; simp
  rw [h1, h2]

theorem putInfo_fits {out : List Byte} (i : Option (BitVec 16))
    (h : dstStart + out.length + (if i.isSome then 2 else 0) ≤ dstMax) :
    putInfo out i = out ++ infoBytes i := by
  cases i with
  | none => simp [putInfo, infoBytes]
  | some i =>
    simp only [Option.isSome_some, if_true] at h
    unfold putInfo infoBytes
    dsimp only
    rw [← info_bytes, app_fits (out := out) (by simp; omega), app_fits (by simp; omega)]
    simp

/-- A block that fits is written. -/
theorem putBlk_fits {out : List Byte} (b : Blk) (he : out.length % 2 = 0)
    (h : dstStart + out.length + (encBlk b).length ≤ dstMax) : putBlk out b = some (out ++ encBlk b) := by
  rw [encBlk_length] at h
  have hl : b.len = b.value.length + (if b.info.isSome then 2 else 0) := rfl
  unfold putBlk
  rw [if_neg (by unfold Blk.len at h; omega)]
  dsimp only
  have e4 : app (app (app (app out [b.opt]) [b.sub]) [BitVec.ofNat 8 (b.len / 256)]) [BitVec.ofNat 8 b.len] =
      out ++ ([b.opt, b.sub] ++ toBe16 b.len) := by
    rw [app_fits (out := out) (by simp; omega), app_fits (out := out ++ _) (by simp; omega),
      app_fits (out := _ ++ _ ++ _) (by simp; omega), app_fits (out := _ ++ _ ++ _ ++ _) (by simp; omega)]
    simp [toBe16]
  rw [e4]
  have l4 : (out ++ ([b.opt, b.sub] ++ toBe16 b.len)).length = out.length + 4 := by simp [toBe16]
  rw [putInfo_fits b.info (by rw [l4]; omega)]
  have key : ∀ x : List Byte, x = out ++ ([b.opt, b.sub] ++ toBe16 b.len) ++
      infoBytes b.info →
      (if b.value = [] then x else app x b.value) = x ++ b.value := by
    intro x hx
    have lx : x.length = out.length + 4 + (if b.info.isSome then 2 else 0) := by
      rw [hx, List.length_append, l4, infoBytes_length]
    split
    · rename_i hv; rw [hv]; simp
    · rw [app_fits (by rw [lx]; omega)]
  rw [key _ rfl]
  unfold pad
  have lall : (out ++ ([b.opt, b.sub] ++ toBe16 b.len) ++ infoBytes b.info ++
      b.value).length = out.length + 4 + b.len := by
    rw [List.length_append, List.length_append, l4, hl, infoBytes_length]; omega
  by_cases hp : b.value.length % 2 = 0
  · rw [if_pos (by rw [lall, hl]; split <;> omega)]
    unfold encBlk
    rw [if_pos hp]
    simp
  · have h1 : ¬ (dstStart + (out ++ ([b.opt, b.sub] ++ toBe16 b.len) ++
        infoBytes b.info ++ b.value).length) % 2 = 0 := by
      rw [lall, hl]; split <;> omega
    rw [if_neg h1, app_fits (by rw [lall]; simp; omega)]
    rw [if_pos (by rw [List.length_append, lall, hl]; simp; split <;> omega)]
    unfold encBlk
    rw [if_neg hp]
    simp

theorem putBlk_skip {out : List Byte} (b : Blk) (h : dstStart + out.length + b.value.length ≥ dstMax) :
    putBlk out b = some out := by
  unfold putBlk; rw [if_pos h]

theorem putAll_fits (bs : List Blk) : ∀ (out : List Byte), out.length % 2 = 0 →
    dstStart + out.length + (bs.flatMap encBlk).length ≤ dstMax → putAll out bs = some (out ++ bs.flatMap encBlk) := by
  induction bs with
  | nil => intro out _ _; simp [putAll]
  | cons b t ih =>
    intro out he h
    rw [List.flatMap_cons, List.length_append] at h
    rw [putAll, putBlk_fits b he (by omega), Option.bind_some, ih _ (by rw [List.length_append]; have := encBlk_even b; omega)
      (by rw [List.length_append]; omega)]
    simp

end Verif.Dcp
