import Verif.Ppm.Spec
/-! Helper lemmas for the provider. -/
set_option linter.unusedSimpArgs false
set_option linter.unusedVariables false
namespace Verif.Ppm
open Verif.Layout (IoData Key Kind Covers)

theorem covers_iff {d : IoData} {k : Kind} {b : Nat} : Covers d k b ↔ off d k ≤ b ∧ b < off d k + len d k := by
  cases k <;> rfl

theorem slice_writeAt_sep {α} {l x : List α} {o n w : Nat} {d : List α} (h : writeAt l w d = some x)
    (hd : ∀ b, ¬ ((o ≤ b ∧ b < o + n) ∧ (w ≤ b ∧ b < w + d.length))) : slice x o n = slice l o n := by
  have hl := writeAt_length h
  unfold slice
  rw [hl]
  split
  · congr 1
    apply List.ext_getElem?
    intro i
    rw [List.getElem?_take, List.getElem?_take]
    split
    · rw [List.getElem?_drop, List.getElem?_drop, writeAt_get h]
      have := hd (o + i)
      rw [if_neg (by omega)]
    · rfl
  · rfl

theorem writeAt_append {α} (a b c d : List α) (h : b.length = d.length) :
    writeAt (a ++ b ++ c) a.length d = some (a ++ d ++ c) := by
  rw [writeAt_eq_some (by simp; omega)]
  congr 1
  have e1 : (a ++ b ++ c).take a.length = a := by simp
  have e2 : (a ++ b ++ c).drop (a.length + d.length) = c := by
    rw [← h, ← List.length_append]; simp
  rw [e1, e2]

/-- The content of `buffer_data`. -/
def BufOk (c : Cfg) (buf : List Byte) (w : IoData → Kind → List Byte) : Prop :=
  buf.length = 1500 ∧ (∀ d ∈ c.descs, ∀ k, slice buf (off d k) (len d k) = some (w d k)) ∧
  (∀ b < 1500, (∀ d ∈ c.descs, ∀ k, ¬ Covers d k b) → buf[b]? = some 0)

theorem bufOk_congr {c buf w w'} (h : BufOk c buf w) (hw : ∀ d ∈ c.descs, ∀ k, w' d k = w d k) :
    BufOk c buf w' :=
  ⟨h.1, fun d hd k => by rw [hw d hd k]; exact h.2.1 d hd k, h.2.2⟩

open Classical in
theorem bufOk_write {c buf w d k} {x : List Byte} (hg : Good c) (h : BufOk c buf w) (hd : d ∈ c.descs)
    (hx : x.length = len d k) : ∃ b, writeAt buf (off d k) x = some b ∧
      BufOk c b (fun d' k' => if d' = d ∧ k' = k then x else w d' k') := by
  have hin := hg.inside d hd k
  have hc := hg.cSdu
  have hb : off d k + x.length ≤ buf.length := by rw [h.1]; omega
  refine ⟨_, writeAt_eq_some hb, ?_⟩
  have hw := writeAt_eq_some hb
  refine ⟨by rw [writeAt_length hw]; exact h.1, ?_, ?_⟩
  · intro d' hd' k'
    beta_reduce
    by_cases he : d' = d ∧ k' = k
    · rw [if_pos he, he.1, he.2, ← hx]
      exact slice_writeAt_same hw
    · rw [if_neg he]
      rw [slice_writeAt_sep hw]
      · exact h.2.1 d' hd' k'
      · rintro b ⟨h1, h2⟩
        exact he (hg.disjoint d' hd' d hd k' k b (covers_iff.2 h1) (covers_iff.2 (by rw [← hx]; exact h2)))
  · intro b hb' hn
    rw [writeAt_get hw, if_neg]
    · exact h.2.2 b hb' hn
    · intro hh
      exact hn d hd k (covers_iff.2 (by rw [← hx]; exact hh))

theorem header_length {c} (hg : Good c) : (header c).length = 20 := by
  simp [header, toBe16, hg.da, hg.sa]

/-- Content of an allocated send buffer. -/
def SendOk (c : Cfg) (s : List Byte) : Prop :=
  ∃ mid four tail, s = header c ++ mid ++ (List.replicate (c.cSdu - c.inLen) 0 ++ four ++ tail) ∧
    mid.length = c.inLen ∧ four.length = 4 ∧ s.length = 1500

theorem initBuf_ok {c junk} (hg : Good c) (hj : junk.length = 1500) :
    ∃ s, initBuf c junk = some s ∧ SendOk c s := by
  have hc := hg.cSdu
  have hi := hg.inLen
  have h1 : writeAt junk 0 (List.replicate (frameLen c) 0) =
      some (List.replicate (frameLen c) 0 ++ junk.drop (frameLen c)) := by
    rw [writeAt_eq_some (by simp [frameLen, hj]; omega)]
    simp
  have hr : List.replicate (frameLen c) (0 : Byte) = List.replicate 20 0 ++ List.replicate c.inLen 0 ++
      List.replicate (c.cSdu - c.inLen) 0 ++ List.replicate 4 0 := by
    simp only [List.replicate_append_replicate]
    congr 1
    simp [frameLen]
    omega
  unfold initBuf
  simp only [h1, Option.bind_eq_bind, Option.bind_some]
  rw [hr]
  have h2 := writeAt_append [] (List.replicate 20 (0 : Byte)) (List.replicate c.inLen 0 ++
    (List.replicate (c.cSdu - c.inLen) 0 ++ List.replicate 4 0 ++ junk.drop (frameLen c))) (header c)
    (by rw [header_length hg]; simp)
  simp only [List.nil_append, List.length_nil] at h2
  refine ⟨_, by simpa only [List.append_assoc] using h2, ?_⟩
  refine ⟨_, _, _, by simp only [List.append_assoc]; rfl, by simp, by simp, ?_⟩
  simp [header_length hg, frameLen, hj]
  omega

/-- The frame as it should be. -/
def frameSpec (c : Cfg) (buf : List Byte) (cyc : Nat) (status : Byte) : List Byte :=
  header c ++ buf.take c.inLen ++ List.replicate (c.cSdu - c.inLen) 0 ++ toBe16 cyc ++ [status, 0]

theorem nextCycle_some {c prev scf rr} (h : 0 < scf * rr) (hc : c = (prev / (scf * rr) % 65536 + 1) * (scf * rr) % 65536) :
    nextCycle prev scf rr = some c := by
  unfold nextCycle
  simp only
  rw [if_neg (by omega), hc]

theorem finish_ok {c p s} (hg : Good c) (hb : p.buf.length = 1500) (hs : p.send = some s) (ho : SendOk c s) :
    ∃ cyc s', nextCycle p.cycle c.scf c.rr = some cyc ∧
      finish c p = some { p with cycle := cyc, send := some s' } ∧ SendOk c s' ∧
      s'.take (frameLen c) = frameSpec c p.buf cyc p.status := by
  have hc := hg.cSdu
  have hi := hg.inLen
  have hh := header_length hg
  obtain ⟨mid, four, tail, rfl, hm, hf, hl⟩ := ho
  refine ⟨_, header c ++ p.buf.take c.inLen ++ (List.replicate (c.cSdu - c.inLen) 0 ++
    (toBe16 ((p.cycle / (c.scf * c.rr) % 65536 + 1) * (c.scf * c.rr) % 65536) ++ [p.status, 0]) ++ tail), nextCycle_some hg.interval rfl, ?_, ?_, ?_⟩
  · unfold finish
    simp only [hs, Option.bind_eq_bind, Option.bind_some, nextCycle_some hg.interval rfl]
    rw [slice_eq_some (by omega)]
    simp only [List.drop_zero, Option.bind_some]
    have hml : mid.length = (p.buf.take c.inLen).length := by simp; omega
    have w1 := writeAt_append (header c) mid (List.replicate (c.cSdu - c.inLen) 0 ++ four ++ tail) _ hml
    rw [hh] at w1
    rw [w1]
    simp only [Option.bind_some]
    match four, hf with
    | [f1, f2, f3, f4], _ =>
    generalize hcy : (p.cycle / (c.scf * c.rr) % 65536 + 1) * (c.scf * c.rr) % 65536 = cyc
    have w2 := writeAt_append (header c ++ p.buf.take c.inLen ++ List.replicate (c.cSdu - c.inLen) (0 : Byte)) [f1, f2]
      ([f3, f4] ++ tail) (toBe16 cyc) rfl
    have hl2 : (header c ++ p.buf.take c.inLen ++ List.replicate (c.cSdu - c.inLen) (0 : Byte)).length = 20 + c.cSdu := by
      simp [hh]; omega
    rw [hl2] at w2
    have e2 : header c ++ p.buf.take c.inLen ++ (List.replicate (c.cSdu - c.inLen) 0 ++ [f1, f2, f3, f4] ++ tail) =
      header c ++ p.buf.take c.inLen ++ List.replicate (c.cSdu - c.inLen) 0 ++ [f1, f2] ++ ([f3, f4] ++ tail) := by simp
    rw [e2, w2]
    simp only [Option.bind_some]
    have w3 := writeAt_append (header c ++ p.buf.take c.inLen ++ List.replicate (c.cSdu - c.inLen) (0 : Byte) ++ toBe16 cyc) [f3]
      ([f4] ++ tail) [p.status] rfl
    have hl3 : (header c ++ p.buf.take c.inLen ++ List.replicate (c.cSdu - c.inLen) (0 : Byte) ++ toBe16 cyc).length = 20 + c.cSdu + 2 := by
      rw [List.length_append, hl2]; rfl
    rw [hl3] at w3
    have e3 : header c ++ p.buf.take c.inLen ++ List.replicate (c.cSdu - c.inLen) 0 ++ toBe16 cyc ++ ([f3, f4] ++ tail) =
      header c ++ p.buf.take c.inLen ++ List.replicate (c.cSdu - c.inLen) 0 ++ toBe16 cyc ++ [f3] ++ ([f4] ++ tail) := by simp
    rw [e3, w3]
    simp only [Option.bind_some]
    have w4 := writeAt_append (header c ++ p.buf.take c.inLen ++ List.replicate (c.cSdu - c.inLen) (0 : Byte) ++ toBe16 cyc ++ [p.status]) [f4]
      tail [(0 : Byte)] rfl
    have hl4 : (header c ++ p.buf.take c.inLen ++ List.replicate (c.cSdu - c.inLen) (0 : Byte) ++ toBe16 cyc ++ [p.status]).length = 20 + c.cSdu + 2 + 1 := by
      rw [List.length_append, hl3]; rfl
    rw [hl4] at w4
    have e4 : header c ++ p.buf.take c.inLen ++ List.replicate (c.cSdu - c.inLen) 0 ++ toBe16 cyc ++ [p.status] ++ ([f4] ++ tail) =
      header c ++ p.buf.take c.inLen ++ List.replicate (c.cSdu - c.inLen) 0 ++ toBe16 cyc ++ [p.status] ++ [f4] ++ tail := by simp
    rw [e4, w4]
    simp only [Option.bind_some]
    congr 2
    simp
  · refine ⟨_, _, tail, rfl, by simp; omega, by simp [toBe16], ?_⟩
    simp [toBe16, hh, hm, hf] at hl ⊢
    omega
  · have : frameLen c = (frameSpec c p.buf ((p.cycle / (c.scf * c.rr) % 65536 + 1) * (c.scf * c.rr) % 65536) p.status).length := by
      simp [frameSpec, frameLen, toBe16, hh]; omega
    rw [this]
    have e : header c ++ p.buf.take c.inLen ++ (List.replicate (c.cSdu - c.inLen) 0 ++
      (toBe16 ((p.cycle / (c.scf * c.rr) % 65536 + 1) * (c.scf * c.rr) % 65536) ++ [p.status, 0]) ++ tail) =
      frameSpec c p.buf ((p.cycle / (c.scf * c.rr) % 65536 + 1) * (c.scf * c.rr) % 65536) p.status ++ tail := by
      simp [frameSpec]
    rw [e]
    simp

/-! ### Finding the descriptor -/

theorem findFrom_spec (k : Key) (cs : List Cfg) : ∀ n, match findFrom k n cs with
    | some (i, d) => n ≤ i ∧ (∃ c, cs[i - n]? = some c ∧ c.input = true ∧ d ∈ c.descs ∧ d.key = k) ∧
        ∀ j < i - n, ∀ c, cs[j]? = some c → c.input = true → k ∉ c.descs.map (·.key)
    | none => ∀ (j : Nat) c, cs[j]? = some c → c.input = true → k ∉ c.descs.map (·.key) := by
  induction cs with
  | nil => intro n; simp [findFrom]
  | cons c cs ih =>
    intro n
    have ih := ih (n + 1)
    have rest : c.input = false ∨ k ∉ c.descs.map (·.key) → match findFrom k (n + 1) cs with
        | some (i, d) => n ≤ i ∧ (∃ c', (c :: cs)[i - n]? = some c' ∧ c'.input = true ∧ d ∈ c'.descs ∧ d.key = k) ∧
          ∀ j < i - n, ∀ c', (c :: cs)[j]? = some c' → c'.input = true → k ∉ c'.descs.map (·.key)
        | none => ∀ (j : Nat) c', (c :: cs)[j]? = some c' → c'.input = true → k ∉ c'.descs.map (·.key) := by
      intro hc
      split
      · rename_i i d he
        rw [he] at ih
        obtain ⟨h1, ⟨c', h2, h3, h4, h5⟩, h6⟩ := ih
        refine ⟨by omega, ⟨c', ?_, h3, h4, h5⟩, ?_⟩
        · have : i - n = i - (n + 1) + 1 := by omega
          rw [this]; simpa using h2
        · intro j hj c'' hc'' hin
          cases j with
          | zero =>
            simp at hc''
            subst hc''
            rcases hc with hc | hc
            · rw [hc] at hin; cases hin
            · exact hc
          | succ j => exact h6 j (by omega) c'' (by simpa using hc'') hin
      · rename_i he
        rw [he] at ih
        intro j c'' hc'' hin
        cases j with
        | zero =>
          simp at hc''
          subst hc''
          rcases hc with hc | hc
          · rw [hc] at hin; cases hin
          · exact hc
        | succ j => exact ih j c'' (by simpa using hc'') hin
    unfold findFrom
    cases hin : c.input with
    | false =>
      simp only [Bool.false_eq_true, if_false]
      exact rest (Or.inl hin)
    | true =>
      simp only [if_true]
      cases hf : c.descs.find? (fun d => d.key == k) with
      | none =>
        simp only
        exact rest (Or.inr (by
          rw [List.find?_eq_none] at hf
          intro hm
          obtain ⟨d, hd, hk⟩ := List.mem_map.1 hm
          exact hf d hd (by simpa using hk)))
      | some d =>
        simp only
        refine ⟨Nat.le_refl _, ⟨c, by simp, hin, List.mem_of_find?_eq_some hf, by simpa using List.find?_some hf⟩, ?_⟩
        intro j hj; omega

theorem find_some {cs k o i d} (h : find cs k o = some (i, d)) :
    o = true ∧ Target cs k i ∧ ∃ c, cs[i]? = some c ∧ c.input = true ∧ d ∈ c.descs ∧ d.key = k := by
  unfold find at h
  split at h
  · rename_i ho
    have := findFrom_spec k cs 0
    rw [h] at this
    obtain ⟨_, ⟨c, h1, h2, h3, h4⟩, h5⟩ := this
    simp only [Nat.sub_zero] at h1 h5
    refine ⟨ho, ⟨⟨c, h1, h2, ?_⟩, h5⟩, c, h1, h2, h3, h4⟩
    exact h4 ▸ List.mem_map_of_mem h3
  · cases h

theorem target_unique {cs k i j} (h : Target cs k i) (h' : Target cs k j) : i = j := by
  obtain ⟨⟨c, a1, a2, a3⟩, a4⟩ := h
  obtain ⟨⟨c', b1, b2, b3⟩, b4⟩ := h'
  rcases Nat.lt_trichotomy i j with hlt | heq | hgt
  · exact absurd a3 (b4 i hlt c a1 a2)
  · exact heq
  · exact absurd b3 (a4 j hgt c' b1 b2)

theorem key_inj {c : Cfg} (hg : Good c) {d d' : IoData} (h : d ∈ c.descs) (h' : d' ∈ c.descs) (hk : d.key = d'.key) : d = d' := by
  have e1 := Layout.look_mem hg.keys h
  have e2 := Layout.look_mem hg.keys h'
  rw [hk, e2] at e1
  exact (Option.some.inj e1).symm

end Verif.Ppm
