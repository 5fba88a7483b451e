import Verif.Control.Spec
import Verif.Wire.Inverse
import Verif.Read.Lemmas
import Verif.ConnRsp.Lemmas

/-! Lemmas for release, DControl and CControl messages. -/
set_option linter.unusedVariables false
set_option linter.unusedSimpArgs false

namespace Verif.Control
open Verif.Wire
open Verif.Records (num16 num32)
open Verif.DiagRead (skip Emits Emits.seq emits_of emits_skip Holds)
open Verif.Read (Result setError putNdr Fit Appends Within)

/-! ## Parsing -/

theorem enc16_surj {p : List Byte} (h : p.length = 2) : ∃ v, p = enc16 true v := by
  match p, h with
  | [x, y], _ => exact ⟨_, (split16 x y).symm⟩

theorem encCtl_eq (h : BlockHeader) (p : List Byte) (c : Control) : encCtl h p c = encBlockHeader true h ++
    (p ++ (encUuid true c.uuid ++ (enc16 true c.sessionKey ++ (enc16 true c.alarmSeq ++ (enc16 true c.command ++ enc16 true c.props))))) := by
  simp [encCtl]

theorem ctl_length {p : List Byte} {c : Control} (hp : p.length = 2) (hc : c.uuid.d4.length = 8) :
    (p ++ (encUuid true c.uuid ++ (enc16 true c.sessionKey ++ (enc16 true c.alarmSeq ++ (enc16 true c.command ++ enc16 true c.props))))).length = 26 := by
  simp [Read.encUuid_length hc, enc16_length, hp]

theorem encCtl_length {h : BlockHeader} {p : List Byte} {c : Control} (hp : p.length = 2) (hc : c.uuid.d4.length = 8) :
    (encCtl h p c).length = 32 := by
  rw [encCtl_eq, List.length_append, ctl_length hp hc, Read.encHdr_length]

theorem parses_ctl {p : List Byte} {c : Control} (hp : p.length = 2) (hc : c.uuid.d4.length = 8) : Parses true getControl
    (p ++ (encUuid true c.uuid ++ (enc16 true c.sessionKey ++ (enc16 true c.alarmSeq ++ (enc16 true c.command ++ enc16 true c.props))))) c := by
  obtain ⟨v, rfl⟩ := enc16_surj hp
  unfold getControl
  refine ParsesTo.bind (parses_getU16 _ _) ?_
  refine ParsesTo.bind (parses_getUuid hc) ?_
  refine ParsesTo.bind (parses_getU16 _ _) ?_
  refine ParsesTo.bind (parses_getU16 _ _) ?_
  refine ParsesTo.bind (parses_getU16 _ _) ?_
  refine ParsesTo.bind_nil (parses_getU16 _ _) ?_
  exact ParsesTo.pure _ _

theorem inv_ctl : Inv true getControl (fun c bs => ∃ p : List Byte, p.length = 2 ∧ c.uuid.d4.length = 8 ∧ bs =
    p ++ (encUuid true c.uuid ++ (enc16 true c.sessionKey ++ (enc16 true c.alarmSeq ++ (enc16 true c.command ++ enc16 true c.props))))) := by
  unfold getControl
  refine (Inv.bind (inv_getU16 true) fun a => Inv.bind Read.inv_getUuid fun b => Inv.bind (inv_getU16 true) fun d =>
    Inv.bind (inv_getU16 true) fun f => Inv.bind (inv_getU16 true) fun g => Inv.bind (inv_getU16 true) fun i => Inv.pure _).mono ?_
  rintro u bs ⟨a, x, y, rfl, rfl, b, x2, y2, rfl, ⟨rfl, hb⟩, c, x3, y3, rfl, rfl, d, x4, y4, rfl, rfl, f, x5, y5, rfl, rfl,
    g, x6, y6, rfl, rfl, rfl, rfl⟩
  exact ⟨enc16 true a, enc16_length _ _, hb, by simp⟩

/-- One round of the loop, unfolded. -/
theorem loop_succ (k : Kind) (n : Nat) (a : Acc) (r : Rd) : loop k (n + 1) a r =
    if r.err = .ok ∧ r.pos + 6 ≤ r.len then
      (getBlockHeader r).bind fun x =>
        if x.2.err = .ok ∧ x.2.pos + x.1.length.toNat + 4 - 6 ≤ x.2.len then
          if x.1.type ∈ k.types then
            (getControl x.2).bind fun y => loop k n { a with type := x.1.type, ctl := y.1 } y.2
          else loop k n { a with ok := false, res := setError k.unknown a.res } x.2
        else loop k n a x.2
    else some (a, r) := by
  show (if _ then _ else _ : P Acc) r = _
  split
  · show (getBlockHeader r).bind _ = _
    congr 1
    funext x
    show (if _ then _ else _ : P Acc) x.2 = _
    split
    · show (if _ then _ else _ : P Acc) x.2 = _
      split
      · rfl
      · rfl
    · rfl
  · rfl

/-- What is known after the loop. -/
structure Post (k : Kind) (a : Acc) (r : Rd) (a' : Acc) (r' : Rd) : Prop where
  len : r'.len = r.len
  pos : r.pos ≤ r'.pos
  good : r'.err = .ok → a'.ok = true → a.ok = true ∧ a'.res = a.res ∧
    ((a'.type = a.type ∧ a'.ctl = a.ctl) ∨ (a'.type ∈ k.types ∧ Contains r a'.type a'.ctl))
  bad : a'.ok = false → a.ok = true → a'.res.status = k.unknown
  same : a'.ok = true → a.ok = true ∧ a'.res = a.res
  stuck : a.ok = false → a'.ok = false

/-- The reader stands in a message. -/
def Sound (r : Rd) : Prop := r.be = true ∧ r.null = false ∧ r.len ≤ r.buf.length ∧ r.pos ≤ r.len

theorem hdr_step {r r1 : Rd} {h : BlockHeader} (hs : Sound r) (he : r.err = .ok) (e : getBlockHeader r = some (h, r1)) (h1 : r1.err = .ok) :
    r1 = { r with pos := r.pos + 6 } ∧ slice r.buf r.pos 6 = some (encBlockHeader true h) ∧ r.pos + 6 ≤ r.len := by
  obtain ⟨bs, k1, k2, k3, k4⟩ := (inv_getBlockHeader true).2 r h r1 hs.1 he hs.2.2.2 (by have := hs.2.2; omega) e h1
  subst k4
  rw [Read.encHdr_length] at k1 k2 k3
  exact ⟨k1, k2, k3⟩

/-- The loop ends. -/
theorem loop_post (k : Kind) (n : Nat) : ∀ (a : Acc) (r : Rd), (r.err = .ok → Sound r) → r.null = false → r.len ≤ r.buf.length → r.len < n + r.pos → 0 < n →
    ∃ a' r', loop k n a r = some (a', r') ∧ Post k a r a' r' := by
  induction n with
  | zero => intro a r _ _ _ _ h; omega
  | succ n ih =>
    intro a r hs hn hl hf _
    rw [loop_succ]
    by_cases c : r.err = .ok ∧ r.pos + 6 ≤ r.len
    · rw [if_pos c]
      have hs := hs c.1
      obtain ⟨h, r1, e1, b1, n1, l1, m1, x1, s1⟩ := safe_getBlockHeader r (fun _ => hl)
      rw [e1, Option.bind_some]
      simp only
      by_cases c1 : r1.err = .ok
      · obtain ⟨q1, q2, q3⟩ := hdr_step hs c.1 e1 c1
        subst q1
        have hs1 : Sound { r with pos := r.pos + 6 } := ⟨hs.1, hs.2.1, hs.2.2.1, q3⟩
        by_cases c2 : r.pos + 6 + h.length.toNat + 4 - 6 ≤ r.len
        · rw [if_pos ⟨c1, c2⟩]
          by_cases c3 : h.type ∈ k.types
          · rw [if_pos c3]
            obtain ⟨ctl, r2, e2, b2, n2, l2, m2, x2, s2⟩ := safe_getControl { r with pos := r.pos + 6 } (fun _ => hl)
            simp only at b2 n2 l2 m2 x2 s2
            rw [e2, Option.bind_some]
            simp only
            have hblock : r2.err = .ok → r2 = { r with pos := r.pos + 32 } ∧ At r r.pos h.type ctl := by
              intro c4
              obtain ⟨bs, k1, k2, k3, p, hp, hc, rfl⟩ := inv_ctl.2 { r with pos := r.pos + 6 } ctl r2 hs1.1 c1 hs1.2.2.2
                (by have := hs1.2.2; omega) e2 c4
              rw [ctl_length hp hc] at k1 k3
              have hfull := slice_append_of (off := r.pos) (y := p ++ (encUuid true ctl.uuid ++ (enc16 true ctl.sessionKey ++
                (enc16 true ctl.alarmSeq ++ (enc16 true ctl.command ++ enc16 true ctl.props)))))
                (show slice r.buf r.pos (encBlockHeader true h).length = _ by rw [Read.encHdr_length]; exact q2)
                (by rw [Read.encHdr_length]; exact k2)
              rw [List.length_append, Read.encHdr_length, ctl_length hp hc] at hfull
              refine ⟨by rw [k1], h, p, rfl, hp, hc, by omega, by simp only at k3; omega, ?_⟩
              rw [encCtl_eq]
              exact hfull
            obtain ⟨a', r', e3, P⟩ := ih { a with type := h.type, ctl := ctl } r2
              (fun c4 => by
                obtain ⟨rfl, h, p, _, _, _, _, q, _⟩ := hblock c4
                exact ⟨hs.1, hs.2.1, hs.2.2.1, q⟩)
              (by rw [n2]; exact hn) (by rw [l2, b2]; exact hl) (by omega) (by omega)
            refine ⟨a', r', e3, ⟨by rw [P.len, l2], by have := P.pos; omega, ?_, P.bad, P.same, P.stuck⟩⟩
            intro g1 g2
            obtain ⟨f1, f2, f3⟩ := P.good g1 g2
            refine ⟨f1, f2, Or.inr ?_⟩
            have c4 : r2.err = .ok := by
              by_cases c4 : r2.err = .ok
              · exact c4
              · exfalso
                rw [show n = n - 1 + 1 by omega, loop_succ, if_neg (by simp [c4])] at e3
                cases e3
                exact c4 g1
            obtain ⟨rfl, hat⟩ := hblock c4
            rcases f3 with ⟨f3, f4⟩ | ⟨f3, off, f4, f5⟩
            · rw [f3, f4]
              exact ⟨c3, r.pos, Nat.le_refl _, hat⟩
            · exact ⟨f3, off, by simp only at f4; omega, f5⟩
          · rw [if_neg c3]
            obtain ⟨a', r', e3, P⟩ := ih { a with ok := false, res := setError k.unknown a.res } { r with pos := r.pos + 6 } (fun _ => hs1) hn hl
              (by simp only; omega) (by omega)
            refine ⟨a', r', e3, ⟨P.len, by have := P.pos; simp only at this; omega, ?_, ?_, ?_, fun _ => P.stuck rfl⟩⟩
            · intro g1 g2
              have := P.stuck rfl
              rw [this] at g2; cases g2
            · intro g1 _
              have : ∀ (m : Nat) (b : Acc) (x : Rd) (b' : Acc) (x' : Rd), b.ok = false → b.res.status = k.unknown →
                  loop k m b x = some (b', x') → b'.res.status = k.unknown := by
                intro m
                induction m with
                | zero => intro b x b' x' _ _ h; cases h
                | succ m ihm =>
                  intro b x b' x' h1 h2 h3
                  rw [loop_succ] at h3
                  split at h3
                  · cases hh : getBlockHeader x with
                    | none => rw [hh] at h3; cases h3
                    | some y =>
                      rw [hh, Option.bind_some] at h3
                      split at h3
                      · split at h3
                        · cases hg : getControl y.2 with
                          | none => rw [hg] at h3; cases h3
                          | some z =>
                            rw [hg, Option.bind_some] at h3
                            exact ihm { b with type := y.1.type, ctl := z.1 } _ _ _ h1 h2 h3
                        · exact ihm { b with ok := false, res := setError k.unknown b.res } _ _ _ rfl rfl h3
                      · exact ihm _ _ _ _ h1 h2 h3
                  · cases h3
                    exact h2
              exact this n _ _ _ _ rfl rfl e3
            · intro g
              have := P.stuck rfl
              rw [this] at g; cases g
        · rw [if_neg (by simp only; intro c3; exact c2 c3.2)]
          obtain ⟨a', r', e3, P⟩ := ih a { r with pos := r.pos + 6 } (fun _ => hs1) hn hl (by simp only; omega) (by omega)
          refine ⟨a', r', e3, ⟨P.len, by have := P.pos; simp only at this; omega, ?_, P.bad, P.same, P.stuck⟩⟩
          intro g1 g2
          obtain ⟨f1, f2, f3⟩ := P.good g1 g2
          refine ⟨f1, f2, ?_⟩
          rcases f3 with f3 | ⟨f3, off, f4, f5⟩
          · exact Or.inl f3
          · exact Or.inr ⟨f3, off, by simp only at f4; omega, f5⟩
      · rw [if_neg (by intro c2; exact c1 c2.1)]
        have hn' : 0 < n := by omega
        refine ⟨a, r1, ?_, ⟨l1, m1, fun g1 _ => absurd g1 c1, fun g1 g2 => (by rw [g1] at g2; cases g2), fun g => ⟨g, rfl⟩, fun g => g⟩⟩
        rw [show n = n - 1 + 1 by omega, loop_succ, if_neg (by simp [c1])]
    · rw [if_neg c]
      exact ⟨a, r, rfl, ⟨rfl, Nat.le_refl _, fun _ g => ⟨g, rfl, Or.inl ⟨rfl, rfl⟩⟩, fun g1 g2 => (by rw [g1] at g2; cases g2), fun g => ⟨g, rfl⟩,
        fun g => g⟩⟩

/-- What an interpreter does with a message. -/
theorem interpret_spec (k : Kind) (args : U32) {c : Control} (hc : c.command ≠ k.command) (res : Result) {r : Rd} (hr : Fit r) :
    ∃ x, interpret k args c res r = some x ∧
      (x.ok = true → x.res = res ∧ x.ctl.command = k.command ∧ args.toNat = r.len - r.pos ∧ x.type ∈ k.types ∧ Contains r x.type x.ctl) ∧
      (x.ok = false → x.res.status ∈ [k.unknown, k.badLen, k.badCmd, k.badParse]) := by
  obtain ⟨h1, h2, h3, h4, h5⟩ := hr
  obtain ⟨a', r', e, P⟩ := loop_post k (r.len + 1) ⟨true, 0, c, res⟩ r (fun _ => ⟨h1, h3, h4, h5⟩) h3 h4 (by omega) (by omega)
  refine ⟨check k args r.pos a' r', by rw [interpret, e]; rfl, ?_, ?_⟩
  · intro g
    unfold check at g ⊢
    by_cases c1 : a'.ok = true
    · rw [if_pos c1] at g ⊢
      by_cases c2 : r'.err = .ok
      · rw [if_pos c2] at g ⊢
        by_cases c3 : r'.pos ≠ r'.len
        · rw [if_pos c3] at g; cases g
        · rw [if_neg c3] at g ⊢
          by_cases c4 : r'.pos - r.pos ≠ args.toNat
          · rw [if_pos c4] at g; cases g
          · rw [if_neg c4] at g ⊢
            by_cases c5 : a'.ctl.command ≠ k.command
            · rw [if_pos c5] at g; cases g
            · rw [if_neg c5] at g ⊢
              simp only [ne_eq, Decidable.not_not] at c3 c4 c5
              obtain ⟨_, f2, f3⟩ := P.good c2 c1
              refine ⟨f2, c5, by have := P.len; omega, ?_⟩
              rcases f3 with ⟨_, f4⟩ | f3
              · rw [f4] at c5
                exact absurd c5 hc
              · exact f3
      · rw [if_neg c2] at g; cases g
    · rw [if_neg c1] at g
      exact absurd g c1
  · intro g
    unfold check at g ⊢
    by_cases c1 : a'.ok = true
    · rw [if_pos c1] at g ⊢
      by_cases c2 : r'.err = .ok
      · rw [if_pos c2] at g ⊢
        by_cases c3 : r'.pos ≠ r'.len
        · rw [if_pos c3]; simp [setError]
        · rw [if_neg c3] at g ⊢
          by_cases c4 : r'.pos - r.pos ≠ args.toNat
          · rw [if_pos c4]; simp [setError]
          · rw [if_neg c4] at g ⊢
            by_cases c5 : a'.ctl.command ≠ k.command
            · rw [if_pos c5]; simp [setError]
            · rw [if_neg c5, c1] at g
              cases g
      · rw [if_neg c2]; simp [setError]
    · rw [if_neg c1]
      rw [P.bad (by simpa using c1) rfl]
      simp

/-- A message of one block. -/
theorem loop_message (k : Kind) (c0 : Control) (res : Result) {r : Rd} (hr : Fit r) {t : U16} {c : Control}
    (hm : Message r t c) (ht : t ∈ k.types) :
    loop k (r.len + 1) ⟨true, 0, c0, res⟩ r = some (⟨true, t, c, res⟩, { r with pos := r.pos + 32 }) := by
  obtain ⟨h1, h2, h3, h4, h5⟩ := hr
  obtain ⟨m1, h, p, rfl, hp, hu, q1, q2, q3⟩ := hm
  rw [encCtl_eq] at q3
  have l26 := ctl_length (c := c) hp hu
  obtain ⟨q4, q5⟩ := slice_append (l := r.buf) (off := r.pos) (x := encBlockHeader true h) (y := p ++ (encUuid true c.uuid ++
    (enc16 true c.sessionKey ++ (enc16 true c.alarmSeq ++ (enc16 true c.command ++ enc16 true c.props))))) (by
    rw [List.length_append, Read.encHdr_length, l26]; exact q3)
  rw [Read.encHdr_length] at q4 q5
  have e1 : getBlockHeader r = some (h, { r with pos := r.pos + 6 }) := by
    have := parses_getBlockHeader true h r h2 h3 h1 (by rw [Read.encHdr_length]; omega) (by rw [Read.encHdr_length]; exact q4)
    rw [Read.encHdr_length] at this
    rw [this]
    cases r; cases h1; rfl
  have e2 : getControl { r with pos := r.pos + 6 } = some (c, { r with pos := r.pos + 32 }) := by
    have := parses_ctl hp hu { r with pos := r.pos + 6 } h2 h3 h1 (by rw [l26]; simp only; omega) q5
    rw [l26] at this
    rw [this]
    cases r; cases h1; rfl
  rw [loop_succ, if_pos ⟨h2, by omega⟩, e1, Option.bind_some]
  simp only
  rw [if_pos ⟨h2, by omega⟩, if_pos ht, e2, Option.bind_some]
  simp only
  rw [show r.len = r.len - 1 + 1 by omega, loop_succ, if_neg (by simp only; omega)]

theorem interpret_message (k : Kind) {args : U32} (ha : args.toNat = 32) (c0 : Control) (res : Result) {r : Rd} (hr : Fit r) {t : U16} {c : Control}
    (hm : Message r t c) (ht : t ∈ k.types) (hc : c.command = k.command) :
    interpret k args c0 res r = some ⟨true, t, c, res⟩ := by
  unfold interpret
  rw [loop_message k c0 res hr hm ht, Option.map_some]
  have h1 := hm.1
  unfold check
  simp only
  rw [if_pos trivial, if_pos hr.2.1, if_neg (by omega), if_neg (by omega), if_neg (by simp [hc])]

/-- A message of one block with another command. -/
theorem interpret_command (k : Kind) {args : U32} (ha : args.toNat = 32) (c0 : Control) (res : Result) {r : Rd} (hr : Fit r) {t : U16} {c : Control}
    (hm : Message r t c) (ht : t ∈ k.types) (hc : c.command ≠ k.command) :
    interpret k args c0 res r = some ⟨false, t, c, setError k.badCmd res⟩ := by
  unfold interpret
  rw [loop_message k c0 res hr hm ht, Option.map_some]
  have h1 := hm.1
  unfold check
  simp only
  rw [if_pos trivial, if_pos hr.2.1, if_neg (by omega), if_neg (by omega), if_pos (by simp [hc])]

/-- A message of one block of an unknown type. -/
theorem interpret_unknown (k : Kind) (args : U32) (c0 : Control) (res : Result) {r : Rd} (hr : Fit r) {t : U16} {c : Control}
    (hm : Message r t c) (ht : t ∉ k.types) :
    ∃ x, interpret k args c0 res r = some x ∧ x.ok = false ∧ x.res.status = k.unknown := by
  obtain ⟨h1, h2, h3, h4, h5⟩ := hr
  obtain ⟨m1, h, p, rfl, hp, hu, q1, q2, q3⟩ := hm
  rw [encCtl_eq] at q3
  have l26 := ctl_length (c := c) hp hu
  obtain ⟨q4, q5⟩ := slice_append (l := r.buf) (off := r.pos) (x := encBlockHeader true h) (y := p ++ (encUuid true c.uuid ++
    (enc16 true c.sessionKey ++ (enc16 true c.alarmSeq ++ (enc16 true c.command ++ enc16 true c.props))))) (by
    rw [List.length_append, Read.encHdr_length, l26]; exact q3)
  rw [Read.encHdr_length] at q4 q5
  have e1 : getBlockHeader r = some (h, { r with pos := r.pos + 6 }) := by
    have := parses_getBlockHeader true h r h2 h3 h1 (by rw [Read.encHdr_length]; omega) (by rw [Read.encHdr_length]; exact q4)
    rw [Read.encHdr_length] at this
    rw [this]
    cases r; cases h1; rfl
  obtain ⟨a', r', e, P⟩ := loop_post k (r.len + 1) ⟨true, 0, c0, res⟩ r (fun _ => ⟨h1, h3, h4, h5⟩) h3 h4 (by omega) (by omega)
  have e' := e
  rw [loop_succ, if_pos ⟨h2, by omega⟩, e1, Option.bind_some] at e'
  simp only at e'
  rw [if_pos ⟨h2, by omega⟩, if_neg ht] at e'
  obtain ⟨a2, r2, e2, P2⟩ := loop_post k r.len ⟨false, 0, c0, setError k.unknown res⟩ { r with pos := r.pos + 6 }
    (fun _ => ⟨h1, h3, h4, by simp only; omega⟩) h3 h4 (by simp only; omega) (by omega)
  rw [e2] at e'
  cases e'
  have hf := P2.stuck rfl
  refine ⟨a', ?_, hf, P.bad hf rfl⟩
  unfold interpret
  rw [e, Option.map_some]
  unfold check
  rw [if_neg (by simp [hf])]

/-- A message of 32 bytes has at most one block. -/
theorem message_of_contains {r : Rd} (h32 : r.len - r.pos = 32) {t : U16} {c : Control} (h : Contains r t c) : Message r t c := by
  obtain ⟨off, h1, h2⟩ := h
  obtain ⟨hd, p, a1, a2, a3, a4, a5, a6⟩ := h2
  have : off = r.pos := by omega
  subst this
  exact ⟨by omega, hd, p, a1, a2, a3, a4, a5, a6⟩

theorem wf_of_contains {r : Rd} {t : U16} {c : Control} (h : Contains r t c) : c.uuid.d4.length = 8 := by
  obtain ⟨off, h1, hd, p, a1, a2, a3, a4, a5, a6⟩ := h
  exact a3

/-! ## Answers -/

theorem wsafe_control (t : U16) (c : Control) : WSafe (putControl true t c) := by
  unfold putControl
  exact wsafe_putBlock (WSafe.seq (WSafe.seq (WSafe.seq (WSafe.seq (WSafe.seq (WSafe.seq (wsafe_putByte _) (wsafe_putByte _)) (wsafe_putUuid _ _))
    (wsafe_putU16 _ _)) (wsafe_putU16 _ _)) (wsafe_putU16 _ _)) (wsafe_putU16 _ _))

theorem enc_eq (t : U16) (c : Control) : encBlockHeader true ⟨t, 28, 1, 0⟩ ++ encControl true c = encCtl ⟨t, 28, 1, 0⟩ [0, 0] c := by
  rw [encCtl_eq]
  have h0 : enc16 true 0 = [0, 0] := by decide
  unfold encControl
  rw [h0]
  simp only [List.append_assoc]

theorem emits_control (t : U16) {c : Control} (h : c.uuid.d4.length = 8) : Emits (putControl true t (done c)) (encDone t c) := by
  rw [encDone, ← enc_eq]
  exact emits_of (writes_putControl h) (wsafe_control _ _)

theorem encDone_length (t : U16) {c : Control} (h : c.uuid.d4.length = 8) : (encDone t c).length = 32 := encCtl_length rfl h

theorem encAnswer_length (ndr : Ndr) (s : Status) (b : List Byte) : (encAnswer ndr s b).length = 20 + b.length := by
  unfold encAnswer
  have ls : (Read.encStatus s).length = 4 := rfl
  simp only [List.length_append, ls, Records.num32_length, enc32_length]

theorem answer_at (ndr : Ndr) (s : Status) {p : W} {bs : List Byte} (hp : Emits p bs) {w : Wr} (hw : Read.Ready w) :
    ∃ w' ndr', answer ndr s p w = some (w', ndr') ∧ Within w w' ∧ ndr'.maxCount = ndr.maxCount ∧ ndr'.offset = ndr.offset ∧
      (w.pos + 20 + (if s.code = 0 then bs else []).length ≤ w.cap →
        ndr'.argsLen.toNat = (if s.code = 0 then bs else []).length ∧ Appends w w' (encAnswer ndr s (if s.code = 0 then bs else []))) := by
  have hq : Emits (if s.code = 0 then p else skip) (if s.code = 0 then bs else []) := by
    split
    · exact hp
    · exact emits_skip
  unfold answer
  generalize (if s.code = 0 then p else skip) = q at *
  generalize (if s.code = 0 then bs else []) = cs at *
  obtain ⟨w1, e1, h1, r1⟩ := Read.within_of_emits (DiagRead.emits_of (Read.writes_putStatus s) (Read.wsafe_putStatus _)) hw
  obtain ⟨w2, e2, h2, r2⟩ := Read.within_of_emits (DiagRead.emits_of (Read.writes_putNdr ndr) (Read.wsafe_putNdr _)) (h1.ready hw)
  have h02 := h1.trans h2
  obtain ⟨w3, e3, h3, r3⟩ := Read.within_of_emits hq (h02.ready hw)
  have h03 := h02.trans h3
  have ls : (Read.encStatus s).length = 4 := rfl
  have ln : ∀ n : Ndr, (enc32 true n.argsLen ++ enc32 true n.maxCount ++ enc32 true n.offset ++ enc32 true n.actual).length = 16 := by
    intro n; simp [enc32_length]
  obtain ⟨w5, e5, h5, r5⟩ := Read.patch (pre := Read.encStatus s)
    (old := enc32 true ndr.argsLen ++ enc32 true ndr.maxCount ++ enc32 true ndr.offset ++ enc32 true ndr.actual) (post := cs)
    (Read.writes_putNdr { ndr with argsLen := BitVec.ofNat 32 (w3.pos - w2.pos), actual := BitVec.ofNat 32 (w3.pos - w2.pos) })
    (Read.wsafe_putNdr _) (by rw [ln, ln]) hw h03 (k := w1.pos) h1.2.2.1
  refine ⟨{ w5 with pos := w3.pos }, { ndr with argsLen := BitVec.ofNat 32 (w3.pos - w2.pos), actual := BitVec.ofNat 32 (w3.pos - w2.pos) }, ?_, h5, rfl, rfl, ?_⟩
  · rw [e1, Option.bind_some, e2, Option.bind_some, e3, Option.bind_some]
    simp only [e5, Option.map_some]
  · intro hr
    have c1 := h1.1
    have a1 := r1 (by rw [ls]; omega)
    have p1' := a1.2.2.1
    rw [ls] at p1'
    have a2 := r2 (by rw [ln]; omega)
    have p2' := a2.2.2.1
    rw [ln] at p2'
    have k2 := r3 (by have := h02.1; omega)
    have a02 := a1.trans (by have := h1.2.2.2.1; omega) a2
    have a03 := a02.trans (by have := h02.2.2.2.1; have := h02.1; omega) k2
    have b5 := r5 (by simpa using a03) (by rw [ls]; omega)
    have hn : w3.pos - w2.pos = cs.length := by have := k2.2.2.1; omega
    refine ⟨?_, ?_⟩
    · simp only [hn, BitVec.toNat_ofNat]
      have := hw.2.1
      omega
    · rw [hn] at b5
      unfold encAnswer num32
      exact b5

/-- The status of an answer is replaced. -/
theorem restatus (ndr : Ndr) (s s' : Status) (bs : List Byte) {w w1 : Wr} (hw : Read.Ready w) (h : Within w w1) :
    ∃ w2, putStatus true s' { w1 with pos := w.pos } = some w2 ∧ Within w { w2 with pos := w1.pos } ∧
      (Appends w w1 (encAnswer ndr s bs) → Appends w { w2 with pos := w1.pos } (encAnswer ndr s' bs)) := by
  obtain ⟨w5, e5, h5, r5⟩ := Read.patch (pre := []) (old := Read.encStatus s)
    (post := (num32 bs.length ++ enc32 true ndr.maxCount ++ enc32 true ndr.offset ++ num32 bs.length) ++ bs)
    (Read.writes_putStatus s') (Read.wsafe_putStatus _) rfl hw h (k := w.pos) (Nat.le_refl _)
  refine ⟨w5, e5, h5, ?_⟩
  intro ha
  have := r5 (by simpa [encAnswer] using ha) (by simp)
  simpa [encAnswer] using this

end Verif.Control
