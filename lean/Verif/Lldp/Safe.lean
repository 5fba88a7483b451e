import Verif.Lldp.Model
/-! Reading a frame ends and stays inside its arrays. -/
set_option linter.unusedSimpArgs false
set_option linter.unusedVariables false

namespace Verif.Lldp

open Verif.Wire

/-- A reader that works on any frame, returns a value with `Q`, keeps an error, and moves by `lo` to `hi` bytes if there
is none. -/
def Go {α} (p : P α) (Q : α → Prop) (lo hi : Int) : Prop :=
  ∀ r : Rd, r.null = false → r.len ≤ r.buf.length →
    ∃ a r', p r = some (a, r') ∧ r'.buf = r.buf ∧ r'.null = r.null ∧ r'.len = r.len ∧ r'.be = r.be ∧ Q a ∧
      (r'.err = .ok → r.err = .ok ∧
        (0 ≤ r.pos + lo → r.pos + hi < 65536 → r.pos + lo ≤ r'.pos ∧ (r'.pos : Int) ≤ r.pos + hi))

theorem Go.pure {α} {Q : α → Prop} {a : α} (h : Q a) : Go (Pure.pure a : P α) Q 0 0 := by
  intro r hn hl
  exact ⟨a, r, rfl, rfl, rfl, rfl, rfl, h, fun h => ⟨h, fun _ _ => by omega⟩⟩

theorem Go.bind {α β} {p : P α} {f : α → P β} {Q : α → Prop} {R : β → Prop} {lo hi lo' hi' : Int}
    (hp : Go p Q lo hi) (h0 : 0 ≤ lo) (h1 : 0 ≤ hi') (hf : ∀ a, Q a → Go (f a) R lo' hi') :
    Go (p >>= f) R (lo + lo') (hi + hi') := by
  intro r hn hl
  obtain ⟨a, r1, e1, b1, n1, l1, c1, q1, s1⟩ := hp r hn hl
  obtain ⟨c, r2, e2, b2, n2, l2, c2, q2, s2⟩ := hf a q1 r1 (by rw [n1]; exact hn) (by rw [l1, b1]; exact hl)
  refine ⟨c, r2, by simp [e1, e2], by rw [b2, b1], by rw [n2, n1], by rw [l2, l1], by rw [c2, c1], q2, ?_⟩
  intro h
  obtain ⟨k1, k2⟩ := s2 h
  obtain ⟨g1, g2⟩ := s1 k1
  refine ⟨g1, fun a1 a2 => ?_⟩
  have := g2 (by omega) (by omega)
  have := k2 (by omega) (by omega)
  omega

theorem Go.mono {α} {p : P α} {Q R : α → Prop} {lo hi lo' hi' : Int} (h : Go p Q lo hi) (hq : ∀ a, Q a → R a)
    (h1 : lo' ≤ lo) (h2 : hi ≤ hi') : Go p R lo' hi' := by
  intro r hn hl
  obtain ⟨a, r1, e1, b1, n1, l1, c1, q1, s1⟩ := h r hn hl
  refine ⟨a, r1, e1, b1, n1, l1, c1, hq a q1, fun k => ?_⟩
  obtain ⟨k1, k2⟩ := s1 k
  refine ⟨k1, fun a1 a2 => ?_⟩
  have := k2 (by omega) (by omega)
  omega

/-- The form in which the rules are used: what is left to move is computed. -/
theorem Go.step {α β} {p : P α} {f : α → P β} {Q : α → Prop} {R : β → Prop} {a b lo hi : Int} (hp : Go p Q a b)
    (hf : ∀ x, Q x → Go (f x) R (lo - a) (hi - b)) (h0 : 0 ≤ a) (h1 : 0 ≤ hi - b) : Go (p >>= f) R lo hi :=
  (Go.bind hp h0 h1 hf).mono (fun _ h => h) (by omega) (by omega)

theorem Go.done {α} {Q : α → Prop} {x : α} {lo hi : Int} (h : Q x) (h1 : lo ≤ 0) (h2 : 0 ≤ hi) :
    Go (Pure.pure x : P α) Q lo hi := (Go.pure h).mono (fun _ h => h) h1 h2

theorem Go.ite {α} {c : Prop} [Decidable c] {p q : P α} {Q : α → Prop} {lo hi : Int} (hp : c → Go p Q lo hi)
    (hq : ¬ c → Go q Q lo hi) : Go (if c then p else q) Q lo hi := by
  split
  · exact hp ‹_›
  · exact hq ‹_›

theorem go_getByte : Go getByte (fun _ => True) 1 1 := by
  intro r hn hl
  unfold getByte
  split
  · rename_i h
    exact ⟨_, _, rfl, rfl, rfl, rfl, rfl, trivial, fun k => absurd k h⟩
  · rename_i h
    have h : r.err = .ok := by simpa using h
    split
    · exact ⟨_, _, rfl, rfl, rfl, rfl, rfl, trivial, fun k => absurd k (by simp)⟩
    · rw [if_neg (by simp [hn])]
      have hlt : r.pos < r.buf.length := by omega
      rw [List.getElem?_eq_getElem hlt]
      exact ⟨_, _, rfl, rfl, rfl, rfl, rfl, trivial, fun _ => ⟨h, fun _ _ => by simp⟩⟩

theorem go_getMem (n : Nat) : Go (getMem n) (fun d => ∀ x, d = some x → x.length = n) n n := by
  intro r hn hl
  unfold getMem
  split
  · rename_i h
    exact ⟨_, _, rfl, rfl, rfl, rfl, rfl, by simp, fun k => absurd k h⟩
  · rename_i h
    have h : r.err = .ok := by simpa using h
    split
    · exact ⟨_, _, rfl, rfl, rfl, rfl, rfl, by simp, fun k => absurd k (by simp)⟩
    · rw [if_neg (by simp [hn])]
      have hlt : r.pos + n ≤ r.buf.length := by omega
      rw [slice_eq_some hlt]
      refine ⟨_, _, rfl, rfl, rfl, rfl, rfl, ?_, fun _ => ⟨h, fun _ _ => by simp⟩⟩
      intro x hx
      have := Option.some.inj hx
      rw [← this, List.length_take, List.length_drop]
      omega

theorem go_isOk : Go isOk (fun _ => True) 0 0 := by
  intro r hn hl
  exact ⟨_, r, rfl, rfl, rfl, rfl, rfl, trivial, fun h => ⟨h, fun _ _ => by omega⟩⟩

theorem go_isBe : Go isBe (fun _ => True) 0 0 := by
  intro r hn hl
  exact ⟨_, r, rfl, rfl, rfl, rfl, rfl, trivial, fun h => ⟨h, fun _ _ => by omega⟩⟩

theorem go_setErr (lo hi : Int) : Go (setErr .other) (fun _ => True) lo hi := by
  intro r hn hl
  exact ⟨_, _, rfl, rfl, rfl, rfl, rfl, trivial, fun h => absurd h (by simp)⟩

theorem go_skip (n k : Nat) : Go (skip n k) (fun _ => True) ((n : Int) - k) ((n : Int) - k) := by
  intro r hn hl
  refine ⟨_, _, rfl, rfl, rfl, rfl, rfl, trivial, fun h => ⟨h, fun a1 a2 => ?_⟩⟩
  have : ((r.pos + n + 65536 - k) % 65536 : Nat) = r.pos + n - k := by omega
  simp only [this]
  omega

theorem go_getU32 : Go getU32 (fun _ => True) 4 4 := by
  unfold getU32
  refine Go.step go_isBe (fun a _ => Go.ite (fun _ => ?_) fun _ => ?_) (by omega) (by omega)
  all_goals
    refine Go.step go_getByte (fun a _ => ?_) (by omega) (by omega)
    refine Go.step go_getByte (fun a _ => ?_) (by omega) (by omega)
    refine Go.step go_getByte (fun a _ => ?_) (by omega) (by omega)
    refine Go.step go_getByte (fun a _ => ?_) (by omega) (by omega)
    exact Go.done trivial (by omega) (by omega)

theorem go_getU16 : Go getU16 (fun _ => True) 2 2 := by
  intro r hn hl
  by_cases h : r.err = .ok
  · have h1 : Go (do let a ← getByte; let b ← getByte; pure ((a.setWidth 16 <<< 8) + b.setWidth 16 : U16) : P U16)
        (fun _ => True) 2 2 := by
      refine Go.step go_getByte (fun a _ => ?_) (by omega) (by omega)
      refine Go.step go_getByte (fun a _ => ?_) (by omega) (by omega)
      exact Go.done trivial (by omega) (by omega)
    have h2 : Go (do let a ← getByte; let b ← getByte; pure (a.setWidth 16 + (b.setWidth 16 <<< 8) : U16) : P U16)
        (fun _ => True) 2 2 := by
      refine Go.step go_getByte (fun a _ => ?_) (by omega) (by omega)
      refine Go.step go_getByte (fun a _ => ?_) (by omega) (by omega)
      exact Go.done trivial (by omega) (by omega)
    have hk : isOk r = some (true, r) := by simp [isOk, h]
    cases hb : r.be
    · obtain ⟨a, r', k⟩ := h2 r hn hl
      refine ⟨a, r', ?_, ?_⟩
      · rw [← k.1]; simp [getU16, hk, isBe, hb]
      · simpa [hb] using k.2
    · obtain ⟨a, r', k⟩ := h1 r hn hl
      refine ⟨a, r', ?_, ?_⟩
      · rw [← k.1]; simp [getU16, hk, isBe, hb]
      · simpa [hb] using k.2
  · have hk : isOk r = some (false, r) := by
      unfold isOk
      cases hr : r.err <;> simp_all
    exact ⟨0, r, by simp [getU16, hk], rfl, rfl, rfl, rfl, trivial, fun k => absurd k h⟩

theorem go_fill {a : List Byte} {d : Option (List Byte)} {n m : Nat} (hd : ∀ x, d = some x → x.length = n) (hn : n < a.length)
    (hm : a.length = m) : Go (fill a d n) (fun b => b.length = m) 0 0 := by
  intro r hr hl
  have h1 : (d.getD []).length ≤ n := by
    cases d with
    | none => simp
    | some x => simp [hd x rfl]
  obtain ⟨b, hb⟩ : ∃ b, writeAt a 0 (d.getD []) = some b := ⟨_, writeAt_eq_some (by omega)⟩
  have hbl := writeAt_length hb
  obtain ⟨c, hc⟩ : ∃ c, writeAt b n [0] = some c := ⟨_, writeAt_eq_some (by simp; omega)⟩
  refine ⟨c, r, ?_, rfl, rfl, rfl, rfl, ?_, fun h => ⟨h, fun _ _ => by omega⟩⟩
  · unfold fill; rw [hb, Option.bind_some, hc]; rfl
  · exact ((writeAt_length hc).trans hbl).trans hm

theorem go_copy {a : List Byte} {d : Option (List Byte)} {n m : Nat} (hd : ∀ x, d = some x → x.length = n) (hn : n ≤ a.length)
    (hm : a.length = m) : Go (copy a d) (fun b => b.length = m) 0 0 := by
  intro r hr hl
  have h1 : (d.getD []).length ≤ n := by
    cases d with
    | none => simp
    | some x => simp [hd x rfl]
  obtain ⟨b, hb⟩ : ∃ b, writeAt a 0 (d.getD []) = some b := ⟨_, writeAt_eq_some (by omega)⟩
  refine ⟨b, r, ?_, rfl, rfl, rfl, rfl, (writeAt_length hb).trans hm, fun h => ⟨h, fun _ _ => by omega⟩⟩
  unfold copy; rw [hb]; rfl

theorem go_getId {size n : Nat} {x : Id} (hs : x.str.length = size) (h1 : 1 ≤ size) :
    Go (getId size n x) (fun y => y.str.length = size) n n := by
  unfold getId
  refine Go.ite (fun h => ?_) fun h => Go.ite (fun h2 => ?_) fun h2 => ?_
  · exact Go.done hs (by omega) (by omega)
  · exact Go.step (go_skip n 0) (fun _ _ => Go.done hs (by omega) (by omega)) (by omega) (by omega)
  · refine Go.step go_getByte (fun s _ => ?_) (by omega) (by omega)
    refine Go.step (go_getMem (n - 1)) (fun d hd => ?_) (by omega) (by omega)
    refine Go.step (go_fill hd (by omega) hs) (fun a ha => ?_) (by omega) (by omega)
    exact Go.done ha (by omega) (by omega)

theorem go_getTtl (n : Nat) (x : U16) : Go (getTtl n x) (fun _ => True) n n := by
  unfold getTtl
  refine Go.ite (fun h => ?_) fun h => ?_
  · exact Go.step (go_setErr n n) (fun _ _ => Go.done trivial (by omega) (by omega)) (by omega) (by omega)
  · have : n = 2 := by simpa using h
    subst this; exact go_getU16

theorem go_getDesc {size n : Nat} {x : Desc} (hs : x.str.length = size) (h1 : 1 ≤ size) :
    Go (getDesc size n x) (fun y => y.str.length = size) n n := by
  unfold getDesc
  refine Go.ite (fun h => ?_) fun h => ?_
  · exact Go.step (go_skip n 0) (fun _ _ => Go.done hs (by omega) (by omega)) (by omega) (by omega)
  · refine Go.step (go_getMem n) (fun d hd => ?_) (by omega) (by omega)
    refine Go.step (go_fill hd (by omega) hs) (fun a ha => ?_) (by omega) (by omega)
    exact Go.done ha (by omega) (by omega)

theorem go_getMgmt {n : Nat} (hn : n ≤ 511) : Go (getMgmt n) (fun y => y.value.length = 31) 0 600 := by
  unfold getMgmt
  refine Go.step go_getByte (fun l _ => Go.ite (fun h => ?_) fun h => ?_) (by omega) (by omega)
  · intro r hr hl
    obtain ⟨a, r1, e1, b1, n1, l1, c1, q1, s1⟩ := go_skip n 1 r hr hl
    refine ⟨_, r1, by rw [P.bind_def, e1]; rfl, b1, n1, l1, c1, rfl, fun k => ?_⟩
    obtain ⟨k1, k2⟩ := s1 k
    refine ⟨k1, fun a1 a2 => ?_⟩
    have := k2 (by omega) (by omega)
    omega
  · have hl : l.toNat - 1 ≤ 31 := by omega
    have he : (Peer.empty 0).mgmt.value.length = 31 := rfl
    refine Go.step go_getByte (fun s _ => ?_) (by omega) (by omega)
    refine Go.step (go_getMem _) (fun d hd => ?_) (by omega) (by omega)
    refine Go.step (go_copy hd (by rw [he]; exact hl) he) (fun a ha => ?_) (by omega) (by omega)
    refine Go.step go_getByte (fun is _ => ?_) (by omega) (by omega)
    refine Go.step go_getU32 (fun i _ => ?_) (by omega) (by omega)
    refine Go.step go_getByte (fun o _ => ?_) (by omega) (by omega)
    have := o.isLt
    refine Go.step (go_skip o.toNat 0) (fun _ _ => ?_) (by omega) (by omega)
    exact Go.done ha (by omega) (by omega)

theorem go_err {α} {Q : α → Prop} {x : α} {lo hi : Int} (h : Q x) : Go (do setErr .other; pure x : P α) Q lo hi := by
  intro r hr hl
  exact ⟨x, _, rfl, rfl, rfl, rfl, rfl, h, fun h => absurd h (by simp)⟩

theorem go_getDelay (n : Nat) (x : Delay) : Go (getDelay n x) (fun _ => True) ((n : Int) - 4) 596 := by
  unfold getDelay
  refine Go.ite (fun h => go_err trivial) fun h => ?_
  have : n = 24 := by simpa using h
  subst this
  refine Go.step go_getU32 (fun _ _ => ?_) (by omega) (by omega)
  refine Go.step go_getU32 (fun _ _ => ?_) (by omega) (by omega)
  refine Go.step go_getU32 (fun _ _ => ?_) (by omega) (by omega)
  refine Go.step go_getU32 (fun _ _ => ?_) (by omega) (by omega)
  refine Go.step go_getU32 (fun _ _ => ?_) (by omega) (by omega)
  exact Go.done trivial (by omega) (by omega)

theorem go_getStatus {n : Nat} {x : List Byte} (hx : x.length = 4) :
    Go (getStatus n x) (fun y => y.length = 4) ((n : Int) - 4) 596 := by
  unfold getStatus
  refine Go.ite (fun h => go_err hx) fun h => ?_
  have : n = 8 := by simpa using h
  subst this
  refine Go.step (go_getMem 4) (fun d hd => ?_) (by omega) (by omega)
  exact (go_copy hd (by omega) hx).mono (fun _ h => h) (by omega) (by omega)

theorem go_getMac {n : Nat} {x : List Byte} (hx : x.length = 6) :
    Go (getMac n x) (fun y => y.length = 6) ((n : Int) - 4) 596 := by
  unfold getMac
  refine Go.ite (fun h => go_err hx) fun h => ?_
  have : n = 10 := by simpa using h
  subst this
  refine Go.step (go_getMem 6) (fun d hd => ?_) (by omega) (by omega)
  exact (go_copy hd (by omega) hx).mono (fun _ h => h) (by omega) (by omega)

theorem go_getLink (n : Nat) : Go (getLink n) (fun _ => True) ((n : Int) - 4) 596 := by
  unfold getLink
  refine Go.ite (fun h => go_err trivial) fun h => ?_
  have : n = 9 := by simpa using h
  subst this
  refine Go.step go_getByte (fun _ _ => ?_) (by omega) (by omega)
  refine Go.step go_getU16 (fun _ _ => ?_) (by omega) (by omega)
  refine Go.step go_getU16 (fun _ _ => ?_) (by omega) (by omega)
  exact Go.done trivial (by omega) (by omega)

/-- The arrays have their sizes. -/
structure Wf (z : Nat) (p : Peer) : Prop where
  chassis : p.chassis.str.length = chassisSize
  port : p.port.str.length = portIdSize
  desc : p.desc.str.length = z
  mgmt : p.mgmt.value.length = 31
  status : p.status.length = 4
  mac : p.mac.length = 6

theorem wf_empty (z : Nat) : Wf z (Peer.empty z) :=
  ⟨List.length_replicate, List.length_replicate, List.length_replicate, List.length_replicate, List.length_replicate,
    List.length_replicate⟩

/-- A part of the record is replaced. -/
theorem Go.part {α} {q : P α} {Q : α → Prop} {R : Peer → Prop} {f : α → Peer} {lo hi : Int} (hq : Go q Q lo hi)
    (hw : ∀ a, Q a → R (f a)) : Go (q >>= fun a => (Pure.pure (f a) : P Peer)) R lo hi := by
  intro r hr hl
  obtain ⟨a, r1, e1, b1, n1, l1, c1, q1, s1⟩ := hq r hr hl
  exact ⟨f a, r1, by simp [e1], b1, n1, l1, c1, hw a q1, s1⟩

theorem go_skip' {n k : Nat} {p : Peer} {R : Peer → Prop} (hp : R p) {lo hi : Int} (h1 : lo ≤ (n : Int) - k)
    (h2 : (n : Int) - k ≤ hi) : Go (do skip n k; pure p : P Peer) R lo hi :=
  Go.part (f := fun _ => p) ((go_skip n k).mono (fun _ h => h) h1 h2) fun _ _ => hp

theorem go_getOrgSpec {z n : Nat} (hn : n ≤ 511) {p : Peer} (hp : Wf z p) : Go (getOrgSpec n p) (Wf z) n 600 := by
  unfold getOrgSpec
  have hO : Go getOrg (fun _ => True) 4 4 := by
    unfold getOrg
    refine Go.step (go_getMem 3) (fun _ _ => ?_) (by omega) (by omega)
    refine Go.step go_getByte (fun _ _ => ?_) (by omega) (by omega)
    exact Go.done trivial (by omega) (by omega)
  refine Go.step hO (fun h _ => ?_) (by omega) (by omega)
  have e : (600 : Int) - 4 = 596 := by omega
  rw [e]
  have hskip := go_skip' (n := n) (k := 4) (R := Wf z) hp (lo := (n : Int) - 4) (hi := 596) (by omega) (by omega)
  refine Go.ite (fun _ => Go.ite (fun _ => ?_) fun _ => Go.ite (fun _ => ?_) fun _ => Go.ite (fun _ => ?_) fun _ => hskip)
    fun _ => Go.ite (fun _ => Go.ite (fun _ => ?_) fun _ => hskip) fun _ => hskip
  · exact Go.part (go_getDelay n _) fun a _ => ⟨hp.chassis, hp.port, hp.desc, hp.mgmt, hp.status, hp.mac⟩
  · exact Go.part (go_getStatus hp.status) fun a ha => ⟨hp.chassis, hp.port, hp.desc, hp.mgmt, ha, hp.mac⟩
  · exact Go.part (go_getMac hp.mac) fun a ha => ⟨hp.chassis, hp.port, hp.desc, hp.mgmt, hp.status, ha⟩
  · exact Go.part (go_getLink n) fun a _ => ⟨hp.chassis, hp.port, hp.desc, hp.mgmt, hp.status, hp.mac⟩

theorem go_getField {z t n : Nat} (hz : 1 ≤ z) (hn : n ≤ 511) {p : Peer} (hp : Wf z p) :
    Go (getField z t n p) (Wf z) 0 600 := by
  unfold getField
  refine Go.ite (fun _ => ?_) fun _ => Go.ite (fun _ => ?_) fun _ => Go.ite (fun _ => ?_) fun _ => Go.ite (fun _ => ?_)
    fun _ => Go.ite (fun _ => ?_) fun _ => Go.ite (fun _ => ?_) fun _ => ?_
  · exact Go.part ((go_getId hp.chassis (by omega)).mono (fun _ h => h) (by omega) (by omega)) fun a ha =>
      ⟨ha, hp.port, hp.desc, hp.mgmt, hp.status, hp.mac⟩
  · exact Go.part ((go_getId hp.port (by omega)).mono (fun _ h => h) (by omega) (by omega)) fun a ha =>
      ⟨hp.chassis, ha, hp.desc, hp.mgmt, hp.status, hp.mac⟩
  · exact Go.part ((go_getTtl n _).mono (fun _ h => h) (by omega) (by omega)) fun a ha =>
      ⟨hp.chassis, hp.port, hp.desc, hp.mgmt, hp.status, hp.mac⟩
  · exact Go.part ((go_getDesc hp.desc hz).mono (fun _ h => h) (by omega) (by omega)) fun a ha =>
      ⟨hp.chassis, hp.port, ha, hp.mgmt, hp.status, hp.mac⟩
  · refine Go.part (go_getMgmt hn) fun a ha => ?_
    split
    · exact ⟨hp.chassis, hp.port, hp.desc, ha, hp.status, hp.mac⟩
    · exact hp
  · exact (go_getOrgSpec hn hp).mono (fun _ h => h) (by omega) (by omega)
  · exact go_skip' hp (by omega) (by omega)

/-- Except for a management address a field is not left before its end. -/
theorem go_getField_end {z t n : Nat} (hz : 1 ≤ z) (hn : n ≤ 511) (ht : t ≠ 8) {p : Peer} (hp : Wf z p) :
    Go (getField z t n p) (Wf z) n 600 := by
  unfold getField
  refine Go.ite (fun _ => ?_) fun _ => Go.ite (fun _ => ?_) fun _ => Go.ite (fun _ => ?_) fun _ => Go.ite (fun _ => ?_)
    fun _ => Go.ite (fun h => absurd h ht) fun _ => Go.ite (fun _ => ?_) fun _ => ?_
  · exact Go.part ((go_getId hp.chassis (by omega)).mono (fun _ h => h) (by omega) (by omega)) fun a ha =>
      ⟨ha, hp.port, hp.desc, hp.mgmt, hp.status, hp.mac⟩
  · exact Go.part ((go_getId hp.port (by omega)).mono (fun _ h => h) (by omega) (by omega)) fun a ha =>
      ⟨hp.chassis, ha, hp.desc, hp.mgmt, hp.status, hp.mac⟩
  · exact Go.part ((go_getTtl n _).mono (fun _ h => h) (by omega) (by omega)) fun a ha =>
      ⟨hp.chassis, hp.port, hp.desc, hp.mgmt, hp.status, hp.mac⟩
  · exact Go.part ((go_getDesc hp.desc hz).mono (fun _ h => h) (by omega) (by omega)) fun a ha =>
      ⟨hp.chassis, hp.port, ha, hp.mgmt, hp.status, hp.mac⟩
  · exact (go_getOrgSpec hn hp).mono (fun _ h => h) (by omega) (by omega)
  · exact go_skip' hp (by omega) (by omega)

theorem getByte_pos {r r' : Rd} {a : Byte} (h : getByte r = some (a, r')) (he : r'.err = .ok) :
    r.err = .ok ∧ r'.pos = r.pos + 1 ∧ r'.pos ≤ r.len := by
  unfold getByte at h
  split at h
  · rename_i k
    obtain ⟨_, h⟩ := Prod.mk.inj (Option.some.inj h)
    subst h; exact absurd he k
  · rename_i k
    split at h
    · obtain ⟨_, h⟩ := Prod.mk.inj (Option.some.inj h)
      subst h; simp at he
    · rename_i k2
      split at h
      · obtain ⟨_, h⟩ := Prod.mk.inj (Option.some.inj h)
        subst h; simp at he
      · cases hb : r.buf[r.pos]? with
        | none => rw [hb] at h; simp at h
        | some x =>
          rw [hb] at h
          obtain ⟨_, h⟩ := Prod.mk.inj (Option.some.inj h)
          subst h
          exact ⟨by simpa using k, rfl, by show r.pos + 1 ≤ r.len; omega⟩

theorem getU16_pos {r r' : Rd} {a : U16} (h : getU16 r = some (a, r')) (he : r'.err = .ok) :
    r.err = .ok ∧ r'.pos = r.pos + 2 ∧ r'.pos ≤ r.len := by
  by_cases hk : r.err = .ok
  · refine ⟨hk, ?_⟩
    have h2 : ∃ b1 r1 b2, getByte r = some (b1, r1) ∧ getByte r1 = some (b2, r') := by
      have e : isOk r = some (true, r) := by simp [isOk, hk]
      have eb : isBe r = some (r.be, r) := rfl
      cases hb : r.be <;> simp only [getU16, P.bind_def, e, eb, hb, Option.bind_some, if_true, if_false,
        Bool.false_eq_true] at h
      all_goals
        cases h1 : getByte r with
        | none => rw [h1] at h; simp at h
        | some x =>
          rw [h1, Option.bind_some] at h
          cases h2 : getByte x.2 with
          | none => rw [h2] at h; simp at h
          | some y =>
            rw [h2, Option.bind_some] at h
            obtain ⟨_, h⟩ := Prod.mk.inj (Option.some.inj h)
            exact ⟨x.1, x.2, y.1, rfl, by rw [h2]; rw [← h]⟩
    obtain ⟨b1, r1, b2, g1, g2⟩ := h2
    obtain ⟨k1, k2, k3⟩ := getByte_pos g2 he
    obtain ⟨m1, m2, m3⟩ := getByte_pos g1 k1
    have hl : r1.len = r.len := by
      unfold getByte at g1
      rw [if_neg (by simp [hk])] at g1
      split at g1
      · obtain ⟨_, h⟩ := Prod.mk.inj (Option.some.inj g1); subst h; rfl
      · split at g1
        · obtain ⟨_, h⟩ := Prod.mk.inj (Option.some.inj g1); subst h; rfl
        · cases hb : r.buf[r.pos]? with
          | none => rw [hb] at g1; simp at g1
          | some x =>
            rw [hb] at g1
            obtain ⟨_, h⟩ := Prod.mk.inj (Option.some.inj g1); subst h; rfl
    omega
  · have e : isOk r = some (false, r) := by
      unfold isOk
      cases hr : r.err <;> simp_all
    simp only [getU16, P.bind_def, e, Option.bind_some, if_false, Bool.false_eq_true] at h
    obtain ⟨_, h⟩ := Prod.mk.inj (Option.some.inj h)
    subst h; exact absurd he hk

/-- The head of a field: without error it was inside the frame. -/
theorem getTlv_spec (r : Rd) (hn : r.null = false) (hl : r.len ≤ r.buf.length) :
    ∃ tn r', getTlv r = some (tn, r') ∧ r'.buf = r.buf ∧ r'.null = r.null ∧ r'.len = r.len ∧ r'.be = r.be ∧ tn.2 ≤ 511 ∧
      (tn.1 ≠ 0 → r'.err = .ok ∧ r.err = .ok ∧ r'.pos = r.pos + 2 ∧ r'.pos ≤ r.len) ∧
      (r'.err = .ok → r.err = .ok ∧ r'.pos = r.pos + 2 ∧ r'.pos ≤ r.len) := by
  obtain ⟨a, r1, e1, b1, n1, l1, c1, q1, s1⟩ := go_getU16 r hn hl
  by_cases h : r1.err = .ok
  · obtain ⟨k1, k2, k3⟩ := getU16_pos e1 h
    refine ⟨(a.toNat / 512, a.toNat % 512), r1, ?_, b1, n1, l1, c1, ?_, fun _ => ⟨h, k1, k2, k3⟩, fun _ => ⟨k1, k2, k3⟩⟩
    · have e : isOk r1 = some (true, r1) := by simp [isOk, h]
      simp [getTlv, e1, e]
    · show a.toNat % 512 ≤ 511; omega
  · refine ⟨(0, 0), r1, ?_, b1, n1, l1, c1, by simp, fun h => absurd rfl h, fun k => absurd k h⟩
    have e : isOk r1 = some (false, r1) := by
      unfold isOk
      cases hr : r1.err <;> simp_all
    simp [getTlv, e1, e]

theorem fields_total (z : Nat) (hz : 1 ≤ z) : ∀ (fuel : Nat) (tn : Nat × Nat) (p : Peer) (r : Rd), r.null = false →
    r.len ≤ r.buf.length → r.len ≤ 64000 → tn.2 ≤ 511 → Wf z p → (tn.1 ≠ 0 → r.err = .ok ∧ r.pos ≤ r.len) →
    1 ≤ fuel → (tn.1 ≠ 0 → r.len + 2 ≤ fuel + r.pos) → ∃ q r', fields z fuel tn p r = some (q, r') ∧ Wf z q := by
  intro fuel
  induction fuel with
  | zero =>
    intro tn p r h1 h2 h3 h4 h5 h6 h7
    omega
  | succ k ih =>
    intro tn p r h1 h2 h3 h4 h5 h6 h7 h8
    by_cases h : tn.1 = 0
    · exact ⟨p, r, by simp [fields, h], h5⟩
    · obtain ⟨he, hp⟩ := h6 h
      obtain ⟨q, r1, e1, b1, n1, l1, c1, q1, s1⟩ := go_getField (t := tn.1) hz h4 h5 r h1 h2
      obtain ⟨tn', r2, e2, b2, n2, l2, c2, t2, s2⟩ := getTlv_spec r1 (by rw [n1]; exact h1) (by rw [l1, b1]; exact h2)
      have hrec := ih tn' q r2 (by rw [n2, n1]; exact h1) (by rw [l2, l1, b2, b1]; exact h2) (by rw [l2, l1]; exact h3) t2 q1
        (fun hne => ⟨(s2.1 hne).1, by rw [l2]; exact (s2.1 hne).2.2.2⟩) (by have := h8 h; omega) (by
          intro hne
          obtain ⟨g1, g2, g3, g4⟩ := s2.1 hne
          have := (s1 g2).2 (by omega) (by omega)
          have := h8 h
          rw [l2, l1, g3]; omega)
      obtain ⟨q', r', e3, w3⟩ := hrec
      refine ⟨q', r', ?_, w3⟩
      rw [fields, if_neg h]
      simp only [P.bind_def, e1, Option.bind_some, e2]
      exact e3

/-- pf_lldp_parse_packet works on every frame. -/
theorem parse_total (z : Nat) (hz : 1 ≤ z) (buf : List Byte) (hl : buf.length ≤ 64000) :
    ∃ res, parse z buf = some res ∧ ∀ q, res = some q → Wf z q := by
  obtain ⟨tn, r, e, b, n, l, c, t, s, _⟩ := getTlv_spec (atStart buf) rfl (Nat.le_refl _)
  have hlen : r.len = buf.length := l
  obtain ⟨q, r', e', w⟩ := fields_total z hz manyFields tn (Peer.empty z) r (by rw [n]; rfl)
    (by rw [l, b]; exact Nat.le_refl _) (by omega) t (wf_empty z) (fun h => ⟨(s h).1, by rw [hlen]; exact (s h).2.2.2⟩)
    (by omega) (by intro h; omega)
  have hp : parseP z (atStart buf) = some (q, r') := by
    unfold parseP
    simp only [P.bind_def, e, Option.bind_some]
    exact e'
  refine ⟨if r'.err = .ok then some q else none, by unfold parse; rw [hp]; rfl, ?_⟩
  intro q' h
  split at h
  · cases h; exact w
  · cases h

end Verif.Lldp
