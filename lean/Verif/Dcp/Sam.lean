import Verif.Dcp.Answer
import Verif.Scheduler.Props
/-!
C38: one station at a time.
-/
set_option linter.unusedVariables false
set_option linter.unusedSimpArgs false

namespace Verif.Dcp

open Cmina (Dev)

/-! ## Histories -/

/-- What can happen: a Get or Set frame, an Identify frame, the delayed response is sent, the scheduler runs, another part
of the stack changes the settings or connections. -/
inductive Op where
  | frame (e : Env) (m : Mem) (len pos : Nat)
  | ident (e : Env) (m : Mem) (len pos : Nat)
  | respond
  | tick (now : Nat)
  | dev (d : Dev)

def step (c : Cfg) (n : Net) : Op → Option Net
  | .frame e m len pos => (getSet c e n m len pos).map (·.1)
  | .ident e m len pos => (identify c e n m len pos).map (·.1)
  | .respond => some (responder n)
  | .tick now => some (tickSam now n)
  | .dev d => some { n with dev := d }

def run (c : Cfg) : Net → List Op → Option Net
  | n, [] => some n
  | n, o :: os => (step c n o).bind fun n' => run c n' os

/-! ## What a frame does to the reservation -/

theorem setBlk_sam {c : Cfg} {a a' : Acc} {opt sub : Byte} {qual len : Nat} {v : List Byte}
    (h : setBlk c a opt sub qual len v = some a') : a'.net.sam = a.net.sam ∧ a'.net.samAt = a.net.samAt := by
  unfold setBlk at h
  dsimp only at h
  cases hp : putBlk a.out (resBlk opt sub
      (Cmina.setReq c.defaults a.net.dev a.net.gq opt sub (BitVec.ofNat 16 qual) len v).err) with
  | none => rw [hp] at h; cases h
  | some o => rw [hp] at h; cases h; exact ⟨rfl, rfl⟩

/-- A frame from `src` leaves the reservation as it is, or makes it one of `src` from now on; in the latter case the
device was free or reserved for `src`. -/
theorem getSet_sam {c : Cfg} {e : Env} {n n' : Net} {m : Mem} {len pos : Nat} {o : Out} {src : List Byte}
    (hsrc : rdN m 6 6 = some src) (h : getSet c e n m len pos = some (n', o)) :
    (n'.sam = n.sam ∧ n'.samAt = n.samAt) ∨
      ((n.sam = macNil ∨ n.sam = src) ∧ n'.sam = src ∧ n'.samAt = if e.armed then some (e.now + hold e.tick) else none) := by
  unfold getSet at h
  cases h1 : rdN m (pos + 2) 10 with
  | none => rw [h1] at h; cases h
  | some hdr =>
    cases h2 : rdN m 0 6 with
    | none => rw [h1, Option.bind_some, h2] at h; cases h
    | some dest =>
      rw [h1, Option.bind_some, h2, Option.bind_some, hsrc, Option.bind_some] at h
      dsimp only at h
      split at h
      · cases h; exact Or.inl ⟨rfl, rfl⟩
      split at h
      · cases h; exact Or.inl ⟨rfl, rfl⟩
      split at h
      · cases h; exact Or.inl ⟨rfl, rfl⟩
      rename_i hsam
      split at h
      · cases h; exact Or.inl ⟨rfl, rfl⟩
      have hs : n.sam = macNil ∨ n.sam = src := by
        unfold samOk at hsam
        simp only [Bool.not_eq_false, Bool.or_eq_true, decide_eq_true_eq] at hsam
        exact hsam
      unfold serve at h
      split at h
      · cases ha : setLoop c m ((pos + 12 + be16 (hdr.getD 8 0) (hdr.getD 9 0)) % 65536) getSetFuel (pos + 12)
            ⟨n, [], [], false⟩ with
        | none => rw [ha] at h; cases h
        | some a =>
          rw [ha, Option.bind_some] at h
          cases h
          exact Or.inr ⟨hs, rfl, rfl⟩
      · split at h
        · cases ha : getLoop c n.dev e.nameTail m ((pos + 12 + be16 (hdr.getD 8 0) (hdr.getD 9 0)) % 65536) getSetFuel
              (pos + 12) [] with
          | none => rw [ha] at h; cases h
          | some a =>
            rw [ha, Option.bind_some] at h
            cases h
            exact Or.inr ⟨hs, rfl, rfl⟩
        · cases h; exact Or.inl ⟨rfl, rfl⟩

theorem identify_sam {c : Cfg} {e : Env} {n n' : Net} {m : Mem} {len pos : Nat} {l : Later}
    (h : identify c e n m len pos = some (n', l)) : n'.sam = n.sam ∧ n'.samAt = n.samAt ∧ n'.dev = n.dev := by
  unfold identify at h
  cases h1 : rdN m (pos + 2) 10 with
  | none => rw [h1] at h; cases h
  | some hdr =>
    cases h2 : rdN m 6 6 with
    | none => rw [h1, Option.bind_some, h2] at h; cases h
    | some src =>
      rw [h1, Option.bind_some, h2, Option.bind_some] at h
      dsimp only at h
      split at h
      · cases h; exact ⟨rfl, rfl, rfl⟩
      split at h
      · cases h; exact ⟨rfl, rfl, rfl⟩
      split at h
      · cases h; exact ⟨rfl, rfl, rfl⟩
      obtain ⟨x, hx⟩ : ∃ x, x = idLoop c e n.dev m ((pos + 12 + be16 (hdr.getD 8 0) (hdr.getD 9 0)) % 65536) getSetFuel
        (pos + 12) ⟨true, false, true, true, [], false⟩ := ⟨_, rfl⟩
      rw [← hx] at h
      cases x with
      | none => cases h
      | some s =>
        rw [Option.bind_some] at h
        split at h
        · obtain ⟨y, hy⟩ : ∃ y, y = putAll [] (idBlks c e n.dev (if s.useAlias then some s.ali else none)) := ⟨_, rfl⟩
          rw [← hy] at h
          cases y with
          | none => cases h
          | some out =>
            rw [Option.bind_some] at h
            split at h
            · cases h; exact ⟨rfl, rfl, rfl⟩
            · cases h; exact ⟨rfl, rfl, rfl⟩
        · cases h; exact ⟨rfl, rfl, rfl⟩

/-- A Get or Set request that is answered reserves the device for its sender. -/
theorem getSet_reserves {c : Cfg} {e : Env} {n n' : Net} {m : Mem} {len pos : Nat} {o : Out} {src : List Byte} {svc : Byte}
    (hsrc : rdN m 6 6 = some src) (hv : m (pos + 2) = some svc) (hsvc : svc = 3 ∨ svc = 4)
    (h : getSet c e n m len pos = some (n', o)) (hr : o.resp.isSome = true) :
    n'.sam = src ∧ n'.samAt = if e.armed then some (e.now + hold e.tick) else none := by
  unfold getSet at h
  cases h1 : rdN m (pos + 2) 10 with
  | none => rw [h1] at h; cases h
  | some hdr =>
    have h0 : hdr.getD 0 0 = svc := by
      have := rdN_get h1 0 (by rw [rdN_length h1]; omega)
      rw [Nat.add_zero, hv] at this
      rw [List.getD_eq_getElem?_getD, ← this]; rfl
    cases h2 : rdN m 0 6 with
    | none => rw [h1, Option.bind_some, h2] at h; cases h
    | some dest =>
      rw [h1, Option.bind_some, h2, Option.bind_some, hsrc, Option.bind_some] at h
      dsimp only at h
      split at h
      · cases h; simp [Out.nil] at hr
      split at h
      · cases h; simp [Out.nil] at hr
      split at h
      · cases h; simp [Out.nil] at hr
      split at h
      · cases h; simp [Out.nil] at hr
      unfold serve at h
      split at h
      · cases ha : setLoop c m ((pos + 12 + be16 (hdr.getD 8 0) (hdr.getD 9 0)) % 65536) getSetFuel (pos + 12)
            ⟨n, [], [], false⟩ with
        | none => rw [ha] at h; cases h
        | some a =>
          rw [ha, Option.bind_some] at h
          cases h
          exact ⟨rfl, rfl⟩
      · split at h
        · cases ha : getLoop c n.dev e.nameTail m ((pos + 12 + be16 (hdr.getD 8 0) (hdr.getD 9 0)) % 65536) getSetFuel
              (pos + 12) [] with
          | none => rw [ha] at h; cases h
          | some a =>
            rw [ha, Option.bind_some] at h
            cases h
            exact ⟨rfl, rfl⟩
        · rename_i h3 h4
          rw [h0] at h3 h4
          rcases hsvc with h | h
          · exact absurd h h4
          · exact absurd h h3

/-- A frame from another station than the one that has the device does nothing. -/
theorem getSet_other (c : Cfg) (e : Env) (n : Net) (m : Mem) (len pos : Nat) (src : List Byte) (hl : pos + 12 ≤ len)
    (hm : Def m (len + 20)) (hsrc : At m 6 src) (h6 : src.length = 6) (h1 : n.sam ≠ macNil) (h2 : n.sam ≠ src) :
    getSet c e n m len pos = some (n, .nil) := by
  unfold getSet
  obtain ⟨hdr, e1, _⟩ := rdN_def hm 10 (pos + 2) (by omega)
  obtain ⟨dest, e2, _⟩ := rdN_def hm 6 0 (by omega)
  rw [e1, Option.bind_some, e2, Option.bind_some, rdN_at' hsrc h6, Option.bind_some]
  dsimp only
  have : samOk n src = false := by unfold samOk; simp [h1, h2]
  rw [if_pos this]
  repeat' split
  all_goals rfl

/-! ## C38 -/

/-- The frames of the history come at or after `t` with the period `tk`; the scheduler does not run at or after
`until`. -/
def Before (t tk : Nat → Prop) (until' : Nat) : Op → Prop
  | .frame e _ _ _ => t e.now ∧ tk (hold e.tick)
  | .tick now => now < until'
  | _ => True

/-- C38, exclusion.  Station `s` has sent a Get or Set request at time `e.now`, and it was answered.  Then, whatever happens
as long as the scheduler has not run at or after the end of the period, a Get or Set frame of any other station does
nothing and is not answered.  (`s` is not the address of zeros, see `C38_fails_nil`.) -/
theorem C38_exclusive_partial (c : Cfg) (e : Env) (n0 n1 : Net) (m : Mem) (len pos : Nat) (o : Out) (s : List Byte)
    (svc : Byte) (hs : At m 6 s) (hs6 : s.length = 6) (hnil : s ≠ macNil) (hv : m (pos + 2) = some svc)
    (hsvc : svc = 3 ∨ svc = 4) (hfirst : getSet c e n0 m len pos = some (n1, o)) (hr : o.resp.isSome = true)
    (ops : List Op) (hops : ∀ x ∈ ops, Before (e.now ≤ ·) (· = hold e.tick) (e.now + hold e.tick) x)
    (n2 : Net) (hrun : run c n1 ops = some n2)
    (e' : Env) (m' : Mem) (len' pos' : Nat) (s' : List Byte) (hl' : pos' + 12 ≤ len') (hm' : Def m' (len' + 20))
    (hs' : At m' 6 s') (hs6' : s'.length = 6) (hne : s' ≠ s) :
    getSet c e' n2 m' len' pos' = some (n2, ⟨none, [], false⟩) := by
  obtain ⟨k1, k2⟩ := getSet_reserves (rdN_at' hs hs6) hv hsvc hfirst hr
  have inv : ∀ (ops : List Op) (n n2 : Net), n.sam = s →
      (n.samAt = none ∨ ∃ d, n.samAt = some d ∧ e.now + hold e.tick ≤ d) →
      (∀ x ∈ ops, Before (e.now ≤ ·) (· = hold e.tick) (e.now + hold e.tick) x) → run c n ops = some n2 → n2.sam = s := by
    intro ops
    induction ops with
    | nil => intro n n2 h1 _ _ hrun; cases hrun; exact h1
    | cons x t ih =>
      intro n n2 h1 h2 h3 hrun
      rw [run] at hrun
      cases hst : step c n x with
      | none => rw [hst] at hrun; cases hrun
      | some n' =>
        rw [hst, Option.bind_some] at hrun
        have hx := h3 x (by simp)
        have ht := fun y (hy : y ∈ t) => h3 y (List.mem_cons_of_mem _ hy)
        cases x with
        | frame e2 m2 l2 p2 =>
          unfold step at hst
          dsimp only at hst
          cases hg : getSet c e2 n m2 l2 p2 with
          | none => rw [hg] at hst; cases hst
          | some r =>
            rw [hg] at hst
            have hst : r.1 = n' := by simpa using hst
            cases hsrc : rdN m2 6 6 with
            | none =>
              unfold getSet at hg
              cases ha : rdN m2 (p2 + 2) 10 with
              | none => rw [ha] at hg; cases hg
              | some a =>
                cases hb : rdN m2 0 6 with
                | none => rw [ha, Option.bind_some, hb] at hg; cases hg
                | some b => rw [ha, Option.bind_some, hb, Option.bind_some, hsrc] at hg; cases hg
            | some src =>
              rcases getSet_sam hsrc (show getSet c e2 n m2 l2 p2 = some (r.1, r.2) from hg) with ⟨g1, g2⟩ | ⟨g0, g1, g2⟩
              · exact ih n' n2 (by rw [← hst, g1, h1]) (by rw [← hst, g2]; exact h2) ht hrun
              · have hsrc' : src = s := by
                  rcases g0 with g | g
                  · rw [h1] at g; exact absurd g hnil
                  · rw [h1] at g; exact g.symm
                refine ih n' n2 (by rw [← hst, g1, hsrc']) ?_ ht hrun
                rw [← hst, g2]
                split
                · obtain ⟨b1, b2⟩ := hx
                  right; refine ⟨_, rfl, ?_⟩
                  have b2 : hold e2.tick = hold e.tick := b2
                  have b1 : e.now ≤ e2.now := b1
                  omega
                · left; rfl
        | ident e2 m2 l2 p2 =>
          unfold step at hst
          dsimp only at hst
          cases hg : identify c e2 n m2 l2 p2 with
          | none => rw [hg] at hst; cases hst
          | some r =>
            rw [hg] at hst
            have hst : r.1 = n' := by simpa using hst
            obtain ⟨g1, g2, _⟩ := identify_sam (show identify c e2 n m2 l2 p2 = some (r.1, r.2) from hg)
            exact ih n' n2 (by rw [← hst, g1, h1]) (by rw [← hst, g2]; exact h2) ht hrun
        | respond => cases hst; exact ih (responder n) n2 h1 h2 ht hrun
        | tick now =>
          have hx : now < e.now + hold e.tick := hx
          have hst : tickSam now n = n' := by simpa [step] using hst
          have : tickSam now n = n := by
            unfold tickSam
            rcases h2 with h2 | ⟨d, h2, h4⟩
            · rw [h2]
            · rw [h2]; dsimp only; rw [if_neg (by omega)]
          rw [this] at hst
          subst hst
          exact ih n n2 h1 h2 ht hrun
        | dev d => cases hst; exact ih { n with dev := d } n2 h1 h2 ht hrun
  have h := inv ops n1 n2 k1 (by rw [k2]; split
                                 · right; exact ⟨_, rfl, Nat.le_refl _⟩
                                 · left; rfl) hops hrun
  exact getSet_other c e' n2 m' len' pos' s' hl' hm' hs' hs6' (by rw [h]; exact hnil) (by rw [h]; exact hne.symm)

/-- A Get or Set request that can be served. -/
def IsReqAny (c : Cfg) (m : Mem) (len pos : Nat) (src : List Byte) : Prop :=
  ∃ svc xid data, (svc = 3 ∨ svc = 4) ∧ IsReq c m len pos src svc xid data

theorem served (c : Cfg) (hc : Good c) (e : Env) (n : Net) (m : Mem) (len pos : Nat) (src : List Byte)
    (h : IsReqAny c m len pos src) (ha : e.alloc = true) (hs : n.sam = macNil ∨ n.sam = src) :
    ∃ n' o, getSet c e n m len pos = some (n', o) ∧ o.resp.isSome = true := by
  obtain ⟨svc, xid, data, hsvc, h⟩ := h
  obtain ⟨hdr, h1, h2, h3⟩ := getSet_serve c hc e n m len pos src svc xid data h ha hs
  obtain ⟨typ, dly, _, _, _, _, _, _, _, h8, h9, h10⟩ := h
  rw [h1]
  unfold serve
  rw [h2]
  rcases hsvc with rfl | rfl
  · rw [if_neg (by decide), if_pos rfl]
    obtain ⟨x, hx, _⟩ := getLoop_total c n.dev e.nameTail m _ h10 (pos + 12 + data.length) (by omega) (by omega) getSetFuel
      (pos + 12) [] outOk_nil (by omega) (by decide) (by unfold getSetFuel; omega)
    rw [hx]
    exact ⟨_, _, rfl, rfl⟩
  · rw [if_pos rfl]
    obtain ⟨x, hx, _⟩ := setLoop_total c m _ h10 (pos + 12 + data.length) (by omega) (by omega) getSetFuel
      (pos + 12) ⟨n, [], [], false⟩ outOk_nil (by omega) (by omega) (by decide) (by unfold getSetFuel; omega)
    rw [hx]
    exact ⟨_, _, rfl, rfl⟩

/-- C38, same station: as long as the device is free or reserved for the sender the request is answered, and the
reservation starts again. -/
theorem C38_same (c : Cfg) (hc : Good c) (e : Env) (n : Net) (m : Mem) (len pos : Nat) (src : List Byte)
    (h : IsReqAny c m len pos src) (ha : e.alloc = true) (hs : n.sam = macNil ∨ n.sam = src) :
    ∃ n' o, getSet c e n m len pos = some (n', o) ∧ o.resp.isSome = true ∧ n'.sam = src := by
  obtain ⟨n', o, h1, h2⟩ := served c hc e n m len pos src h ha hs
  obtain ⟨svc, xid, data, hsvc, typ, dly, _, g2, g3, _, g5, _⟩ := h
  refine ⟨n', o, h1, h2, (getSet_reserves (rdN_at' g2 g5) (svc := svc) ?_ hsvc h1 h2).1⟩
  rw [List.append_assoc, List.append_assoc, List.cons_append] at g3
  exact (At.cons.mp g3).1

/-- All timers of the history could be started and are due at or before `T`. -/
def Armed (T : Nat) : Op → Prop
  | .frame e _ _ _ => e.armed = true ∧ e.now + hold e.tick ≤ T
  | _ => True

/-- C38, release.  After any history from the start in which the timers could be started, when the scheduler runs after
the last period is over, every station is served. -/
theorem C38_takeover_partial (c : Cfg) (hc : Good c) (n0 n1 : Net) (h0 : n0.sam = macNil) (T : Nat) (ops : List Op)
    (hops : ∀ x ∈ ops, Armed T x) (hrun : run c n0 (ops ++ [.tick T]) = some n1)
    (e : Env) (m : Mem) (len pos : Nat) (src : List Byte) (h : IsReqAny c m len pos src) (ha : e.alloc = true) :
    n1.sam = macNil ∧ ∃ n' o, getSet c e n1 m len pos = some (n', o) ∧ o.resp.isSome = true ∧ n'.sam = src := by
  have inv : ∀ (ops : List Op) (n n2 : Net), (n.sam = macNil ∨ ∃ d, n.samAt = some d ∧ d ≤ T) →
      (∀ x ∈ ops, Armed T x) → run c n ops = some n2 → (n2.sam = macNil ∨ ∃ d, n2.samAt = some d ∧ d ≤ T) := by
    intro ops
    induction ops with
    | nil => intro n n2 h1 _ hrun; cases hrun; exact h1
    | cons x t ih =>
      intro n n2 h1 h3 hrun
      rw [run] at hrun
      cases hst : step c n x with
      | none => rw [hst] at hrun; cases hrun
      | some n' =>
        rw [hst, Option.bind_some] at hrun
        have hx := h3 x (by simp)
        have ht := fun y (hy : y ∈ t) => h3 y (List.mem_cons_of_mem _ hy)
        cases x with
        | frame e2 m2 l2 p2 =>
          unfold step at hst
          dsimp only at hst
          cases hg : getSet c e2 n m2 l2 p2 with
          | none => rw [hg] at hst; cases hst
          | some r =>
            rw [hg] at hst
            have hst : r.1 = n' := by simpa using hst
            cases hsrc : rdN m2 6 6 with
            | none =>
              unfold getSet at hg
              cases ha : rdN m2 (p2 + 2) 10 with
              | none => rw [ha] at hg; cases hg
              | some a =>
                cases hb : rdN m2 0 6 with
                | none => rw [ha, Option.bind_some, hb] at hg; cases hg
                | some b => rw [ha, Option.bind_some, hb, Option.bind_some, hsrc] at hg; cases hg
            | some src =>
              rcases getSet_sam hsrc (show getSet c e2 n m2 l2 p2 = some (r.1, r.2) from hg) with ⟨g1, g2⟩ | ⟨g0, g1, g2⟩
              · exact ih n' n2 (by rw [← hst, g1, g2]; exact h1) ht hrun
              · refine ih n' n2 ?_ ht hrun
                right
                obtain ⟨b1, b2⟩ := hx
                rw [← hst, g2, if_pos b1]
                exact ⟨_, rfl, b2⟩
        | ident e2 m2 l2 p2 =>
          unfold step at hst
          dsimp only at hst
          cases hg : identify c e2 n m2 l2 p2 with
          | none => rw [hg] at hst; cases hst
          | some r =>
            rw [hg] at hst
            have hst : r.1 = n' := by simpa using hst
            obtain ⟨g1, g2, _⟩ := identify_sam (show identify c e2 n m2 l2 p2 = some (r.1, r.2) from hg)
            exact ih n' n2 (by rw [← hst, g1, g2]; exact h1) ht hrun
        | respond => cases hst; exact ih (responder n) n2 h1 ht hrun
        | tick now =>
          have hst : tickSam now n = n' := by simpa [step] using hst
          refine ih n' n2 ?_ ht hrun
          rw [← hst]
          unfold tickSam
          cases hsa : n.samAt with
          | none =>
            dsimp only
            rcases h1 with h1 | ⟨d, h1, _⟩
            · exact Or.inl h1
            · rw [hsa] at h1; cases h1
          | some d =>
            dsimp only
            split
            · exact Or.inl rfl
            · exact h1
        | dev d => cases hst; exact ih { n with dev := d } n2 h1 ht hrun
  have hsplit : ∀ (ops : List Op) (n : Net), run c n (ops ++ [.tick T]) = (run c n ops).bind fun n => some (tickSam T n) := by
    intro ops
    induction ops with
    | nil => intro n; rfl
    | cons x t ih =>
      intro n
      rw [List.cons_append, run, run]
      cases step c n x with
      | none => rfl
      | some n' => exact ih n'
  rw [hsplit] at hrun
  cases hr : run c n0 ops with
  | none => rw [hr] at hrun; cases hrun
  | some n2 =>
    rw [hr, Option.bind_some] at hrun
    have hrun := Option.some.inj hrun
    have hi := inv ops n0 n2 (Or.inl h0) hops hr
    have hn : n1.sam = macNil := by
      rw [← hrun]
      unfold tickSam
      cases hsa : n2.samAt with
      | none =>
        rcases hi with h1 | ⟨d, h1, _⟩
        · exact h1
        · rw [hsa] at h1; cases h1
      | some d =>
        dsimp only
        rcases hi with h1 | ⟨d', h1, h2⟩
        · split
          · rfl
          · exact h1
        · rw [hsa] at h1; cases h1
          rw [if_pos h2]
    exact ⟨hn, C38_same c hc e n1 m len pos src h ha (Or.inl hn)⟩

/-- The period is three seconds, less at most one period of the stack. -/
theorem C38_period (tick : BitVec 32) (h0 : 0 < tick.toNat) (h1 : tick.toNat < 2000000) :
    3000000 < hold tick + tick.toNat ∧ hold tick ≤ 3000000 := by
  unfold hold
  obtain ⟨k, _, _, _, _, h⟩ := Scheduler.C03_delay_rounding 3000000 tick h0 (by omega)
  have e1 : (if (3000000 : BitVec 32).toNat > 100000000 then 0 else (3000000 : BitVec 32).toNat) = 3000000 := by decide
  rw [e1] at h
  have := h (by omega)
  omega

/-- C38 fails if no timer can be started: then the device is reserved for ever, whatever frames of other stations come
and however often the scheduler runs. -/
theorem C38_fails_full (c : Cfg) (hc : Good c) (e : Env) (n : Net) (m : Mem) (len pos : Nat) (s : List Byte)
    (h : IsReqAny c m len pos s) (ha : e.alloc = true) (hfree : n.sam = macNil) (hnil : s ≠ macNil)
    (hfull : e.armed = false) :
    ∃ n1 o, getSet c e n m len pos = some (n1, o) ∧
      ∀ times : List Nat, ∃ n2, run c n1 (times.map .tick) = some n2 ∧
        ∀ e' m' len' pos' s', pos' + 12 ≤ len' → Def m' (len' + 20) → At m' 6 s' → s'.length = 6 → s' ≠ s →
          getSet c e' n2 m' len' pos' = some (n2, ⟨none, [], false⟩) := by
  obtain ⟨n1, o, h1, h2⟩ := served c hc e n m len pos s h ha (Or.inl hfree)
  obtain ⟨svc, xid, data, hsvc, typ, dly, _, g2, g3, _, g5, _⟩ := h
  have hv : m (pos + 2) = some svc := by
    rw [List.append_assoc, List.append_assoc, List.cons_append] at g3
    exact (At.cons.mp g3).1
  obtain ⟨k1, k2⟩ := getSet_reserves (rdN_at' g2 g5) hv hsvc h1 h2
  rw [hfull] at k2
  have k2 : n1.samAt = none := by simpa using k2
  refine ⟨n1, o, h1, fun times => ⟨n1, ?_, ?_⟩⟩
  · induction times with
    | nil => rfl
    | cons t ts ih =>
      rw [List.map_cons, run]
      have : step c n1 (.tick t) = some n1 := by
        unfold step tickSam; rw [k2]
      rw [this]
      exact ih
  · intro e' m' len' pos' s' a1 a2 a3 a4 a5
    exact getSet_other c e' n1 m' len' pos' s' a1 a2 a3 a4 (by rw [k1]; exact hnil) (by rw [k1]; exact a5.symm)

/-- C38 fails for a station that uses the address of zeros: it gets an answer, and every other station after it. -/
theorem C38_fails_nil (c : Cfg) (hc : Good c) (e e' : Env) (n : Net) (m m' : Mem) (len pos len' pos' : Nat) (s' : List Byte)
    (h : IsReqAny c m len pos macNil) (ha : e.alloc = true) (hfree : n.sam = macNil)
    (h' : IsReqAny c m' len' pos' s') (ha' : e'.alloc = true) :
    ∃ n1 o, getSet c e n m len pos = some (n1, o) ∧ o.resp.isSome = true ∧
      ∃ n2 o', getSet c e' n1 m' len' pos' = some (n2, o') ∧ o'.resp.isSome = true := by
  obtain ⟨n1, o, h1, h2, h3⟩ := C38_same c hc e n m len pos macNil h ha (Or.inl hfree)
  obtain ⟨n2, o', h4, h5, _⟩ := C38_same c hc e' n1 m' len' pos' s' h' ha' (Or.inl h3)
  exact ⟨n1, o, h1, h2, n2, o', h4, h5⟩

end Verif.Dcp
