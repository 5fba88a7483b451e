import Verif.Sock.Final
/-!
C130: an application ready request is repeated until it is answered or given up.
-/
set_option linter.unusedVariables false
set_option linter.unusedSimpArgs false

namespace Verif.Sock

/-- The request of session `j` is under way: its socket is `fd`, its timer runs, it will be sent `k` more times. -/
def Pending (n : Net) (j : Nat) (fd : Int) (k : Nat) : Prop := n.sess j = ⟨true, true, fd, true, k, true⟩

/-- Nothing goes wrong for session `j`: a packet with its activity UUID ends it (as a confirmation, a cancel, a fault or a reject does); a
packet on its socket that belongs to another session does not come; its message can be sent and its timer started; an abort of its connection
releases it. -/
def Undisturbed (j : Nat) : Op → Prop
  | .packet on p => (p.hit = some j → p.kill = true) ∧ (on = some j → ∀ i, p.hit = some i → i = j)
  | .expire i ok armed drops => i = j → ok = true ∧ armed = true ∧ j ∈ drops
  | _ => True

/-- Expiries of the timer of session `j`. -/
def expires (j : Nat) : Op → Bool
  | .expire i _ _ _ => i == j
  | _ => false

theorem release_ends (n : Net) (j : Nat) : ((release n j).1.sess j).inUse = false := by
  unfold release
  dsimp only
  split
  · show ((n.set j .free).sess j).inUse = false
    rw [set_same]; rfl
  · rename_i h; simpa using h

theorem releases_ends (n : Net) (js : List Nat) (j : Nat) (h : j ∈ js ∨ (n.sess j).inUse = false) : ((releases n js).1.sess j).inUse = false := by
  induction js generalizing n with
  | nil => exact h.resolve_left List.not_mem_nil
  | cons i js ih =>
    refine ih _ ?_
    rcases h with h | h
    · rcases List.mem_cons.1 h with e | e
      · subst e; exact .inr (release_ends n j)
      · exact .inl e
    · rcases release_same n i j with e | e
      · exact .inr (by rw [e]; exact h)
      · exact .inr (by rw [e]; rfl)

theorem sendTimed_other {n : Net} {i j : Nat} (h : j ≠ i) (ok armed : Bool) : (sendTimed n i ok armed).1.sess j = n.sess j := by
  unfold sendTimed
  dsimp only
  split
  · rfl
  · exact if_neg h

/-- A packet of another session leaves session `j` as it is, or releases it. -/
theorem dce_other (resends : Nat) (n : Net) (p : Packet) (j : Nat) (hu : (n.sess j).inUse = true) (hh : p.hit ≠ some j) :
    (dcePacket resends n p).1.sess j = n.sess j ∨ ((dcePacket resends n p).1.sess j).inUse = false := by
  unfold dcePacket
  cases ht : target n p with
  | none => exact .inl rfl
  | some mi =>
    obtain ⟨m, i⟩ := mi
    have hm : m.sess j = n.sess j ∧ j ≠ i := by
      unfold target at ht
      split at ht
      · rename_i k hk
        split at ht
        · simp only [Option.some.injEq, Prod.mk.injEq] at ht
          rw [← ht.1, ← ht.2]
          exact ⟨rfl, by rintro rfl; exact hh hk⟩
        · cases ht
      · cases hj : freeIx n with
        | none => rw [hj] at ht; cases ht
        | some k =>
          rw [hj] at ht
          simp only [Option.map_some, Option.some.injEq, Prod.mk.injEq] at ht
          have hne : j ≠ k := by
            rintro rfl
            rw [(freeIx_spec hj).2] at hu; cases hu
          rw [← ht.1, ← ht.2]
          exact ⟨if_neg hne, hne⟩
    obtain ⟨hm, hi⟩ := hm
    dsimp only
    have g0 : (m.set i { m.sess i with timer := false, ar := p.conn.getD (m.sess i).ar }).sess j = n.sess j := (if_neg hi).trans hm
    generalize m.set i { m.sess i with timer := false, ar := p.conn.getD (m.sess i).ar } = m1 at *
    have g1 : (if p.kind = .epm then m1.set i { m1.sess i with sock := m1.rpc } else m1).sess j = n.sess j := by
      split
      · exact (if_neg hi).trans g0
      · exact g0
    generalize (if p.kind = .epm then m1.set i { m1.sess i with sock := m1.rpc } else m1) = m2 at *
    have g2 := releases_same m2 p.drops j
    rw [g1] at g2
    generalize releases m2 p.drops = x at *
    have g4 : (sendAgain resends x.1 i p.again).1.sess j = x.1.sess j := by
      cases p.again with
      | none => rfl
      | some oa =>
        unfold sendAgain
        exact (sendTimed_other hi _ _).trans (if_neg hi)
    generalize sendAgain resends x.1 i p.again = y at *
    have g5 : (killIf p.kill y.1 i).1.sess j = y.1.sess j ∨ (killIf p.kill y.1 i).1.sess j = .free := by
      unfold killIf
      split
      · exact release_same _ _ _
      · exact .inl rfl
    rcases g5 with e | e
    · rcases g2 with e' | e'
      · exact .inl (e.trans (g4.trans e'))
      · right; rw [e, g4, e']; rfl
    · right; rw [e]; rfl

theorem dce_kill (resends : Nat) (n : Net) (p : Packet) (j : Nat) (hu : (n.sess j).inUse = true) (hh : p.hit = some j)
    (hk : p.kill = true) : ((dcePacket resends n p).1.sess j).inUse = false := by
  unfold dcePacket
  have ht : target n p = some (n, j) := by
    unfold target; rw [hh]; dsimp only; rw [if_pos hu]
  rw [ht]
  dsimp only
  rw [hk]
  exact release_ends _ _

theorem pending_step (resends : Nat) (n : Net) (j : Nat) (fd : Int) (h0 : 0 ≤ fd) (k : Nat) (h : Pending n j fd k) (o : Op)
    (hu : Undisturbed j o) :
    ((step resends n o).1.sess j).inUse = false ∨
      (if expires j o then 0 < k ∧ Pending (step resends n o).1 j fd (k - 1) ∧ (step resends n o).2 = [.sent fd]
        else Pending (step resends n o).1 j fd k) := by
  have hin : (n.sess j).inUse = true := by rw [h]
  cases o with
  | ready f ok armed =>
    right
    show Pending _ _ _ _
    unfold step
    dsimp only
    cases hj : freeIx n with
    | none => exact h
    | some i =>
      have hne : j ≠ i := by
        rintro rfl
        rw [(freeIx_spec hj).2] at hin; cases hin
      exact ((sendTimed_other hne _ _).trans (if_neg hne)).trans h
  | packet on p =>
    have key : ((dcePacket resends n p).1.sess j).inUse = false ∨ p.hit ≠ some j ∧ (dcePacket resends n p).1.sess j = n.sess j := by
      by_cases hh : p.hit = some j
      · exact .inl (dce_kill resends n p j hin hh (hu.1 hh))
      · exact (dce_other resends n p j hin hh).symm.imp id fun e => ⟨hh, e⟩
    show _ ∨ Pending _ _ _ _
    cases on with
    | none => exact key.imp id fun e => e.2.trans h
    | some ix =>
      unfold step
      dsimp only
      split
      · by_cases hix : j = ix
        · subst hix
          rcases key with e | ⟨hh, e⟩
          · left
            split
            · show ((Net.set _ j _).sess j).inUse = false
              rw [set_same]; exact e
            · exact e
          · have hflag : (dcePacket resends n p).2.1 = false := by
              cases hp : p.hit with
              | some i => exact absurd (by rw [hp, hu.2 rfl i hp]) hh
              | none =>
                unfold dcePacket target
                rw [hp]
                dsimp only
                cases hj : freeIx n with
                | none => rfl
                | some i =>
                  simp only [Option.map_some, set_same, Bool.and_false, Bool.false_or]
                  have : ((releases (if p.kind = .epm then ((n.set i ⟨true, false, n.pnio, false, 0, false⟩).set i
                      ⟨true, false, n.pnio, false, 0, p.conn.getD false⟩).set i ⟨true, false, ((n.set i ⟨true, false, n.pnio, false, 0, false⟩).set i
                      ⟨true, false, n.pnio, false, 0, p.conn.getD false⟩).rpc, false, 0, p.conn.getD false⟩ else
                      (n.set i ⟨true, false, n.pnio, false, 0, false⟩).set i ⟨true, false, n.pnio, false, 0, p.conn.getD false⟩) p.drops).1.sess i).fromMe = false := by
                    rcases releases_same (if p.kind = .epm then ((n.set i ⟨true, false, n.pnio, false, 0, false⟩).set i
                      ⟨true, false, n.pnio, false, 0, p.conn.getD false⟩).set i ⟨true, false, ((n.set i ⟨true, false, n.pnio, false, 0, false⟩).set i
                      ⟨true, false, n.pnio, false, 0, p.conn.getD false⟩).rpc, false, 0, p.conn.getD false⟩ else
                      (n.set i ⟨true, false, n.pnio, false, 0, false⟩).set i ⟨true, false, n.pnio, false, 0, p.conn.getD false⟩) p.drops i with e | e
                    · rw [e]; split <;> rw [set_same]
                    · rw [e]; rfl
                  rw [this, Bool.and_false]
            rw [hflag]
            exact .inr (e.trans h)
        · split
          · show ((Net.set _ ix _).sess j).inUse = false ∨ (Net.set _ ix _).sess j = _
            rw [set_sess, if_neg hix]
            exact key.imp id fun e => e.2.trans h
          · exact key.imp id fun e => e.2.trans h
      · exact .inr h
  | expire i ok armed drops =>
    show _ ∨ (if (i == j) = true then _ else _)
    by_cases hij : i = j
    · subst hij
      obtain ⟨h1, h2, h3⟩ := hu rfl
      unfold step
      dsimp only
      rw [h]
      dsimp only
      rw [if_pos rfl, if_neg (by omega)]
      by_cases hk : k > 0
      · right
        rw [if_pos hk, if_pos (by simp)]
        refine ⟨hk, ?_, ?_⟩
        · unfold sendTimed Pending
          dsimp only
          rw [h, h1, h2]
          dsimp only
          rw [if_neg (by omega)]
          exact set_same _ _ _
        · unfold sendTimed
          dsimp only
          rw [h]
          dsimp only
          rw [if_neg (by omega)]
      · left
        rw [if_neg hk, if_neg (by decide)]
        have := releases_ends (n.set i ⟨true, true, fd, false, k, true⟩) drops i (.inl h3)
        split
        · show ((Net.set _ i _).sess i).inUse = false
          rw [set_same]; exact this
        · exact this
    · rw [if_neg (by simpa using hij)]
      unfold step
      dsimp only
      have hne : j ≠ i := Ne.symm hij
      split
      · split
        · exact .inr ((if_neg hne).trans h)
        · split
          · exact .inr ((sendTimed_other hne _ _).trans h)
          · split
            · exact .inr h
            · have := releases_same (n.set i { n.sess i with timer := false }) drops j
              rw [set_sess, if_neg hne] at this
              split
              · show ((Net.set _ i _).sess j).inUse = false ∨ (Net.set _ i _).sess j = _
                rw [set_sess, if_neg hne]
                rcases this with e | e
                · exact .inr (e.trans h)
                · exact .inl (by rw [e]; rfl)
              · rcases this with e | e
                · exact .inr (e.trans h)
                · exact .inl (by rw [e]; rfl)
      · exact .inr h
  | drop js =>
    show _ ∨ Pending _ _ _ _
    rcases releases_same n js j with e | e
    · exact .inr (e.trans h)
    · exact .inl (by show ((releases n js).1.sess j).inUse = false; rw [e]; rfl)

/-- Session `j` was released in the course of the history. -/
def Ended (resends : Nat) (n : Net) (j : Nat) (os : List Op) : Prop :=
  ∃ k ≤ os.length, ((run resends n (os.take k)).1.sess j).inUse = false

/-- While the session lasts: every expiry of its timer so far used up one of the sends that were left. -/
theorem pending_run (resends : Nat) (j : Nat) (fd : Int) (h0 : 0 ≤ fd) (os : List Op) (n : Net) (k : Nat) (h : Pending n j fd k)
    (hu : ∀ o ∈ os, Undisturbed j o) :
    Ended resends n j os ∨
      os.countP (expires j) ≤ k ∧ Pending (run resends n os).1 j fd (k - os.countP (expires j)) ∧
        os.countP (expires j) ≤ (run resends n os).2.count (.sent fd) := by
  induction os generalizing n k with
  | nil => exact .inr ⟨Nat.zero_le _, h, Nat.zero_le _⟩
  | cons o os ih =>
    rcases pending_step resends n j fd h0 k h o (hu o List.mem_cons_self) with e | e
    · exact .inl ⟨1, by simp, e⟩
    · have e2 : ∃ k', Pending (step resends n o).1 j fd k' ∧ k = k' + (if expires j o then 1 else 0) ∧
          (if expires j o then 1 else 0) ≤ (step resends n o).2.count (.sent fd) := by
        split at e
        · rename_i hx
          rw [hx]
          exact ⟨k - 1, e.2.1, by simp; omega, by rw [e.2.2]; simp⟩
        · rename_i hx
          rw [if_neg hx]
          exact ⟨k, e, rfl, Nat.zero_le _⟩
      obtain ⟨k', hp, hk, hc⟩ := e2
      rcases ih _ k' hp (fun o ho => hu o (List.mem_cons_of_mem _ ho)) with ⟨i, hi, he⟩ | ⟨h1, h2, h3⟩
      · exact .inl ⟨i + 1, by simp; omega, he⟩
      · right
        rw [List.countP_cons]
        refine ⟨by omega, ?_, ?_⟩
        · have : k - (os.countP (expires j) + if expires j o then 1 else 0) = k' - os.countP (expires j) := by omega
          rw [this]; exact h2
        · show _ ≤ ((step resends n o).2 ++ (run resends (step resends n o).1 os).2).count _
          rw [List.count_append]
          omega

/-- C130: the application calls pnet_application_ready, there is a session, the socket is opened and the message sent.  In every history in
which nothing goes wrong for that session, the request is ended (by an answer or by the abort of the connection), or it is still under way: the
socket is kept, the timer runs, and every expiry of the timer so far sent the request again.  After as many expiries as there are sends, it is
ended. -/
theorem C130_ready_partial (resends : Nat) (hres : 0 < resends) (n : Net) (j : Nat) (hj : freeIx n = some j) (fd : Int) (h0 : 0 ≤ fd)
    (os : List Op) (hu : ∀ o ∈ os, Undisturbed j o) :
    let x := step resends n (.ready fd true true)
    let y := run resends x.1 os
    x.2 = [.opened fd, .sent fd] ∧
      (Ended resends x.1 j os ∨
        Pending y.1 j fd (resends - 1 - os.countP (expires j)) ∧ os.countP (expires j) < resends ∧
          os.countP (expires j) ≤ y.2.count (.sent fd)) ∧
      (resends ≤ os.countP (expires j) → Ended resends x.1 j os) := by
  dsimp only
  have hp : Pending (step resends n (.ready fd true true)).1 j fd (resends - 1) ∧
      (step resends n (.ready fd true true)).2 = [.opened fd, .sent fd] := by
    unfold step Pending
    dsimp only
    rw [hj]
    dsimp only
    unfold sendTimed
    dsimp only
    rw [set_same]
    dsimp only
    rw [if_neg (by omega)]
    exact ⟨set_same _ _ _, rfl⟩
  have key := pending_run resends j fd h0 os _ _ hp.1 hu
  refine ⟨hp.2, ?_, ?_⟩
  · rcases key with e | ⟨a, b, c⟩
    · exact .inl e
    · exact .inr ⟨b, by omega, c⟩
  · intro hc
    rcases key with e | ⟨a, _⟩
    · exact e
    · omega

/-- A session without timer stays as it is, and sends nothing, whenever timers expire. -/
theorem stuck (resends : Nat) (n : Net) (j : Nat) (ht : (n.sess j).timer = false) (k : Nat) (ok armed : Bool) (drops : List Nat) :
    run resends n (List.replicate k (.expire j ok armed drops)) = (n, []) := by
  induction k with
  | zero => rfl
  | succ k ih =>
    have : step resends n (.expire j ok armed drops) = (n, []) := by
      unfold step
      dsimp only
      rw [if_neg (by rw [ht]; decide)]
    rw [List.replicate_succ, run, this]
    dsimp only
    rw [ih]
    rfl

/-- Any packet with the activity UUID of the request that does not end the session (a response with an error or for another operation, a
ping, a fragment) stops the timer: the request is never sent again, the connection is not aborted, session and socket are kept. -/
theorem C130_fails_answer (resends : Nat) (n : Net) (j : Nat) (fd : Int) (k : Nat) (h : Pending n j fd k) (hj : j < n.size) (on : Option Nat)
    (hon : on = none ∨ on = some j) (m : Nat) (ok armed : Bool) (drops : List Nat) :
    let x := run resends n (.packet on ⟨some j, .other, [], false, none, none, false⟩ :: List.replicate m (.expire j ok armed drops))
    x.1.sess j = ⟨true, true, fd, false, k, true⟩ ∧ x.2 = [] := by
  have hin : (n.sess j).inUse = true := by rw [h]
  have hd : dcePacket resends n ⟨some j, .other, [], false, none, none, false⟩ =
      (n.set j ⟨true, true, fd, false, k, true⟩, false, []) := by
    unfold dcePacket target
    dsimp only
    rw [if_pos hin]
    have hk : ¬Kind.other = Kind.epm := by decide
    have h' : n.sess j = ⟨true, true, fd, true, k, true⟩ := h
    simp only [if_neg hk, releases, sendAgain, killIf, h', Option.getD_none]
    rfl
  have hs : step resends n (.packet on ⟨some j, .other, [], false, none, none, false⟩) = (n.set j ⟨true, true, fd, false, k, true⟩, []) := by
    rcases hon with e | e
    · subst e
      show ((dcePacket resends n _).1, (dcePacket resends n _).2.2) = _
      rw [hd]
    · subst e
      unfold step
      dsimp only
      rw [if_pos ⟨hj, by rw [h]; exact ⟨rfl, rfl⟩⟩, hd]
      rfl
  dsimp only
  rw [run, hs]
  dsimp only
  rw [stuck resends _ j (by rw [set_same])]
  exact ⟨set_same _ _ _, rfl⟩

/-- The socket cannot be opened: the call returns 0 all the same; nothing is sent, no timer runs, the connection is not aborted. -/
theorem C130_fails_open (resends : Nat) (n : Net) (j : Nat) (hj : freeIx n = some j) (ok armed : Bool) (m : Nat) (drops : List Nat) :
    let x := run resends n (.ready (-1) ok armed :: List.replicate m (.expire j ok armed drops))
    x.1.sess j = ⟨true, true, -1, false, resends, true⟩ ∧ x.2 = [.opened (-1)] := by
  have hs : step resends n (.ready (-1) ok armed) = (n.set j ⟨true, true, -1, false, resends, true⟩, [.opened (-1)]) := by
    unfold step
    dsimp only
    rw [hj]
    dsimp only
    unfold sendTimed
    dsimp only
    rw [set_same]
    rfl
  dsimp only
  rw [run, hs]
  dsimp only
  rw [stuck resends _ j (by rw [set_same])]
  exact ⟨set_same _ _ _, rfl⟩

/-- One send fails: the request is never sent again, and the connection is not aborted. -/
theorem C130_fails_send (resends : Nat) (n : Net) (j : Nat) (fd : Int) (h0 : 0 ≤ fd) (k : Nat) (h : Pending n j fd (k + 1)) (armed ok armed' : Bool)
    (m : Nat) (d drops : List Nat) :
    let x := run resends n (.expire j false armed d :: List.replicate m (.expire j ok armed' drops))
    x.1.sess j = ⟨true, true, fd, false, k, true⟩ ∧ x.2 = [.sent fd] := by
  have hs : step resends n (.expire j false armed d) = (n.set j ⟨true, true, fd, false, k, true⟩, [.sent fd]) := by
    unfold step
    dsimp only
    rw [h]
    dsimp only
    rw [if_pos rfl, if_neg (by omega), if_pos (by omega)]
    unfold sendTimed
    dsimp only
    rw [h]
    dsimp only
    rw [if_neg (by omega)]
    rfl
  dsimp only
  rw [run, hs]
  dsimp only
  rw [stuck resends _ j (by rw [set_same])]
  exact ⟨set_same _ _ _, rfl⟩

/-- Two requests are under way.  A packet that ends the one arrives on the socket of the other (all these sockets have the same port): the
socket of the other is closed, it is never sent again, and its connection is not aborted. -/
theorem C130_fails_cross (resends : Nat) (n : Net) (i j : Nat) (hij : i ≠ j) (fi fd : Int) (ki k : Nat) (hi : Pending n i fi ki)
    (h : Pending n j fd k) (hj : j < n.size) (m : Nat) (ok armed : Bool) (drops : List Nat) :
    let x := run resends n (.packet (some j) ⟨some i, .fin, [], false, none, none, true⟩ :: .expire j ok armed drops ::
      List.replicate m (.expire j ok armed drops))
    x.1.sess j = ⟨true, true, -1, false, k, true⟩ ∧ Ev.closed fd ∈ x.2 ∧ ∀ f, Ev.sent f ∉ x.2 := by
  have hin : (n.sess i).inUse = true := by rw [hi]
  have hji : j ≠ i := Ne.symm hij
  have hd : dcePacket resends n ⟨some i, .fin, [], false, none, none, true⟩ =
      ((n.set i ⟨true, true, fi, false, ki, true⟩).set i .free, true, if fi > -1 then [.closed fi] else []) := by
    unfold dcePacket target
    dsimp only
    rw [if_pos hin]
    have hk : ¬Kind.fin = Kind.epm := by decide
    have hi' : n.sess i = ⟨true, true, fi, true, ki, true⟩ := hi
    simp only [if_neg hk, releases, sendAgain, killIf, hi', Option.getD_none, release, set_same, if_true]
    by_cases hf : fi > -1
    · simp [hf]
    · simp [hf]
  have hs : step resends n (.packet (some j) ⟨some i, .fin, [], false, none, none, true⟩) =
      (((n.set i ⟨true, true, fi, false, ki, true⟩).set i .free).set j ⟨true, true, -1, true, k, true⟩,
        (if fi > -1 then [.closed fi] else []) ++ [.closed fd]) := by
    unfold step
    dsimp only
    rw [if_pos ⟨hj, by rw [h]; exact ⟨rfl, rfl⟩⟩, hd]
    simp only [if_true, set_sess, if_neg hji]
    rw [h]
  generalize hz : ((n.set i ⟨true, true, fi, false, ki, true⟩).set i .free).set j ⟨true, true, -1, true, k, true⟩ = z at hs
  have hzj : z.sess j = ⟨true, true, -1, true, k, true⟩ := by rw [← hz, set_same]
  have hs2 : step resends z (.expire j ok armed drops) = (z.set j ⟨true, true, -1, false, k, true⟩, []) := by
    unfold step
    dsimp only
    rw [hzj]
    rfl
  dsimp only
  rw [run, hs]
  dsimp only
  rw [run, hs2]
  dsimp only
  rw [stuck resends _ j (by rw [set_same])]
  refine ⟨set_same _ _ _, ?_, ?_⟩
  · simp
  · intro f
    by_cases hf : fi > -1 <;> simp [hf]

/-- A history that meets the conditions of `C130_ready_partial`, in which the request is sent three times and then given up. -/
theorem C130_example :
    let os := List.replicate 3 (Op.expire 0 true true [0])
    (∀ o ∈ os, Undisturbed 0 o) ∧ freeIx (init 3 4 4) = some 0 ∧
      (run 3 (init 3 4 4) (.ready 5 true true :: os)).2 = [.opened 5, .sent 5, .sent 5, .sent 5, .closed 5] := by
  refine ⟨?_, by decide, by decide⟩
  intro o ho
  rw [(List.mem_replicate.1 ho).2]
  exact fun _ => ⟨rfl, rfl, List.mem_cons_self⟩

end Verif.Sock
