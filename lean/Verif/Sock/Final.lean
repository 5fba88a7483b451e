import Verif.Sock.Props
/-!
C129 for whole histories, and where the code fails it.
-/
set_option linter.unusedVariables false
set_option linter.unusedSimpArgs false

namespace Verif.Sock

theorem length_le_of_nodup_subset {a b : List Int} (ha : a.Nodup) (h : ∀ x ∈ a, x ∈ b) : a.length ≤ b.length := by
  induction a generalizing b with
  | nil => exact Nat.zero_le _
  | cons x a ih =>
    obtain ⟨hx, ha⟩ := List.nodup_cons.1 ha
    have hb := h x List.mem_cons_self
    have := ih (b := b.erase x) ha (fun y hy => (List.mem_erase_of_ne (by rintro rfl; exact hx hy)).2 (h y (List.mem_cons_of_mem _ hy)))
    rw [List.length_erase_of_mem hb] at this
    have := List.length_pos_of_mem hb
    simp only [List.length_cons]
    omega

/-- C129: in every history in which no endpoint mapper request has the activity UUID of a request of the device, and messages in fragments
are only sent in sessions with a connection: only open sockets are used, server sockets are never closed, no NULL pointer is used; the server
sockets are open all the time; every other open socket belongs to exactly one session, which is one of the device; there are at most as many
as sessions. -/
theorem C129_sockets_partial (resends size : Nat) (rpc pnio : Int) (h1 : 0 ≤ rpc) (h2 : 0 ≤ pnio) (h3 : rpc ≠ pnio) (os : List Op)
    (hw : World resends (init rpc pnio size) [rpc, pnio] os) :
    let x := run resends (init rpc pnio size) os
    let O := after [rpc, pnio] x.2
    Fine [rpc, pnio] [rpc, pnio] x.2 ∧ rpc ∈ O ∧ pnio ∈ O ∧ O.Nodup ∧
      (∀ fd ∈ O, fd ≠ rpc → fd ≠ pnio → ∃ j < size, (x.1.sess j).inUse = true ∧ (x.1.sess j).fromMe = true ∧ (x.1.sess j).sock = fd ∧
        ∀ i, (x.1.sess i).sock = fd → i = j) ∧
      O.length ≤ size + 2 := by
  dsimp only
  obtain ⟨a, b, c, d, e⟩ := run_good resends os _ _ (init_inv h1 h2 h3 size) hw
  have c : (run resends (init rpc pnio size) os).1.rpc = rpc := c
  have d : (run resends (init rpc pnio size) os).1.pnio = pnio := d
  have e : (run resends (init rpc pnio size) os).1.size = size := e
  have own : ∀ fd ∈ after [rpc, pnio] (run resends (init rpc pnio size) os).2, fd ≠ rpc → fd ≠ pnio →
      ∃ j < size, ((run resends (init rpc pnio size) os).1.sess j).inUse = true ∧
        ((run resends (init rpc pnio size) os).1.sess j).fromMe = true ∧ ((run resends (init rpc pnio size) os).1.sess j).sock = fd ∧
        ∀ i, ((run resends (init rpc pnio size) os).1.sess i).sock = fd → i = j := by
    intro fd hfd n1 n2
    rcases a.owner fd hfd with e' | e' | ⟨j, hj, hs⟩
    · rw [c] at e'; exact absurd e' n1
    · rw [d] at e'; exact absurd e' n2
    · have hu := a.used hj
      have hl := a.lt hu
      rw [e] at hl
      refine ⟨j, hl, hu, hj, hs, ?_⟩
      intro i hi
      have h0 := a.pos fd hfd
      cases hm : ((run resends (init rpc pnio size) os).1.sess i).fromMe with
      | true => exact a.inj i j hm hj (hi.trans hs.symm) (by omega)
      | false =>
        cases hq : ((run resends (init rpc pnio size) os).1.sess i).inUse with
        | true =>
          rcases a.guest i hq hm with g | g
          · rw [c] at g; exact absurd (hi.symm.trans g) n1
          · rw [d] at g; exact absurd (hi.symm.trans g) n2
        | false => have := (a.free i hq).2; omega
  have hr := a.rpcO
  have hp := a.pnioO
  rw [c] at hr
  rw [d] at hp
  refine ⟨b, hr, hp, a.nd, own, ?_⟩
  have := length_le_of_nodup_subset (b := rpc :: pnio :: (List.range size).map fun j => ((run resends (init rpc pnio size) os).1.sess j).sock)
    a.nd (by
      intro fd hfd
      by_cases n1 : fd = rpc
      · rw [n1]; exact List.mem_cons_self
      · by_cases n2 : fd = pnio
        · rw [n2]; exact List.mem_cons_of_mem _ List.mem_cons_self
        · obtain ⟨j, hj, _, _, hs, _⟩ := own fd hfd n1 n2
          exact List.mem_cons_of_mem _ (List.mem_cons_of_mem _ (List.mem_map.2 ⟨j, List.mem_range.2 hj, hs⟩)))
  simp only [List.length_cons, List.length_map, List.length_range] at this
  exact this

/-! ## An open socket that no session has is never closed -/

def Lost (fd : Int) (n : Net) : Prop := 0 ≤ fd ∧ fd ≠ n.rpc ∧ fd ≠ n.pnio ∧ ∀ j, (n.sess j).sock ≠ fd

/-- A part of the handling leaves the socket alone. -/
structure Kept (fd : Int) (x : Net × List Ev) : Prop where
  lost : Lost fd x.1
  ev : Ev.closed fd ∉ x.2

theorem Lost.set {fd : Int} {n : Net} (h : Lost fd n) (j : Nat) (s : Sess) (hs : s.sock ≠ fd) : Lost fd (n.set j s) := by
  refine ⟨h.1, h.2.1, h.2.2.1, fun i => ?_⟩
  rw [set_sess]; split
  · exact hs
  · exact h.2.2.2 i

theorem Kept.refl {fd : Int} {n : Net} (h : Lost fd n) : Kept fd (n, []) := ⟨h, List.not_mem_nil⟩

theorem Kept.comp {fd : Int} {x y : Net × List Ev} (h : Kept fd x) (g : Kept fd y) : Kept fd (y.1, x.2 ++ y.2) :=
  ⟨g.lost, fun hm => (List.mem_append.1 hm).elim h.ev g.ev⟩

theorem release_kept {fd : Int} {n : Net} (h : Lost fd n) (j : Nat) : Kept fd (release n j) := by
  have h0 := h.1
  have := h.2.2.2 j
  unfold release
  dsimp only
  split
  · split
    · refine ⟨h.set j _ (by show (-1 : Int) ≠ fd; omega), ?_⟩
      intro hm
      simp only [List.mem_singleton, Ev.closed.injEq] at hm
      exact this hm.symm
    · exact ⟨h.set j _ (by show (-1 : Int) ≠ fd; omega), List.not_mem_nil⟩
  · exact .refl h

theorem releases_kept {fd : Int} {n : Net} (h : Lost fd n) (js : List Nat) : Kept fd (releases n js) := by
  induction js generalizing n with
  | nil => exact .refl h
  | cons j js ih =>
    have g := release_kept h j
    exact g.comp (ih g.lost)

theorem sendTimed_kept {fd : Int} {n : Net} (h : Lost fd n) (j : Nat) (ok armed : Bool) : Kept fd (sendTimed n j ok armed) := by
  unfold sendTimed
  dsimp only
  split
  · exact .refl h
  · exact ⟨h.set j _ (h.2.2.2 j), by simp⟩

theorem dce_kept {fd : Int} {n : Net} (h : Lost fd n) (resends : Nat) (p : Packet) :
    Kept fd ((dcePacket resends n p).1, (dcePacket resends n p).2.2) := by
  unfold dcePacket
  cases ht : target n p with
  | none => exact .refl h
  | some mj =>
    obtain ⟨m, j⟩ := mj
    have hm : Lost fd m := by
      unfold target at ht
      split at ht
      · split at ht
        · simp only [Option.some.injEq, Prod.mk.injEq] at ht; rw [← ht.1]; exact h
        · cases ht
      · cases hj : freeIx n with
        | none => rw [hj] at ht; cases ht
        | some k =>
          rw [hj] at ht
          simp only [Option.map_some, Option.some.injEq, Prod.mk.injEq] at ht
          rw [← ht.1]
          exact h.set k _ (Ne.symm h.2.2.1)
    dsimp only
    have g0 := hm.set j { m.sess j with timer := false, ar := p.conn.getD (m.sess j).ar } (hm.2.2.2 j)
    generalize m.set j { m.sess j with timer := false, ar := p.conn.getD (m.sess j).ar } = m1 at *
    have g1 : Lost fd (if p.kind = .epm then m1.set j { m1.sess j with sock := m1.rpc } else m1) := by
      split
      · exact g0.set j _ (Ne.symm g0.2.1)
      · exact g0
    generalize (if p.kind = .epm then m1.set j { m1.sess j with sock := m1.rpc } else m1) = m2 at *
    have g2 := releases_kept g1 p.drops
    generalize releases m2 p.drops = x at *
    have g3 : Kept fd (x.1, if p.answer then [Ev.sent (x.1.sess j).sock] else []) := by
      refine ⟨g2.lost, ?_⟩
      split <;> simp
    generalize (if p.answer then [Ev.sent (x.1.sess j).sock] else []) = e at *
    have g4 : Kept fd (sendAgain resends x.1 j p.again) := by
      cases p.again with
      | none => exact .refl g2.lost
      | some oa => exact sendTimed_kept (g2.lost.set j { x.1.sess j with left := resends } (g2.lost.2.2.2 j)) j oa.1 oa.2
    generalize sendAgain resends x.1 j p.again = y at *
    have g5 : Kept fd (killIf p.kill y.1 j) := by
      unfold killIf
      split
      · exact release_kept g4.lost j
      · exact .refl g4.lost
    exact ((g2.comp g3).comp g4).comp g5

theorem step_kept {fd : Int} {n : Net} (h : Lost fd n) (resends : Nat) (o : Op) (hf : ∀ f ok ar, o = .ready f ok ar → f ≠ fd) :
    Kept fd (step resends n o) := by
  have h0 := h.1
  cases o with
  | ready f ok armed =>
    unfold step
    dsimp only
    cases freeIx n with
    | none => exact .refl h
    | some j =>
      have g := sendTimed_kept (h.set j ⟨true, true, f, false, resends, true⟩ (hf f ok armed rfl)) j ok armed
      refine ⟨g.lost, ?_⟩
      intro hm
      rcases List.mem_cons.1 hm with e | e
      · cases e
      · exact g.ev e
  | packet on p =>
    have g := dce_kept h resends p
    cases on with
    | none => exact g
    | some ix =>
      unfold step
      dsimp only
      split
      · generalize dcePacket resends n p = x at *
        split
        · refine ⟨g.lost.set ix _ (by show (-1 : Int) ≠ fd; omega), ?_⟩
          intro hm
          rcases List.mem_append.1 hm with e | e
          · exact g.ev e
          · simp only [List.mem_singleton, Ev.closed.injEq] at e
            exact g.lost.2.2.2 ix e.symm
        · exact g
      · exact .refl h
  | expire j ok armed drops =>
    unfold step
    dsimp only
    split
    · split
      · exact .refl (h.set j _ (h.2.2.2 j))
      · split
        · exact sendTimed_kept h j ok armed
        · split
          · exact ⟨h, by simp⟩
          · have g := releases_kept (h.set j { n.sess j with timer := false } (h.2.2.2 j)) drops
            generalize releases (n.set j { n.sess j with timer := false }) drops = x at *
            split
            · refine ⟨g.lost.set j _ (by show (-1 : Int) ≠ fd; omega), ?_⟩
              intro hm
              rcases List.mem_append.1 hm with e | e
              · exact g.ev e
              · simp only [List.mem_singleton, Ev.closed.injEq] at e
                exact g.lost.2.2.2 j e.symm
            · exact g
    · exact .refl h
  | drop js => exact releases_kept h js

theorem mem_after {fd : Int} (es : List Ev) (O : List Int) (h : fd ∈ O) (hc : Ev.closed fd ∉ es) : fd ∈ after O es := by
  induction es generalizing O with
  | nil => exact h
  | cons e es ih =>
    have hc' : Ev.closed fd ∉ es := fun hm => hc (List.mem_cons_of_mem _ hm)
    cases e with
    | opened f =>
      refine ih _ ?_ hc'
      split
      · exact h
      · exact List.mem_cons_of_mem _ h
    | closed f =>
      refine ih _ (List.mem_filter.2 ⟨h, ?_⟩) hc'
      have : fd ≠ f := by rintro rfl; exact hc List.mem_cons_self
      simpa using this
    | sent f => exact ih _ h hc'
    | undef => exact ih _ h hc'

/-- Only that the operating system does not give sockets that are open. -/
def Os (resends : Nat) : Net → List Int → List Op → Prop
  | n, O, [] => True
  | n, O, o :: os => Fresh O o ∧ Os resends (step resends n o).1 (after O (step resends n o).2) os

theorem lost_forever {fd : Int} (resends : Nat) (os : List Op) (n : Net) (O : List Int) (h : Lost fd n) (hO : fd ∈ O)
    (hw : Os resends n O os) : fd ∈ after O (run resends n os).2 := by
  induction os generalizing n O with
  | nil => exact hO
  | cons o os ih =>
    have g := step_kept h resends o (by
      intro f ok ar e
      subst e
      rcases hw.1 with e | ⟨_, e⟩
      · have := h.1; omega
      · rintro rfl; exact e hO)
    show fd ∈ after O ((step resends n o).2 ++ _)
    rw [after_append]
    exact ih _ _ g.lost (mem_after _ _ hO g.ev) hw.2

/-- An endpoint mapper request with the activity UUID of an application ready request, on the socket of that request: the device closes its
server socket, and the socket of the request stays open for ever, whatever comes after. -/
theorem C129_fails_epm (resends : Nat) (n : Net) (O : List Int) (h : Inv n O) (j : Nat) (hf : (n.sess j).fromMe = true)
    (h0 : 0 ≤ (n.sess j).sock) (answer : Bool) :
    let o := Op.packet (some j) ⟨some j, .epm, [], answer, none, none, false⟩
    n.rpc ∉ after O (step resends n o).2 ∧ ¬Fine [n.rpc, n.pnio] O (step resends n o).2 ∧
      ∀ os, Os resends n O (o :: os) → (n.sess j).sock ∈ after O (run resends n (o :: os)).2 ∧ ∀ i, ((step resends n o).1.sess i).sock ≠ (n.sess j).sock := by
  dsimp only
  have hu := h.used hf
  have hl := h.lt hu
  rcases h.own j hf with e | ⟨hm, hr, hp, _⟩
  · omega
  have hstep : step resends n (.packet (some j) ⟨some j, .epm, [], answer, none, none, false⟩) =
      (((n.set j { n.sess j with timer := false }).set j { n.sess j with timer := false, sock := n.rpc }).set j
          { n.sess j with timer := false, sock := -1 }, (if answer then [Ev.sent n.rpc] else []) ++ [.closed n.rpc]) := by
    unfold step
    dsimp only
    rw [if_pos ⟨hl, hu, hf⟩]
    unfold dcePacket
    have ht : target n ⟨some j, .epm, [], answer, none, none, false⟩ = some (n, j) := by
      unfold target; dsimp only; rw [if_pos hu]
    rw [ht]
    simp [releases, sendAgain, killIf, hf]
  have hsess : ∀ i, ((step resends n (.packet (some j) ⟨some j, .epm, [], answer, none, none, false⟩)).1.sess i).sock ≠ (n.sess j).sock := by
    intro i
    rw [hstep]
    show (((n.set j _).set j _).set j _ |>.sess i).sock ≠ _
    rw [set_sess]
    split
    · show (-1 : Int) ≠ _; omega
    · rename_i hi
      rw [set_sess, if_neg hi, set_sess, if_neg hi]
      intro e
      cases hq : (n.sess i).fromMe with
      | true => exact hi (h.inj i j hq hf e (by omega))
      | false =>
        cases hq2 : (n.sess i).inUse with
        | true =>
          rcases h.guest i hq2 hq with g | g
          · exact hr (e.symm.trans g)
          · exact hp (e.symm.trans g)
        | false => have := (h.free i hq2).2; omega
  have hlost : Lost (n.sess j).sock (step resends n (.packet (some j) ⟨some j, .epm, [], answer, none, none, false⟩)).1 := by
    refine ⟨h0, ?_, ?_, hsess⟩
    · rw [hstep]; exact hr
    · rw [hstep]; exact hp
  have hafter : after O (step resends n (.packet (some j) ⟨some j, .epm, [], answer, none, none, false⟩)).2 = O.filter (· ≠ n.rpc) := by
    rw [hstep]
    cases answer <;> rfl
  refine ⟨?_, ?_, ?_⟩
  · rw [hafter]
    intro hm
    have := (List.mem_filter.1 hm).2
    simp at this
  · rw [hstep]
    intro hF
    have hF := ((fine_append _ _ _ _).1 hF).2.1
    have h1 := h.rpc0
    rcases hF with e | e
    · omega
    · exact e.2 List.mem_cons_self
  · intro os hos
    refine ⟨?_, hsess⟩
    show _ ∈ after O ((step resends n _).2 ++ _)
    rw [after_append]
    refine lost_forever resends os _ _ hlost ?_ hos.2
    rw [hafter]
    exact List.mem_filter.2 ⟨hm, by simpa using hr⟩

/-- The expiries before the last one. -/
theorem expiries (resends : Nat) (j : Nat) (k : Nat) (n : Net) (ht : (n.sess j).timer = true) (hs : 0 ≤ (n.sess j).sock)
    (hk : k ≤ (n.sess j).left) :
    let x := run resends n (List.replicate k (.expire j true true []))
    (x.1.sess j) = { n.sess j with left := (n.sess j).left - k } := by
  induction k generalizing n with
  | zero => rfl
  | succ k ih =>
    have hstep : step resends n (.expire j true true []) = (n.set j { n.sess j with left := (n.sess j).left - 1, timer := true }, [.sent (n.sess j).sock]) := by
      unfold step
      dsimp only
      rw [if_pos ht, if_neg (by omega), if_pos (by omega)]
      unfold sendTimed
      dsimp only
      rw [if_neg (by omega)]
      rfl
    have := ih (n.set j { n.sess j with left := (n.sess j).left - 1, timer := true }) (by rw [set_same]) (by rw [set_same]; exact hs)
      (by rw [set_same]; show k ≤ (n.sess j).left - 1; omega)
    dsimp only at this ⊢
    show (run resends (step resends n (.expire j true true [])).1 _).1.sess j = _
    rw [hstep, this, set_same]
    simp only [Sess.mk.injEq, ht, true_and, and_true]
    omega

theorem run_append (resends : Nat) (n : Net) (a b : List Op) :
    run resends n (a ++ b) = ((run resends (run resends n a).1 b).1, (run resends n a).2 ++ (run resends (run resends n a).1 b).2) := by
  induction a generalizing n with
  | nil => rfl
  | cons o a ih => simp only [List.cons_append, run, ih, List.append_assoc]

/-- A request in a session without connection that does not end the session (a write of many records of an existing connection, sent with a new
activity UUID) and has an answer in fragments, none of which is acknowledged: after the last retransmission the device uses the NULL pointer `p_ar` of the session. -/
theorem C129_fails_orphan (resends : Nat) (hres : 0 < resends) (n : Net) (j : Nat) (hj : freeIx n = some j) (hp : 0 ≤ n.pnio) :
    Ev.undef ∈ (run resends n (.packet none ⟨none, .other, [], false, none, some (true, true), false⟩ ::
      (List.replicate (resends - 1) (.expire j true true []) ++ [.expire j true true []]))).2 := by
  have hstep : ((step resends n (.packet none ⟨none, .other, [], false, none, some (true, true), false⟩)).1.sess j) =
      ⟨true, false, n.pnio, true, resends - 1, false⟩ := by
    unfold step dcePacket target
    dsimp only
    rw [hj]
    simp only [Option.map_some, releases, sendAgain, killIf, sendTimed, set_same, Option.getD_none]
    have hk : ¬Kind.other = Kind.epm := by decide
    simp only [if_neg hk, set_same, Bool.false_eq_true, if_false]
    rw [if_neg (by omega)]
    simp [set_same]
  refine List.mem_append_right _ ?_
  rw [run_append]
  refine List.mem_append_right _ ?_
  have := expiries resends j (resends - 1) (step resends n (.packet none ⟨none, .other, [], false, none, some (true, true), false⟩)).1
    (by rw [hstep]) (by rw [hstep]; exact hp) (by rw [hstep]; exact Nat.le_refl _)
  dsimp only at this
  rw [hstep] at this
  refine List.mem_append_left _ ?_
  generalize run resends (step resends n (.packet none ⟨none, .other, [], false, none, some (true, true), false⟩)).1
    (List.replicate (resends - 1) (.expire j true true [])) = z at this ⊢
  unfold step
  dsimp only
  rw [this, if_pos rfl, if_neg (by show ¬n.pnio < 0; omega), if_neg (by show ¬(resends - 1 - (resends - 1) > 0); omega), if_pos rfl]
  exact List.mem_singleton.2 rfl

/-- A history that meets the conditions of `C129_sockets_partial`, in which two sockets are opened and one is closed. -/
theorem C129_example :
    let os := [Op.ready 5 true true, .ready 6 true true, .packet (some 0) ⟨some 0, .fin, [0], false, none, none, true⟩]
    World 3 (init 3 4 4) [3, 4] os ∧ after [3, 4] (run 3 (init 3 4 4) os).2 = [6, 3, 4] := by
  refine ⟨⟨.inr ⟨by decide, by decide⟩, trivial, trivial, .inr ⟨by decide, by decide⟩, trivial, trivial, trivial, nofun, fun h => absurd rfl h, trivial⟩, ?_⟩
  decide

end Verif.Sock
