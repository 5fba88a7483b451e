import Verif.Alarm.App
/-!
# C13 Two alarm endpoints over a lossy link

Two connections (each the full model of `Model.lean`) exchange the frames of one priority over links
that may lose and duplicate frames but keep their order.
-/
set_option linter.unusedSimpArgs false
set_option linter.unusedVariables false
namespace Verif.Alarm

variable {α : Type}

/-! ## Specification -/

/-- The events of priority `p`. -/
def proj (p : Bool) (evs : List (Bool × Ev α)) : List (Ev α) := evs.filterMap fun e => if e.1 = p then some e.2 else none

/-- Frames put on the wire. -/
def Ev.wire? : Ev α → Option (Frame α) | .wire f => some f | _ => none
/-- Bodies of the data frames handed to the transport. -/
def Ev.started? : Ev α → Option (Body α) | .started f => some f.body | _ => none
/-- Transport confirmations. -/
def Ev.confirmed? : Ev α → Option Unit | .confirmed => some () | _ => none
/-- Alarms delivered to the application. -/
def Ev.deliver? : Ev α → Option α | .deliver a => some a | _ => none
/-- The alarm in a data frame. -/
def Body.notify? : Body α → Option α | .notify a => some a | _ => none

/-- Everything handed to the transport of priority `p`, oldest first. -/
def starts (p : Bool) (h : Hist α) : List (Body α) := h.flatMap fun e => (proj p e.2).filterMap Ev.started?

/-- How many of these were confirmed by the transport. -/
def conf (p : Bool) (h : Hist α) : Nat := (h.flatMap fun e => (proj p e.2).filterMap Ev.confirmed?).length

/-- The alarms delivered to the application at priority `p`, oldest first. -/
def delivered (p : Bool) (h : Hist α) : List α := h.flatMap fun e => (proj p e.2).filterMap Ev.deliver?

/-- The alarms (not: acknowledgements) in a list of data frames. -/
def alarms (l : List (Body α)) : List α := l.filterMap Body.notify?

/-- The number of data frames that had been accepted when the last own data frame was built. -/
def ackAt (p : Bool) (h : Hist α) : Nat :=
  (h.foldl (fun (s : Rx × Nat) e =>
    (rxStep p s.1 e.1, if ((proj p e.2).filterMap Ev.started?).isEmpty then s.2 else s.1.accepted)) (⟨0, false⟩, 0)).2

/-- Two connections and the links between them: the operations done at `a` and at `b` (their states are
`exec` of these), and the frames under way. -/
structure Sys (α : Type) where
  a : List (Op α)
  b : List (Op α)
  ab : List (Frame α)
  ba : List (Frame α)

/-- What can happen: a local operation at either side, arrival of the oldest frame, loss or duplication
of any frame under way. -/
inductive SysOp (α : Type) where
  | atA (op : Op α) | atB (op : Op α) | toA (tx : Tx) | toB (tx : Tx)
  | loseAB (n : Nat) | loseBA (n : Nat) | dupAB (n : Nat) | dupBA (n : Nat)

/-- A frame of priority `p` can only come from the link. -/
def Op.isRecv (p : Bool) : Op α → Bool
  | .recv q _ _ => q == p
  | _ => false

/-- The frames of priority `p` sent by the operation `op` at a side that did `ops` before. -/
def sends (c : Cfg) (p : Bool) (ops : List (Op α)) (op : Op α) : List (Frame α) :=
  (proj p (step c (exec c ops).1 op).2).filterMap Ev.wire?

/-- Duplicate element `n`. -/
def dup {β : Type} (l : List β) (n : Nat) : List β := l.take (n + 1) ++ l.drop n

/-- One step of the composition. -/
def sysStep (ca cb : Cfg) (p : Bool) (s : Sys α) : SysOp α → Sys α
  | .atA op => if op.isRecv p = true then s else { s with a := s.a ++ [op], ab := s.ab ++ sends ca p s.a op }
  | .atB op => if op.isRecv p = true then s else { s with b := s.b ++ [op], ba := s.ba ++ sends cb p s.b op }
  | .toA tx => match s.ba with
    | [] => s
    | f :: fs => { s with a := s.a ++ [.recv p f tx], ba := fs, ab := s.ab ++ sends ca p s.a (.recv p f tx) }
  | .toB tx => match s.ab with
    | [] => s
    | f :: fs => { s with b := s.b ++ [.recv p f tx], ab := fs, ba := s.ba ++ sends cb p s.b (.recv p f tx) }
  | .loseAB n => { s with ab := s.ab.eraseIdx n }
  | .loseBA n => { s with ba := s.ba.eraseIdx n }
  | .dupAB n => { s with ab := dup s.ab n }
  | .dupBA n => { s with ba := dup s.ba n }

/-- A run of the composition. -/
def sysRun (ca cb : Cfg) (p : Bool) (l : List (SysOp α)) : Sys α := l.foldl (sysStep ca cb p) ⟨[], [], [], []⟩

/-- No retransmission is so late that the acknowledgement number in it has come round: when a timer
fires, fewer than 0x7fff data frames were accepted since the frame was built. -/
def Fresh (c : Cfg) (p : Bool) (ops : List (Op α)) : Prop :=
  ∀ pre tx sched, pre ++ [.expire p tx sched] <+: ops →
    (rx p (exec c pre).2).accepted < ackAt p (exec c pre).2 + 0x7fff

/-- Every acknowledgement of a frame of priority `p` could be sent. -/
def AcksOk (p : Bool) (ops : List (Op α)) : Prop := ∀ f tx, Op.recv p f tx ∈ ops → tx = .ok

/-! ## One side -/

theorem proj_map (p q : Bool) (evs : List (Ev α)) :
    proj p (evs.map fun e => (q, e)) = if q = p then evs else [] := by
  unfold proj
  rw [List.filterMap_map]
  split
  · rename_i h
    induction evs with
    | nil => rfl
    | cons e es ih => subst h; simp; exact ih
  · rename_i h
    simp [h]

theorem proj_finish (s : Ar α) (p q : Bool) (x : Pr α) (evs ab) :
    proj p (finish s q x evs ab).2 = if q = p then evs ++ (if ab = true then [Ev.abort] else []) else [] := by
  unfold finish
  cases ab with
  | true => rw [if_pos rfl, proj_map, if_pos rfl]
  | false => rw [if_neg (by simp), proj_map]; simp

theorem txStep_proj (p : Bool) (pd : Option (Pending α)) (op : Op α) (E : List (Bool × Ev α))
    (hna : ∀ q, (q, Ev.abort) ∉ E) : txStep p pd (op, E) = pdAfter op.hasBuf pd (proj p E) := by
  unfold txStep pdAfter proj
  simp only
  induction E generalizing pd with
  | nil => rfl
  | cons e es ih =>
    obtain ⟨q, e⟩ := e
    have hne : e ≠ .abort := fun h => hna q (by simp [h])
    have hma : (e matches .abort) = false := by cases e <;> simp at hne ⊢
    rw [List.foldl_cons, List.filterMap_cons]
    by_cases hq : q = p
    · simp only [hq, true_or, if_true, List.foldl_cons]
      exact ih _ fun q h => hna q (by simp [h])
    · simp only [hq, if_false, hma]
      simp
      exact ih _ fun q h => hna q (by simp [h])

theorem starts_append (p : Bool) (h : Hist α) (e) : starts p (h ++ [e]) = starts p h ++ (proj p e.2).filterMap Ev.started? := by
  simp [starts]
theorem conf_append (p : Bool) (h : Hist α) (e) :
    conf p (h ++ [e]) = conf p h + ((proj p e.2).filterMap Ev.confirmed?).length := by simp [conf]
theorem delivered_append (p : Bool) (h : Hist α) (e) :
    delivered p (h ++ [e]) = delivered p h ++ (proj p e.2).filterMap Ev.deliver? := by simp [delivered]
theorem ackAt_append (p : Bool) (h : Hist α) (e : Op α × List (Bool × Ev α)) :
    ackAt p (h ++ [e]) = if ((proj p e.2).filterMap Ev.started?).isEmpty then ackAt p h else (rx p h).accepted := by
  have key : ∀ (h : Hist α) (s : Rx × Nat),
      (h.foldl (fun (s : Rx × Nat) e =>
        (rxStep p s.1 e.1, if ((proj p e.2).filterMap Ev.started?).isEmpty then s.2 else s.1.accepted)) s).1 =
      h.foldl (fun r e => rxStep p r e.1) s.1 := by
    intro h
    induction h with
    | nil => intro s; rfl
    | cons e es ih => intro s; simp only [List.foldl_cons]; rw [ih]
  simp only [ackAt, List.foldl_append, List.foldl_cons, List.foldl_nil, key]
  rfl

/-- A received frame is the next one expected. -/
def Next (r : Rx) (f : Frame α) : Prop := r.blocked = false ∧ f.isData ∧ f.sendSeq = seqNo r.accepted

theorem apmsInd_shape (x : Pr α) (f : Frame α) :
    (apmsInd x f).1.expSeqO = x.expSeqO ∧ (apmsInd x f).1.expSeq = x.expSeq ∧
    (((apmsInd x f).2 = [] ∧ (apmsInd x f).1 = x) ∨
      (x.apms = .wtack ∧ f.ackSeq = x.sendSeq ∧
        ((apmsInd x f).2 = [.confirmed] ∨ (apmsInd x f).2 = [.confirmed, .ackCnf]) ∧
        (apmsInd x f).1.sendSeq = (x.sendSeq + 1) &&& 0x7fff)) := by
  unfold apmsInd
  split
  · split
    · split
      · rename_i h1 h2
        refine ⟨rfl, rfl, Or.inr ⟨h1, h2, ?_, rfl⟩⟩
        split <;> simp
      · simp
    · simp
  · simp

/-- The events of a received frame: a confirmation, the answer, and what the application sees. -/
theorem recv_shape {c : Cfg} {x : Pr α} {r pd} (hl : Live c x r pd) (f : Frame α) (tx : Tx) (p : Bool) :
    ∃ C W U : List (Ev α), (recv x f tx).2.1 = C ++ W ++ U ∧
      (C = [] ∧ ((recv x f tx).2.2 = false → (recv x f tx).1.sendSeq = x.sendSeq) ∨
       x.apms = .wtack ∧ f.ackSeq = x.sendSeq ∧ (C = [.confirmed] ∨ C = [.confirmed, .ackCnf]) ∧
         (recv x f tx).1.sendSeq = (x.sendSeq + 1) &&& 0x7fff) ∧
      (W = [] ∨ ∃ g, W = [.wire g] ∧ g.pdu ≠ .data ∧
        g.ackSeq = prevNo (rxStep p r (.recv p f tx)).accepted) ∧
      (U = [] ∨ (∃ st, U = [.alarmCnf st]) ∨ ∃ a, U = [.deliver a] ∧ Next r f ∧ f.body = .notify a) ∧
      (∀ a, Next r f → f.body = .notify a → tx = .ok → (recv x f tx).2.2 = false → U = [.deliver a]) := by
  have hc : x.apmr ≠ .closed := by rw [hl.apmr]; split <;> simp
  obtain ⟨s1, s2, s3⟩ := apmsInd_shape x f
  have hsame : ¬ Next r f → rxStep p r (.recv p f tx) = r := by
    intro h
    simp only [rxStep]
    rw [if_neg]
    rintro ⟨_, h1, h2, h3⟩
    exact h ⟨h1, h2, h3⟩
  have hC : ∀ (y : Pr α) (ab : Bool), y.sendSeq = (apmsInd x f).1.sendSeq →
      ((apmsInd x f).2 = [] ∧ (ab = false → y.sendSeq = x.sendSeq) ∨
       x.apms = .wtack ∧ f.ackSeq = x.sendSeq ∧ ((apmsInd x f).2 = [.confirmed] ∨ (apmsInd x f).2 = [.confirmed, .ackCnf]) ∧
         y.sendSeq = (x.sendSeq + 1) &&& 0x7fff) := by
    intro y ab hy
    rcases s3 with ⟨h1, h2⟩ | ⟨h1, h2, h3, h4⟩
    · left; exact ⟨h1, fun _ => by rw [hy, h2]⟩
    · right; exact ⟨h1, h2, h3, by rw [hy, h4]⟩
  cases hp : f.pdu with
  | ack =>
    have e : recv x f tx = ((apmsInd x f).1, (apmsInd x f).2, false) := by simp [recv, hc, hp]
    have hn : ¬ Next r f := fun h => by have := h.2.1.1; rw [hp] at this; cases this
    rw [e]
    exact ⟨(apmsInd x f).2, [], [], by simp, hC _ false rfl, Or.inl rfl, Or.inl rfl, fun a h => absurd h hn⟩
  | nack =>
    have e : recv x f tx = (x, [], false) := by simp [recv, hc, hp]
    have hn : ¬ Next r f := fun h => by have := h.2.1.1; rw [hp] at this; cases this
    rw [e]
    exact ⟨[], [], [], by simp, by simp, Or.inl rfl, Or.inl rfl, fun a h => absurd h hn⟩
  | err =>
    have e : recv x f tx = (x, [], true) := by simp [recv, hc, hp]
    rw [e]
    exact ⟨[], [], [], by simp, by simp, Or.inl rfl, Or.inl rfl, by simp⟩
  | ignored =>
    have e : recv x f tx = (x, [], false) := by simp [recv, hc, hp]
    have hn : ¬ Next r f := fun h => by have := h.2.1.1; rw [hp] at this; cases this
    rw [e]
    exact ⟨[], [], [], by simp, by simp, Or.inl rfl, Or.inl rfl, fun a h => absurd h hn⟩
  | data =>
    have e : recv x f tx = apmrInd x f tx := by simp [recv, hc, hp]
    rw [e]
    by_cases hn : Next r f
    · obtain ⟨hb, hf, hs⟩ := hn
      have hx : x.apmr = .open := by rw [hl.apmr, hb]; rfl
      have hse : f.sendSeq = x.expSeq := by rw [hs, hl.exp]
      have ha : (ackFrame (advance (apmsInd x f).1)).ackSeq = prevNo (r.accepted + 1) := by
        show (apmsInd x f).1.expSeq = seqNo r.accepted
        rw [s2, hl.exp]
      cases hbd : f.body with
      | other =>
        have e : apmrInd x f tx = (x, [], true) := by simp [apmrInd, hx, hf.2, hse, hbd]
        rw [e]
        exact ⟨[], [], [], by simp, by simp, Or.inl rfl, Or.inl rfl, by simp⟩
      | alarmAck st =>
        have e2 : rxStep p r (.recv p f tx) = ⟨r.accepted + 1, false⟩ := by
          simp [rxStep, hf, hb, hs, hbd]
        rw [e2]
        by_cases htx : tx = .ok
        · have e : apmrInd x f tx = ({ (alpmiInd (advance (apmsInd x f).1) st).1 with apmr := .open },
              (apmsInd x f).2 ++ [.wire (ackFrame (advance (apmsInd x f).1))] ++ (alpmiInd (advance (apmsInd x f).1) st).2, false) := by
            simp [apmrInd, hx, hf.2, hse, hbd, apmsSend_plain _ (ackFrame _) rfl, htx]
          rw [e]
          refine ⟨_, _, _, rfl, hC _ _ ?_, Or.inr ⟨_, rfl, by simp [ackFrame], ha⟩, ?_, by simp⟩
          · unfold alpmiInd; split <;> rfl
          · unfold alpmiInd; split
            · exact Or.inr (Or.inl ⟨st, rfl⟩)
            · exact Or.inl rfl
        · have e : apmrInd x f tx = (advance (apmsInd x f).1, (apmsInd x f).2, false) := by
            simp [apmrInd, hx, hf.2, hse, hbd, apmsSend_plain _ (ackFrame _) rfl, htx]
          rw [e]
          exact ⟨(apmsInd x f).2, [], [], by simp, hC _ _ rfl, Or.inl rfl, Or.inl rfl, by simp⟩
      | badNotify =>
        have e2 : rxStep p r (.recv p f tx) = ⟨r.accepted + 1, decide (tx = .ok)⟩ := by
          simp [rxStep, hf, hb, hs, hbd]
        rw [e2]
        by_cases htx : tx = .ok
        · have e : apmrInd x f tx = ({ advance (apmsInd x f).1 with apmr := .wcnf },
              (apmsInd x f).2 ++ [.wire (ackFrame (advance (apmsInd x f).1))], false) := by
            simp [apmrInd, hx, hf.2, hse, hbd, apmsSend_plain _ (ackFrame _) rfl, htx]
          rw [e]
          exact ⟨_, _, [], by rw [List.append_nil], hC _ _ rfl, Or.inr ⟨_, rfl, by simp [ackFrame], ha⟩, Or.inl rfl, by simp⟩
        · have e : apmrInd x f tx = (advance (apmsInd x f).1, (apmsInd x f).2, false) := by
            simp [apmrInd, hx, hf.2, hse, hbd, apmsSend_plain _ (ackFrame _) rfl, htx]
          rw [e]
          exact ⟨(apmsInd x f).2, [], [], by simp, hC _ _ rfl, Or.inl rfl, Or.inl rfl, by simp⟩
      | notify a =>
        have e2 : rxStep p r (.recv p f tx) = ⟨r.accepted + 1, false⟩ := by
          simp [rxStep, hf, hb, hs, hbd]
        rw [e2]
        by_cases htx : tx = .ok
        · by_cases hno : (advance (apmsInd x f).1).alpmr = .wNotify
          · have e : apmrInd x f tx = ({ advance (apmsInd x f).1 with apmr := .open, alpmr := .wUserAck },
                (apmsInd x f).2 ++ [.wire (ackFrame (advance (apmsInd x f).1))] ++ [.deliver a], false) := by
              simp [apmrInd, hx, hf.2, hse, hbd, apmsSend_plain _ (ackFrame _) rfl, htx, alpmrInd, hno]
            rw [e]
            refine ⟨_, _, _, rfl, hC _ _ rfl, Or.inr ⟨_, rfl, by simp [ackFrame], ha⟩,
              Or.inr (Or.inr ⟨a, rfl, ⟨hb, hf, hs⟩, rfl⟩), ?_⟩
            intro a' _ h
            injection h with h
            subst h
            simp
          · have hns : (advance (apmsInd x f).1).alpmr ≠ .wStart := (live_apmsInd hl f true).1.alpmr
            have e : apmrInd x f tx = ({ advance (apmsInd x f).1 with apmr := .wcnf },
                (apmsInd x f).2 ++ [.wire (ackFrame (advance (apmsInd x f).1))], true) := by
              simp [apmrInd, hx, hf.2, hse, hbd, apmsSend_plain _ (ackFrame _) rfl, htx, alpmrInd, hno, hns]
            rw [e]
            exact ⟨_, _, [], by rw [List.append_nil], hC _ _ rfl, Or.inr ⟨_, rfl, by simp [ackFrame], ha⟩, Or.inl rfl, by simp⟩
        · have e : apmrInd x f tx = (advance (apmsInd x f).1, (apmsInd x f).2, false) := by
            simp [apmrInd, hx, hf.2, hse, hbd, apmsSend_plain _ (ackFrame _) rfl, htx]
          rw [e]
          exact ⟨(apmsInd x f).2, [], [], by simp, hC _ _ rfl, Or.inl rfl, Or.inl rfl, fun _ _ _ h => absurd h htx⟩
    · rw [hsame hn]
      by_cases hx : x.apmr = .open ∧ f.tack = true
      · obtain ⟨hx, ht⟩ := hx
        have hb : r.blocked = false := by
          have := hl.apmr; rw [hx] at this
          cases hb : r.blocked with
          | false => rfl
          | true => rw [hb] at this; simp at this
        have hse : f.sendSeq ≠ x.expSeq := by
          rw [hl.exp]; exact fun h => hn ⟨hb, ⟨hp, ht⟩, h⟩
        by_cases ho : f.sendSeq = x.expSeqO
        · have e : apmrInd x f tx = ((apmsInd x f).1, (apmsInd x f).2 ++
              (if tx = .ok then [.wire (ackFrame (apmsInd x f).1)] else []), false) := by
            simp only [apmrInd, hx, ht]
            rw [if_pos trivial, if_neg (by simp), if_neg hse, if_pos ho]
            simp [apmsSend_plain _ (ackFrame _) rfl]
          rw [e]
          refine ⟨_, _, [], by rw [List.append_nil], hC _ _ rfl, ?_, Or.inl rfl, fun a h => absurd h hn⟩
          split
          · right; refine ⟨_, rfl, by simp [ackFrame], ?_⟩
            show (apmsInd x f).1.expSeqO = _
            rw [s1, hl.expO]
          · left; rfl
        · have e : apmrInd x f tx = (x, (if tx = .ok then [.wire (nackFrame x)] else []), false) := by
            simp only [apmrInd, hx, ht]
            rw [if_pos trivial, if_neg (by simp), if_neg hse, if_neg ho]
            simp [apmsSend_plain _ (nackFrame _) rfl]
          rw [e]
          refine ⟨[], _, [], by rw [List.append_nil, List.nil_append], by simp, ?_, Or.inl rfl, fun a h => absurd h hn⟩
          split
          · right; exact ⟨_, rfl, by simp [nackFrame], hl.expO⟩
          · left; rfl
      · have e : apmrInd x f tx = (x, [], false) := by
          unfold apmrInd
          split
          · rename_i h
            have ht : f.tack = false := by
              cases ht : f.tack with
              | false => rfl
              | true => exact absurd ⟨h, ht⟩ hx
            simp [ht]
          · rfl
        rw [e]
        exact ⟨[], [], [], by simp, by simp, Or.inl rfl, Or.inl rfl, fun a h => absurd h hn⟩

/-- Events that say nothing about the transport. -/
def Quiet (E : List (Ev α)) : Prop := ∀ e ∈ E, e = .fired ∨ e = .abort

/-- The possible events of one operation at priority `p` of a live connection. -/
inductive Shape (c : Cfg) (s : Ar α) (p : Bool) (op : Op α) (E : List (Ev α)) : Prop
  | quiet (hq : Quiet E) (hr : op.isRecv p = false)
      (hx : ¬ aborted [(op, (step c s op).2)] → ((step c s op).1.pr p).sendSeq = (s.pr p).sendSeq)
  | start (b : Body α) (hb : (∃ a, b = .notify a) ∨ ∃ st, b = .alarmAck st) (hr : op.isRecv p = false)
      (ho : (s.pr p).apms = .open)
      (hE : E = [.started (dataFrame (s.pr p) b)] ∨ E = [.started (dataFrame (s.pr p) b), .wire (dataFrame (s.pr p) b)])
      (hx : ((step c s op).1.pr p).sendSeq = (s.pr p).sendSeq)
  | again (f : Frame α) (tx : Tx) (sched : Bool) (hop : op = .expire p tx sched) (hf : (s.pr p).rta = some f)
      (ht : (s.pr p).apms = .wtack) (hE : E = [.fired, .wire f])
      (hx : ((step c s op).1.pr p).sendSeq = (s.pr p).sendSeq)
  | recv (f : Frame α) (tx : Tx) (hop : op = .recv p f tx)
      (hE : E = (Verif.Alarm.recv (s.pr p) f tx).2.1 ++ (if (Verif.Alarm.recv (s.pr p) f tx).2.2 = true then [.abort] else []))
      (hx : (Verif.Alarm.recv (s.pr p) f tx).2.2 = false →
        ((step c s op).1.pr p).sendSeq = (Verif.Alarm.recv (s.pr p) f tx).1.sendSeq)

theorem apmsReq_shape (c : Cfg) (x : Pr α) (b tx sched now) :
    (apmsReq c x b tx sched now).1.sendSeq = x.sendSeq ∧
    (((apmsReq c x b tx sched now).2.1 = [] ∧ (apmsReq c x b tx sched now).2.2.2 = true ) ∨
     (x.apms = .open ∧ (apmsReq c x b tx sched now).2.2.2 = false ∧
      ((apmsReq c x b tx sched now).2.1 = [.started (dataFrame x b)] ∨
       (apmsReq c x b tx sched now).2.1 = [.started (dataFrame x b), .wire (dataFrame x b)]))) := by
  unfold apmsReq
  split
  · rename_i ho
    refine ⟨?_, Or.inr ⟨ho, rfl, ?_⟩⟩
    · simp only [startTimer, apmsSend]
      cases tx <;> cases sched <;> simp [dataFrame] <;> split <;> rfl
    · cases tx <;> simp [apmsSend]
  · exact ⟨rfl, Or.inl ⟨rfl, rfl⟩⟩

theorem finish_sendSeq (s : Ar α) (p q : Bool) (x : Pr α) (evs ab) :
    ((finish s q x evs ab).1.pr p).sendSeq = if p = q then x.sendSeq else (s.pr p).sendSeq := by
  unfold finish
  split
  · simp only [Ar.close, Ar.set, Pr.close]; split <;> rfl
  · simp only [Ar.set]; split <;> rfl

theorem step_shape (c : Cfg) (s : Ar α) (op : Op α) (p : Bool) :
    Shape c s p op (proj p (step c s op).2) := by
  cases op with
  | recv q f tx =>
    by_cases hq : q = p
    · subst hq
      refine .recv f tx rfl ?_ ?_
      · rw [step_recv, proj_finish, if_pos rfl]
      · intro h; rw [step_recv, finish_sendSeq, if_pos rfl]
    · refine .quiet ?_ (by simp [Op.isRecv, hq]) ?_
      · rw [step_recv, proj_finish, if_neg hq]; intro e he; simp at he
      · intro _; rw [step_recv, finish_sendSeq, if_neg (fun h => hq h.symm)]
  | poll q a tx sched =>
    simp only [step]
    by_cases hw : (s.pr q).alpmi = .wAlarm
    · obtain ⟨h1, h2⟩ := apmsReq_shape c (s.pr q) (.notify a) tx sched s.now
      have hs : (step c s (.poll q a tx sched)) = finish s q (if (apmsReq c (s.pr q) (.notify a) tx sched s.now).2.2.1 = true then
          { (apmsReq c (s.pr q) (.notify a) tx sched s.now).1 with alpmi := .wAck } else
          (apmsReq c (s.pr q) (.notify a) tx sched s.now).1)
        (apmsReq c (s.pr q) (.notify a) tx sched s.now).2.1 (apmsReq c (s.pr q) (.notify a) tx sched s.now).2.2.2 := by
        simp [step, hw]
      have hse : ((step c s (.poll q a tx sched)).1.pr p).sendSeq = (s.pr p).sendSeq := by
        rw [hs, finish_sendSeq]
        split
        · rename_i hq; subst hq
          rw [← h1]; split <;> rfl
        · rfl
      rw [if_pos hw, proj_finish]
      by_cases hq : q = p
      · subst hq
        rw [if_pos rfl]
        rcases h2 with ⟨h2, h3⟩ | ⟨h2, h3, h4⟩
        · refine .quiet ?_ rfl (fun _ => hse)
          rw [h2, h3]; intro e he; simp at he; exact Or.inr he
        · refine .start (.notify a) (Or.inl ⟨a, rfl⟩) rfl h2 ?_ hse
          rw [h3]; simpa using h4
      · rw [if_neg hq]
        exact .quiet (fun e he => by simp at he) rfl (fun _ => hse)
    · rw [if_neg hw]
      refine .quiet (fun e he => by simp [proj] at he) rfl (fun _ => ?_)
      simp [step, hw]
  | userAck st tx sched =>
    simp only [step]
    by_cases hw : (s.pr true).alpmr = .wUserAck
    · obtain ⟨h1, h2⟩ := apmsReq_shape c (s.pr true) (.alarmAck st) tx sched s.now
      have hse : ((step c s (.userAck st tx sched)).1.pr p).sendSeq = (s.pr p).sendSeq := by
        simp only [step, if_pos hw]
        cases p with
        | true =>
          simp only [Ar.set, if_true]
          rw [finish_sendSeq, if_pos rfl, h1]
        | false =>
          simp only [Ar.set]
          rw [if_neg (by simp), finish_sendSeq, if_neg (by simp)]
      rw [if_pos hw]
      simp only
      rw [proj_finish]
      cases p with
      | true =>
        rw [if_pos rfl]
        rcases h2 with ⟨h2, h3⟩ | ⟨h2, h3, h4⟩
        · refine .quiet ?_ rfl (fun _ => hse)
          rw [h2, h3]; intro e he; simp at he; exact Or.inr he
        · refine .start (.alarmAck st) (Or.inr ⟨st, rfl⟩) rfl h2 ?_ hse
          rw [h3]; simpa using h4
      | false =>
        rw [if_neg (by simp)]
        exact .quiet (fun e he => by simp at he) rfl (fun _ => hse)
    · rw [if_neg hw]
      refine .quiet (fun e he => by simp [proj] at he) rfl (fun _ => ?_)
      simp [step, hw]
  | expire q tx sched =>
    cases ht : (s.pr q).timers with
    | nil =>
      have e : step c s (.expire q tx sched) = (s, []) := by simp [step, ht]
      rw [e]
      refine .quiet (fun e he => by simp [proj] at he) rfl (fun _ => ?_)
      rw [e]
    | cons t ts =>
      by_cases hle : t ≤ s.now
      · have hs : step c s (.expire q tx sched) =
          finish s q (apmsTimeout c { s.pr q with timers := ts } tx sched s.now).1
            (.fired :: (apmsTimeout c { s.pr q with timers := ts } tx sched s.now).2.1)
            (apmsTimeout c { s.pr q with timers := ts } tx sched s.now).2.2 := by
          simp [step, ht, hle]
        have h1 : (apmsTimeout c { s.pr q with timers := ts } tx sched s.now).1.sendSeq = (s.pr q).sendSeq := by
          unfold apmsTimeout startTimer
          split
          · split
            · rfl
            · split
              · split <;> rfl
              · rfl
          · rfl
        have hse : ((step c s (.expire q tx sched)).1.pr p).sendSeq = (s.pr p).sendSeq := by
          rw [hs, finish_sendSeq]
          split
          · rename_i hq; subst hq; exact h1
          · rfl
        rw [hs, proj_finish]
        by_cases hq : q = p
        · subst hq
          rw [if_pos rfl]
          have h2 : ((apmsTimeout c { s.pr q with timers := ts } tx sched s.now).2.1 = []) ∨
              ((apmsTimeout c { s.pr q with timers := ts } tx sched s.now).2.2 = false ∧
               ∃ f, (s.pr q).rta = some f ∧ (s.pr q).apms = .wtack ∧
                (apmsTimeout c { s.pr q with timers := ts } tx sched s.now).2.1 = [.wire f]) := by
            unfold apmsTimeout
            split
            · rename_i hw
              split
              · left; rfl
              · rename_i f hf
                split
                · cases tx
                  · right; exact ⟨rfl, f, hf, hw, rfl⟩
                  · left; rfl
                  · left; rfl
                · left; rfl
            · left; rfl
          rcases h2 with h2 | ⟨h2, f, h3, h4, h5⟩
          · refine .quiet ?_ rfl (fun _ => hse)
            rw [h2]
            intro e he
            simp at he
            rcases he with he | ⟨_, he⟩
            · exact Or.inl he
            · exact Or.inr he
          · refine .again f tx sched rfl h3 h4 ?_ hse
            rw [h2, h5]; simp
        · rw [if_neg hq]
          exact .quiet (fun e he => by simp at he) rfl (fun _ => hse)
      · have e : step c s (.expire q tx sched) = (s, []) := by simp [step, ht, hle]
        rw [e]
        refine .quiet (fun e he => by simp [proj] at he) rfl (fun _ => ?_)
        rw [e]
  | tick d => exact .quiet (fun e he => by simp [proj, step] at he) rfl (fun _ => rfl)

/-- What holds of one side. -/
structure NInv (c : Cfg) (p : Bool) (ops : List (Op α)) : Prop where
  le1 : conf p (exec c ops).2 ≤ (starts p (exec c ops).2).length
  le2 : (starts p (exec c ops).2).length ≤ conf p (exec c ops).2 + 1
  ack : ackAt p (exec c ops).2 ≤ (rx p (exec c ops).2).accepted
  bodies : ∀ b ∈ starts p (exec c ops).2, (∃ a, b = .notify a) ∨ ∃ st, b = .alarmAck st
  seq : ¬ aborted (exec c ops).2 → ((exec c ops).1.pr p).sendSeq = seqNo (conf p (exec c ops).2)
  idle : ¬ aborted (exec c ops).2 → pending p (exec c ops).2 = none →
    (starts p (exec c ops).2).length = conf p (exec c ops).2
  pend : ¬ aborted (exec c ops).2 → ∀ P, pending p (exec c ops).2 = some P →
    P.frame.tack = true ∧ (starts p (exec c ops).2)[conf p (exec c ops).2]? = some P.frame.body ∧
    P.frame.ackSeq = prevNo (ackAt p (exec c ops).2)

theorem quiet_filterMap {E : List (Ev α)} (hq : Quiet E) :
    E.filterMap Ev.started? = [] ∧ E.filterMap Ev.confirmed? = [] ∧ E.filterMap Ev.deliver? = [] ∧
    E.filterMap Ev.wire? = [] := by
  refine ⟨?_, ?_, ?_, ?_⟩ <;>
  · rw [List.filterMap_eq_nil_iff]
    intro e he
    rcases hq e he with h | h <;> subst h <;> rfl

theorem pdAfter_quiet {buf} {pd : Option (Pending α)} {E : List (Ev α)} (hq : ∀ e ∈ E, e = .fired) :
    (pd = none → pdAfter buf pd E = none) ∧
    (∀ P', pdAfter buf pd E = some P' → ∃ P, pd = some P ∧ P'.frame = P.frame) ∧
    (pdAfter buf pd E = none → pd = none) := by
  unfold pdAfter
  induction E generalizing pd with
  | nil => exact ⟨id, fun P' h => ⟨P', h, rfl⟩, id⟩
  | cons e es ih =>
    have he : e = .fired := hq e (by simp)
    subst he
    have := ih (pd := txEvent buf pd .fired) fun e h => hq e (by simp [h])
    obtain ⟨i1, i2, i3⟩ := this
    rw [List.foldl_cons]
    cases pd with
    | none => exact ⟨fun _ => i1 rfl, fun P' h => by obtain ⟨P, hP, _⟩ := i2 P' h; simp [txEvent] at hP, fun _ => rfl⟩
    | some P =>
      refine ⟨by simp, fun P' h => ?_, fun h => ?_⟩
      · obtain ⟨Q, hQ, hf⟩ := i2 P' h
        simp [txEvent] at hQ
        refine ⟨P, rfl, ?_⟩
        rw [hf, ← hQ]
      · have := i3 h; simp [txEvent] at this

theorem ninv (c : Cfg) (p : Bool) (ops : List (Op α)) : NInv c p ops := by
  induction ops using List.reverseRecOn with
  | nil =>
    constructor <;> simp [exec, starts, conf, ackAt, rx, Ar.init, Pr.init, seqNo, pending]
  | append_singleton ops op ih =>
    have hrx : (rx p (exec c ops).2).accepted ≤ (rx p (exec c (ops ++ [op])).2).accepted := by
      rw [exec_append, rx_append]; exact rxStep_le _ _ _
    by_cases hna : aborted (exec c ops).2
    · -- nothing happens any more
      have hd : AllDead (exec c ops).1 (exec c ops).2 := by
        rcases exec_inv c ops with ⟨h, _⟩ | ⟨_, h⟩
        · exact absurd hna h
        · exact h
      have he := (step_dead (c := c) hd op).1
      have hab : aborted (exec c (ops ++ [op])).2 := by rw [exec_append, aborted_append]; exact Or.inl hna
      have e1 : starts p (exec c (ops ++ [op])).2 = starts p (exec c ops).2 := by
        rw [exec_append, starts_append, he]; simp [proj]
      have e2 : conf p (exec c (ops ++ [op])).2 = conf p (exec c ops).2 := by
        rw [exec_append, conf_append, he]; simp [proj]
      have e3 : ackAt p (exec c (ops ++ [op])).2 = ackAt p (exec c ops).2 := by
        rw [exec_append, ackAt_append, he]; simp [proj]
      exact { le1 := by rw [e1, e2]; exact ih.le1
              le2 := by rw [e1, e2]; exact ih.le2
              ack := by rw [e3]; exact Nat.le_trans ih.ack hrx
              bodies := by rw [e1]; exact ih.bodies
              seq := fun h => absurd hab h
              idle := fun h => absurd hab h
              pend := fun h => absurd hab h }
    · have hl := live_of hna p
      have hnew : (exec c (ops ++ [op])).1 = (step c (exec c ops).1 op).1 := by rw [exec_append]
      have hE : ¬ aborted (exec c (ops ++ [op])).2 → ∀ q, (q, Ev.abort) ∉ (step c (exec c ops).1 op).2 := by
        intro h q hq; apply h; rw [exec_append, aborted_append]; exact Or.inr ⟨q, hq⟩
      have hpd : ¬ aborted (exec c (ops ++ [op])).2 → pending p (exec c (ops ++ [op])).2 =
          pdAfter op.hasBuf (pending p (exec c ops).2) (proj p (step c (exec c ops).1 op).2) := by
        intro h
        have := hE h
        rw [exec_append, pending_append, txStep_proj p _ _ _ this]
      have hpab : ¬ aborted (exec c (ops ++ [op])).2 → Ev.abort ∉ proj p (step c (exec c ops).1 op).2 := by
        intro h hm
        simp only [proj, List.mem_filterMap] at hm
        obtain ⟨⟨q, e⟩, h1, h2⟩ := hm
        split at h2
        · injection h2 with h2; simp at h2; subst h2; exact hE h q h1
        · cases h2
      have hst : starts p (exec c (ops ++ [op])).2 = starts p (exec c ops).2 ++
          (proj p (step c (exec c ops).1 op).2).filterMap Ev.started? := by rw [exec_append, starts_append]
      have hcf : conf p (exec c (ops ++ [op])).2 = conf p (exec c ops).2 +
          ((proj p (step c (exec c ops).1 op).2).filterMap Ev.confirmed?).length := by rw [exec_append, conf_append]
      have hak : ackAt p (exec c (ops ++ [op])).2 = if ((proj p (step c (exec c ops).1 op).2).filterMap Ev.started?).isEmpty
          then ackAt p (exec c ops).2 else (rx p (exec c ops).2).accepted := by rw [exec_append, ackAt_append]
      have hsh := step_shape c (exec c ops).1 op p
      generalize hEE : proj p (step c (exec c ops).1 op).2 = E at *
      cases hsh with
      | quiet hq hr hx =>
        obtain ⟨q1, q2, q3, q4⟩ := quiet_filterMap hq
        rw [q1] at hst hak
        rw [q2] at hcf
        simp at hst hcf hak
        have hx' : ¬ aborted (exec c (ops ++ [op])).2 →
            ((exec c (ops ++ [op])).1.pr p).sendSeq = ((exec c ops).1.pr p).sendSeq := by
          intro h
          rw [hnew]; apply hx
          rintro ⟨e, he, q, hq⟩
          simp at he; subst he
          exact hE h q hq
        have hfired : ¬ aborted (exec c (ops ++ [op])).2 → ∀ e ∈ E, e = .fired := by
          intro h e he
          rcases hq e he with h' | h'
          · exact h'
          · subst h'; exact absurd he (hpab h)
        exact { le1 := by rw [hst, hcf]; exact ih.le1
                le2 := by rw [hst, hcf]; exact ih.le2
                ack := by rw [hak]; exact Nat.le_trans ih.ack hrx
                bodies := by rw [hst]; exact ih.bodies
                seq := fun h => by rw [hx' h, hcf]; exact ih.seq hna
                idle := fun h hp => by
                  rw [hst, hcf]
                  rw [hpd h] at hp
                  exact ih.idle hna ((pdAfter_quiet (hfired h)).2.2 hp)
                pend := fun h P hP => by
                  rw [hst, hcf, hak]
                  rw [hpd h] at hP
                  obtain ⟨Q, hQ, hf⟩ := (pdAfter_quiet (hfired h)).2.1 P hP
                  rw [hf]
                  exact ih.pend hna Q hQ }
      | start b hb hr ho hE' hx =>
        have hpn : pending p (exec c ops).2 = none := by
          cases hp : pending p (exec c ops).2 with
          | none => rfl
          | some P => have := (hl.pend P hp).1; rw [ho] at this; cases this
        have hlen := ih.idle hna hpn
        have q1 : E.filterMap Ev.started? = [b] := by
          rcases hE' with h | h <;> rw [h] <;> rfl
        have q2 : E.filterMap Ev.confirmed? = [] := by
          rcases hE' with h | h <;> rw [h] <;> rfl
        rw [q1] at hst hak
        rw [q2] at hcf
        simp at hcf hak
        have hP : ¬ aborted (exec c (ops ++ [op])).2 → ∃ P, pending p (exec c (ops ++ [op])).2 = some P ∧
            P.frame = dataFrame ((exec c ops).1.pr p) b := by
          intro h
          rw [hpd h, hpn]
          rcases hE' with h | h <;> rw [h] <;> simp [pdAfter, txEvent, dataFrame]
        exact { le1 := by rw [hst, hcf]; simp; omega
                le2 := by rw [hst, hcf]; simp; omega
                ack := by rw [hak]; exact hrx
                bodies := by
                  rw [hst]; intro b' hb'
                  rcases List.mem_append.1 hb' with h | h
                  · exact ih.bodies b' h
                  · simp at h; subst h; exact hb
                seq := fun h => by rw [hnew, hx, hcf]; exact ih.seq hna
                idle := fun h hp => by
                  obtain ⟨P, h1, _⟩ := hP h
                  rw [h1] at hp; cases hp
                pend := fun h P hP' => by
                  obtain ⟨Q, h1, h2⟩ := hP h
                  rw [h1] at hP'
                  injection hP' with hP'
                  subst hP'
                  rw [h2, hst, hcf, hak]
                  refine ⟨rfl, ?_, hl.expO⟩
                  rw [List.getElem?_append_right (by omega), hlen]
                  simp [dataFrame] }
      | again f tx sched hop hf ht hE' hx =>
        have q1 : E.filterMap Ev.started? = [] := by rw [hE']; rfl
        have q2 : E.filterMap Ev.confirmed? = [] := by rw [hE']; rfl
        rw [q1] at hst hak
        rw [q2] at hcf
        simp at hst hcf hak
        have hP : ∀ P', pdAfter op.hasBuf (pending p (exec c ops).2) E = some P' →
            ∃ P, pending p (exec c ops).2 = some P ∧ P'.frame = P.frame := by
          intro P' h
          rw [hE'] at h
          cases hp : pending p (exec c ops).2 with
          | none => rw [hp] at h; simp [pdAfter, txEvent] at h
          | some P =>
            rw [hp] at h
            refine ⟨P, rfl, ?_⟩
            simp only [pdAfter, txEvent, List.foldl_cons, List.foldl_nil, Option.map_some] at h
            split at h <;> (injection h with h; rw [← h])
        have hPn : pdAfter op.hasBuf (pending p (exec c ops).2) E = none → pending p (exec c ops).2 = none := by
          intro h
          rw [hE'] at h
          cases hp : pending p (exec c ops).2 with
          | none => rfl
          | some P =>
            rw [hp] at h
            simp only [pdAfter, txEvent, List.foldl_cons, List.foldl_nil, Option.map_some] at h
            split at h <;> cases h
        exact { le1 := by rw [hst, hcf]; exact ih.le1
                le2 := by rw [hst, hcf]; exact ih.le2
                ack := by rw [hak]; exact Nat.le_trans ih.ack hrx
                bodies := by rw [hst]; exact ih.bodies
                seq := fun h => by rw [hnew, hx, hcf]; exact ih.seq hna
                idle := fun h hp => by
                  rw [hst, hcf]
                  rw [hpd h] at hp
                  exact ih.idle hna (hPn hp)
                pend := fun h P hP' => by
                  rw [hst, hcf, hak]
                  rw [hpd h] at hP'
                  obtain ⟨Q, hQ, hf⟩ := hP P hP'
                  rw [hf]
                  exact ih.pend hna Q hQ }
      | recv f tx hop hE' hx =>
        obtain ⟨C, W, U, hev, hC, hW, hU, _⟩ := recv_shape hl f tx p
        rw [hev] at hE'
        have hA : (List.filterMap Ev.started? (if (recv ((exec c ops).1.pr p) f tx).2.2 = true then [(Ev.abort : Ev α)] else [])) = [] := by
          split <;> rfl
        have hA2 : (List.filterMap Ev.confirmed? (if (recv ((exec c ops).1.pr p) f tx).2.2 = true then [(Ev.abort : Ev α)] else [])) = [] := by
          split <;> rfl
        have w1 : W.filterMap Ev.started? = [] := by rcases hW with h | ⟨g, h, _⟩ <;> rw [h] <;> rfl
        have w2 : W.filterMap Ev.confirmed? = [] := by rcases hW with h | ⟨g, h, _⟩ <;> rw [h] <;> rfl
        have u1 : U.filterMap Ev.started? = [] := by
          rcases hU with h | ⟨st, h⟩ | ⟨a, h, _⟩ <;> rw [h] <;> rfl
        have u2 : U.filterMap Ev.confirmed? = [] := by
          rcases hU with h | ⟨st, h⟩ | ⟨a, h, _⟩ <;> rw [h] <;> rfl
        have c1 : C.filterMap Ev.started? = [] := by
          rcases hC with ⟨h, _⟩ | ⟨_, _, h | h, _⟩ <;> rw [h] <;> rfl
        have q1 : E.filterMap Ev.started? = [] := by
          rw [hE']; simp only [List.filterMap_append, c1, w1, u1, hA]; rfl
        have q2 : E.filterMap Ev.confirmed? = C.filterMap Ev.confirmed? := by
          rw [hE']; simp only [List.filterMap_append, w2, u2, hA2, List.append_nil]
        rw [q1] at hst hak
        rw [q2] at hcf
        simp at hst hak
        have hnab : ¬ aborted (exec c (ops ++ [op])).2 → (recv ((exec c ops).1.pr p) f tx).2.2 = false := by
          intro h
          cases hh : (recv ((exec c ops).1.pr p) f tx).2.2 with
          | false => rfl
          | true =>
            exfalso
            apply hpab h
            rw [hE', hh]; simp
        -- events that do not matter
        have hpdW : ∀ pd : Option (Pending α), pdAfter op.hasBuf pd W = pd := by
          intro pd
          rcases hW with h | ⟨g, h, hg, _⟩
          · rw [h]; rfl
          · rw [h]; simp [pdAfter, txEvent, hg]
        have hpdU : ∀ pd : Option (Pending α), pdAfter op.hasBuf pd U = pd := by
          intro pd
          rcases hU with h | ⟨st, h⟩ | ⟨a, h, _⟩ <;> rw [h] <;> rfl
        have hpdE : ¬ aborted (exec c (ops ++ [op])).2 → pending p (exec c (ops ++ [op])).2 =
            pdAfter op.hasBuf (pending p (exec c ops).2) C := by
          intro h
          rw [hpd h, hE', if_neg (by rw [hnab h]; simp), List.append_nil, pdAfter_append, pdAfter_append, hpdW, hpdU]
        rcases hC with ⟨hC, hseq⟩ | ⟨hw, hak', hC, hseq⟩
        · subst hC
          simp at hcf
          exact { le1 := by rw [hst, hcf]; exact ih.le1
                  le2 := by rw [hst, hcf]; exact ih.le2
                  ack := by rw [hak]; exact Nat.le_trans ih.ack hrx
                  bodies := by rw [hst]; exact ih.bodies
                  seq := fun h => by rw [hnew, hx (hnab h), hseq (hnab h), hcf]; exact ih.seq hna
                  idle := fun h hp => by
                    rw [hst, hcf]
                    rw [hpdE h] at hp
                    exact ih.idle hna hp
                  pend := fun h P hP' => by
                    rw [hst, hcf, hak]
                    rw [hpdE h] at hP'
                    exact ih.pend hna P hP' }
        · have hc1 : (C.filterMap Ev.confirmed?).length = 1 := by
            rcases hC with h | h <;> rw [h] <;> rfl
          rw [hc1] at hcf
          obtain ⟨P, hP⟩ : ∃ P, pending p (exec c ops).2 = some P := by
            cases hp : pending p (exec c ops).2 with
            | none => have := (hl.idle hp).1; rw [hw] at this; cases this
            | some P => exact ⟨P, rfl⟩
          obtain ⟨_, hget, _⟩ := ih.pend hna P hP
          have hlt : conf p (exec c ops).2 < (starts p (exec c ops).2).length := by
            rw [List.getElem?_eq_some_iff] at hget
            obtain ⟨h, _⟩ := hget; exact h
          have hle2 := ih.le2
          have hpn : ¬ aborted (exec c (ops ++ [op])).2 → pending p (exec c (ops ++ [op])).2 = none := by
            intro h
            rw [hpdE h]
            rcases hC with h | h <;> rw [h] <;> simp [pdAfter, txEvent]
          exact { le1 := by rw [hst, hcf]; exact hlt
                  le2 := by rw [hst, hcf]; omega
                  ack := by rw [hak]; exact Nat.le_trans ih.ack hrx
                  bodies := by rw [hst]; exact ih.bodies
                  seq := fun h => by rw [hnew, hx (hnab h), hseq, hcf, ih.seq hna, seqNo_succ]
                  idle := fun h hp => by rw [hst, hcf]; omega
                  pend := fun h P hP' => by rw [hpn h] at hP'; cases hP' }

theorem dead_of {c : Cfg} {ops : List (Op α)} (h : aborted (exec c ops).2) (op : Op α) :
    (step c (exec c ops).1 op).2 = [] := by
  rcases exec_inv c ops with ⟨h', _⟩ | ⟨_, h'⟩
  · exact absurd h h'
  · exact (step_dead (c := c) h' op).1

/-- The frames a side sends: data frames carry the number and content of the unconfirmed alarm; every
frame acknowledges what was accepted (or, if it is a retransmission, what had been accepted when it was built). -/
theorem sends_spec (c : Cfg) (p : Bool) (ops : List (Op α)) (op : Op α) (g : Frame α) (hg : g ∈ sends c p ops op) :
    ¬ aborted (exec c ops).2 ∧
    (g.pdu = .data → g.tack = true ∧ g.sendSeq = seqNo (conf p (exec c (ops ++ [op])).2) ∧
      (starts p (exec c (ops ++ [op])).2)[conf p (exec c (ops ++ [op])).2]? = some g.body) ∧
    ∃ r', g.ackSeq = prevNo r' ∧ r' ≤ (rx p (exec c (ops ++ [op])).2).accepted ∧
      (Fresh c p (ops ++ [op]) → (rx p (exec c (ops ++ [op])).2).accepted < r' + 0x7fff) := by
  have hna : ¬ aborted (exec c ops).2 := by
    intro h
    rw [sends, dead_of h] at hg
    simp [proj] at hg
  refine ⟨hna, ?_⟩
  have hl := live_of hna p
  have ih := ninv c p ops
  have ih' := ninv c p (ops ++ [op])
  have hst : starts p (exec c (ops ++ [op])).2 = starts p (exec c ops).2 ++
      (proj p (step c (exec c ops).1 op).2).filterMap Ev.started? := by rw [exec_append, starts_append]
  have hcf : conf p (exec c (ops ++ [op])).2 = conf p (exec c ops).2 +
      ((proj p (step c (exec c ops).1 op).2).filterMap Ev.confirmed?).length := by rw [exec_append, conf_append]
  have hrx : rx p (exec c (ops ++ [op])).2 = rxStep p (rx p (exec c ops).2) op := by rw [exec_append, rx_append]
  have hsh := step_shape c (exec c ops).1 op p
  rw [sends] at hg
  generalize hEE : proj p (step c (exec c ops).1 op).2 = E at *
  cases hsh with
  | quiet hq hr hx =>
    rw [(quiet_filterMap hq).2.2.2] at hg; simp at hg
  | start b hb hr ho hE' hx =>
    have hpn : pending p (exec c ops).2 = none := by
      cases hp : pending p (exec c ops).2 with
      | none => rfl
      | some P => have := (hl.pend P hp).1; rw [ho] at this; cases this
    have hlen := ih.idle hna hpn
    have hr' : rxStep p (rx p (exec c ops).2) op = rx p (exec c ops).2 := by
      cases op <;> simp [rxStep]
      rename_i q f tx
      simp [Op.isRecv] at hr
      simp [hr]
    have q1 : E.filterMap Ev.started? = [b] := by rcases hE' with h | h <;> rw [h] <;> rfl
    have q2 : E.filterMap Ev.confirmed? = [] := by rcases hE' with h | h <;> rw [h] <;> rfl
    have hg' : g = dataFrame ((exec c ops).1.pr p) b := by
      rcases hE' with h | h <;> rw [h] at hg <;> simp [Ev.wire?] at hg
      exact hg.symm
    rw [q1] at hst
    rw [q2] at hcf
    simp at hcf
    subst hg'
    refine ⟨fun _ => ⟨rfl, ?_, ?_⟩, (rx p (exec c ops).2).accepted, hl.expO, ?_, fun _ => ?_⟩
    · rw [hcf]; exact ih.seq hna
    · rw [hst, hcf, List.getElem?_append_right (by omega), hlen]; simp [dataFrame]
    · rw [hrx, hr']; exact Nat.le_refl _
    · rw [hrx, hr']; omega
  | again f tx sched hop hf ht hE' hx =>
    have q1 : E.filterMap Ev.started? = [] := by rw [hE']; rfl
    have q2 : E.filterMap Ev.confirmed? = [] := by rw [hE']; rfl
    rw [q1] at hst
    rw [q2] at hcf
    simp at hst hcf
    rw [hE'] at hg
    simp [Ev.wire?] at hg
    have hg := hg.symm
    subst hg
    obtain ⟨P, hP⟩ : ∃ P, pending p (exec c ops).2 = some P := by
      cases hp : pending p (exec c ops).2 with
      | none => have := (hl.idle hp).1; rw [ht] at this; cases this
      | some P => exact ⟨P, rfl⟩
    obtain ⟨_, b2, b3, b4, _⟩ := hl.pend P hP
    have hfr : P.frame = g := by
      rw [hf] at b4
      split at b4
      · injection b4 with b4; exact b4.symm
      · cases b4
    obtain ⟨d1, d2, d3⟩ := ih.pend hna P hP
    rw [hfr] at d1 d2 d3 b3
    have hr' : rxStep p (rx p (exec c ops).2) op = rx p (exec c ops).2 := by subst hop; rfl
    refine ⟨fun _ => ⟨d1, ?_, ?_⟩, ackAt p (exec c ops).2, d3, ?_, fun hfr => ?_⟩
    · rw [hcf, b3]; exact ih.seq hna
    · rw [hst, hcf]; exact d2
    · rw [hrx, hr']; exact ih.ack
    · rw [hrx, hr']
      subst hop
      exact hfr ops tx sched (List.prefix_refl _)
  | recv f tx hop hE' hx =>
    obtain ⟨C, W, U, hev, hC, hW, hU, _⟩ := recv_shape hl f tx p
    rw [hE', hev] at hg
    have hm : .wire g ∈ W := by
      simp only [List.filterMap_append, List.mem_append, List.mem_filterMap] at hg
      rcases hg with ((⟨e, he, h⟩ | ⟨e, he, h⟩) | ⟨e, he, h⟩) | ⟨e, he, h⟩
      · exfalso
        rcases hC with ⟨h', _⟩ | ⟨_, _, h' | h', _⟩ <;> rw [h'] at he <;> simp at he
        · subst he; cases h
        · rcases he with he | he <;> subst he <;> cases h
      · cases e <;> simp [Ev.wire?] at h
        subst h; exact he
      · exfalso
        rcases hU with h' | ⟨st, h'⟩ | ⟨a, h', _⟩ <;> rw [h'] at he <;> simp at he <;> subst he <;> cases h
      · exfalso
        split at he <;> simp at he
        subst he; cases h
    rcases hW with h | ⟨g', h, hd, ha⟩
    · rw [h] at hm; simp at hm
    · rw [h] at hm; simp at hm; subst hm
      refine ⟨fun h => absurd h hd, _, ha, ?_, fun _ => ?_⟩
      · rw [hrx, hop]; exact Nat.le_refl _
      · rw [hrx, hop]; omega

/-! ## The composition -/

theorem prevNo_inj {k i m : Nat} (h : prevNo k = seqNo i) (h1 : k ≤ i + 1) (h2 : i ≤ m) (h3 : m < k + 0x7fff) :
    k = i + 1 := by
  have hz : (0xfffe : BitVec 16).toNat = 0xfffe := rfl
  have hz2 : (0xffff : BitVec 16).toNat = 0xffff := rfl
  have := congrArg BitVec.toNat h
  match k, i with
  | 0, 0 => simp [prevNo, seqNo] at h
  | 0, i + 1 =>
    simp only [prevNo, seqNo, BitVec.toNat_ofNat, hz, hz2] at this
    clear * - this; omega
  | 1, 0 => rfl
  | 1, i + 1 =>
    simp only [prevNo, seqNo, BitVec.toNat_ofNat, hz, hz2] at this
    clear * - this; omega
  | k + 2, 0 => omega
  | k + 2, i + 1 =>
    simp only [prevNo, seqNo, BitVec.toNat_ofNat] at this
    clear * - this h1 h2 h3; omega

/-- Frames under way, each with a stamp, oldest first. -/
def Link (l : List (Frame α)) (P : Frame α → Nat → Prop) : Prop :=
  ∃ L : List (Frame α × Nat), L.map Prod.fst = l ∧ L.Pairwise (fun x y => x.2 ≤ y.2) ∧ ∀ x ∈ L, P x.1 x.2

theorem Link.nil (P : Frame α → Nat → Prop) : Link [] P := ⟨[], rfl, by simp, by simp⟩

theorem Link.mono {l : List (Frame α)} {P Q : Frame α → Nat → Prop} (h : Link l P) (hpq : ∀ f n, P f n → Q f n) : Link l Q := by
  obtain ⟨L, h1, h2, h3⟩ := h
  exact ⟨L, h1, h2, fun x hx => hpq _ _ (h3 x hx)⟩

theorem Link.append {l m : List (Frame α)} {P : Frame α → Nat → Prop} (h : Link l P) (n : Nat)
    (hle : ∀ f k, P f k → k ≤ n) (hm : ∀ g ∈ m, P g n) : Link (l ++ m) P := by
  obtain ⟨L, h1, h2, h3⟩ := h
  refine ⟨L ++ m.map fun g => (g, n), ?_, ?_, ?_⟩
  · simp [h1, Function.comp_def]
  · rw [List.pairwise_append]
    refine ⟨h2, ?_, ?_⟩
    · rw [List.pairwise_map]; exact List.pairwise_of_forall (by intros; simp)
    · intro x hx y hy
      simp at hy
      obtain ⟨g, _, rfl⟩ := hy
      exact hle _ _ (h3 x hx)
  · intro x hx
    rcases List.mem_append.1 hx with hx | hx
    · exact h3 x hx
    · simp at hx; obtain ⟨g, hg, rfl⟩ := hx; exact hm g hg

theorem Link.eraseIdx {l : List (Frame α)} {P : Frame α → Nat → Prop} (h : Link l P) (n : Nat) : Link (l.eraseIdx n) P := by
  obtain ⟨L, h1, h2, h3⟩ := h
  refine ⟨L.eraseIdx n, ?_, h2.sublist (List.eraseIdx_sublist _ _), fun x hx => h3 x (List.mem_of_mem_eraseIdx hx)⟩
  rw [← h1, List.eraseIdx_eq_take_drop_succ, List.eraseIdx_eq_take_drop_succ, List.map_append, List.map_take,
    List.map_drop]

theorem Link.dup {l : List (Frame α)} {P : Frame α → Nat → Prop} (h : Link l P) (n : Nat) : Link (dup l n) P := by
  obtain ⟨L, h1, h2, h3⟩ := h
  refine ⟨Verif.Alarm.dup L n, ?_, ?_, ?_⟩
  · rw [← h1]; simp [Verif.Alarm.dup, List.map_take, List.map_drop]
  · unfold Verif.Alarm.dup
    rw [List.pairwise_append]
    refine ⟨h2.sublist (List.take_sublist _ _), h2.sublist (List.drop_sublist _ _), ?_⟩
    intro x hx y hy
    rw [List.mem_iff_getElem] at hx hy
    obtain ⟨i, hi, rfl⟩ := hx
    obtain ⟨j, hj, rfl⟩ := hy
    rw [List.pairwise_iff_getElem] at h2
    simp only [List.getElem_take, List.getElem_drop]
    simp at hi hj
    by_cases hij : i = n + j
    · subst hij; exact Nat.le_refl _
    · exact h2 _ _ _ _ (by omega)
  · intro x hx
    rcases List.mem_append.1 hx with hx | hx
    · exact h3 x (List.mem_of_mem_take hx)
    · exact h3 x (List.mem_of_mem_drop hx)

theorem Link.tail {f : Frame α} {l : List (Frame α)} {P : Frame α → Nat → Prop} (h : Link (f :: l) P) :
    ∃ n, P f n ∧ Link l (fun g k => P g k ∧ n ≤ k) := by
  obtain ⟨L, h1, h2, h3⟩ := h
  cases L with
  | nil => simp at h1
  | cons x L =>
    obtain ⟨x1, n⟩ := x
    simp at h1
    obtain ⟨rfl, h1⟩ := h1
    rw [List.pairwise_cons] at h2
    refine ⟨n, h3 (x1, n) (by simp), L, h1, h2.2, fun y hy => ⟨h3 y (by simp [hy]), h2.1 y hy⟩⟩

/-- Invariant of the composition, for the direction from `a` to `b`. -/
structure SInv (ca cb : Cfg) (p : Bool) (s : Sys α) (r : Nat) : Prop where
  acc : ¬ aborted (exec cb s.b).2 → rx p (exec cb s.b).2 = ⟨r, false⟩
  le1 : conf p (exec ca s.a).2 ≤ r
  le2 : r ≤ conf p (exec ca s.a).2 + 1
  le3 : r ≤ (starts p (exec ca s.a).2).length
  ab : Link s.ab fun f j => r ≤ j + 1 ∧ j ≤ conf p (exec ca s.a).2 ∧
    (f.pdu = .data → f.tack = true ∧ f.sendSeq = seqNo j ∧ (starts p (exec ca s.a).2)[j]? = some f.body)
  ba : Link s.ba fun f m => conf p (exec ca s.a).2 ≤ m ∧ m ≤ r ∧
    ∃ k, f.ackSeq = prevNo k ∧ k ≤ m ∧ m < k + 0x7fff
  del : (delivered p (exec cb s.b).2).Sublist (alarms ((starts p (exec ca s.a).2).take r))
  delOk : AcksOk p s.b → ¬ aborted (exec cb s.b).2 →
    delivered p (exec cb s.b).2 = alarms ((starts p (exec ca s.a).2).take r)
  delPre : AcksOk p s.b → delivered p (exec cb s.b).2 <+: alarms (starts p (exec ca s.a).2)

theorem Fresh.of_append {c : Cfg} {p : Bool} {ops ops' : List (Op α)} (h : Fresh c p (ops ++ ops')) : Fresh c p ops :=
  fun pre tx sched hp => h pre tx sched (hp.trans (List.prefix_append _ _))

/-- What an operation at the sending side does to the counters. -/
theorem stepA (c : Cfg) (p : Bool) (ops : List (Op α)) (op : Op α) :
    (∃ l, starts p (exec c (ops ++ [op])).2 = starts p (exec c ops).2 ++ l) ∧
    (conf p (exec c (ops ++ [op])).2 = conf p (exec c ops).2 ∨
      ∃ f tx, op = .recv p f tx ∧ f.ackSeq = seqNo (conf p (exec c ops).2) ∧
        conf p (exec c (ops ++ [op])).2 = conf p (exec c ops).2 + 1 ∧
        conf p (exec c ops).2 < (starts p (exec c ops).2).length) := by
  have hst : starts p (exec c (ops ++ [op])).2 = starts p (exec c ops).2 ++
      (proj p (step c (exec c ops).1 op).2).filterMap Ev.started? := by rw [exec_append, starts_append]
  have hcf : conf p (exec c (ops ++ [op])).2 = conf p (exec c ops).2 +
      ((proj p (step c (exec c ops).1 op).2).filterMap Ev.confirmed?).length := by rw [exec_append, conf_append]
  refine ⟨⟨_, hst⟩, ?_⟩
  by_cases hna : aborted (exec c ops).2
  · left; rw [hcf, dead_of hna]; simp [proj]
  have hl := live_of hna p
  have ih := ninv c p ops
  have hsh := step_shape c (exec c ops).1 op p
  generalize proj p (step c (exec c ops).1 op).2 = E at *
  cases hsh with
  | quiet hq hr hx => left; rw [hcf, (quiet_filterMap hq).2.1]; rfl
  | start b hb hr ho hE' hx =>
    left; rw [hcf]; rcases hE' with h | h <;> rw [h] <;> rfl
  | again f tx sched hop hf ht hE' hx => left; rw [hcf, hE']; rfl
  | recv f tx hop hE' hx =>
    obtain ⟨C, W, U, hev, hC, hW, hU, _⟩ := recv_shape hl f tx p
    rw [hev] at hE'
    have hA2 : (List.filterMap Ev.confirmed? (if (recv ((exec c ops).1.pr p) f tx).2.2 = true then [(Ev.abort : Ev α)] else [])) = [] := by
      split <;> rfl
    have w2 : W.filterMap Ev.confirmed? = [] := by rcases hW with h | ⟨g, h, _⟩ <;> rw [h] <;> rfl
    have u2 : U.filterMap Ev.confirmed? = [] := by
      rcases hU with h | ⟨st, h⟩ | ⟨a, h, _⟩ <;> rw [h] <;> rfl
    have q2 : E.filterMap Ev.confirmed? = C.filterMap Ev.confirmed? := by
      rw [hE']; simp only [List.filterMap_append, w2, u2, hA2, List.append_nil]
    rw [q2] at hcf
    rcases hC with ⟨hC, _⟩ | ⟨hw, hak, hC, _⟩
    · left; rw [hcf, hC]; rfl
    · right
      refine ⟨f, tx, hop, by rw [hak]; exact ih.seq hna, ?_, ?_⟩
      · rw [hcf]; rcases hC with h | h <;> rw [h] <;> rfl
      · cases hp : pending p (exec c ops).2 with
        | none => have := (hl.idle hp).1; rw [hw] at this; cases this
        | some P =>
          have := (ih.pend hna P hp).2.1
          rw [List.getElem?_eq_some_iff] at this
          exact this.1

/-- What an operation at the receiving side does. -/
theorem stepB (c : Cfg) (p : Bool) (ops : List (Op α)) (op : Op α) (hna : ¬ aborted (exec c ops).2) :
    (∀ f tx, op = .recv p f tx → Next (rx p (exec c ops).2) f → (f.body = .badNotify → False) → (f.body = .other → False) →
      rx p (exec c (ops ++ [op])).2 = ⟨(rx p (exec c ops).2).accepted + 1, false⟩ ∧
      (delivered p (exec c (ops ++ [op])).2 = delivered p (exec c ops).2 ∨
       delivered p (exec c (ops ++ [op])).2 = delivered p (exec c ops).2 ++ alarms [f.body]) ∧
      (tx = .ok → ¬ aborted (exec c (ops ++ [op])).2 →
       delivered p (exec c (ops ++ [op])).2 = delivered p (exec c ops).2 ++ alarms [f.body])) ∧
    ((∀ f tx, op = .recv p f tx → ¬ Next (rx p (exec c ops).2) f) →
      rx p (exec c (ops ++ [op])).2 = rx p (exec c ops).2 ∧
      delivered p (exec c (ops ++ [op])).2 = delivered p (exec c ops).2) := by
  have hl := live_of hna p
  have hrx : rx p (exec c (ops ++ [op])).2 = rxStep p (rx p (exec c ops).2) op := by rw [exec_append, rx_append]
  have hde : delivered p (exec c (ops ++ [op])).2 = delivered p (exec c ops).2 ++
      (proj p (step c (exec c ops).1 op).2).filterMap Ev.deliver? := by rw [exec_append, delivered_append]
  have hab : ¬ aborted (exec c (ops ++ [op])).2 → Ev.abort ∉ proj p (step c (exec c ops).1 op).2 := by
    intro h hm
    simp only [proj, List.mem_filterMap] at hm
    obtain ⟨⟨q, e⟩, h1, h2⟩ := hm
    split at h2
    · injection h2 with h2; simp at h2; subst h2
      apply h; rw [exec_append, aborted_append]; exact Or.inr ⟨q, h1⟩
    · cases h2
  have hsh := step_shape c (exec c ops).1 op p
  generalize proj p (step c (exec c ops).1 op).2 = E at *
  have nonrecv : op.isRecv p = false → E.filterMap Ev.deliver? = [] →
      (∀ f tx, op ≠ .recv p f tx) ∧ rxStep p (rx p (exec c ops).2) op = rx p (exec c ops).2 := by
    intro hr hE
    constructor
    · rintro f tx rfl; simp [Op.isRecv] at hr
    · cases op <;> simp [rxStep]
      rename_i q f tx
      simp [Op.isRecv] at hr
      simp [hr]
  have fin : op.isRecv p = false → E.filterMap Ev.deliver? = [] →
      (∀ f tx, op = .recv p f tx → Next (rx p (exec c ops).2) f → (f.body = .badNotify → False) → (f.body = .other → False) →
      rx p (exec c (ops ++ [op])).2 = ⟨(rx p (exec c ops).2).accepted + 1, false⟩ ∧
      (delivered p (exec c (ops ++ [op])).2 = delivered p (exec c ops).2 ∨
       delivered p (exec c (ops ++ [op])).2 = delivered p (exec c ops).2 ++ alarms [f.body]) ∧
      (tx = .ok → ¬ aborted (exec c (ops ++ [op])).2 →
       delivered p (exec c (ops ++ [op])).2 = delivered p (exec c ops).2 ++ alarms [f.body])) ∧
    ((∀ f tx, op = .recv p f tx → ¬ Next (rx p (exec c ops).2) f) →
      rx p (exec c (ops ++ [op])).2 = rx p (exec c ops).2 ∧
      delivered p (exec c (ops ++ [op])).2 = delivered p (exec c ops).2) := by
    intro hr hE
    obtain ⟨n1, n2⟩ := nonrecv hr hE
    exact ⟨fun f tx h => absurd h (n1 f tx), fun _ => ⟨by rw [hrx, n2], by rw [hde, hE, List.append_nil]⟩⟩
  cases hsh with
  | quiet hq hr hx => exact fin hr (quiet_filterMap hq).2.2.1
  | start b hb hr ho hE' hx => exact fin hr (by rcases hE' with h | h <;> rw [h] <;> rfl)
  | again f tx sched hop hf ht hE' hx => exact fin (by rw [hop]; rfl) (by rw [hE']; rfl)
  | recv f tx hop hE' hx =>
    obtain ⟨C, W, U, hev, hC, hW, hU, hok⟩ := recv_shape hl f tx p
    rw [hev] at hE'
    have c1 : C.filterMap Ev.deliver? = [] := by
      rcases hC with ⟨h, _⟩ | ⟨_, _, h | h, _⟩ <;> rw [h] <;> rfl
    have w1 : W.filterMap Ev.deliver? = [] := by rcases hW with h | ⟨g, h, _⟩ <;> rw [h] <;> rfl
    have hA : (List.filterMap Ev.deliver? (if (recv ((exec c ops).1.pr p) f tx).2.2 = true then [(Ev.abort : Ev α)] else [])) = [] := by
      split <;> rfl
    have q : E.filterMap Ev.deliver? = U.filterMap Ev.deliver? := by
      rw [hE']; simp only [List.filterMap_append, c1, w1, hA, List.append_nil, List.nil_append]
    rw [q] at hde
    subst hop
    constructor
    · intro f' tx' he hn hb1 hb2
      injection he with _ h1 h2
      subst h1 h2
      refine ⟨?_, ?_, ?_⟩
      · rw [hrx]
        simp only [rxStep]
        rw [if_pos ⟨trivial, hn⟩]
      · rcases hU with h | ⟨st, h⟩ | ⟨a, h, _, hbd⟩
        · left; rw [hde, h]; simp
        · left; rw [hde, h]; simp [Ev.deliver?]
        · right; rw [hde, h, hbd]; rfl
      · intro htx hna'
        have hna2 : (recv ((exec c ops).1.pr p) f tx).2.2 = false := by
          cases hh : (recv ((exec c ops).1.pr p) f tx).2.2 with
          | false => rfl
          | true => exfalso; apply hab hna'; rw [hE', hh]; simp
        cases hbd : f.body with
        | badNotify => exact absurd hbd hb1
        | other => exact absurd hbd hb2
        | notify a => rw [hde, hok a hn hbd htx hna2]; rfl
        | alarmAck st =>
          rcases hU with h | ⟨st', h⟩ | ⟨a, h, _, hbd'⟩
          · rw [hde, h]; rfl
          · rw [hde, h]; rfl
          · rw [hbd] at hbd'; cases hbd'
    · intro hn
      have hn := hn f tx rfl
      constructor
      · rw [hrx]
        simp only [rxStep]
        rw [if_neg]
        rintro ⟨_, h⟩
        exact hn h
      · rcases hU with h | ⟨st, h⟩ | ⟨a, h, hn', _⟩
        · rw [hde, h]; simp
        · rw [hde, h]; simp [Ev.deliver?]
        · exact absurd hn' hn

theorem sinv_atA {ca cb : Cfg} {p : Bool} {s : Sys α} {r : Nat} (h : SInv ca cb p s r) (op : Op α)
    (ba' : List (Frame α)) (hba : Link ba' fun f m => conf p (exec ca (s.a ++ [op])).2 ≤ m ∧ m ≤ r ∧
      ∃ k, f.ackSeq = prevNo k ∧ k ≤ m ∧ m < k + 0x7fff)
    (hle : conf p (exec ca (s.a ++ [op])).2 ≤ r) :
    SInv ca cb p { s with a := s.a ++ [op], ba := ba', ab := s.ab ++ sends ca p s.a op } r := by
  obtain ⟨⟨l, hl⟩, hc⟩ := stepA ca p s.a op
  have hcle : conf p (exec ca s.a).2 ≤ conf p (exec ca (s.a ++ [op])).2 := by
    rcases hc with hc | ⟨_, _, _, _, hc, _⟩ <;> omega
  have htake : (starts p (exec ca (s.a ++ [op])).2).take r = (starts p (exec ca s.a).2).take r := by
    rw [hl, List.take_append_of_le_length h.le3]
  exact {
    acc := h.acc
    le1 := hle
    le2 := by show r ≤ conf p (exec ca (s.a ++ [op])).2 + 1; have := h.le2; omega
    le3 := by show r ≤ (starts p (exec ca (s.a ++ [op])).2).length; rw [hl]; simp; have := h.le3; omega
    ab := by
      have h1 : Link s.ab fun f j => r ≤ j + 1 ∧ j ≤ conf p (exec ca (s.a ++ [op])).2 ∧
          (f.pdu = .data → f.tack = true ∧ f.sendSeq = seqNo j ∧ (starts p (exec ca (s.a ++ [op])).2)[j]? = some f.body) := by
        refine h.ab.mono ?_
        rintro f j ⟨h1, h2, h3⟩
        refine ⟨h1, by omega, fun hd => ?_⟩
        obtain ⟨d1, d2, d3⟩ := h3 hd
        refine ⟨d1, d2, ?_⟩
        rw [hl, List.getElem?_append_left, d3]
        rw [List.getElem?_eq_some_iff] at d3
        exact d3.1
      refine h1.append (conf p (exec ca (s.a ++ [op])).2) (fun f k hk => hk.2.1) ?_
      intro g hg
      obtain ⟨_, hd, _⟩ := sends_spec ca p s.a op g hg
      have := h.le2
      exact ⟨by omega, Nat.le_refl _, hd⟩
    ba := hba
    del := by
      show (delivered p (exec cb s.b).2).Sublist (alarms ((starts p (exec ca (s.a ++ [op])).2).take r))
      rw [htake]; exact h.del
    delOk := by
      intro h1 h2
      show _ = alarms ((starts p (exec ca (s.a ++ [op])).2).take r)
      rw [htake]; exact h.delOk h1 h2
    delPre := by
      intro h1
      show _ <+: alarms (starts p (exec ca (s.a ++ [op])).2)
      rw [hl, alarms, List.filterMap_append]
      exact (h.delPre h1).trans (List.prefix_append _ _) }

theorem AcksOk.of_append {p : Bool} {ops ops' : List (Op α)} (h : AcksOk p (ops ++ ops')) : AcksOk p ops :=
  fun f tx hm => h f tx (List.mem_append_left _ hm)

theorem alarms_take_prefix (l : List (Body α)) (r : Nat) : alarms (l.take r) <+: alarms l := by
  have : alarms l = alarms (l.take r) ++ alarms (l.drop r) := by
    rw [alarms, alarms, alarms, ← List.filterMap_append, List.take_append_drop]
  rw [this]; exact List.prefix_append _ _

/-- An operation at the receiving side that accepts nothing. -/
theorem sinv_atB {ca cb : Cfg} {p : Bool} {s : Sys α} {r : Nat} (h : SInv ca cb p s r) (op : Op α)
    (hfr : Fresh cb p (s.b ++ [op])) (ab' : List (Frame α))
    (hab : Link ab' fun f j => r ≤ j + 1 ∧ j ≤ conf p (exec ca s.a).2 ∧
      (f.pdu = .data → f.tack = true ∧ f.sendSeq = seqNo j ∧ (starts p (exec ca s.a).2)[j]? = some f.body))
    (hn : aborted (exec cb s.b).2 ∨ ∀ f tx, op = .recv p f tx → ¬ Next (rx p (exec cb s.b).2) f) :
    SInv ca cb p { s with b := s.b ++ [op], ab := ab', ba := s.ba ++ sends cb p s.b op } r := by
  have hdel : delivered p (exec cb (s.b ++ [op])).2 = delivered p (exec cb s.b).2 := by
    by_cases hb : aborted (exec cb s.b).2
    · rw [exec_append, delivered_append, dead_of hb]; simp [proj]
    · exact ((stepB cb p s.b op hb).2 (hn.resolve_left hb)).2
  have habm : aborted (exec cb s.b).2 → aborted (exec cb (s.b ++ [op])).2 := by
    intro h; rw [exec_append, aborted_append]; exact Or.inl h
  have hrx : ¬ aborted (exec cb s.b).2 → rx p (exec cb (s.b ++ [op])).2 = ⟨r, false⟩ := by
    intro hb
    rw [((stepB cb p s.b op hb).2 (hn.resolve_left hb)).1, h.acc hb]
  exact {
    acc := fun hb => hrx (fun h => hb (habm h))
    le1 := h.le1
    le2 := h.le2
    le3 := h.le3
    ab := hab
    ba := by
      refine h.ba.append r (fun f k hk => hk.2.1) ?_
      intro g hg
      obtain ⟨hb, _, k, hk1, hk2, hk3⟩ := sends_spec cb p s.b op g hg
      rw [hrx hb] at hk2 hk3
      exact ⟨h.le1, Nat.le_refl _, k, hk1, hk2, hk3 hfr⟩
    del := by show (delivered p (exec cb (s.b ++ [op])).2).Sublist _; rw [hdel]; exact h.del
    delOk := by
      intro h1 h2
      show delivered p (exec cb (s.b ++ [op])).2 = _
      rw [hdel]; exact h.delOk h1.of_append (fun h => h2 (habm h))
    delPre := by
      intro h1
      show delivered p (exec cb (s.b ++ [op])).2 <+: _
      rw [hdel]; exact h.delPre h1.of_append }

theorem sysRun_append (ca cb : Cfg) (p : Bool) (l : List (SysOp α)) (o : SysOp α) :
    sysRun ca cb p (l ++ [o]) = sysStep ca cb p (sysRun ca cb p l) o := by simp [sysRun]

theorem sinv (ca cb : Cfg) (p : Bool) (l : List (SysOp α)) (hfr : Fresh cb p (sysRun ca cb p l).b) :
    ∃ r, SInv ca cb p (sysRun ca cb p l) r := by
  induction l using List.reverseRecOn with
  | nil =>
    refine ⟨0, ?_⟩
    constructor <;> simp [sysRun, exec, rx, conf, starts, delivered, alarms, Link.nil]
  | append_singleton l o ih =>
    rw [sysRun_append] at hfr ⊢
    set s := sysRun ca cb p l
    have hfr0 : Fresh cb p s.b := by
      cases o <;> simp only [sysStep] at hfr
      · split at hfr <;> exact hfr
      · split at hfr
        · exact hfr
        · exact hfr.of_append
      · split at hfr <;> exact hfr
      · split at hfr
        · exact hfr
        · exact hfr.of_append
      all_goals exact hfr
    obtain ⟨r, h⟩ := ih hfr0
    cases o with
    | atA op =>
      simp only [sysStep]
      split
      · exact ⟨r, h⟩
      · rename_i hop
        have hconf : conf p (exec ca (s.a ++ [op])).2 = conf p (exec ca s.a).2 := by
          rcases (stepA ca p s.a op).2 with hc | ⟨f, tx, rfl, _⟩
          · exact hc
          · simp [Op.isRecv] at hop
        exact ⟨r, sinv_atA h op s.ba (by rw [hconf]; exact h.ba) (by rw [hconf]; exact h.le1)⟩
    | atB op =>
      simp only [sysStep] at hfr ⊢
      split
      · exact ⟨r, h⟩
      · rename_i hop
        rw [if_neg hop] at hfr
        refine ⟨r, sinv_atB h op hfr s.ab h.ab (Or.inr ?_)⟩
        rintro f tx rfl
        simp [Op.isRecv] at hop
    | toA tx =>
      simp only [sysStep]
      split
      · exact ⟨r, h⟩
      · rename_i f fs hba
        have hba' := h.ba
        rw [hba] at hba'
        obtain ⟨m, ⟨m1, m2, k, k1, k2, k3⟩, hl⟩ := hba'.tail
        rcases (stepA ca p s.a (.recv p f tx)).2 with hc | ⟨f', tx', he, hs, hc, _⟩
        · refine ⟨r, sinv_atA h _ fs ?_ (by rw [hc]; exact h.le1)⟩
          rw [hc]
          exact hl.mono fun f n hn => hn.1
        · injection he with _ he1 _
          subst he1
          rw [k1] at hs
          have hk := prevNo_inj hs (by have := h.le2; omega) m1 k3
          refine ⟨r, sinv_atA h _ fs ?_ (by rw [hc]; omega)⟩
          rw [hc]
          exact hl.mono fun f n hn => ⟨by omega, hn.1.2⟩
    | toB tx =>
      simp only [sysStep] at hfr ⊢
      split
      · exact ⟨r, h⟩
      · rename_i f fs hab
        rw [hab] at hfr
        have hab' := h.ab
        rw [hab] at hab'
        obtain ⟨j, ⟨j1, j2, j3⟩, hl⟩ := hab'.tail
        by_cases hb : aborted (exec cb s.b).2
        · exact ⟨r, sinv_atB h _ hfr fs (hl.mono fun f n hn => hn.1) (Or.inl hb)⟩
        · by_cases hnx : Next (rx p (exec cb s.b).2) f
          · -- accepted
            have hrx := h.acc hb
            obtain ⟨_, hd, hs⟩ := id hnx
            obtain ⟨_, s2, s3⟩ := j3 hd.1
            have hle1 := h.le1
            have hjr : j = r := by
              rw [hrx, s2] at hs
              by_cases hjr : j = r
              · exact hjr
              · exfalso
                have : r = j + 1 := by omega
                subst this
                exact seqNo_ne_prevNo _ hs.symm
            subst hjr
            have hbody := (ninv ca p s.a).bodies f.body (List.mem_of_getElem? s3)
            have hlt : j < (starts p (exec ca s.a).2).length := by
              rw [List.getElem?_eq_some_iff] at s3; exact s3.1
            obtain ⟨b1, b2, b3⟩ := (stepB cb p s.b (.recv p f tx) hb).1 f tx rfl hnx
              (by intro h; rw [h] at hbody; simp at hbody) (by intro h; rw [h] at hbody; simp at hbody)
            rw [hrx] at b1
            have htake : alarms ((starts p (exec ca s.a).2).take (j + 1)) =
                alarms ((starts p (exec ca s.a).2).take j) ++ alarms [f.body] := by
              rw [List.take_add_one, s3, alarms, alarms, alarms, List.filterMap_append]; rfl
            refine ⟨j + 1, ?_⟩
            exact {
              acc := fun _ => b1
              le1 := by show conf p (exec ca s.a).2 ≤ _; omega
              le2 := by show _ ≤ conf p (exec ca s.a).2 + 1; omega
              le3 := hlt
              ab := hl.mono fun f n hn => ⟨by omega, hn.1.2⟩
              ba := by
                have h1 : Link s.ba fun f m => conf p (exec ca s.a).2 ≤ m ∧ m ≤ j + 1 ∧
                    ∃ k, f.ackSeq = prevNo k ∧ k ≤ m ∧ m < k + 0x7fff :=
                  h.ba.mono fun f n hn => ⟨hn.1, by omega, hn.2.2⟩
                refine h1.append (j + 1) (fun f k hk => hk.2.1) ?_
                intro g hg
                obtain ⟨_, _, k, hk1, hk2, hk3⟩ := sends_spec cb p s.b _ g hg
                rw [b1] at hk2 hk3
                exact ⟨by omega, Nat.le_refl _, k, hk1, hk2, hk3 hfr⟩
              del := by
                show (delivered p (exec cb (s.b ++ [.recv p f tx])).2).Sublist
                  (alarms ((starts p (exec ca s.a).2).take (j + 1)))
                rw [htake]
                rcases b2 with b2 | b2 <;> rw [b2]
                · exact h.del.trans (List.sublist_append_left _ _)
                · exact h.del.append (List.Sublist.refl _)
              delOk := by
                intro h1 h2
                show delivered p (exec cb (s.b ++ [.recv p f tx])).2 = alarms ((starts p (exec ca s.a).2).take (j + 1))
                rw [htake, b3 (h1 f tx (by simp)) h2, h.delOk h1.of_append hb]
              delPre := by
                intro h1
                show delivered p (exec cb (s.b ++ [.recv p f tx])).2 <+: alarms (starts p (exec ca s.a).2)
                rcases b2 with b2 | b2 <;> rw [b2]
                · exact h.delPre h1.of_append
                · rw [h.delOk h1.of_append hb, ← htake]
                  exact alarms_take_prefix _ _ }
          · refine ⟨r, sinv_atB h _ hfr fs (hl.mono fun f n hn => hn.1) (Or.inr ?_)⟩
            intro f' tx' he
            injection he with _ he1 _
            subst he1
            exact hnx
    | loseAB n => exact ⟨r, { h with ab := h.ab.eraseIdx n }⟩
    | loseBA n => exact ⟨r, { h with ba := h.ba.eraseIdx n }⟩
    | dupAB n => exact ⟨r, { h with ab := h.ab.dup n }⟩
    | dupBA n => exact ⟨r, { h with ba := h.ba.dup n }⟩

/-- **C13 (partial)** Two connections exchange frames of one priority over links that lose and duplicate
frames but keep their order; both applications, all timers and all local send failures are arbitrary.

1. What is delivered at `b` is a subsequence of the alarms sent at `a`: nothing is invented, repeated or
   reordered.
2. If every acknowledgement frame could be sent by `b`, it is a prefix.
3. If moreover `b` did not abort, everything confirmed to `a` was delivered at `b`, and everything `a` has sent
   except possibly the last frame.

Partial: the retransmissions of `b`'s own frames must not carry an acknowledgement number that is 0x7fff frames
old (`Fresh`), and 2. and 3. need the acknowledgements to be sendable (see `C56_acknowledged_not_delivered`). -/
theorem C13_exactly_once_partial (ca cb : Cfg) (p : Bool) (l : List (SysOp α))
    (hfr : Fresh cb p (sysRun ca cb p l).b) :
    let hA := (exec ca (sysRun ca cb p l).a).2
    let hB := (exec cb (sysRun ca cb p l).b).2
    (delivered p hB).Sublist (alarms (starts p hA)) ∧
    (AcksOk p (sysRun ca cb p l).b → delivered p hB <+: alarms (starts p hA)) ∧
    (AcksOk p (sysRun ca cb p l).b → ¬ aborted hB →
      alarms ((starts p hA).take (conf p hA)) <+: delivered p hB ∧
      (starts p hA).length ≤ conf p hA + 1) := by
  obtain ⟨r, h⟩ := sinv ca cb p l hfr
  refine ⟨h.del.trans (alarms_take_prefix _ _).sublist, h.delPre, fun h1 h2 => ⟨?_, (ninv ca p _).le2⟩⟩
  rw [h.delOk h1 h2]
  have := alarms_take_prefix ((starts p (exec ca (sysRun ca cb p l).a).2).take r) (conf p (exec ca (sysRun ca cb p l).a).2)
  rwa [List.take_take, Nat.min_eq_left h.le1] at this

/-- Non-vacuity: an alarm is sent, duplicated on the way, the first acknowledgement is lost, the
retransmission arrives, and the alarm has been delivered exactly once and confirmed. -/
def c13Run : List (SysOp Nat) :=
  [.atA (.poll true 7 .ok true), .dupAB 0, .toB .ok, .toB .ok, .loseBA 0, .loseBA 0, .atA (.tick 100),
   .atA (.expire true .ok true), .toB .ok, .toA .ok]

theorem C13_example :
    delivered true (exec ⟨3, 100⟩ (sysRun ⟨3, 100⟩ ⟨3, 100⟩ true c13Run).b).2 = [7] ∧
    conf true (exec ⟨3, 100⟩ (sysRun ⟨3, 100⟩ ⟨3, 100⟩ true c13Run).a).2 = 1 ∧
    Fresh ⟨3, 100⟩ true (sysRun ⟨3, 100⟩ ⟨3, 100⟩ true c13Run).b := by
  have hb : (sysRun ⟨3, 100⟩ ⟨3, 100⟩ true c13Run).b.map (fun o => match o with | .expire _ _ _ => true | _ => false) =
      [false, false, false] := by decide +kernel
  refine ⟨by decide +kernel, by decide +kernel, ?_⟩
  intro pre tx sched hp
  exfalso
  have hm : Op.expire true tx sched ∈ (sysRun ⟨3, 100⟩ ⟨3, 100⟩ true c13Run).b := hp.subset (by simp)
  have := List.mem_map_of_mem (f := fun o : Op Nat => match o with | .expire _ _ _ => true | _ => false) hm
  rw [hb] at this
  simp at this

end Verif.Alarm
