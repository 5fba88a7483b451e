import Verif.Pdport.Local
/-! The peer check over all histories: C82. -/
set_option linter.unusedSimpArgs false
set_option linter.unusedVariables false

namespace Verif.Pdport

open Verif.Wire

theorem cstr_cons (x : Byte) (a : List Byte) : Lldp.cstr (x :: a) = if x = 0 then [] else x :: Lldp.cstr a := by
  unfold Lldp.cstr
  rw [List.takeWhile_cons]
  by_cases h : x = 0
  · rw [if_pos h, if_neg (by simpa using h)]
  · rw [if_neg h, if_pos (by simpa using h)]

theorem strncmpEq_some : ∀ (n : Nat) (a b : List Byte) (r : Bool), strncmpEq a b n = some r →
    (r = true ↔ Lldp.cstr (a.take n) = Lldp.cstr (b.take n)) := by
  intro n
  induction n with
  | zero => intro a b r h; cases a <;> cases b <;> cases h <;> simp [Lldp.cstr]
  | succ n ih =>
    intro a b r h
    cases a with
    | nil => cases h
    | cons x a =>
      cases b with
      | nil => cases h
      | cons y b =>
        unfold strncmpEq at h
        rw [List.take_succ_cons, List.take_succ_cons, cstr_cons, cstr_cons]
        split at h
        · rename_i hxy
          cases h
          refine ⟨(nomatch ·), fun k => absurd ?_ hxy⟩
          split at k
          · rename_i hx
            split at k
            · rename_i hy; rw [hx, hy]
            · cases k
          · split at k
            · cases k
            · exact (List.cons.inj k).1
        · rename_i hxy
          have hxy : x = y := Decidable.not_not.1 hxy
          subst hxy
          split at h
          · rename_i hx
            cases h
            rw [if_pos hx, if_pos hx]
            exact ⟨fun _ => rfl, fun _ => rfl⟩
          · rename_i hx
            rw [if_neg hx, if_neg hx, ih a b r h]
            exact ⟨fun k => by rw [k], fun k => (List.cons.inj k).2⟩

theorem cstr_id {s : List Byte} (h : ∀ x ∈ s, x ≠ 0) : Lldp.cstr s = s := by
  induction s with
  | nil => rfl
  | cons x s ih => rw [cstr_cons, if_neg (h x (by simp)), ih fun y hy => h y (by simp [hy])]

theorem arr_take (size : Nat) (s : List Byte) : (arr size s).take s.length = s := by simp [arr]

/-- The wanted port name fits: the C strings of the first bytes are the same, as many bytes as the wanted name has. -/
def portFits (w : Wanted) (q : Lldp.Peer) : Prop := Lldp.cstr (q.port.str.take w.port.length) = Lldp.cstr w.port

instance (w : Wanted) (q : Lldp.Peer) : Decidable (portFits w q) := by unfold portFits; infer_instance

/-- The name of the peer station fits: it is the start of the wanted one. -/
def stationFits (w : Wanted) (q : Lldp.Peer) : Prop := Lldp.peerStation q <+: w.station

instance (w : Wanted) (q : Lldp.Peer) : Decidable (stationFits w q) := by unfold stationFits; infer_instance

/-- A wanted name without zero bytes fits if the port identification of the peer starts with it. -/
theorem portFits_iff {w : Wanted} {q : Lldp.Peer} (h : ∀ x ∈ w.port, x ≠ 0) : portFits w q ↔ w.port <+: q.port.str := by
  unfold portFits
  rw [cstr_id h]
  constructor
  · intro k
    rw [← k]
    exact (List.takeWhile_prefix _).trans (List.take_prefix _ _)
  · rintro ⟨t, ht⟩
    rw [← ht, List.take_left, cstr_id h]

theorem station_no_zero (q : Lldp.Peer) : ∀ x ∈ Lldp.peerStation q, x ≠ 0 := by
  have hc : ∀ a : List Byte, ∀ x ∈ Lldp.cstr a, x ≠ 0 := by
    intro a x hx
    have := List.all_takeWhile (p := fun b : Byte => decide (b ≠ 0)) (l := a)
    rw [List.all_eq_true] at this
    simpa using this x hx
  intro x hx
  unfold Lldp.peerStation at hx
  split at hx
  · exact hc _ x (List.dropWhile_sublist _ |>.subset (List.mem_of_mem_drop (List.mem_of_mem_take hx)))
  · split at hx
    · split at hx
      · exact hc _ x (List.mem_of_mem_take hx)
      · exact Lldp.macString_no_zero _ x hx
    · cases hx

theorem stationFits_iff {s t : List Byte} (h : ∀ x ∈ s, x ≠ 0) {size : Nat} :
    Lldp.cstr ((arr size s).take s.length) = Lldp.cstr ((arr size t).take s.length) ↔ s <+: t := by
  rw [arr_take, cstr_id h]
  constructor
  · intro k
    have h1 : Lldp.cstr ((arr size t).take s.length) <+: (arr size t).take s.length := List.takeWhile_prefix _
    rw [← k] at h1
    have h2 : s <+: arr size t := h1.trans (List.take_prefix _ _)
    obtain ⟨v, h2⟩ := h2
    unfold arr at h2
    rcases List.append_eq_append_iff.1 h2 with ⟨u, h2, _⟩ | ⟨u, h2, h3⟩
    · exact ⟨u, h2.symm⟩
    · cases u with
      | nil => rw [h2]; simp
      | cons y u =>
        exfalso
        have hy : y = 0 := by
          have : y ∈ List.replicate (size - t.length) (0 : Byte) := by rw [h3]; simp
          exact (List.mem_replicate.1 this).2
        exact h y (by rw [h2]; simp) hy
  · rintro ⟨u, rfl⟩
    have : (arr size (s ++ u)).take s.length = s := by unfold arr; rw [List.append_assoc, List.take_left]
    rw [this, cstr_id h]

/-- The marks are as the peer check defines them. -/
structure Right (w : Wanted) (p : Port) : Prop where
  noPeer : p.noPeer = true ↔ p.net.received = false
  badPort : p.net.peer.port.valid = true → (p.badPort = true ↔ ¬portFits w p.net.peer)
  badStation : Lldp.peerStation p.net.peer ≠ [] → (p.badStation = true ↔ ¬stationFits w p.net.peer)

/-- What a check does not change. -/
structure Same (p p' : Port) : Prop where
  net : p'.net = p.net
  check : p'.check = p.check
  adjust : p'.adjust = p.adjust
  txAt : p'.txAt = p.txAt
  sent : p'.sent = p.sent

theorem Same.rfl' {p : Port} : Same p p := ⟨rfl, rfl, rfl, rfl, rfl⟩

theorem Same.trans {p q r : Port} (h : Same p q) (k : Same q r) : Same p r :=
  ⟨k.net.trans h.net, k.check.trans h.check, k.adjust.trans h.adjust, k.txAt.trans h.txAt, k.sent.trans h.sent⟩

theorem checkNoPeer_same (e : Env) (p : Port) : Same p (checkNoPeer e p) ∧ (checkNoPeer e p).badPort = p.badPort ∧
    (checkNoPeer e p).badStation = p.badStation := by
  unfold checkNoPeer
  split <;> exact ⟨⟨rfl, rfl, rfl, rfl, rfl⟩, rfl, rfl⟩

theorem checkPort_same {e : Env} {w : Wanted} {p p' : Port} (h : checkPort e w p = some p') :
    Same p p' ∧ p'.noPeer = p.noPeer ∧ p'.badStation = p.badStation ∧
    (p.net.peer.port.valid = false → p'.badPort = p.badPort) ∧
    (e.diagOk = true → p.net.peer.port.valid = true → (p'.badPort = true ↔ ¬portFits w p.net.peer)) := by
  unfold checkPort at h
  split at h
  · rename_i hv
    cases hs : strncmpEq p.net.peer.port.str (arr 256 w.port) w.port.length with
    | none => rw [hs] at h; cases h
    | some r =>
      rw [hs, Option.map_some] at h
      have hr := strncmpEq_some _ _ _ _ hs
      rw [arr_take] at hr
      cases r with
      | true =>
        cases h
        refine ⟨⟨rfl, rfl, rfl, rfl, rfl⟩, rfl, rfl, fun k => (nomatch hv.symm.trans k), fun _ _ => ?_⟩
        have : portFits w p.net.peer := hr.1 rfl
        simp [this]
      | false =>
        cases h
        refine ⟨⟨rfl, rfl, rfl, rfl, rfl⟩, rfl, rfl, fun k => (nomatch hv.symm.trans k), fun hd _ => ?_⟩
        have : ¬portFits w p.net.peer := fun k => nomatch hr.2 k
        simp [this, hd]
  · rename_i hv
    cases h
    exact ⟨.rfl', rfl, rfl, fun _ => rfl, fun _ k => absurd k hv⟩

theorem checkStation_same {e : Env} {w : Wanted} {p p' : Port} (h : checkStation e w p = some p') :
    Same p p' ∧ p'.noPeer = p.noPeer ∧ p'.badPort = p.badPort ∧
    (Lldp.peerStation p.net.peer = [] → p'.badStation = p.badStation) ∧
    (e.diagOk = true → Lldp.peerStation p.net.peer ≠ [] → (p'.badStation = true ↔ ¬stationFits w p.net.peer)) := by
  unfold checkStation at h
  simp only at h
  split at h
  · rename_i hv
    have hv : Lldp.peerStation p.net.peer ≠ [] := by simpa using hv
    cases hs : strncmpEq (arr 241 (Lldp.peerStation p.net.peer)) (arr 241 w.station) (Lldp.peerStation p.net.peer).length with
    | none => rw [hs] at h; cases h
    | some r =>
      rw [hs, Option.map_some] at h
      have hr := strncmpEq_some _ _ _ _ hs
      rw [stationFits_iff (station_no_zero _)] at hr
      cases r with
      | true =>
        cases h
        refine ⟨⟨rfl, rfl, rfl, rfl, rfl⟩, rfl, rfl, fun k => absurd k hv, fun _ _ => ?_⟩
        have : stationFits w p.net.peer := hr.1 rfl
        simp [this]
      | false =>
        cases h
        refine ⟨⟨rfl, rfl, rfl, rfl, rfl⟩, rfl, rfl, fun k => absurd k hv, fun hd _ => ?_⟩
        have : ¬stationFits w p.net.peer := fun k => nomatch hr.2 k
        simp [this, hd]
  · rename_i hv
    cases h
    exact ⟨.rfl', rfl, rfl, fun _ => rfl, fun _ k => absurd (by simpa using hv) k⟩

theorem runCheck_same {e : Env} {p p' : Port} (h : runCheck e p = some p') : Same p p' ∧
    (p.check = none → p' = p) ∧ (e.diagOk = true → ∀ w, p.check = some w → Right w p') := by
  unfold runCheck at h
  cases hc : p.check with
  | none => rw [hc] at h; cases h; exact ⟨.rfl', fun _ => rfl, fun _ w k => nomatch k⟩
  | some w =>
    rw [hc] at h
    simp only at h
    cases hp : checkPort e w (checkNoPeer e p) with
    | none => rw [hp] at h; cases h
    | some p1 =>
      rw [hp, Option.bind_some] at h
      obtain ⟨a1, a2, a3⟩ := checkNoPeer_same e p
      obtain ⟨b1, b2, b3, b4, b5⟩ := checkPort_same hp
      obtain ⟨c1, c2, c3, c4, c5⟩ := checkStation_same h
      refine ⟨(a1.trans b1).trans c1, (nomatch ·), fun hd w' hw => ?_⟩
      cases hw
      have hn : p'.net = p.net := ((a1.trans b1).trans c1).net
      refine ⟨?_, ?_, ?_⟩
      · rw [c2, b2, hn]
        unfold checkNoPeer
        cases p.net.received <;> simp [hd]
      · rw [hn, c3]
        intro hv
        rw [a1.net] at b5
        exact b5 hd hv
      · rw [hn]
        intro hv
        rw [b1.net, a1.net] at c5
        exact c5 hd hv

/-! ## The invariant -/

/-- The port waits for the timer that runs after a restart. -/
def Waiting (p : Port) : Prop := p.net.received = false ∧ p.net.rxAt.isSome = true ∧ p.net.peer.ttl.toNat ≤ 60

/-- The marks are right, or will be put right by the next pnet_handle_periodic. -/
def Judged (p : Port) : Prop :=
  (p.check = none → p.noPeer = false ∧ p.badPort = false ∧ p.badStation = false) ∧
  (∀ w, p.check = some w → p.net.updated = true ∨ Waiting p ∨ Right w p)

/-- The same for a port with another LLDP part that tells the same of the peer. -/
theorem Judged.net {p : Port} (h : Judged p) {n : Lldp.Port} (h1 : n.peer = p.net.peer) (h2 : n.received = p.net.received)
    (h3 : n.updated = p.net.updated) (h4 : Waiting p → n.rxAt.isSome = true) : Judged { p with net := n } := by
  refine ⟨h.1, fun w hw => ?_⟩
  rcases h.2 w hw with k | k | k
  · exact .inl (h3.trans k)
  · refine .inr (.inl ⟨h2.trans k.1, h4 k, ?_⟩)
    show n.peer.ttl.toNat ≤ 60
    rw [h1]; exact k.2.2
  · refine .inr (.inr ⟨?_, ?_, ?_⟩)
    · show _ ↔ n.received = false
      rw [h2]; exact k.noPeer
    · show n.peer.port.valid = true → (_ ↔ ¬portFits w n.peer)
      rw [h1]; exact k.badPort
    · show Lldp.peerStation n.peer ≠ [] → (_ ↔ ¬stationFits w n.peer)
      rw [h1]; exact k.badStation

/-- New information of the peer. -/
theorem Judged.news {p : Port} (h : Judged p) {n : Lldp.Port} (h1 : n.updated = true) : Judged { p with net := n } :=
  ⟨h.1, fun w hw => .inl h1⟩

/-- What has to do with sending does not matter. -/
theorem Judged.tx {p : Port} (h : Judged p) (t : Option Nat) (s : Nat) (b : Option Boundary) :
    Judged { p with txAt := t, sent := s, adjust := b } :=
  ⟨h.1, fun w hw => by
    rcases h.2 w hw with k | k | k
    · exact .inl k
    · exact .inr (.inl k)
    · exact .inr (.inr ⟨k.noPeer, k.badPort, k.badStation⟩)⟩

theorem judged_sendEnable {p : Port} (h : Judged p) (e : Env) : Judged (sendEnable e p) := h.tx _ _ _
theorem judged_sendAs {p : Port} (h : Judged p) (e : Env) (b : Boundary) : Judged (sendAs e b p) := by
  unfold sendAs; split
  · exact h.tx none p.sent p.adjust
  · exact judged_sendEnable h e
theorem judged_restartTx {p : Port} (h : Judged p) (e : Env) : Judged (restartTx e p) := by
  unfold restartTx; split
  · exact judged_sendAs h e _
  · exact judged_sendEnable h e
theorem judged_connectInd {p : Port} (h : Judged p) (e : Env) : Judged (connectInd e p) := by
  unfold connectInd; split
  · exact judged_sendAs h e _
  · exact h
theorem judged_tickTx {p : Port} (h : Judged p) (e : Env) : Judged (tickTx e p) := by
  unfold tickTx
  split
  · split
    · exact judged_sendEnable h e
    · exact h
  · exact h

theorem judged_reset (p : Port) : Judged (reset p) := ⟨fun _ => ⟨rfl, rfl, rfl⟩, fun w hw => (nomatch hw)⟩

theorem judged_tickRx {p : Port} (h : Judged p) (now : Nat) : Judged { p with net := Lldp.tickRx now p.net } := by
  unfold Lldp.tickRx
  split
  · split
    · exact h.news rfl
    · exact h
  · exact h

theorem judged_link {p : Port} (h : Judged p) (up : Bool) : Judged { p with net := Lldp.monitorLink up p.net } := by
  unfold Lldp.monitorLink
  split
  · exact h.news rfl
  · exact h.net rfl rfl rfl fun k => k.2.1

theorem judged_recv {p : Port} (h : Judged p) {z : Nat} {e : Env} (ha : e.armed = true) {data : List Byte} {n : Lldp.Port}
    (hr : Lldp.recv z e.lldp p.net data = some n) : Judged { p with net := n } := by
  unfold Lldp.recv at hr
  cases hp : Lldp.parse z data with
  | none => rw [hp] at hr; cases hr
  | some x =>
    rw [hp, Option.map_some] at hr
    cases x with
    | none => cases hr; exact h
    | some q =>
      cases hr
      simp only [Lldp.updatePeer]
      split
      · rename_i hq
        refine h.net rfl rfl rfl fun k => ?_
        have hq : q = p.net.peer := hq
        have : ¬q.ttl.toNat > 60 := by rw [hq]; exact Nat.not_lt.2 k.2.2
        simp [Lldp.restartTimer, this, Env.lldp, ha]
      · exact h.news rfl

theorem judged_load {z : Nat} {e : Env} (ha : e.armed = true) (f : Option Saved) : Judged (load e z f) := by
  unfold load
  cases f with
  | none =>
    apply judged_sendEnable
    exact ⟨fun _ => ⟨rfl, rfl, rfl⟩, fun w hw => (nomatch hw)⟩
  | some s =>
    obtain ⟨c, b⟩ := s
    simp only
    apply judged_restartTx
    cases c with
    | none => exact ⟨fun _ => ⟨rfl, rfl, rfl⟩, fun w hw => (nomatch hw)⟩
    | some c =>
      refine ⟨(nomatch ·), fun w _ => .inr (.inl ⟨rfl, ?_, ?_⟩)⟩
      · simp [Lldp.restartTimer, Env.lldp, ha]
      · show (0 : U16).toNat ≤ 60
        simp

theorem judged_periodic {p p' : Port} (h : Judged p) {e : Env} (hd : e.diagOk = true) (hp : periodic e p = some p') :
    Judged p' ∧ ∀ w, p'.check = some w → Waiting p' ∨ Right w p' := by
  unfold periodic at hp
  split at hp
  · obtain ⟨k1, k2, k3⟩ := runCheck_same hp
    have hc : p'.check = p.check := k1.check
    refine ⟨⟨fun hn => ?_, fun w hw => .inr (.inr (k3 hd w (by rw [← hw, hc])))⟩,
      fun w hw => .inr (k3 hd w (by rw [← hw, hc]))⟩
    rw [hc] at hn
    rw [k2 hn]
    exact h.1 hn
  · rename_i hu
    cases hp
    exact ⟨h, fun w hw => (h.2 w hw).resolve_left hu⟩

theorem judged_written {p p' : Port} (h : Judged p) {e : Env} (hd : e.diagOk = true) {k : Index} {data : List Byte}
    (hw : p.written e k data = some (some p')) : Judged p' := by
  unfold Port.written at hw
  cases k with
  | check =>
    simp only at hw
    cases hc : parseCheck data with
    | none => rw [hc] at hw; cases hw
    | some c =>
      rw [hc, Option.bind_some] at hw
      cases c with
      | none => cases hw
      | some c =>
        simp only at hw
        cases hr : runCheck e { p with check := some c } with
        | none => rw [hr] at hw; cases hw
        | some q =>
          rw [hr, Option.map_some] at hw
          cases hw
          obtain ⟨k1, k2, k3⟩ := runCheck_same hr
          have hch : p'.check = some c := k1.check
          refine ⟨fun hn => ?_, fun w hw => .inr (.inr (k3 hd w ?_))⟩
          · rw [hch] at hn; cases hn
          · rw [hch] at hw; exact hw
  | adjust =>
    simp only at hw
    cases hc : parseAdjust data with
    | none => rw [hc] at hw; cases hw
    | some c =>
      rw [hc, Option.map_some] at hw
      cases c with
      | none => cases hw
      | some c =>
        cases hw
        exact judged_sendAs (h.tx p.txAt p.sent (some c)) e c
  | intf => cases hw
  | other => cases hw

/-- Timers can be started and the submodule of the port accepts diagnosis. -/
def Fine (x : Env × Ev) : Prop := x.1.armed = true ∧ x.1.diagOk = true

theorem judged_step {z n i : Nat} {x : Env × Ev} {o o' : One} (hx : Fine x) (h : Judged o.port)
    (hs : One.Step z x.1 n i o x.2 o') : Judged o'.port := by
  obtain ⟨e, ev⟩ := x
  obtain ⟨ha, hd⟩ := hx
  cases hs with
  | frame hr => exact judged_recv h ha hr
  | frameOther => exact h
  | link => exact judged_link h _
  | linkOther => exact h
  | periodic hp => exact (judged_periodic (judged_tickTx (judged_tickRx h _) _) hd hp).1
  | write _ hw => exact judged_written h hd hw
  | writeRefused => exact h
  | writeIntf => exact judged_restartTx h _
  | writeOther => exact h
  | connect => exact judged_connectInd (judged_reset _) e
  | connected => exact judged_restartTx h _
  | dcp => exact judged_restartTx h _
  | factoryReset => exact judged_reset _
  | saveOff => exact h
  | save => exact h
  | restart => exact judged_load ha _

theorem One.Run.last {z n i : Nat} {es : List (Env × Ev)} {x : Env × Ev} {o o' : One} (h : One.Run z n i o (es ++ [x]) o') :
    ∃ o1, One.Run z n i o es o1 ∧ One.Step z x.1 n i o1 x.2 o' := by
  obtain ⟨o1, h1, h2⟩ := h.split
  cases h2 with
  | cons k1 k2 => cases k2; exact ⟨o1, h1, k1⟩

/-- Every port of the device at the end has been a port of the device at the start. -/
theorem one_back {d d' : Dev} (hl : d'.ports.length = d.ports.length) {i : Nat} {p : Port} (h : d'.ports[i]? = some p) :
    ∃ o, d.one i = some o := by
  have hlt : i < d'.ports.length := (List.getElem?_eq_some_iff.1 h).1
  rw [hl] at hlt
  exact ⟨_, one_of_port (List.getElem?_eq_getElem hlt)⟩

/-! ## C82 -/

/-- C82, with what is missing: whatever has happened since the device was started, after pnet_handle_periodic a port without
check has no diagnosis; a port with a check has the diagnosis "no peer" exactly if no peer is known; and if the peer gives a port
identification (a station name), it has the diagnosis for the port name (station name) exactly if the name does not fit.
The only exception is a port that has just been started with a stored check, until its timer of 0 seconds has fired.
Missing: "fits" compares only the start of the names (see C82_fails_prefix), and a diagnosis for a name stays when the peer
is gone (see C82_fails_stale). -/
theorem C82_judged_partial (z : Nat) (d0 d : Dev) (e0 e : Env) (es : List (Env × Ev))
    (hr : run z d0 ((e0, .restart) :: es ++ [(e, .periodic)]) = some d) (hf : ∀ x ∈ (e0, .restart) :: es ++ [(e, .periodic)], Fine x)
    (p : Port) (hp : p ∈ d.ports) :
    (p.check = none → p.noPeer = false ∧ p.badPort = false ∧ p.badStation = false) ∧
    (∀ w, p.check = some w →
      (p.net.received = false ∧ ∃ t, p.net.rxAt = some t ∧ e.now < t) ∨
      ((p.noPeer = true ↔ p.net.received = false) ∧
       (p.net.peer.port.valid = true → (p.badPort = true ↔ ¬portFits w p.net.peer)) ∧
       (Lldp.peerStation p.net.peer ≠ [] → (p.badStation = true ↔ ¬Lldp.peerStation p.net.peer <+: w.station)))) := by
  obtain ⟨i, hi⟩ := List.getElem?_of_mem hp
  obtain ⟨h1, h2⟩ := run_one hr
  obtain ⟨o0, ho0⟩ := one_back h1 hi
  obtain ⟨o', ho', hrun⟩ := h2 i o0 ho0
  have : o'.port = p := by
    have := (port_of_one ho').1
    rw [hi] at this; cases this; rfl
  subst this
  obtain ⟨o1, r1, r2⟩ := hrun.last
  have hj : Judged o1.port := by
    cases r1 with
    | cons s1 s2 =>
      refine s2.induct (ok := Fine) (P := fun o => Judged o.port) (fun x o o' a b c => judged_step a b c) (fun x hx => hf x (by simp [hx])) ?_
      cases s1
      exact judged_load (hf (e0, .restart) (by simp)).1 _
  have hd : e.diagOk = true := (hf (e, .periodic) (by simp)).2
  cases r2 with
  | @periodic pp hper =>
    obtain ⟨j1, j2⟩ := judged_periodic (judged_tickTx (judged_tickRx hj _) _) hd hper
    refine ⟨j1.1, fun w hw => ?_⟩
    rcases j2 w hw with k | k
    · refine .inl ⟨k.1, ?_⟩
      have hnet : ∀ q, periodic e q = some pp → q.net.rxAt = pp.net.rxAt := by
        intro q hq
        unfold periodic at hq
        split at hq
        · rw [(runCheck_same hq).1.net]
        · cases hq; rfl
      have hrx := hnet _ hper
      have htx : ∀ q, (tickTx e q).net = q.net := by
        intro q
        unfold tickTx
        split
        · split <;> rfl
        · rfl
      rw [htx] at hrx
      obtain ⟨t, ht⟩ := Option.isSome_iff_exists.1 k.2.1
      refine ⟨t, ht, ?_⟩
      rw [ht] at hrx
      have hrx : (Lldp.tickRx e.now o1.port.net).rxAt = some t := hrx
      unfold Lldp.tickRx at hrx
      split at hrx
      · split at hrx
        · cases hrx
        · rename_i h1 h2
          rw [h1] at hrx; cases hrx; omega
      · rename_i h1
        rw [h1] at hrx; cases hrx
    · exact .inr ⟨k.noPeer, k.badPort, k.badStation⟩

/-- C82, with what is missing: no false alarm.  If the port holds the frame of a neighbour, the check of the port wants the port
name and the station name of this neighbour, then after pnet_handle_periodic it has no diagnosis. -/
theorem C82_no_false_alarm_partial (z : Nat) (d0 d : Dev) (e0 e : Env) (es : List (Env × Ev))
    (hr : run z d0 ((e0, .restart) :: es ++ [(e, .periodic)]) = some d) (hf : ∀ x ∈ (e0, .restart) :: es ++ [(e, .periodic)], Fine x)
    (p : Port) (hp : p ∈ d.ports) (o : Lldp.Own) (ho : Lldp.Heard z p.net o) (w : Wanted) (hw : p.check = some w)
    (h1 : w.port = o.portName) (h2 : w.station = Lldp.knownAs o) (h3 : Lldp.knownAs o ≠ []) :
    p.noPeer = false ∧ p.badPort = false ∧ p.badStation = false := by
  rcases (C82_judged_partial z d0 d e0 e es hr hf p hp).2 w hw with k | ⟨k1, k2, k3⟩
  · have := ho.1
    rw [k.1] at this; cases this
  · have hport := Lldp.heard_port ho
    obtain ⟨hrec, hv, ht, hpr⟩ := ho
    have hst := (Lldp.peer_names hpr hv ht).1
    have hpv : Lldp.viewId p.net.peer.port = some (7, Lldp.ownPort o) := congrArg Lldp.View.port hv
    obtain ⟨p1, p2, p3⟩ := Lldp.viewId_some hpv
    refine ⟨?_, ?_, ?_⟩
    · rw [← Bool.not_eq_true, k1, hrec]; simp
    · rw [← Bool.not_eq_true, k2 p1, Decidable.not_not, portFits_iff (by rw [h1]; exact fun x hx => (hpr.port0 x hx).1), h1]
      have : o.portName <+: Lldp.ownPort o := by
        rw [Lldp.ownPort_eq hpr]
        split
        · exact List.prefix_rfl
        · rw [List.append_assoc]; exact List.prefix_append _ _
      exact this.trans (by rw [← hport]; exact List.takeWhile_prefix _)
    · rw [← Bool.not_eq_true, k3 (by rw [hst]; exact h3), Decidable.not_not, hst, h2]
      exact List.prefix_rfl

theorem strncmp_prefix : ∀ (s a b : List Byte), strncmpEq (s ++ a) (s ++ b) s.length = some true := by
  intro s
  induction s with
  | nil => intro a b; cases a <;> cases b <;> rfl
  | cons x s ih =>
    intro a b
    simp only [List.cons_append, List.length_cons, strncmpEq, ne_eq, not_true_eq_false, if_false]
    split
    · rfl
    · exact ih a b

/-- C82 fails: a peer whose station name is only the start of the wanted one, or whose port name only starts with the wanted
one, is not reported, whatever the rest is. -/
theorem C82_fails_prefix (z : Nat) (e : Env) (p : Port) (o : Lldp.Own) (ho : Lldp.Heard z p.net o) (w : Wanted) (t : List Byte)
    (h1 : w.port <+: o.portName) (h2 : w.station = Lldp.knownAs o ++ t) (hb : p.badPort = false ∧ p.badStation = false) :
    ∃ p', runCheck e { p with check := some w } = some p' ∧ p'.noPeer = false ∧ p'.badPort = false ∧ p'.badStation = false := by
  have hport := Lldp.heard_port ho
  obtain ⟨hrec, hv, ht, hpr⟩ := ho
  have hst := (Lldp.peer_names hpr hv ht).1
  have hpv : Lldp.viewId p.net.peer.port = some (7, Lldp.ownPort o) := congrArg Lldp.View.port hv
  obtain ⟨p1, p2, p3⟩ := Lldp.viewId_some hpv
  have hpre : w.port <+: p.net.peer.port.str := by
    have : o.portName <+: Lldp.ownPort o := by
      rw [Lldp.ownPort_eq hpr]
      split
      · exact List.prefix_rfl
      · rw [List.append_assoc]; exact List.prefix_append _ _
    exact (h1.trans this).trans (by rw [← hport]; exact List.takeWhile_prefix _)
  obtain ⟨u, hu⟩ := hpre
  have hs1 : strncmpEq p.net.peer.port.str (arr 256 w.port) w.port.length = some true := by
    rw [← hu]; exact strncmp_prefix _ _ _
  have hs2 : strncmpEq (arr 241 (Lldp.knownAs o)) (arr 241 (Lldp.knownAs o ++ t)) (Lldp.knownAs o).length = some true := by
    unfold arr
    rw [List.append_assoc]
    exact strncmp_prefix _ _ _
  simp only [runCheck, checkNoPeer, hrec, if_true, checkPort, p1, hs1, Option.map_some, Option.bind_some, checkStation, hst, h2, hs2]
  split
  · exact ⟨_, rfl, rfl, rfl, rfl⟩
  · exact ⟨_, rfl, rfl, rfl, hb.2⟩

theorem runCheck_gone {e : Env} {p : Port} {w : Wanted} (hc : p.check = some w) (h1 : p.net.received = false)
    (h2 : p.net.peer.port.valid = false) (h3 : Lldp.peerStation p.net.peer = []) :
    runCheck e p = some { p with noPeer := p.noPeer || e.diagOk } := by
  have e1 : checkNoPeer e p = { p with noPeer := p.noPeer || e.diagOk } := by simp [checkNoPeer, h1]
  unfold runCheck
  rw [hc]
  simp only [e1]
  simp [checkPort, checkStation, h2, h3, hc]

/-- C82 fails: when the peer with a wrong name is gone (the link goes down), the diagnosis for its names stays, beside "no
peer". -/
theorem C82_fails_stale (z : Nat) (e1 e2 : Env) (p : Port) (w : Wanted) (hd : e2.diagOk = true) (hc : p.check = some w)
    (hu : p.net.linkUp = true) (d : Dev) (hp : d.ports = [p]) :
    ∃ d' p', run z d [(e1, .link 1 false), (e2, .periodic)] = some d' ∧ d'.ports = [p'] ∧ p'.net.received = false ∧
      p'.noPeer = true ∧ p'.badPort = p.badPort ∧ p'.badStation = p.badStation := by
  obtain ⟨q, hq⟩ : ∃ q, q = tickTx e2 { p with net := Lldp.tickRx e2.now (Lldp.monitorLink false p.net) } := ⟨_, rfl⟩
  have ht : q.net = Lldp.tickRx e2.now (Lldp.monitorLink false p.net) ∧ q.check = p.check ∧ q.badPort = p.badPort ∧
      q.badStation = p.badStation := by
    rw [hq]
    unfold tickTx
    split
    · split <;> exact ⟨rfl, rfl, rfl, rfl⟩
    · exact ⟨rfl, rfl, rfl, rfl⟩
  obtain ⟨q1, q2, q3, q4⟩ := ht
  have hm : Lldp.tickRx e2.now (Lldp.monitorLink false p.net) = { Lldp.linkDown p.net with linkUp := false } := by
    simp [Lldp.monitorLink, hu, Lldp.tickRx, Lldp.linkDown, Lldp.invalidate]
  rw [hm] at q1
  have h1 : step z e1 d (.link 1 false) = some { d with ports := [{ p with net := Lldp.monitorLink false p.net }] } := by
    simp [step, Dev.onPort, hp, isValid]
  have h2 : periodic e2 q = some { q with net := { q.net with updated := false }, noPeer := q.noPeer || e2.diagOk } := by
    unfold periodic
    rw [if_pos (by rw [q1]; rfl)]
    refine runCheck_gone (w := w) (q2.trans hc) ?_ ?_ ?_
    · show q.net.received = false
      rw [q1]; rfl
    · show q.net.peer.port.valid = false
      rw [q1]; rfl
    · show Lldp.peerStation q.net.peer = []
      rw [q1]
      simp [Lldp.linkDown, Lldp.invalidate, Lldp.peerStation]
  refine ⟨{ d with ports := [{ q with net := { q.net with updated := false }, noPeer := q.noPeer || e2.diagOk }] },
    { q with net := { q.net with updated := false }, noPeer := q.noPeer || e2.diagOk }, ?_, rfl, ?_, ?_, q3, q4⟩
  · unfold run
    simp only [h1, Option.bind_some]
    unfold run
    simp only [step, forAll_eq, mapAll, Option.map_some, Option.bind_some, ← hq, h2, run]
  · show q.net.received = false
    rw [q1]; rfl
  · simp [hd]

/-- C82 applies: a device with one port, a check that is written (the names of the example device, "port-001" and "dev"), a frame
of that device on the port. -/
example : ∃ (d : Dev) (p : Port) (w : Wanted), Lldp.Heard 60 p.net Lldp.exampleOwn ∧ d.ports = [p] ∧ p.check = some w ∧
    w.port = Lldp.exampleOwn.portName ∧ w.station = Lldp.knownAs Lldp.exampleOwn := by
  obtain ⟨n, _, hn⟩ := Lldp.C81_heard 60 (by omega) Lldp.exampleOwn Lldp.exampleOwn_proper ⟨0, 1000, true⟩ (Lldp.Port.init 60) (.inr rfl)
  exact ⟨⟨[⟨n, some ⟨Lldp.exampleOwn.portName, Lldp.knownAs Lldp.exampleOwn⟩, none, false, false, false, none, 0⟩], true, false, [], false⟩,
    _, _, hn, rfl, rfl, rfl, rfl⟩

end Verif.Pdport
