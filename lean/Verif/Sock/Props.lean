import Verif.Sock.Model
/-!
C129: sockets are opened and closed in order.
-/
set_option linter.unusedVariables false
set_option linter.unusedSimpArgs false

namespace Verif.Sock

/-! ## Specification -/

/-- The open sockets of the device after some events. -/
def after : List Int → List Ev → List Int
  | O, [] => O
  | O, .opened fd :: es => after (if fd < 0 then O else fd :: O) es
  | O, .closed fd :: es => after (O.filter (· ≠ fd)) es
  | O, .sent _ :: es => after O es
  | O, .undef :: es => after O es

/-- Only open sockets are used, server sockets are never closed, and no NULL pointer is used.  The number -1 is no socket: closing it and sending on it does
nothing. -/
def Fine (srv : List Int) : List Int → List Ev → Prop
  | O, [] => True
  | O, .opened fd :: es => Fine srv (if fd < 0 then O else fd :: O) es
  | O, .closed fd :: es => (fd = -1 ∨ fd ∈ O ∧ fd ∉ srv) ∧ Fine srv (O.filter (· ≠ fd)) es
  | O, .sent fd :: es => (fd = -1 ∨ fd ∈ O) ∧ Fine srv O es
  | O, .undef :: es => False

/-- The operating system gives -1 or a socket that is not open. -/
def Fresh (O : List Int) : Op → Prop
  | .ready fd _ _ => fd = -1 ∨ 0 ≤ fd ∧ fd ∉ O
  | _ => True

/-- An endpoint mapper request does not have the activity UUID of a request of the device. -/
def NoEpm (n : Net) : Op → Prop
  | .packet _ p => p.kind = .epm → ∀ j, p.hit = some j → (n.sess j).fromMe = false
  | _ => True

/-- A message in fragments is only sent in a session with a connection. -/
def NoOrphan (n : Net) : Op → Prop
  | .packet _ p => p.again ≠ none → p.conn = some true ∨ p.conn = none ∧ ∃ j, p.hit = some j ∧ (n.sess j).ar = true
  | _ => True

/-- Histories. -/
def World (resends : Nat) : Net → List Int → List Op → Prop
  | n, O, [] => True
  | n, O, o :: os => Fresh O o ∧ NoEpm n o ∧ NoOrphan n o ∧ World resends (step resends n o).1 (after O (step resends n o).2) os

/-! ## Invariant -/

structure Inv (n : Net) (O : List Int) : Prop where
  rpc0 : 0 ≤ n.rpc
  pnio0 : 0 ≤ n.pnio
  ne : n.rpc ≠ n.pnio
  rpcO : n.rpc ∈ O
  pnioO : n.pnio ∈ O
  nd : O.Nodup
  pos : ∀ fd ∈ O, 0 ≤ fd
  owner : ∀ fd ∈ O, fd = n.rpc ∨ fd = n.pnio ∨ ∃ j, (n.sess j).fromMe = true ∧ (n.sess j).sock = fd
  free : ∀ j, (n.sess j).inUse = false → (n.sess j).fromMe = false ∧ (n.sess j).sock = -1
  big : ∀ j, n.size ≤ j → (n.sess j).inUse = false
  guest : ∀ j, (n.sess j).inUse = true → (n.sess j).fromMe = false → (n.sess j).sock = n.rpc ∨ (n.sess j).sock = n.pnio
  own : ∀ j, (n.sess j).fromMe = true →
    (n.sess j).sock = -1 ∨ ((n.sess j).sock ∈ O ∧ (n.sess j).sock ≠ n.rpc ∧ (n.sess j).sock ≠ n.pnio ∧ 0 ≤ (n.sess j).sock)
  inj : ∀ i j, (n.sess i).fromMe = true → (n.sess j).fromMe = true → (n.sess i).sock = (n.sess j).sock → (n.sess i).sock ≠ -1 → i = j
  armed : ∀ j, (n.sess j).timer = true → (n.sess j).ar = true

theorem after_append (O : List Int) (a b : List Ev) : after O (a ++ b) = after (after O a) b := by
  induction a generalizing O with
  | nil => rfl
  | cons e a ih => cases e <;> exact ih _

theorem fine_append (srv O : List Int) (a b : List Ev) : Fine srv O (a ++ b) ↔ Fine srv O a ∧ Fine srv (after O a) b := by
  induction a generalizing O with
  | nil => exact ⟨fun h => ⟨trivial, h⟩, fun h => h.2⟩
  | cons e a ih =>
    cases e with
    | opened fd => exact ih _
    | closed fd => rw [List.cons_append, Fine, ih]; exact and_assoc.symm
    | sent fd => rw [List.cons_append, Fine, ih]; exact and_assoc.symm
    | undef => exact ⟨fun h => h.elim, fun h => h.1.elim⟩

@[simp] theorem set_rpc (n : Net) (j : Nat) (s : Sess) : (n.set j s).rpc = n.rpc := rfl
@[simp] theorem set_pnio (n : Net) (j : Nat) (s : Sess) : (n.set j s).pnio = n.pnio := rfl
@[simp] theorem set_size (n : Net) (j : Nat) (s : Sess) : (n.set j s).size = n.size := rfl
theorem set_sess (n : Net) (j i : Nat) (s : Sess) : (n.set j s).sess i = if i = j then s else n.sess i := rfl
@[simp] theorem set_same (n : Net) (j : Nat) (s : Sess) : (n.set j s).sess j = s := if_pos rfl

/-- Timers and counters do not matter. -/
theorem Inv.congr {n m : Net} {O : List Int} (h : Inv n O) (hr : m.rpc = n.rpc) (hp : m.pnio = n.pnio) (hz : m.size = n.size)
    (hs : ∀ i, (m.sess i).inUse = (n.sess i).inUse ∧ (m.sess i).fromMe = (n.sess i).fromMe ∧ (m.sess i).sock = (n.sess i).sock)
    (ha : ∀ i, (m.sess i).timer = true → (m.sess i).ar = true) : Inv m O := by
  have h1 := fun i => (hs i).1
  have h2 := fun i => (hs i).2.1
  have h3 := fun i => (hs i).2.2
  obtain ⟨a, b, c, d, e, f, f', g, k, l, o, p, q, _⟩ := h
  constructor <;> first | assumption | (simp only [hr, hp, hz, h1, h2, h3]; assumption)

theorem Inv.timer {n : Net} {O : List Int} (h : Inv n O) (j : Nat) (s : Sess) (h1 : s.inUse = (n.sess j).inUse)
    (h2 : s.fromMe = (n.sess j).fromMe) (h3 : s.sock = (n.sess j).sock) (h4 : s.timer = true → s.ar = true) :
    Inv (n.set j s) O := by
  refine h.congr rfl rfl rfl (fun i => ?_) fun i => ?_
  · rw [set_sess]
    split
    · subst i; exact ⟨h1, h2, h3⟩
    · exact ⟨rfl, rfl, rfl⟩
  · rw [set_sess]
    split
    · exact h4
    · exact h.armed i

theorem arm_set {n : Net} {O : List Int} (h : Inv n O) (j : Nat) (s : Sess) (hs : s.timer = true → s.ar = true) :
    ∀ i, ((n.set j s).sess i).timer = true → ((n.set j s).sess i).ar = true := by
  intro i
  rw [set_sess]
  split
  · exact hs
  · exact h.armed i

/-- A session of the device loses its socket, which is closed. -/
theorem Inv.shut {n : Net} {O : List Int} (h : Inv n O) (j : Nat) (s : Sess) (hf : (n.sess j).fromMe = true)
    (hs : s.sock = -1) (h0 : (n.sess j).sock ≠ -1) (hu : s.inUse = s.fromMe) (ht : s.timer = true → s.ar = true) (hb : s.inUse = true → j < n.size) :
    Inv (n.set j s) (O.filter (· ≠ (n.sess j).sock)) := by
  have hne : ∀ {fd}, fd ∈ O → fd ≠ (n.sess j).sock → fd ∈ O.filter (· ≠ (n.sess j).sock) := by
    intro fd a b
    exact List.mem_filter.2 ⟨a, by simpa using b⟩
  have hn := h.own j hf
  rcases hn with hn | ⟨hm, h1, h2, h3⟩
  · exact absurd hn h0
  refine ⟨h.rpc0, h.pnio0, h.ne, hne h.rpcO (Ne.symm h1), hne h.pnioO (Ne.symm h2), h.nd.filter _, fun fd hfd => h.pos fd (List.mem_filter.1 hfd).1,
    ?_, ?_, ?_, ?_, ?_, ?_, arm_set h j s ht⟩
  · intro fd hfd
    have hq := List.mem_filter.1 hfd
    rcases h.owner fd hq.1 with e | e | ⟨i, hi, e⟩
    · exact .inl e
    · exact .inr (.inl e)
    · refine .inr (.inr ⟨i, ?_⟩)
      have : i ≠ j := by
        intro e'; subst e'
        have := hq.2
        simp [e] at this
      rw [set_sess, if_neg this]
      exact ⟨hi, e⟩
  · intro i hi
    rw [set_sess] at hi ⊢
    split
    · rename_i e; rw [if_pos e] at hi; exact ⟨hu ▸ hi, hs⟩
    · rename_i e; rw [if_neg e] at hi; exact h.free i hi
  · intro i hi
    rw [set_sess]
    split
    · rename_i e
      cases hx : s.inUse with
      | false => rfl
      | true => have := hb hx; have : n.size ≤ i := hi; omega
    · exact h.big i hi
  · intro i hi hg
    rw [set_sess] at hi hg ⊢
    split
    · rename_i e; rw [if_pos e] at hi hg; rw [hu, hg] at hi; cases hi
    · rename_i e; rw [if_neg e] at hi hg; exact h.guest i hi hg
  · intro i hi
    rw [set_sess] at hi ⊢
    split
    · exact .inl hs
    · rename_i e
      rw [if_neg e] at hi
      rcases h.own i hi with e' | ⟨a, b, c, d⟩
      · exact .inl e'
      · exact .inr ⟨hne a fun e' => e (h.inj i j hi hf e' (by omega)), b, c, d⟩
  · intro a b ha hb' hab hx
    rw [set_sess] at ha hab hx
    rw [set_sess] at hb' hab
    split at ha
    · rename_i e; rw [if_pos e, hs] at hx; exact absurd rfl hx
    · rename_i e
      rw [if_neg e] at hab hx
      split at hb'
      · rename_i e'; rw [if_pos e', hs] at hab; exact absurd hab hx
      · rename_i e'; rw [if_neg e'] at hab; exact h.inj a b ha hb' hab hx

/-- A guest session or a session without socket is released. -/
theorem Inv.leave {n : Net} {O : List Int} (h : Inv n O) (j : Nat) (hq : ¬((n.sess j).sock > -1 ∧ (n.sess j).fromMe = true)) :
    Inv (n.set j .free) O := by
  have hc : (n.sess j).fromMe = true → (n.sess j).sock = -1 := by
    intro hf
    rcases h.own j hf with e | ⟨_, _, _, e⟩
    · exact e
    · exact absurd ⟨by omega, hf⟩ hq
  refine ⟨h.rpc0, h.pnio0, h.ne, h.rpcO, h.pnioO, h.nd, h.pos, ?_, ?_, ?_, ?_, ?_, ?_, arm_set h j _ nofun⟩
  · intro fd hfd
    rcases h.owner fd hfd with e | e | ⟨i, hi, e⟩
    · exact .inl e
    · exact .inr (.inl e)
    · refine .inr (.inr ⟨i, ?_⟩)
      have : i ≠ j := by
        intro e'; subst e'
        have := hc hi
        have := h.pos fd hfd
        omega
      rw [set_sess, if_neg this]
      exact ⟨hi, e⟩
  · intro i hi
    rw [set_sess] at hi ⊢
    split
    · exact ⟨rfl, rfl⟩
    · rename_i e; rw [if_neg e] at hi; exact h.free i hi
  · intro i hi
    rw [set_sess]
    split
    · rfl
    · exact h.big i hi
  · intro i hi hg
    rw [set_sess] at hi hg ⊢
    split
    · rename_i e; rw [if_pos e] at hi; cases hi
    · rename_i e; rw [if_neg e] at hi hg; exact h.guest i hi hg
  · intro i hi
    rw [set_sess] at hi ⊢
    split
    · exact .inl rfl
    · rename_i e
      rw [if_neg e] at hi
      exact h.own i hi
  · intro a b ha hb' hab hx
    rw [set_sess] at ha hab hx
    rw [set_sess] at hb' hab
    split at ha
    · cases ha
    · rename_i e
      rw [if_neg e] at hab hx
      split at hb'
      · cases hb'
      · rename_i e'; rw [if_neg e'] at hab; exact h.inj a b ha hb' hab hx

/-- What a part of the handling does: the invariant goes on, the events are fine, server sockets stay, sessions of the device are not turned
into something else. -/
structure Good (n : Net) (O : List Int) (x : Net × List Ev) : Prop where
  inv : Inv x.1 (after O x.2)
  fine : Fine [n.rpc, n.pnio] O x.2
  rpc : x.1.rpc = n.rpc
  pnio : x.1.pnio = n.pnio
  size : x.1.size = n.size
  keep : ∀ i, (n.sess i).fromMe = true → (x.1.sess i).fromMe = true ∨ (x.1.sess i).inUse = false
  idle : ∀ i, (n.sess i).inUse = false → (x.1.sess i).inUse = false

theorem Good.refl {n : Net} {O : List Int} (h : Inv n O) : Good n O (n, []) :=
  ⟨h, trivial, rfl, rfl, rfl, fun _ hi => .inl hi, fun _ hi => hi⟩

theorem Good.comp {n : Net} {O : List Int} {x y : Net × List Ev} (h : Good n O x) (g : Good x.1 (after O x.2) y) :
    Good n O (y.1, x.2 ++ y.2) := by
  refine ⟨?_, ?_, g.rpc.trans h.rpc, g.pnio.trans h.pnio, g.size.trans h.size, ?_, fun i hi => g.idle i (h.idle i hi)⟩
  · show Inv y.1 (after O (x.2 ++ y.2))
    rw [after_append]; exact g.inv
  · show Fine _ _ (x.2 ++ y.2)
    rw [fine_append]
    refine ⟨h.fine, ?_⟩
    have := g.fine
    rw [h.rpc, h.pnio] at this
    exact this
  · intro i hi
    rcases h.keep i hi with e | e
    · exact g.keep i e
    · exact .inr (g.idle i e)

theorem Good.timer {n : Net} {O : List Int} (h : Inv n O) (j : Nat) (s : Sess) (h1 : s.inUse = (n.sess j).inUse)
    (h2 : s.fromMe = (n.sess j).fromMe) (h3 : s.sock = (n.sess j).sock) (h4 : s.timer = true → s.ar = true) :
    Good n O (n.set j s, []) := by
  refine ⟨h.timer j s h1 h2 h3 h4, trivial, rfl, rfl, rfl, fun i hi => .inl ?_, fun i hi => ?_⟩
  · show ((n.set j s).sess i).fromMe = true
    rw [set_sess]; split
    · rename_i e; subst e; rw [h2]; exact hi
    · exact hi
  · show ((n.set j s).sess i).inUse = false
    rw [set_sess]; split
    · rename_i e; subst e; rw [h1]; exact hi
    · exact hi

theorem Inv.lt {n : Net} {O : List Int} (h : Inv n O) {j : Nat} (hu : (n.sess j).inUse = true) : j < n.size := by
  rcases Nat.lt_or_ge j n.size with e | e
  · exact e
  · rw [h.big j e] at hu; cases hu

theorem Inv.used {n : Net} {O : List Int} (h : Inv n O) {j : Nat} (hu : (n.sess j).fromMe = true) : (n.sess j).inUse = true := by
  cases e : (n.sess j).inUse with
  | true => rfl
  | false => rw [(h.free j e).1] at hu; cases hu

/-- The socket of a session of the device is closed. -/
theorem Good.shut {n : Net} {O : List Int} (h : Inv n O) (j : Nat) (s : Sess) (hf : (n.sess j).fromMe = true)
    (hs : s.sock = -1) (h0 : (n.sess j).sock ≠ -1) (hu : s.inUse = s.fromMe) (ht : s.timer = true → s.ar = true) :
    Good n O (n.set j s, [.closed (n.sess j).sock]) := by
  have hb := h.lt (h.used hf)
  refine ⟨h.shut j s hf hs h0 hu ht fun _ => hb, ⟨?_, trivial⟩, rfl, rfl, rfl, fun i hi => ?_, fun i hi => ?_⟩
  · rcases h.own j hf with e | ⟨a, b, c, d⟩
    · exact absurd e h0
    · exact .inr ⟨a, by simp [b, c]⟩
  · show ((n.set j s).sess i).fromMe = true ∨ ((n.set j s).sess i).inUse = false
    rw [set_sess]; split
    · rw [hu]; cases s.fromMe <;> simp
    · exact .inl hi
  · show ((n.set j s).sess i).inUse = false
    rw [set_sess]; split
    · rename_i e; subst e; rw [h.used hf] at hi; cases hi
    · exact hi

theorem release_good {n : Net} {O : List Int} (h : Inv n O) (j : Nat) : Good n O (release n j) := by
  unfold release
  dsimp only
  split
  · rename_i hu
    split
    · rename_i hq
      exact Good.shut h j .free hq.2 rfl (by omega) rfl nofun
    · rename_i hq
      refine ⟨h.leave j hq, trivial, rfl, rfl, rfl, fun i hi => ?_, fun i hi => ?_⟩
      · show ((n.set j .free).sess i).fromMe = true ∨ ((n.set j .free).sess i).inUse = false
        rw [set_sess]; split
        · exact .inr rfl
        · exact .inl hi
      · show ((n.set j .free).sess i).inUse = false
        rw [set_sess]; split
        · rfl
        · exact hi
  · exact .refl h

theorem releases_good {n : Net} {O : List Int} (h : Inv n O) (js : List Nat) : Good n O (releases n js) := by
  induction js generalizing n O with
  | nil => exact .refl h
  | cons j js ih =>
    have g := release_good h j
    exact g.comp (ih g.inv)

/-- The socket of a session: none, or an open one. -/
theorem Inv.sock {n : Net} {O : List Int} (h : Inv n O) (j : Nat) : (n.sess j).sock = -1 ∨ (n.sess j).sock ∈ O := by
  cases hu : (n.sess j).inUse with
  | false => exact .inl (h.free j hu).2
  | true =>
    cases hf : (n.sess j).fromMe with
    | false =>
      rcases h.guest j hu hf with e | e
      · rw [e]; exact .inr h.rpcO
      · rw [e]; exact .inr h.pnioO
    | true =>
      rcases h.own j hf with e | e
      · exact .inl e
      · exact .inr e.1

theorem Good.sent {n : Net} {O : List Int} (h : Inv n O) (j : Nat) : Good n O (n, [.sent (n.sess j).sock]) :=
  ⟨h, ⟨h.sock j, trivial⟩, rfl, rfl, rfl, fun _ hi => .inl hi, fun _ hi => hi⟩

theorem sendTimed_good {n : Net} {O : List Int} (h : Inv n O) (j : Nat) (ok armed : Bool)
    (ha : (n.sess j).sock < 0 ∨ (n.sess j).ar = true) : Good n O (sendTimed n j ok armed) := by
  unfold sendTimed
  dsimp only
  split
  · exact .refl h
  · rename_i hneg
    have g := Good.timer h j { n.sess j with left := (n.sess j).left - 1, timer := ok && armed } rfl rfl rfl
      (fun _ => ha.resolve_left hneg)
    have g2 := Good.sent g.inv j
    have := g.comp g2
    simpa using this

/-- An endpoint mapper request moves a session that is not of the device to the other server socket. -/
theorem Good.move {n : Net} {O : List Int} (h : Inv n O) (j : Nat) (hu : (n.sess j).inUse = true) (hf : (n.sess j).fromMe = false) :
    Good n O (n.set j { n.sess j with sock := n.rpc }, []) := by
  have ho : ∀ i, ((n.set j { n.sess j with sock := n.rpc }).sess i).inUse = (n.sess i).inUse ∧
      ((n.set j { n.sess j with sock := n.rpc }).sess i).fromMe = (n.sess i).fromMe := by
    intro i; rw [set_sess]; split
    · rename_i e; subst e; exact ⟨rfl, rfl⟩
    · exact ⟨rfl, rfl⟩
  have hk : ∀ i, (n.sess i).fromMe = true → ((n.set j { n.sess j with sock := n.rpc }).sess i) = n.sess i := by
    intro i hi; rw [set_sess]; split
    · rename_i e; subst e; rw [hf] at hi; cases hi
    · rfl
  refine ⟨⟨h.rpc0, h.pnio0, h.ne, h.rpcO, h.pnioO, h.nd, h.pos, ?_, ?_, ?_, ?_, ?_, ?_,
      arm_set h j _ (h.armed j)⟩, trivial, rfl, rfl, rfl,
    fun i hi => .inl ?_, fun i hi => ?_⟩
  · intro fd hfd
    rcases h.owner fd hfd with e | e | ⟨i, hi, e⟩
    · exact .inl e
    · exact .inr (.inl e)
    · exact .inr (.inr ⟨i, by rw [hk i hi]; exact ⟨hi, e⟩⟩)
  · intro i hi
    rw [(ho i).1] at hi
    rw [set_sess, if_neg (by intro e; subst e; rw [hu] at hi; cases hi)]
    exact h.free i hi
  · intro i hi
    rw [(ho i).1]; exact h.big i hi
  · intro i hi hg
    rw [(ho i).1] at hi
    rw [(ho i).2] at hg
    rw [set_sess]; split
    · exact .inl rfl
    · exact h.guest i hi hg
  · intro i hi
    rw [(ho i).2] at hi
    rw [hk i hi]
    exact h.own i hi
  · intro a b ha hb hab hx
    rw [(ho a).2] at ha
    rw [(ho b).2] at hb
    rw [hk a ha] at hab hx
    rw [hk b hb] at hab
    exact h.inj a b ha hb hab hx
  · show ((n.set j { n.sess j with sock := n.rpc }).sess i).fromMe = true
    rw [(ho i).2]; exact hi
  · show ((n.set j { n.sess j with sock := n.rpc }).sess i).inUse = false
    rw [(ho i).1]; exact hi

theorem freeIx_spec {n : Net} {j : Nat} (h : freeIx n = some j) : j < n.size ∧ (n.sess j).inUse = false := by
  have h1 := List.find?_some h
  have h2 := List.mem_of_find?_eq_some h
  exact ⟨List.mem_range.1 h2, by simpa using h1⟩

/-- A new session: for a packet (on the server socket), or of the device (on a new socket). -/
theorem Inv.alloc {n : Net} {O : List Int} (h : Inv n O) {j : Nat} (hj : freeIx n = some j) (s : Sess) (P : List Int) (hu : s.inUse = true) (ht : s.timer = false)
    (hs : s.fromMe = false ∧ s.sock = n.pnio ∧ P = O ∨ s.fromMe = true ∧ s.sock = -1 ∧ P = O ∨
      s.fromMe = true ∧ 0 ≤ s.sock ∧ s.sock ∉ O ∧ P = s.sock :: O) : Inv (n.set j s) P := by
  obtain ⟨hlt, hfree⟩ := freeIx_spec hj
  have hne : ∀ i, (n.sess i).fromMe = true → i ≠ j := by
    intro i hi e; subst e; rw [(h.free i hfree).1] at hi; cases hi
  have hsub : ∀ fd ∈ O, fd ∈ P := by
    intro fd hfd
    rcases hs with ⟨_, _, e⟩ | ⟨_, _, e⟩ | ⟨_, _, _, e⟩ <;> rw [e]
    · exact hfd
    · exact hfd
    · exact List.mem_cons_of_mem _ hfd
  refine ⟨h.rpc0, h.pnio0, h.ne, hsub _ h.rpcO, hsub _ h.pnioO, ?_, ?_, ?_, ?_, ?_, ?_, ?_, ?_,
    arm_set h j s (fun e => by rw [ht] at e; cases e)⟩
  · rcases hs with ⟨_, _, e⟩ | ⟨_, _, e⟩ | ⟨_, _, hn, e⟩ <;> rw [e]
    · exact h.nd
    · exact h.nd
    · exact List.nodup_cons.2 ⟨hn, h.nd⟩
  · rcases hs with ⟨_, _, e⟩ | ⟨_, _, e⟩ | ⟨_, h0, hn, e⟩ <;> rw [e]
    · exact h.pos
    · exact h.pos
    · intro fd hfd
      rcases List.mem_cons.1 hfd with e | e
      · rw [e]; exact h0
      · exact h.pos fd e
  · intro fd hfd
    have key : fd ∈ O → fd = n.rpc ∨ fd = n.pnio ∨ ∃ i, ((n.set j s).sess i).fromMe = true ∧ ((n.set j s).sess i).sock = fd := by
      intro hfd
      rcases h.owner fd hfd with e | e | ⟨i, hi, e⟩
      · exact .inl e
      · exact .inr (.inl e)
      · exact .inr (.inr ⟨i, by rw [set_sess, if_neg (hne i hi)]; exact ⟨hi, e⟩⟩)
    rcases hs with ⟨_, _, e⟩ | ⟨_, _, e⟩ | ⟨hm, h0, hn, e⟩ <;> rw [e] at hfd
    · exact key hfd
    · exact key hfd
    · rcases List.mem_cons.1 hfd with e | e
      · exact .inr (.inr ⟨j, by rw [set_same]; exact ⟨hm, e.symm⟩⟩)
      · exact key e
  · intro i hi
    rw [set_sess] at hi ⊢
    split
    · rename_i e; rw [if_pos e, hu] at hi; cases hi
    · rename_i e; rw [if_neg e] at hi; exact h.free i hi
  · intro i hi
    have : n.size ≤ i := hi
    rw [set_sess, if_neg (by omega)]
    exact h.big i hi
  · intro i hi hg
    rw [set_sess] at hi hg ⊢
    split
    · rename_i e
      rw [if_pos e] at hg
      rcases hs with ⟨_, e, _⟩ | ⟨a, _⟩ | ⟨a, _⟩
      · exact .inr e
      · rw [hg] at a; cases a
      · rw [hg] at a; cases a
    · rename_i e; rw [if_neg e] at hi hg; exact h.guest i hi hg
  · intro i hi
    rw [set_sess] at hi ⊢
    split
    · rename_i e
      rw [if_pos e] at hi
      rcases hs with ⟨a, _⟩ | ⟨_, e, _⟩ | ⟨_, h0, hn, e⟩
      · rw [hi] at a; cases a
      · exact .inl e
      · refine .inr ⟨e ▸ List.mem_cons_self, ?_, ?_, h0⟩
        · intro e'; exact hn (by rw [e']; exact h.rpcO)
        · intro e'; exact hn (by rw [e']; exact h.pnioO)
    · rename_i e
      rw [if_neg e] at hi
      rcases h.own i hi with e' | ⟨a, b⟩
      · exact .inl e'
      · exact .inr ⟨hsub _ a, b⟩
  · have key : ∀ b, (n.sess b).fromMe = true → s.fromMe = true → s.sock = (n.sess b).sock → s.sock = -1 := by
      intro b hb hsm hab
      rcases hs with ⟨a, _⟩ | ⟨_, e, _⟩ | ⟨_, h0, hn, e⟩
      · rw [hsm] at a; cases a
      · exact e
      · rcases h.own b hb with e' | ⟨e', _⟩
        · rw [hab]; exact e'
        · exact absurd (hab ▸ e') hn
    intro a b ha hb hab hx
    rw [set_sess] at ha hab hx
    rw [set_sess] at hb hab
    split at ha
    · rename_i e
      rw [if_pos e] at hab hx
      split at hb
      · rename_i e'; rw [e, e']
      · rename_i e'; rw [if_neg e'] at hab; exact absurd (key b hb ha hab) hx
    · rename_i e
      rw [if_neg e] at hab hx
      split at hb
      · rename_i e'; rw [if_pos e'] at hab; exact absurd (hab ▸ key a ha hb hab.symm) hx
      · rename_i e'; rw [if_neg e'] at hab; exact h.inj a b ha hb hab hx

theorem target_spec {n m : Net} {O : List Int} (h : Inv n O) {p : Packet} {j : Nat} (ht : target n p = some (m, j)) :
    Inv m O ∧ m.rpc = n.rpc ∧ m.pnio = n.pnio ∧ m.size = n.size ∧ (m.sess j).inUse = true ∧
      (p.hit = none → (m.sess j).fromMe = false) ∧ (∀ i, p.hit = some i → j = i ∧ m = n) ∧
      ∀ i, (n.sess i).fromMe = true → m.sess i = n.sess i := by
  unfold target at ht
  cases hp : p.hit with
  | some k =>
    rw [hp] at ht
    dsimp only at ht
    split at ht
    · rename_i hu
      simp only [Option.some.injEq, Prod.mk.injEq] at ht
      obtain ⟨rfl, rfl⟩ := ht
      exact ⟨h, rfl, rfl, rfl, hu, nofun, fun i hi => ⟨Option.some.inj hi, rfl⟩, fun _ _ => rfl⟩
    · cases ht
  | none =>
    rw [hp] at ht
    dsimp only at ht
    cases hj : freeIx n with
    | none => rw [hj] at ht; cases ht
    | some k =>
      rw [hj] at ht
      simp only [Option.map_some, Option.some.injEq, Prod.mk.injEq] at ht
      obtain ⟨rfl, rfl⟩ := ht
      refine ⟨h.alloc hj _ O rfl rfl (.inl ⟨rfl, rfl, rfl⟩), rfl, rfl, rfl, by rw [set_same], fun _ => by rw [set_same], nofun, ?_⟩
      intro i hi
      rw [set_sess, if_neg]
      intro e; subst e
      rw [(h.free i (freeIx_spec hj).2).1] at hi; cases hi

theorem sendAgain_good {n : Net} {O : List Int} (h : Inv n O) (j resends : Nat) (a : Option (Bool × Bool))
    (ha : a ≠ none → (n.sess j).sock < 0 ∨ (n.sess j).ar = true) : Good n O (sendAgain resends n j a) := by
  cases a with
  | none => exact .refl h
  | some oa =>
    have a := Good.timer h j { n.sess j with left := resends } rfl rfl rfl (h.armed j)
    have b := a.comp (sendTimed_good a.inv j oa.1 oa.2 (by rw [set_same]; exact ha nofun))
    simp only [List.nil_append] at b
    exact b

theorem killIf_good {n : Net} {O : List Int} (h : Inv n O) (j : Nat) (k : Bool) : Good n O (killIf k n j) := by
  unfold killIf
  split
  · exact release_good h j
  · exact .refl h

theorem release_same (n : Net) (j i : Nat) : (release n j).1.sess i = n.sess i ∨ (release n j).1.sess i = .free := by
  unfold release
  dsimp only
  split
  · show (n.set j .free).sess i = n.sess i ∨ (n.set j .free).sess i = .free
    rw [set_sess]
    split
    · exact .inr rfl
    · exact .inl rfl
  · exact .inl rfl

theorem releases_same (n : Net) (js : List Nat) (i : Nat) : (releases n js).1.sess i = n.sess i ∨ (releases n js).1.sess i = .free := by
  induction js generalizing n with
  | nil => exact .inl rfl
  | cons j js ih =>
    rcases ih (release n j).1 with e | e
    · exact (release_same n j i).imp e.trans e.trans
    · exact .inr e

/-- The handling of a packet, without the search for the session. -/
theorem dce_good {n : Net} {O : List Int} (h : Inv n O) (resends : Nat) (p : Packet)
    (hp : p.kind = .epm → ∀ j, p.hit = some j → (n.sess j).fromMe = false)
    (ho : NoOrphan n (.packet none p)) :
    Inv (dcePacket resends n p).1 (after O (dcePacket resends n p).2.2) ∧ Fine [n.rpc, n.pnio] O (dcePacket resends n p).2.2 ∧
      (dcePacket resends n p).1.rpc = n.rpc ∧ (dcePacket resends n p).1.pnio = n.pnio ∧ (dcePacket resends n p).1.size = n.size ∧
      ∀ i, (n.sess i).fromMe = true → ((dcePacket resends n p).1.sess i).fromMe = true ∨ ((dcePacket resends n p).1.sess i).inUse = false := by
  unfold dcePacket
  cases ht : target n p with
  | none => exact ⟨h, trivial, rfl, rfl, rfl, fun _ hi => .inl hi⟩
  | some mj =>
    obtain ⟨m, j⟩ := mj
    obtain ⟨hm, e1, e2, e3, hu, hn, hs, hk⟩ := target_spec h ht
    dsimp only
    have har : p.again ≠ none → (p.conn.getD (m.sess j).ar) = true := by
      intro ha
      rcases ho ha with e | ⟨e, k, e', e''⟩
      · rw [e]; rfl
      · obtain ⟨rfl, rfl⟩ := hs k e'
        rw [e]; exact e''
    have g0 := Good.timer hm j { m.sess j with timer := false, ar := p.conn.getD (m.sess j).ar } rfl rfl rfl nofun
    generalize hm1 : m.set j { m.sess j with timer := false, ar := p.conn.getD (m.sess j).ar } = m1 at *
    have hu1 : (m1.sess j).inUse = true := by rw [← hm1, set_same]; exact hu
    have ha1 : (m1.sess j).ar = p.conn.getD (m.sess j).ar := by rw [← hm1, set_same]
    have hf1 : (m1.sess j).fromMe = (m.sess j).fromMe := by rw [← hm1, set_same]
    have g1 : Good m1 O ((if p.kind = .epm then m1.set j { m1.sess j with sock := m1.rpc } else m1), []) := by
      split
      · rename_i he
        refine Good.move g0.inv j hu1 ?_
        rw [hf1]
        cases hh : p.hit with
        | none => exact hn hh
        | some k =>
          obtain ⟨rfl, rfl⟩ := hs k hh
          exact hp he j hh
      · exact .refl g0.inv
    have g01 := g0.comp g1
    have ha2 : ((if p.kind = .epm then m1.set j { m1.sess j with sock := m1.rpc } else m1).sess j).ar = p.conn.getD (m.sess j).ar := by
      split
      · rw [set_same]; exact ha1
      · exact ha1
    generalize (if p.kind = .epm then m1.set j { m1.sess j with sock := m1.rpc } else m1) = m2 at *
    have g2 := g01.comp (releases_good g01.inv p.drops)
    have ha3 := releases_same m2 p.drops j
    generalize releases m2 p.drops = x at *
    simp only [List.nil_append] at g2
    have g3 : Good x.1 (after O x.2) (x.1, if p.answer then [Ev.sent (x.1.sess j).sock] else []) := by
      split
      · exact Good.sent g2.inv j
      · exact .refl g2.inv
    generalize (if p.answer then [Ev.sent (x.1.sess j).sock] else []) = e at *
    have g23 := g2.comp g3
    have g34 := g23.comp (sendAgain_good g23.inv j resends p.again (fun ha => by
      rcases ha3 with e | e
      · right; rw [e, ha2]; exact har ha
      · left; rw [e]; decide))
    dsimp only at g34
    generalize sendAgain resends x.1 j p.again = y at *
    have g := g34.comp (killIf_good g34.inv j p.kill)
    dsimp only at g
    generalize killIf p.kill y.1 j = z at *
    refine ⟨g.inv, ?_, g.rpc.trans e1, g.pnio.trans e2, g.size.trans e3, fun i hi => g.keep i (by rw [hk i hi]; exact hi)⟩
    have := g.fine
    rw [e1, e2] at this
    exact this

theorem step_good {n : Net} {O : List Int} (h : Inv n O) (resends : Nat) (o : Op) (hf : Fresh O o) (he : NoEpm n o)
    (ho : NoOrphan n o) :
    Inv (step resends n o).1 (after O (step resends n o).2) ∧ Fine [n.rpc, n.pnio] O (step resends n o).2 ∧
      (step resends n o).1.rpc = n.rpc ∧ (step resends n o).1.pnio = n.pnio ∧ (step resends n o).1.size = n.size := by
  cases o with
  | ready fd ok armed =>
    unfold step
    dsimp only
    cases hj : freeIx n with
    | none => exact ⟨h, trivial, rfl, rfl, rfl⟩
    | some j =>
      dsimp only
      have hi : Inv (n.set j ⟨true, true, fd, false, resends, true⟩) (if fd < 0 then O else fd :: O) := by
        refine h.alloc hj _ _ rfl rfl ?_
        rcases hf with e | ⟨e, e'⟩
        · exact .inr (.inl ⟨rfl, e, if_pos (by omega)⟩)
        · exact .inr (.inr ⟨rfl, e, e', if_neg (by omega)⟩)
      have g := sendTimed_good hi j ok armed (.inr (by rw [set_same]))
      exact ⟨g.inv, g.fine, g.rpc, g.pnio, g.size⟩
  | packet on p =>
    cases on with
    | none =>
      have := dce_good h resends p he ho
      exact ⟨this.1, this.2.1, this.2.2.1, this.2.2.2.1, this.2.2.2.2.1⟩
    | some ix =>
      unfold step
      dsimp only
      split
      · rename_i hx
        obtain ⟨d1, d2, d3, d4, d5, d6⟩ := dce_good h resends p he ho
        generalize dcePacket resends n p = x at *
        split
        · have hk := d6 ix hx.2.2
          by_cases h0 : (x.1.sess ix).sock = -1
          · have hs : Inv (x.1.set ix { x.1.sess ix with sock := -1 }) (after O x.2.2) := d1.timer ix _ rfl rfl h0.symm (d1.armed ix)
            refine ⟨?_, ?_, d3, d4, d5⟩
            · show Inv (x.1.set ix { x.1.sess ix with sock := -1 }) (after O (x.2.2 ++ [.closed (x.1.sess ix).sock]))
              rw [after_append, h0]
              show Inv _ ((after O x.2.2).filter (· ≠ -1))
              rw [List.filter_eq_self.2]
              · exact hs
              · intro a ha
                have := d1.pos a ha
                simp only [decide_eq_true_eq]
                omega
            · show Fine _ O (x.2.2 ++ [.closed (x.1.sess ix).sock])
              rw [fine_append]
              exact ⟨d2, .inl h0, trivial⟩
          · have hm : (x.1.sess ix).fromMe = true := by
              rcases hk with e | e
              · exact e
              · exact absurd (d1.free ix e).2 h0
            have g := Good.shut d1 ix { x.1.sess ix with sock := -1 } hm rfl h0 (by rw [show ({ x.1.sess ix with sock := -1 } : Sess).inUse = _ from d1.used hm]; exact hm.symm) (d1.armed ix)
            refine ⟨?_, ?_, d3, d4, d5⟩
            · show Inv (x.1.set ix { x.1.sess ix with sock := -1 }) (after O (x.2.2 ++ [.closed (x.1.sess ix).sock]))
              rw [after_append]; exact g.inv
            · show Fine _ O (x.2.2 ++ [.closed (x.1.sess ix).sock])
              rw [fine_append]
              refine ⟨d2, ?_⟩
              have := g.fine
              rw [d3, d4] at this
              exact this
        · exact ⟨d1, d2, d3, d4, d5⟩
      · exact ⟨h, trivial, rfl, rfl, rfl⟩
  | expire j ok armed drops =>
    unfold step
    dsimp only
    split
    · split
      · have g := Good.timer h j { n.sess j with timer := false } rfl rfl rfl nofun
        exact ⟨g.inv, g.fine, g.rpc, g.pnio, g.size⟩
      · split
        · have g := sendTimed_good h j ok armed (.inr (h.armed j ‹_›))
          exact ⟨g.inv, g.fine, g.rpc, g.pnio, g.size⟩
        · have har := h.armed j ‹_›
          rw [if_neg (by rw [har]; decide)]
          have g0 := Good.timer h j { n.sess j with timer := false } rfl rfl rfl nofun
          have g := g0.comp (releases_good g0.inv drops)
          simp only [List.nil_append] at g
          generalize releases (n.set j { n.sess j with timer := false }) drops = x at *
          split
          · rename_i hq
            have hm : (x.1.sess j).fromMe = true := by
              rcases g.keep j hq.1 with e | e
              · exact e
              · have := (g.inv.free j e).2
                have := hq.2
                dsimp only at *
                omega
            have g2 := g.comp (Good.shut g.inv j { x.1.sess j with sock := -1 } hm rfl (by dsimp only at *; omega)
              (by rw [show ({ x.1.sess j with sock := -1 } : Sess).inUse = _ from g.inv.used hm]; exact hm.symm) (g.inv.armed j))
            exact ⟨g2.inv, g2.fine, g2.rpc, g2.pnio, g2.size⟩
          · exact ⟨g.inv, g.fine, g.rpc, g.pnio, g.size⟩
    · exact ⟨h, trivial, rfl, rfl, rfl⟩
  | drop js =>
    have g := releases_good h js
    exact ⟨g.inv, g.fine, g.rpc, g.pnio, g.size⟩

theorem run_good (resends : Nat) (os : List Op) (n : Net) (O : List Int) (h : Inv n O) (hw : World resends n O os) :
    Inv (run resends n os).1 (after O (run resends n os).2) ∧ Fine [n.rpc, n.pnio] O (run resends n os).2 ∧
      (run resends n os).1.rpc = n.rpc ∧ (run resends n os).1.pnio = n.pnio ∧ (run resends n os).1.size = n.size := by
  induction os generalizing n O with
  | nil => exact ⟨h, trivial, rfl, rfl, rfl⟩
  | cons o os ih =>
    obtain ⟨a, b, c, d, e⟩ := step_good h resends o hw.1 hw.2.1 hw.2.2.1
    obtain ⟨a', b', c', d', e'⟩ := ih _ _ a hw.2.2.2
    refine ⟨?_, ?_, c'.trans c, d'.trans d, e'.trans e⟩
    · show Inv _ (after O ((step resends n o).2 ++ _))
      rw [after_append]; exact a'
    · show Fine _ O ((step resends n o).2 ++ _)
      rw [fine_append]
      refine ⟨b, ?_⟩
      rw [c, d] at b'
      exact b'

theorem init_inv {rpc pnio : Int} (h1 : 0 ≤ rpc) (h2 : 0 ≤ pnio) (h3 : rpc ≠ pnio) (size : Nat) : Inv (init rpc pnio size) [rpc, pnio] := by
  refine ⟨h1, h2, h3, by simp [init], by simp [init], by simp [h3], ?_, ?_, fun _ _ => ⟨rfl, rfl⟩, fun _ _ => rfl, nofun, nofun, nofun, nofun⟩
  · intro fd hfd
    simp only [List.mem_cons, List.not_mem_nil, or_false] at hfd
    rcases hfd with e | e <;> omega
  · intro fd hfd
    simp only [List.mem_cons, List.not_mem_nil, or_false] at hfd
    exact hfd.imp id .inl

end Verif.Sock
