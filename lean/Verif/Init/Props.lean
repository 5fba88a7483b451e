import Verif.Init.Model
/-!
C150: which configurations are accepted, which interfaces are opened. C151: after a failed start.
-/
set_option linter.unusedSimpArgs false
namespace Verif.Init

/-! ## Specification -/

/-- A configuration as described in pnet_api.h: a tick, an interface, 1 to `maxPorts` ports, a smallest
interval of 1 to 4096 units of 31.25 us, and no other I&M records than 1 to 4. -/
structure Valid (maxPorts : Nat) (c : Cfg) : Prop where
  tick : 1 ≤ c.tickUs
  netif : ∃ b s, c.netif = some (b :: s)
  ports : 1 ≤ c.ports ∧ c.ports ≤ maxPorts
  interval : 1 ≤ c.minInterval ∧ c.minInterval ≤ 4096
  im : ∀ k : Nat, c.imSupported.getLsbD k = true → 1 ≤ k ∧ k ≤ 4

/-- Interfaces to be opened: one interface for all frames, or the main interface for PROFINET and each
port for LLDP. -/
def wanted (ports : Nat) : List Ev :=
  if ports = 1 then [.opened 0 .all]
  else .opened 0 .profinet :: (List.range' 1 ports).map (fun k => .opened k .lldp)

/-- The interfaces the platform has to start: the main one, and the ports if there are several. -/
def Works (e : Env) (ports k : Nat) : Prop :=
  (k = 0 ∨ (1 < ports ∧ 1 ≤ k ∧ k ≤ ports)) → e.eth k = true ∧ e.mac k = true

/-! ## Proof -/

theorem mask_iff (x : BitVec 16) : ¬ (x &&& imMask > 0) ↔ ∀ k : Nat, x.getLsbD k = true → 1 ≤ k ∧ k ≤ 4 := by
  have hm : ∀ k : Nat, imMask.getLsbD k = (decide (k < 16) && !decide (1 ≤ k ∧ k ≤ 4)) := by
    intro k
    by_cases hk : k < 16
    · have : ∀ j : Fin 16, imMask.getLsbD j = (decide (j.1 < 16) && !decide (1 ≤ j.1 ∧ j.1 ≤ 4)) := by decide
      exact this ⟨k, hk⟩
    · simp [hk, BitVec.getLsbD_of_ge imMask k (by omega)]
  have h0 : ¬ (x &&& imMask > 0) ↔ x &&& imMask = 0 := by
    constructor
    · intro h
      apply BitVec.eq_of_toNat_eq
      have : ¬ (0 < (x &&& imMask).toNat) := by
        intro h'
        exact h (by simpa [BitVec.lt_def] using h')
      simpa using this
    · intro h; rw [h]; decide
  rw [h0]
  constructor
  · intro h k hk
    have := congrArg (fun v => v.getLsbD k) h
    simp only [BitVec.getLsbD_and, hm, hk] at this
    have hlt : k < 16 := by
      by_cases hk' : k < 16
      · exact hk'
      · rw [BitVec.getLsbD_of_ge x k (by omega)] at hk; cases hk
    simpa [hlt] using this
  · intro h
    apply BitVec.eq_of_getLsbD_eq
    intro k hk
    simp only [BitVec.getLsbD_and, hm]
    cases hx : x.getLsbD k
    · simp
    · simp [h k hx, hk]

/-- **C150** the check of the configuration. -/
theorem C150_valid_iff (maxPorts : Nat) (c : Cfg) (hn : c.netif ≠ none) :
    (validate maxPorts (some c) = some true ↔ Valid maxPorts c) ∧
    (validate maxPorts (some c) = some false ↔ ¬ Valid maxPorts c) := by
  have key : ∀ b, validate maxPorts (some c) = some b → (b = true ↔ Valid maxPorts c) := by
    intro b
    obtain ⟨tick, netif, ports, iv, im⟩ := c
    cases netif with
    | none => exact absurd rfl hn
    | some name =>
      simp only [validate]
      cases name with
      | nil =>
        intro h
        have : b = false := by
          by_cases ht : tick = 0 <;> simp [ht] at h <;> exact h
        subst this
        simp
        rintro ⟨-, ⟨_, _, h⟩, -⟩
        cases h
      | cons x s =>
        have hm := mask_iff im
        by_cases ht : tick = 0
        · simp only [ht, if_true]
          rintro h; cases h
          simp
          rintro ⟨h, -⟩; exact absurd h (by simp)
        by_cases hp : ports = 0 ∨ ports > maxPorts
        · simp only [ht, if_false, hp, if_true, List.length_cons, Nat.add_eq_zero_iff, Nat.succ_ne_zero, and_false]
          rintro h; cases h
          simp
          rintro ⟨-, -, h, -⟩
          simp only at h; omega
        by_cases hi : iv = 0
        · simp only [ht, if_false, hp, hi, if_true, List.length_cons, Nat.add_eq_zero_iff, Nat.succ_ne_zero, and_false]
          rintro h; cases h
          simp
          rintro ⟨-, -, -, h, -⟩
          simp only at h; omega
        by_cases hi' : iv > 0x1000
        · simp only [ht, if_false, hp, hi, hi', if_true, List.length_cons, Nat.add_eq_zero_iff, Nat.succ_ne_zero, and_false]
          rintro h; cases h
          simp
          rintro ⟨-, -, -, h, -⟩
          simp only at h; omega
        by_cases him : im &&& imMask > 0
        · simp only [ht, if_false, hp, hi, hi', him, if_true, List.length_cons, Nat.add_eq_zero_iff, Nat.succ_ne_zero, and_false]
          rintro h; cases h
          simp
          rintro ⟨-, -, -, -, h⟩
          exact (hm.2 h) him
        · simp only [ht, if_false, hp, hi, hi', him, List.length_cons, Nat.add_eq_zero_iff, Nat.succ_ne_zero, and_false]
          rintro h; cases h
          simp only [true_iff]
          exact ⟨by show 1 ≤ tick; omega, ⟨x, s, rfl⟩, by show 1 ≤ ports ∧ ports ≤ maxPorts; omega,
            by show 1 ≤ iv ∧ iv ≤ 4096; omega, hm.1 him⟩
  have hsome : ∃ b, validate maxPorts (some c) = some b := by
    cases h : c.netif with
    | none => exact absurd h hn
    | some name =>
      simp only [validate, h]
      split
      · exact ⟨_, rfl⟩
      · split
        · exact ⟨_, rfl⟩
        · split
          · exact ⟨_, rfl⟩
          · split
            · exact ⟨_, rfl⟩
            · split
              · exact ⟨_, rfl⟩
              · split <;> exact ⟨_, rfl⟩
  obtain ⟨b, hb⟩ := hsome
  have hk := key b hb
  rw [hb]
  cases b <;> simp at hk ⊢ <;> exact hk

theorem initPorts_ok (e : Env) (ports : Nat) : ∀ (ks : List Nat) (tr : List Ev),
    ((initPorts e ports ks tr).2 = true ↔ (1 < ports → ∀ k ∈ ks, e.eth k = true ∧ e.mac k = true)) ∧
    ((initPorts e ports ks tr).2 = true →
      (initPorts e ports ks tr).1 = tr ++ if 1 < ports then ks.map (fun k => .opened k .lldp) else [])
  | [], tr => by simp [initPorts]
  | k :: ks, tr => by
    by_cases hp : ports > 1
    · have hp' : 1 < ports := hp
      simp only [initPorts, hp, if_true, hp', initNetif]
      cases he : e.eth k <;> cases hm : e.mac k <;> simp [he, hm]
      obtain ⟨h1, h2⟩ := initPorts_ok e ports ks (tr ++ [.opened k .lldp])
      refine ⟨?_, ?_⟩
      · rw [h1]; simp [hp']
      · intro h
        rw [h2 h]; simp [hp']
    · have hp' : ¬ 1 < ports := hp
      simp only [initPorts, hp, if_false, hp']
      obtain ⟨h1, h2⟩ := initPorts_ok e ports ks tr
      simp only [hp', if_false, false_implies, iff_true] at h1 h2 ⊢
      exact ⟨h1, h2⟩

theorem ethInit_ok (e : Env) (ports : Nat) (tr : List Ev) (h1 : 1 ≤ ports) :
    ((ethInit e ports tr).2 = true ↔ ∀ k, Works e ports k) ∧
    ((ethInit e ports tr).2 = true → (ethInit e ports tr).1 = tr ++ wanted ports) := by
  have hr : ∀ k, k ∈ List.range' 1 ports ↔ 1 ≤ k ∧ k ≤ ports := by
    intro k; rw [List.mem_range'_1]; omega
  simp only [ethInit, initNetif]
  cases he : e.eth 0
  · simp
    exact ⟨0, fun h => by have := (h (Or.inl rfl)).1; rw [he] at this; cases this⟩
  · cases hm : e.mac 0
    · simp
      exact ⟨0, fun h => by have := (h (Or.inl rfl)).2; rw [hm] at this; cases this⟩
    · simp only [if_true]
      obtain ⟨q1, q2⟩ := initPorts_ok e ports (List.range' 1 ports)
        (tr ++ [.opened 0 (if ports = 1 then Rx.all else Rx.profinet)])
      refine ⟨?_, ?_⟩
      · rw [q1]
        constructor
        · rintro h k (rfl | ⟨a, b, c⟩)
          · exact ⟨he, hm⟩
          · exact h a k ((hr k).2 ⟨b, c⟩)
        · intro h a k hk
          exact h k (Or.inr ⟨a, (hr k).1 hk⟩)
      · intro h
        rw [q2 h]
        unfold wanted
        by_cases hp : ports = 1
        · simp [hp]
        · have : 1 < ports := by omega
          simp [hp, this]

/-- **C150** A stack is returned exactly for a valid configuration with which the platform can allocate
the memory and start all interfaces (and SNMP); then each interface is opened once, with its filter. -/
theorem C150_init (maxPorts : Nat) (c : Cfg) (e : Env) (hn : c.netif ≠ none) :
    ∃ tr ok, pnetInit maxPorts (some c) e = some (tr, ok) ∧
      (ok = true ↔ e.malloc = true ∧ Valid maxPorts c ∧ (∀ k, Works e c.ports k) ∧ e.snmp = true) ∧
      (ok = true → tr = .alloc :: wanted c.ports) ∧
      (ok = false → e.malloc = true → tr.getLast? = some .free) := by
  obtain ⟨v1, v2⟩ := C150_valid_iff maxPorts c hn
  unfold pnetInit
  cases hma : e.malloc
  · exact ⟨[], false, by simp, by simp, by simp, by simp⟩
  · simp only [if_true, initOnly]
    by_cases hv : Valid maxPorts c
    · rw [v1.2 hv]
      dsimp only
      obtain ⟨w1, w2⟩ := ethInit_ok e c.ports [.alloc] hv.ports.1
      cases hw : (ethInit e c.ports [.alloc]).2
      · rw [hw] at w1
        have : ¬ ∀ k, Works e c.ports k := fun h => by have := w1.2 h; cases this
        refine ⟨_, _, rfl, ?_, ?_, ?_⟩
        · simp [this]
        · simp
        · simp
      · rw [hw] at w1
        have hW := w1.1 rfl
        cases hs : e.snmp
        · exact ⟨_, _, rfl, by simp, by simp, by simp⟩
        · exact ⟨_, _, rfl, by simp [hv, hW], by simp [w2 hw], by simp⟩
    · rw [v2.2 hv]
      exact ⟨_, _, rfl, by simp [hv], by simp, by simp⟩

/-- **C150** No configuration, or an invalid one: nothing is opened. -/
theorem C150_refused (maxPorts : Nat) (cfg : Option Cfg) (e : Env) (hma : e.malloc = true)
    (h : ∀ c, cfg = some c → c.netif ≠ none ∧ ¬ Valid maxPorts c) :
    pnetInit maxPorts cfg e = some ([.alloc, .free], false) := by
  unfold pnetInit
  simp only [hma, if_true, initOnly]
  cases cfg with
  | none => rfl
  | some c =>
    obtain ⟨h1, h2⟩ := h c rfl
    rw [(C150_valid_iff maxPorts c h1).2.2 h2]
    rfl

/-- The precondition on the interface name is needed: NULL is not noticed. -/
theorem C150_fails_null_name (maxPorts : Nat) (c : Cfg) (e : Env) (hma : e.malloc = true)
    (ht : c.tickUs ≠ 0) (hn : c.netif = none) : pnetInit maxPorts (some c) e = none := by
  simp [pnetInit, hma, initOnly, validate, ht, hn]

/-- Interfaces opened and not closed when the memory of the stack is returned. -/
def dangling (tr : List Ev) : List Nat := tr.filterMap fun
  | .opened k _ => some k
  | _ => none

/-- **C151** (partial) If the configuration is refused or the main interface cannot be opened, nothing of
the platform refers to the returned memory. Missing: the failures after the main interface is open, for
which it is false (`C151_fails`). -/
theorem C151_partial (maxPorts : Nat) (c : Cfg) (e : Env) (hn : c.netif ≠ none)
    (h : ¬ Valid maxPorts c ∨ e.eth 0 = false) :
    ∃ tr, pnetInit maxPorts (some c) e = some (tr, false) ∧ dangling tr = [] := by
  by_cases hma : e.malloc = true
  · by_cases hv : Valid maxPorts c
    · have he : e.eth 0 = false := h.resolve_left (fun x => x hv)
      refine ⟨[.alloc, .free], ?_, rfl⟩
      simp [pnetInit, hma, initOnly, (C150_valid_iff maxPorts c hn).1.2 hv, ethInit, initNetif, he]
    · refine ⟨_, C150_refused maxPorts (some c) e hma ?_, rfl⟩
      rintro c' h'; cases h'
      exact ⟨hn, hv⟩
  · refine ⟨[], ?_, rfl⟩
    simp [pnetInit, hma]

/-- **C151 is false**: for every valid configuration, if the main interface can be opened and anything
later fails, the memory is returned while the platform still has it as argument of pf_eth_recv for the
main interface. -/
theorem C151_fails (maxPorts : Nat) (c : Cfg) (e : Env) (hma : e.malloc = true) (hv : Valid maxPorts c)
    (h0 : e.eth 0 = true) (hl : ¬ ((∀ k, Works e c.ports k) ∧ e.snmp = true)) :
    ∃ tr, pnetInit maxPorts (some c) e = some (tr, false) ∧ tr.getLast? = some .free ∧ 0 ∈ dangling tr := by
  obtain ⟨b, s, hbs⟩ := hv.netif
  have hn : c.netif ≠ none := by rw [hbs]; simp
  obtain ⟨tr, ok, h1, h2, -, h4⟩ := C150_init maxPorts c e hn
  have hok : ok = false := by
    cases ok
    · rfl
    · exact absurd ⟨(h2.1 rfl).2.2.1, (h2.1 rfl).2.2.2⟩ hl
  subst hok
  refine ⟨tr, h1, h4 rfl hma, ?_⟩
  have mono : ∀ (ks : List Nat) (t : List Ev), 0 ∈ dangling t → 0 ∈ dangling (initPorts e c.ports ks t).1 := by
    intro ks
    induction ks with
    | nil => intro t ht; exact ht
    | cons k ks ih =>
      intro t ht
      have happ : 0 ∈ dangling (t ++ [.opened k .lldp]) := by
        unfold dangling at ht ⊢
        rw [List.filterMap_append]; exact List.mem_append_left _ ht
      simp only [initPorts, initNetif]
      cases e.eth k <;> cases e.mac k <;> by_cases hp : c.ports > 1 <;> simp [hp] <;>
        first | exact ht | exact ih _ ht | exact happ | exact ih _ happ
  have hr : 0 ∈ dangling (ethInit e c.ports [.alloc]).1 := by
    simp only [ethInit, initNetif, h0, if_true]
    have h00 : 0 ∈ dangling ([Ev.alloc] ++ [.opened 0 (if c.ports = 1 then Rx.all else Rx.profinet)]) := by
      simp [dangling]
    cases e.mac 0
    · simpa using h00
    · simp only [if_true]
      exact mono _ _ h00
  have hrf : 0 ∈ dangling ((ethInit e c.ports [.alloc]).1 ++ [.free]) := by
    unfold dangling at hr ⊢
    rw [List.filterMap_append]; exact List.mem_append_left _ hr
  simp only [pnetInit, hma, if_true, initOnly, (C150_valid_iff maxPorts c hn).1.2 hv] at h1
  cases hw : (ethInit e c.ports [.alloc]).2 <;> cases hs : e.snmp <;> simp [hw, hs] at h1 <;>
    (rw [← h1]; exact hrf)

/-- A configuration with two ports. -/
def cfg2 : Cfg := ⟨1000, some [101, 116, 104, 48], 2, 32, 0x001E⟩

theorem C150_example : Valid 4 cfg2 ∧ ¬ Valid 1 cfg2 ∧
    pnetInit 4 (some cfg2) ⟨true, fun _ => true, fun _ => true, true⟩ =
      some ([.alloc, .opened 0 .profinet, .opened 1 .lldp, .opened 2 .lldp], true) := by
  have hn : cfg2.netif ≠ none := by decide
  exact ⟨(C150_valid_iff 4 cfg2 hn).1.1 (by decide), (C150_valid_iff 1 cfg2 hn).2.1 (by decide), by decide⟩

/-- The interface of port 2 is missing: a stack in returned memory still receives frames of two interfaces. -/
theorem C151_example :
    pnetInit 4 (some cfg2) ⟨true, fun k => k != 2, fun _ => true, true⟩ =
      some ([.alloc, .opened 0 .profinet, .opened 1 .lldp, .free], false) := by decide

end Verif.Init
