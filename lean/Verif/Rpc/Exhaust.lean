import Verif.Rpc.Props

/-!
C101: which datagrams take a session, and for how long.
-/
set_option linter.unusedVariables false
set_option linter.unusedSimpArgs false

namespace Verif.Rpc
open Verif.Wire

/-! ## Specification -/

/-- The number of sessions in use. -/
def used (st : St) : Nat := st.sess.countP fun s => s.inUse

/-- A datagram of a new activity keeps the session that it is given.  `answered` tells whether the handler of the
request wants the session to end. -/
def Keeps (c : Cfg) (h : RpcHeader) (ends : Bool) : Prop :=
  h.lengthOfBody.toNat ≤ c.maxBody ∧
    ((h.fragment = true ∧ h.lastFragment = false) ∨
      (h.packetType = 0 ∧ ¬ (Known h ∧ ends = true)) ∨
      (h.packetType ≠ 0 ∧ h.packetType ≠ 1 ∧ h.packetType ≠ 2 ∧ h.packetType ≠ 3 ∧ h.packetType ≠ 6 ∧ h.packetType ≠ 8))

/-- A message that is neither a request nor an answer. -/
def UnknownType (h : RpcHeader) : Prop :=
  h.fragment = false ∧ h.packetType ≠ 0 ∧ h.packetType ≠ 1 ∧ h.packetType ≠ 2 ∧ h.packetType ≠ 3 ∧ h.packetType ≠ 6 ∧
    h.packetType ≠ 8 ∧ h.packetType ≠ 9

/-- A fragment in the middle of a message. -/
def MiddleFragment (h : RpcHeader) : Prop := h.fragment = true ∧ h.lastFragment = false ∧ h.fragmentNmb ≠ 0

instance (h : RpcHeader) : Decidable (UnknownType h) := inferInstanceAs (Decidable (_ ∧ _))
instance (h : RpcHeader) : Decidable (MiddleFragment h) := inferInstanceAs (Decidable (_ ∧ _))

/-- A datagram that concerns nothing the device knows; `x.2` gives the identifier that the device makes up. -/
def Stray (c : Cfg) (x : List Byte × Reply) : Prop :=
  0 < x.1.length ∧ x.1.length ≤ c.frameSize ∧ (hdrOf x.1).lengthOfBody.toNat ≤ c.maxBody ∧
    (UnknownType (hdrOf x.1) ∨ MiddleFragment (hdrOf x.1))

def act (x : List Byte × Reply) : Uuid := (hdrOf x.1).actUuid

/-- The activity under which the session of a stray datagram can be found. -/
def keptAs (x : List Byte × Reply) : Uuid := if UnknownType (hdrOf x.1) then act x else x.2.gen

/-! ## Lemmas -/

theorem collect_kill {c : Cfg} {h : RpcHeader} {r r' : Rd} {s t : Sess} {e : Bool} (hk : s.kill = false)
    (hcol : collect c h r s = some (t, r', e)) : t.kill = false ∧ t.inUse = s.inUse := by
  unfold collect at hcol
  split at hcol
  · cases hcol; exact ⟨hk, rfl⟩
  · split at hcol
    · cases hcol; exact ⟨rfl, rfl⟩
    · dsimp only at hcol
      have hs1 : (if h.fragmentNmb = 0 then s.start h r.be else s).kill = false ∧
          (if h.fragmentNmb = 0 then s.start h r.be else s).inUse = s.inUse := by
        split
        · exact ⟨rfl, rfl⟩
        · exact ⟨hk, rfl⟩
      generalize (if h.fragmentNmb = 0 then s.start h r.be else s) = s1 at hcol hs1
      split at hcol
      · cases hcol; exact hs1
      · split at hcol
        · cases hcol; exact hs1
        · obtain ⟨d, _, hcol⟩ := Option.bind_eq_some_iff.mp hcol
          obtain ⟨b, _, hcol⟩ := Option.map_eq_some_iff.mp hcol
          cases hcol
          exact hs1

theorem dispatch_kill {c : Cfg} (hc : CfgOk c) {i : Nat} {h : RpcHeader} (hw : HOk h) {r : Rd} (hr : RdOk r) {err : Bool}
    {rep : Reply} {s t : Sess} {e : List Ev} (hs : SOk c s) (hk : s.kill = false)
    (hd : dispatch c i true h r err rep s = some (t, e)) : t.inUse = s.inUse ∧ (t.kill = false ↔ Keeps c h rep.kill) := by
  obtain ⟨t', e', hd', _, hsame, _⟩ := dispatch_ok hc (i := i) (isNew := true) hw hr (err := err) (rep := rep) hs
  rw [hd] at hd'
  cases hd'
  refine ⟨hsame.inUse, ?_⟩
  unfold dispatch at hd
  unfold Keeps
  split at hd
  · rename_i hl
    obtain ⟨_, _, hd⟩ := Option.map_eq_some_iff.mp hd
    cases hd
    simp; omega
  · rename_i hl
    have hl' : h.lengthOfBody.toNat ≤ c.maxBody := by omega
    split at hd
    · rename_i hf
      have hnf : ¬ (h.fragment = true ∧ h.lastFragment = false) := by
        rintro ⟨h1, h2⟩
        rcases hf with h3 | h3
        · rw [h1] at h3; cases h3
        · rw [h2] at h3; cases h3
      split at hd
      · rename_i h1
        obtain ⟨_, _, hd⟩ := Option.map_eq_some_iff.mp hd
        cases hd
        simp only [Bool.true_eq_false, false_iff, not_and]
        intro _ hh
        rcases hh with hh | hh | hh
        · exact hnf hh
        · rw [h1] at hh; exact absurd hh.1 (by decide)
        · exact hh.2.1 h1
      · split at hd
        · rename_i h1 h0
          obtain ⟨t2, e2, hd2, ha⟩ := request_ok hc (i := i) hw hr (err := err) (rep := rep) hs
          rw [hd] at hd2
          cases hd2
          rw [ha.kill]
          by_cases hkn : Known h
          · simp only [if_pos hkn, hkn, true_and, hl', hnf, false_or, h0, ne_eq, not_true, false_and, or_false]
            cases rep.kill <;> simp
          · simp only [if_neg hkn, hkn, false_and, not_false_eq_true, and_true, hl', true_and, hk, h0, true_or, or_true]
            simp
        · split at hd
          · rename_i h1 h0 h9
            obtain ⟨t2, e2, hd2, _, _, _, hk2⟩ := fragAck_ok hc (i := i) hw (be := r.be) hs
            rw [hd] at hd2
            cases hd2
            rw [hk2, hk]
            simp [hl', h9]
          · split at hd
            · rename_i h1 h0 h9 h2
              simp only [if_true] at hd
              cases hd
              simp only [Bool.true_eq_false, false_iff, not_and]
              intro _ hh
              rcases hh with hh | hh | hh
              · exact hnf hh
              · exact h0 hh.1
              · exact hh.2.2.1 h2
            · split at hd
              · rename_i h1 h0 h9 h2 h3
                cases hd
                simp only [Bool.true_eq_false, false_iff, not_and]
                intro _ hh
                rcases hh with hh | hh | hh
                · exact hnf hh
                · exact h0 hh.1
                · rcases h3 with h3 | h3 | h3
                  · exact hh.2.2.2.2.2 h3
                  · exact hh.2.2.2.1 h3
                  · exact hh.2.2.2.2.1 h3
              · rename_i h1 h0 h9 h2 h3
                cases hd
                simp only [hk, true_iff]
                exact ⟨hl', .inr (.inr ⟨h0, h1, h2, fun h => h3 (.inr (.inl h)), fun h => h3 (.inr (.inr h)), fun h => h3 (.inl h)⟩)⟩
    · rename_i hf
      have hyes : h.fragment = true ∧ h.lastFragment = false := by
        constructor
        · cases hx : h.fragment
          · exact absurd (.inl hx) hf
          · rfl
        · cases hx : h.lastFragment
          · rfl
          · exact absurd (.inr hx) hf
      split at hd
      · obtain ⟨_, _, hd⟩ := Option.map_eq_some_iff.mp hd
        cases hd
        simp [hk, hl', hyes]
      · cases hd
        simp [hk, hl', hyes]

theorem countP_set {α} {p : α → Bool} {l : List α} {i : Nat} {x y : α} (h : l[i]? = some y) :
    (l.set i x).countP p + (if p y then 1 else 0) = l.countP p + (if p x then 1 else 0) := by
  induction l generalizing i with
  | nil => simp at h
  | cons a l ih =>
    cases i with
    | zero =>
      simp at h
      subst h
      simp [List.countP_cons]
      omega
    | succ i =>
      simp at h
      have := ih h
      simp [List.countP_cons]
      omega

/-- C101: exactly which datagrams of a new activity keep a session: parts of messages, requests whose handler does not
end the session or for interfaces that the device does not have, and messages of unknown type. -/
theorem C101_kept_iff {c : Cfg} (hc : CfgOk c) {n : Nat} {pre : List Op} {st st' : St} {ev0 ev : List Ev}
    (hr : run c (St.init c n) pre = some (st, ev0)) {d : List Byte} {rep : Reply} (h0 : 0 < d.length) (h1 : d.length ≤ c.frameSize)
    (hnew : locate (hdrOf d).actUuid st.sess = none) (hfree : ∃ s ∈ st.sess, s.inUse = false)
    (hst : step c st (.recv d rep) = some (st', ev)) :
    (Keeps c (hdrOf d) rep.kill → used st' = used st + 1) ∧ (¬ Keeps c (hdrOf d) rep.kill → used st' = used st) := by
  obtain ⟨st2, ev2, h2, hi⟩ := run_ok hc (inv_init c n) pre
  rw [hr] at h2
  cases h2
  obtain ⟨_, hw, hrec⟩ := recv_cases hc hi h0 h1 hst
  cases hrec with
  | lost hf _ _ =>
    exfalso
    unfold findSess at hf
    rw [hnew] at hf
    simp only [Option.map_eq_none_iff] at hf
    obtain ⟨s, hs, hu⟩ := hfree
    unfold freeIx at hf
    rw [List.findIdx?_eq_none_iff] at hf
    have := hf s hs
    rw [hu] at this
    cases this
  | handled i isNew s t t2 r r' er hf hrr hpar hcol hrd hok hdis hset =>
    obtain ⟨hlt, _, hin, hcase⟩ := findSess_ok hi.sess hf
    rcases hcase with ⟨_, _, _, hl⟩ | ⟨rfl, hs, _, s0, hg, hs0⟩
    · rw [hnew] at hl; cases hl
    have hk : s.kill = false := by rw [hs]; rfl
    obtain ⟨hk2, hu2⟩ := collect_kill hk hcol
    have hsok : SOk c { t with timer := false } := ⟨hok.2.inBuf, hok.2.inLen, ⟨hok.2.out.len, hok.2.out.outLen, hok.2.out.phase⟩⟩
    obtain ⟨hu3, hiff⟩ := dispatch_kill hc hw hrd hsok hk2 hdis
    have hcount := countP_set (p := fun s : Sess => s.inUse) (x := finish c t2) hg
    simp only [hs0, Bool.false_eq_true, if_false, Nat.add_zero] at hcount
    unfold used
    rw [hset, hcount]
    constructor
    · intro hkeep
      rw [if_pos]
      unfold finish
      rw [hiff.mpr hkeep, if_neg (by simp), hu3]
      dsimp only
      rw [hu2, hin]
    · intro hnk
      rw [if_neg, Nat.add_zero]
      unfold finish
      have : t2.kill = true := by
        cases hx : t2.kill
        · exact absurd (hiff.mp hx) hnk
        · rfl
      rw [this, if_pos rfl]
      simp [Sess.zero]

/-- The table while it fills up. -/
def Filled (c : Cfg) (us : List Uuid) (m : Nat) (l : List Sess) : Prop :=
  ∃ a, l = a ++ List.replicate m (Sess.zero c) ∧ a.map Sess.uuid = us ∧ ∀ s ∈ a, s.inUse = true ∧ s.timer = false

theorem Filled.locate {c : Cfg} {us : List Uuid} {m : Nat} {l : List Sess} (h : Filled c us m l) {u : Uuid} (hu : u ∉ us) :
    locate u l = none := by
  obtain ⟨a, rfl, ha, hs⟩ := h
  unfold Rpc.locate
  rw [List.findIdx?_eq_none_iff]
  intro s hm
  rcases List.mem_append.mp hm with hm | hm
  · have : s.uuid ≠ u := by
      intro he
      apply hu
      rw [← ha, ← he]
      exact List.mem_map_of_mem hm
    simp [this]
  · rw [(List.mem_replicate.mp hm).2]
    simp [Sess.zero]

theorem Filled.freeIx {c : Cfg} {us : List Uuid} {m : Nat} {l : List Sess} (h : Filled c us (m + 1) l) :
    freeIx l = some us.length := by
  obtain ⟨a, rfl, ha, hs⟩ := h
  have hl : us.length = a.length := by rw [← ha]; simp
  unfold Rpc.freeIx
  rw [List.findIdx?_append]
  have : a.findIdx? (fun s => !s.inUse) = none := by
    rw [List.findIdx?_eq_none_iff]
    intro s hm
    simp [(hs s hm).1]
  rw [this, List.replicate_succ]
  simp [List.findIdx?_cons, Sess.zero, hl]

theorem Filled.add {c : Cfg} {us : List Uuid} {m : Nat} {l : List Sess} (h : Filled c us (m + 1) l) {s : Sess} (hi : s.inUse = true)
    (ht : s.timer = false) : Filled c (us ++ [s.uuid]) m (l.set us.length s) := by
  obtain ⟨a, rfl, ha, hs⟩ := h
  have hl : us.length = a.length := by rw [← ha]; simp
  refine ⟨a ++ [s], ?_, by simp [ha], ?_⟩
  · rw [hl, List.set_append_right _ _ (Nat.le_refl _), List.replicate_succ]
    simp
  · intro x hx
    rcases List.mem_append.mp hx with hx | hx
    · exact hs x hx
    · cases List.mem_singleton.mp hx
      exact ⟨hi, ht⟩

/-- What a stray datagram does with a new session. -/
theorem stray_step {c : Cfg} (hc : CfgOk c) {st st' : St} (hi : Inv c st) {us : List Uuid} {m : Nat} (hf : Filled c us (m + 1) st.sess)
    {x : List Byte × Reply} (hx : Stray c x) (hu : act x ∉ us) {ev : List Ev} (hst : step c st (.recv x.1 x.2) = some (st', ev)) :
    Filled c (us ++ [keptAs x]) m st'.sess := by
  obtain ⟨d, rep⟩ := x
  obtain ⟨h0, h1, hl, hk⟩ := hx
  dsimp only at *
  have hfs : findSess c (hdrOf d).actUuid rep.gen st.sess =
      some (us.length, true, { Sess.zero c with inUse := true, uuid := rep.gen }) := by
    unfold findSess
    rw [show (hdrOf d).actUuid = act (d, rep) from rfl, hf.locate hu, hf.freeIx]
    rfl
  obtain ⟨_, hw, hrec⟩ := recv_cases hc hi h0 h1 hst
  cases hrec with
  | lost hf' _ _ => rw [hfs] at hf'; cases hf'
  | handled i isNew s t t2 r r' er hf' hrr hpar hcol hrd hok hdis hset =>
    rw [hfs] at hf'
    cases hf'
    rw [hset]
    rcases hk with hk | hk
    · have hka : keptAs (d, rep) = (hdrOf d).actUuid := by unfold keptAs; rw [if_pos hk]; rfl
      obtain ⟨k1, k2, k3, k4, k5, k6, k7, k8⟩ := hk
      unfold collect at hcol
      rw [if_neg (by omega), if_pos k1] at hcol
      cases hcol
      unfold dispatch at hdis
      rw [if_neg (by omega), if_pos (.inl k1), if_neg k3, if_neg k2, if_neg k8, if_neg k4, if_neg (by
        rintro (h | h | h)
        · exact k7 h
        · exact k5 h
        · exact k6 h)] at hdis
      cases hdis
      rw [hka]
      exact hf.add (s := finish c _) rfl rfl
    · have hka : keptAs (d, rep) = rep.gen := by
        unfold keptAs
        rw [if_neg]
        rintro ⟨h, _⟩
        rw [hk.1] at h
        cases h
      obtain ⟨k1, k2, k3⟩ := hk
      have hnz : (hdrOf d).fragmentNmb.toNat ≠ 0 := by
        intro h
        exact k3 (BitVec.eq_of_toNat_eq (by rw [h]; rfl))
      unfold collect at hcol
      rw [if_neg (by omega), if_neg (by rw [k1]; simp)] at hcol
      dsimp only at hcol
      rw [if_neg k3, if_pos (by simp only [Sess.zero]; exact fun h => hnz h.symm)] at hcol
      cases hcol
      unfold dispatch at hdis
      rw [if_neg (by omega), if_neg (by rw [k1, k2]; simp)] at hdis
      rw [hka]
      split at hdis
      · obtain ⟨_, _, hdis⟩ := Option.map_eq_some_iff.mp hdis
        cases hdis
        exact hf.add (s := finish c _) rfl rfl
      · cases hdis
        exact hf.add (s := finish c _) rfl rfl

theorem stray_run {c : Cfg} (hc : CfgOk c) (xs : List (List Byte × Reply)) : ∀ {st : St} {us : List Uuid} {m : Nat}, Inv c st →
    Filled c us (xs.length + m) st.sess → (∀ x ∈ xs, Stray c x) → (∀ x ∈ xs, act x ∉ us) → xs.Pairwise (fun a b => act b ≠ keptAs a) →
    ∃ st' ev, run c st (xs.map fun x => .recv x.1 x.2) = some (st', ev) ∧ Inv c st' ∧ Filled c (us ++ xs.map keptAs) m st'.sess := by
  induction xs with
  | nil =>
    intro st us m hi hf _ _ _
    exact ⟨st, [], rfl, hi, by simpa using hf⟩
  | cons x xs ih =>
    intro st us m hi hf hs hu hp
    obtain ⟨st1, ev1, e1, hi1, _⟩ := step_ok hc hi (.recv x.1 x.2)
    rw [List.length_cons, show xs.length + 1 + m = (xs.length + m) + 1 by omega] at hf
    have hf1 := stray_step hc hi hf (hs x (List.mem_cons_self ..)) (hu x (List.mem_cons_self ..)) e1
    obtain ⟨h1, h2⟩ := List.pairwise_cons.mp hp
    obtain ⟨st2, ev2, e2, hi2, hf2⟩ := ih hi1 hf1 (fun y hy => hs y (List.mem_cons_of_mem _ hy)) (by
      intro y hy hm
      rcases List.mem_append.mp hm with hm | hm
      · exact hu y (List.mem_cons_of_mem _ hy) hm
      · exact h1 y hy (List.mem_singleton.mp hm)) h2
    refine ⟨st2, ev1 ++ ev2, by simp [run, e1, e2], hi2, ?_⟩
    rw [List.map_cons]
    simpa using hf2

/-- C101 fails: as many stray datagrams as there are sessions, and from then on the device handles no datagram of
another activity, whatever happens: no request, no answer, for ever. -/
theorem C101_exhaustion_false {c : Cfg} (hc : CfgOk c) {n : Nat} {xs : List (List Byte × Reply)} (hn : xs.length = n)
    (hs : ∀ x ∈ xs, Stray c x) (hd : xs.Pairwise (fun a b => act b ≠ keptAs a)) :
    ∃ st ev, run c (St.init c n) (xs.map fun x => .recv x.1 x.2) = some (st, ev) ∧
      ∀ ops, (∀ d rep, Op.recv d rep ∈ ops → ∀ x ∈ xs, (hdrOf d).actUuid ≠ keptAs x) → ∃ st', run c st ops = some (st', []) := by
  obtain ⟨st, ev, h, hi, hf⟩ := stray_run hc xs (st := St.init c n) (us := []) (m := 0) (inv_init c n)
    ⟨[], by simp [St.init, hn], rfl, by simp⟩ hs (by simp) hd
  refine ⟨st, ev, h, ?_⟩
  simp only [List.nil_append] at hf
  clear h
  intro ops
  induction ops generalizing st with
  | nil => intro _; exact ⟨st, rfl⟩
  | cons o os ih =>
    intro hops
    obtain ⟨st1, ev1, e1, hi1, _⟩ := step_ok hc hi o
    have key : st1.sess = st.sess ∧ ev1 = [] := by
      cases o with
      | recv d rep =>
        by_cases hlen : d.length = 0 ∨ d.length > c.frameSize
        · unfold step at e1
          dsimp only at e1
          rw [if_pos hlen] at e1
          cases e1
          exact ⟨rfl, rfl⟩
        · obtain ⟨_, hw, hrec⟩ := recv_cases hc hi (by omega) (by omega) e1
          cases hrec with
          | lost _ h1 h2 => exact ⟨h1, h2⟩
          | handled i isNew s t t2 r r' er hf' =>
            exfalso
            unfold findSess at hf'
            rw [hf.locate (by
              intro hm
              obtain ⟨x, hx, he⟩ := List.mem_map.mp hm
              exact hops d rep (List.mem_cons_self ..) x hx he.symm)] at hf'
            obtain ⟨a, ha, _, hu⟩ := hf
            have : freeIx st.sess = none := by
              unfold freeIx
              rw [List.findIdx?_eq_none_iff, ha]
              intro s hm
              simp at hm
              simp [(hu s hm).1]
            rw [this] at hf'
            cases hf'
      | expire i =>
        unfold step at e1
        dsimp only at e1
        cases hg : st.sess[i]? with
        | none => rw [hg] at e1; cases e1; exact ⟨rfl, rfl⟩
        | some s =>
          rw [hg] at e1
          obtain ⟨a, ha, _, hu⟩ := hf
          have hm : s ∈ a := by
            have := List.mem_of_getElem? hg
            rw [ha] at this
            simpa using this
          dsimp only at e1
          rw [if_neg (by rw [(hu s hm).2]; simp)] at e1
          cases e1
          exact ⟨rfl, rfl⟩
    obtain ⟨st2, e2⟩ := ih st1 hi1 (by rw [key.1]; exact hf) (fun d rep h => hops d rep (List.mem_cons_of_mem _ h))
    exact ⟨st2, by simp [run, e1, e2, key.2]⟩

/-! The hypotheses can be met: the same fragment, twice, with two sessions. -/

def genT (k : Nat) : Uuid := ⟨BitVec.ofNat 32 k, 9, 9, List.replicate 8 0⟩
def strayT : List (List Byte × Reply) :=
  [(encRpcHeader (hdrT 0 true false 1 5 0), ⟨[], false, genT 1⟩), (encRpcHeader (hdrT 0 true false 1 5 0), ⟨[], false, genT 2⟩)]

theorem strayT_stray : (∀ x ∈ strayT, Stray cfgT x) ∧ strayT.Pairwise (fun a b => act b ≠ keptAs a) := by
  have h : hdrOf (encRpcHeader (hdrT 0 true false 1 5 0)) = hdrT 0 true false 1 5 0 := by
    have := hdrOf_enc (hdrT_wf 0 (by decide) true false 1 5 0) []
    rwa [List.append_nil] at this
  have hl := encRpcHeader_length (hdrT_wf 0 (by decide) true false 1 5 0)
  have hs : ∀ g, Stray cfgT (encRpcHeader (hdrT 0 true false 1 5 0), g) := by
    intro g
    refine ⟨by rw [hl]; decide, by rw [hl]; decide, ?_, .inr ?_⟩
    · rw [h]; decide
    · rw [h]; decide
  constructor
  · intro x hx
    simp only [strayT, List.mem_cons, List.not_mem_nil, or_false] at hx
    rcases hx with rfl | rfl <;> exact hs _
  · simp only [strayT, List.pairwise_cons, List.mem_cons, List.not_mem_nil, or_false, forall_eq, List.Pairwise.nil, and_true,
      false_imp_iff, implies_true]
    unfold keptAs act
    rw [h]
    decide

/-- Then an ordinary request is not answered. -/
theorem strayT_silent : (run cfgT (St.init cfgT 2) ((strayT.map fun x => Op.recv x.1 x.2) ++ [dgT 0 false false 0 6 [1]])).map
    (fun x => reqs uuidT x.2) = some [] := by decide +kernel

end Verif.Rpc
