import Verif.Rpc.Step
/-! Reassembly of fragmented requests (C28). -/
set_option linter.unusedSimpArgs false
set_option linter.unusedVariables false

namespace Verif.Rpc
open Verif.Wire

/-! ## Specification -/

/-- The body of a datagram: as many bytes behind the header as the header says. -/
def bodyOf (d : List Byte) : List Byte := (d.drop 80).take (hdrOf d).lengthOfBody.toNat

/-- The datagram is as long as its header says. -/
def Honest (d : List Byte) : Prop := 80 + (hdrOf d).lengthOfBody.toNat ≤ d.length

instance (d : List Byte) : Decidable (Honest d) := inferInstanceAs (Decidable (_ ≤ _))

/-- The datagrams that arrive. -/
def received (ops : List Op) : List (List Byte) := ops.filterMap fun
  | .recv d _ => some d
  | .expire _ => none

/-- `ds` are fragments of activity `u`, numbered 0, 1, 2, ... -/
def Series (u : Uuid) (ds : List (List Byte)) : Prop :=
  ∀ k x, ds[k]? = some x → (hdrOf x).fragment = true ∧ (hdrOf x).actUuid = u ∧ (hdrOf x).fragmentNmb.toNat = k

/-! ## One datagram -/

theorem writeAt_take {b d b1 : List Byte} {n : Nat} (h : writeAt b n d = some b1) : b1.take (n + d.length) = b.take n ++ d := by
  unfold writeAt at h
  split at h
  · cases h
    rw [List.take_append_of_le_length (by simp; omega), List.take_of_length_le (by simp; omega)]
  · cases h

theorem body_slice {f d : List Byte} (hd : Honest d) : slice (newFrame f d) 80 (hdrOf d).lengthOfBody.toNat = some (bodyOf d) := by
  unfold Honest at hd
  rw [slice_eq_some (by simp [newFrame]; omega)]
  unfold newFrame bodyOf
  rw [List.drop_append_of_le_length (by omega), List.take_append_of_le_length (by simp; omega)]

theorem bodyOf_length {d : List Byte} (hd : Honest d) : (bodyOf d).length = (hdrOf d).lengthOfBody.toNat := by
  unfold Honest at hd
  simp [bodyOf]; omega

/-- The session after its start, if the fragment has number 0. -/
def begun (h : RpcHeader) (be : Bool) (s : Sess) : Sess := if h.fragmentNmb = 0 then s.start h be else s

/-- The session after an accepted fragment. -/
def grown (s : Sess) (b : List Byte) (n : Nat) : Sess :=
  { s with inBuf := b, inLen := s.inLen + n, inFrag := (s.inFrag + 1) % 65536 }

/-- What `collect` does with a fragment. -/
theorem collect_frag {c : Cfg} {h : RpcHeader} {r : Rd} {s t : Sess} {r' : Rd} {er : Bool} (hl : h.lengthOfBody.toNat ≤ c.maxBody)
    (hf : h.fragment = true) (hc : collect c h r s = some (t, r', er)) :
    (er = true ∧ r' = r ∧ t = begun h r.be s ∧
      (t.inFrag ≠ h.fragmentNmb.toNat ∨ t.inLen + h.lengthOfBody.toNat > c.cap)) ∨
    (∃ d b, (begun h r.be s).inFrag = h.fragmentNmb.toNat ∧ (begun h r.be s).inLen + h.lengthOfBody.toNat ≤ c.cap ∧
      slice r.buf r.pos h.lengthOfBody.toNat = some d ∧
      writeAt (begun h r.be s).inBuf (begun h r.be s).inLen d = some b ∧
      t = grown (begun h r.be s) b h.lengthOfBody.toNat ∧
      r' = (if h.lastFragment then ⟨b, false, (begun h r.be s).inLen + h.lengthOfBody.toNat, r.be, r.err, 0⟩ else r) ∧
      er = (h.fragmentNmb != 0 && (begun h r.be s).be != h.isBe)) := by
  unfold collect at hc
  rw [if_neg (by omega), if_neg (by simp [hf])] at hc
  rw [show (if h.fragmentNmb = 0 then s.start h r.be else s) = begun h r.be s from rfl] at hc
  dsimp only at hc
  split at hc
  · rename_i h1
    cases hc
    exact Or.inl ⟨rfl, rfl, rfl, Or.inl h1⟩
  · rename_i h1
    split at hc
    · rename_i h2
      cases hc
      exact Or.inl ⟨rfl, rfl, rfl, Or.inr h2⟩
    · rename_i h2
      obtain ⟨d, hd, hc⟩ := Option.bind_eq_some_iff.mp hc
      obtain ⟨b, hb, hc⟩ := Option.map_eq_some_iff.mp hc
      cases hc
      exact Or.inr ⟨d, b, by simpa using h1, by omega, hd, hb, rfl, rfl, rfl⟩

theorem slice_length' {α} {l d : List α} {p n : Nat} (h : slice l p n = some d) : d.length = n := slice_length h

/-- The bytes and the number of the fragments collected so far. -/
def Coll (rcvd : List (List Byte)) (s : Sess) : Prop :=
  ∃ ds, ds.Sublist rcvd ∧ Series s.uuid ds ∧ (ds.length = s.inFrag ∨ (ds.length = 65536 ∧ s.inFrag = 0)) ∧
    (ds.map bodyOf).flatten = s.inBuf.take s.inLen

theorem series_nil (u : Uuid) : Series u [] := by intro k x h; simp at h

theorem coll_zero (rcvd : List (List Byte)) {s : Sess} (h1 : s.inFrag = 0) (h2 : s.inLen = 0) : Coll rcvd s :=
  ⟨[], List.nil_sublist _, series_nil _, Or.inl (by simp [h1]), by simp [h2]⟩

theorem coll_mono {a b : List (List Byte)} {s t : Sess} (h : Coll a s) (hab : a.Sublist b) (hu : t.uuid = s.uuid)
    (hb : t.inBuf = s.inBuf) (hl : t.inLen = s.inLen) (hf : t.inFrag = s.inFrag) : Coll b t := by
  obtain ⟨ds, h1, h2, h3, h4⟩ := h
  exact ⟨ds, h1.trans hab, by rw [hu]; exact h2, by rw [hf]; exact h3, by rw [hb, hl]; exact h4⟩

theorem collect_coll {c : Cfg} {rcvd : List (List Byte)} {f d : List Byte} {r : Rd} {s t : Sess} {r' : Rd} {er : Bool}
    (hb : r.buf = newFrame f d) (hp : 80 ≤ d.length → r.pos = 80) (hh : Honest d) (hcoll : Coll rcvd s)
    (hu : s.uuid = (hdrOf d).actUuid ∨ s.inFrag = 0)
    (hc : collect c (hdrOf d) r s = some (t, r', er)) :
    Coll (rcvd ++ [d]) t ∧
    (er = false → (hdrOf d).fragment = true → (hdrOf d).lastFragment = true → (hdrOf d).lengthOfBody.toNat ≤ c.maxBody →
      ∃ ds, ds.Sublist rcvd ∧ Series (hdrOf d).actUuid (ds ++ [d]) ∧ Rd.rest r' = ((ds ++ [d]).map bodyOf).flatten ∧
        (Rd.rest r').length ≤ c.cap) := by
  have hsub : rcvd.Sublist (rcvd ++ [d]) := List.sublist_append_left _ _
  by_cases hl : (hdrOf d).lengthOfBody.toNat ≤ c.maxBody
  · by_cases hf : (hdrOf d).fragment = true
    · have hbeg : Coll rcvd (begun (hdrOf d) r.be s) := by
        unfold begun
        split
        · exact coll_zero _ rfl rfl
        · exact hcoll
      rcases collect_frag hl hf hc with ⟨h1, h2, h3, _⟩ | ⟨x, b, h1, h2, h3, h4, h5, h6, h7⟩
      · subst h1 h3
        exact ⟨coll_mono hbeg hsub rfl rfl rfl rfl, fun h => by cases h⟩
      · have hh' := hh
        unfold Honest at hh'
        rw [hb, hp (by omega), body_slice hh] at h3
        cases h3
        have hbl := bodyOf_length hh
        have htk := writeAt_take h4
        -- the fragments before this one
        have hds : ∃ ds, ds.Sublist rcvd ∧ Series (hdrOf d).actUuid ds ∧ ds.length = (hdrOf d).fragmentNmb.toNat ∧
            (ds.map bodyOf).flatten = (begun (hdrOf d) r.be s).inBuf.take (begun (hdrOf d) r.be s).inLen := by
          by_cases hz : (hdrOf d).fragmentNmb = 0
          · refine ⟨[], List.nil_sublist _, series_nil _, by simp [hz], ?_⟩
            simp [begun, hz, Sess.start]
          · have hbs : begun (hdrOf d) r.be s = s := by unfold begun; exact if_neg hz
            rw [hbs] at h1 hbeg ⊢
            obtain ⟨ds, g1, g2, g3, g4⟩ := hcoll
            have hne : (hdrOf d).fragmentNmb.toNat ≠ 0 := by
              intro h; exact hz (BitVec.eq_of_toNat_eq (by simpa using h))
            have hsu : s.uuid = (hdrOf d).actUuid := by
              rcases hu with hu | hu
              · exact hu
              · omega
            rw [hsu] at g2
            refine ⟨ds, g1, g2, ?_, g4⟩
            rcases g3 with g3 | g3
            · omega
            · omega
        obtain ⟨ds, g1, g2, g3, g4⟩ := hds
        have hser : Series (hdrOf d).actUuid (ds ++ [d]) := by
          intro k x hk
          by_cases hk1 : k < ds.length
          · rw [List.getElem?_append_left hk1] at hk
            exact g2 k x hk
          · rw [List.getElem?_append_right (by omega)] at hk
            have hk0 : k - ds.length = 0 := by
              rcases Nat.eq_zero_or_pos (k - ds.length) with h | h
              · exact h
              · rw [List.getElem?_eq_none (by simp; omega)] at hk; cases hk
            rw [hk0] at hk
            cases hk
            exact ⟨hf, rfl, by omega⟩
        have hfl : ((ds ++ [d]).map bodyOf).flatten = b.take ((begun (hdrOf d) r.be s).inLen + (hdrOf d).lengthOfBody.toNat) := by
          rw [← hbl, htk]
          simp [g4]
        have hbu : (begun (hdrOf d) r.be s).uuid = (hdrOf d).actUuid := by
          unfold begun
          split
          · rfl
          · rename_i hz
            rcases hu with hu | hu
            · exact hu
            · have hbs : begun (hdrOf d) r.be s = s := by unfold begun; exact if_neg hz
              rw [hbs, hu] at h1
              exact absurd (BitVec.eq_of_toNat_eq (by simpa using h1.symm)) hz
        have hlt := (hdrOf d).fragmentNmb.isLt
        refine ⟨⟨ds ++ [d], g1.append (List.Sublist.refl _), ?_, ?_, ?_⟩, ?_⟩
        · subst h5
          simp only [grown]
          rw [hbu]; exact hser
        · subst h5
          simp only [grown, List.length_append, List.length_singleton]
          omega
        · subst h5
          simp only [grown]
          exact hfl
        · intro _ _ hlast _
          refine ⟨ds, g1, hser, ?_, ?_⟩
          · rw [hfl, h6, if_pos hlast]
            simp [Rd.rest]
          · rw [h6, if_pos hlast]
            simp [Rd.rest]
            omega
    · refine ⟨?_, fun _ h => absurd h hf⟩
      unfold collect at hc
      rw [if_neg (by omega), if_pos (by simpa using hf)] at hc
      cases hc
      exact coll_zero _ rfl rfl
  · refine ⟨?_, fun _ _ _ h => absurd h hl⟩
    unfold collect at hc
    rw [if_pos (by omega)] at hc
    cases hc
    exact coll_mono hcoll hsub rfl rfl rfl rfl

/-- Only a request datagram that is complete or the last fragment is handed over. -/
theorem dispatch_request {c : Cfg} (hc : CfgOk c) {i : Nat} {isNew : Bool} {h : RpcHeader} (hw : HOk h) {r : Rd} (hr : RdOk r)
    {err : Bool} {rep : Reply} {s t : Sess} (hs : SOk c s) {ev : List Ev} (hd : dispatch c i isNew h r err rep s = some (t, ev))
    {j : Nat} {h' : RpcHeader} {er : Bool} {msg : List Byte} (hm : Ev.request j h' er msg ∈ ev) :
    j = i ∧ h' = h ∧ er = err ∧ msg = Rd.rest r ∧ h.lengthOfBody.toNat ≤ c.maxBody ∧
      (h.fragment = false ∨ h.lastFragment = true) ∧ h.packetType = 0 ∧ Known h := by
  have nosent : ∀ (k : Nat) (b : Bool) (d : List Byte), Ev.request j h' er msg ∉ sentEv k b d := by
    intro k b d hx
    unfold sentEv at hx
    split at hx
    · cases hx
    · cases List.mem_singleton.mp hx
  unfold dispatch at hd
  split at hd
  · obtain ⟨d, ed⟩ := shortAnswer_ok hc i { resHeader h 6 true true s.be 0 with lengthOfBody := 4 } (wsafe_putU32 s.be 0x1C01000B)
    rw [ed] at hd
    cases hd
    exact absurd hm (nosent _ _ _)
  · rename_i hl
    split at hd
    · rename_i hfl
      split at hd
      · obtain ⟨d, ed⟩ := shortAnswer_ok hc i (resHeader h 5 true true s.be 0) wsafe_id
        rw [ed] at hd
        cases hd
        exact absurd hm (nosent _ _ _)
      · split at hd
        · rename_i hpt
          obtain ⟨t1, e1, e, ha⟩ := request_ok hc (i := i) hw hr (err := err) (rep := rep) hs
          rw [e] at hd
          cases hd
          rw [ha.evs] at hm
          rcases List.mem_append.mp hm with hm | hm
          · split at hm
            · rename_i hk
              cases List.mem_singleton.mp hm
              exact ⟨rfl, rfl, rfl, rfl, by omega, hfl, hpt, hk⟩
            · cases hm
          · exact absurd hm (nosent _ _ _)
        · split at hd
          · by_cases hq : s.ackPos < s.outLen
            · obtain ⟨_, n, last, _, _, e⟩ := fragAck_more hc (i := i) hw (be := r.be) hs.out hq
              rw [e] at hd
              cases hd
              first
                | exact absurd hm (nosent _ _ _)
                | cases List.mem_singleton.mp hm
            · rw [fragAck_done hc hs.out (by omega)] at hd
              cases hd
              cases hm
          · split at hd
            · split at hd
              · cases hd; cases hm
              · cases hd; cases List.mem_singleton.mp hm
            · split at hd
              · cases hd; cases List.mem_singleton.mp hm
              · cases hd; cases hm
    · split at hd
      · obtain ⟨d, ed⟩ := shortAnswer_ok hc i { resHeader h 9 false false s.be h.fragmentNmb with lengthOfBody := 0 } wsafe_id
        rw [ed] at hd
        cases hd
        exact absurd hm (nosent _ _ _)
      · cases hd; cases hm

/-! ## Executions -/

def AllColl (rcvd : List (List Byte)) (st : St) : Prop := ∀ s ∈ st.sess, Coll rcvd s

theorem received_cons_recv (d : List Byte) (rep : Reply) (ops : List Op) : received (.recv d rep :: ops) = d :: received ops := rfl

theorem received_append (a b : List Op) : received (a ++ b) = received a ++ received b := by simp [received]

/-- One event keeps `AllColl`; and a fragmented request that is handed over without an error mark is
complete. -/
theorem step_coll {c : Cfg} (hc : CfgOk c) {st st' : St} (hi : Inv c st) {rcvd : List (List Byte)} (ha : AllColl rcvd st)
    {o : Op} (hon : ∀ x ∈ received [o], Honest x) {ev : List Ev} (h : step c st o = some (st', ev)) :
    AllColl (rcvd ++ received [o]) st' ∧
    ∀ i h msg, Ev.request i h false msg ∈ ev → h.fragment = true →
      ∃ d ds, received [o] = [d] ∧ h = hdrOf d ∧ ds.Sublist rcvd ∧ Series h.actUuid (ds ++ [d]) ∧
        msg = ((ds ++ [d]).map bodyOf).flatten ∧ msg.length ≤ c.cap ∧ h.lastFragment = true := by
  cases o with
  | expire j =>
    have hid : AllColl (rcvd ++ received [Op.expire j]) st := by
      simpa [received] using ha
    unfold step at h
    dsimp only at h
    split at h
    · rename_i s1 hg
      split at h
      · obtain ⟨t, e, h1, h2, h3, h4, h5, h6⟩ := sendTimed_ok (i := j) (again := true) (hi.sess s1 (List.mem_of_getElem? hg))
        rw [h1] at h
        cases h
        refine ⟨?_, ?_⟩
        · intro s hs
          rcases List.mem_or_eq_of_mem_set hs with hs | hs
          · exact hid s hs
          · subst hs
            exact coll_mono (hid s1 (List.mem_of_getElem? hg)) (List.Sublist.refl _) h3.uuid h3.inBuf h3.inLen h3.inFrag
        · intro i h' msg hm
          exfalso
          unfold sendTimed at h1
          split at h1
          · obtain ⟨y, hy, ey⟩ := Option.map_eq_some_iff.mp h1
            cases ey
            unfold sendOnce at hy
            obtain ⟨z, hz, ez⟩ := Option.map_eq_some_iff.mp hy
            subst ez
            dsimp only at hm
            unfold sentEv at hm
            split at hm
            · cases hm
            · cases List.mem_singleton.mp hm
          · cases h1
            cases List.mem_singleton.mp hm
      · cases h
        exact ⟨hid, fun _ _ _ hm => by cases hm⟩
    · cases h
      exact ⟨hid, fun _ _ _ hm => by cases hm⟩
  | recv d rep =>
    have hsub : rcvd.Sublist (rcvd ++ received [Op.recv d rep]) := List.sublist_append_left _ _
    have hid : AllColl (rcvd ++ received [Op.recv d rep]) st :=
      fun s hs => coll_mono (ha s hs) hsub rfl rfl rfl rfl
    by_cases h0 : d.length = 0 ∨ d.length > c.frameSize
    · unfold step at h
      dsimp only at h
      rw [if_pos h0] at h
      cases h
      exact ⟨hid, fun _ _ _ hm => by cases hm⟩
    · obtain ⟨_, hw, hrec⟩ := recv_cases hc hi (by omega) (by omega) h
      cases hrec with
      | lost hf hss he =>
        subst he
        exact ⟨by unfold AllColl; rw [hss]; exact hid, fun _ _ _ hm => by cases hm⟩
      | handled j isNew s1 t t2 r r' er hf hr hpar hcol hrd hok hdis hst =>
        obtain ⟨hlt, _, hin, hcase⟩ := findSess_ok hi.sess hf
        have hhon : Honest d := hon d (by simp [received])
        have hs1 : Coll rcvd s1 ∧ (s1.uuid = (hdrOf d).actUuid ∨ s1.inFrag = 0) := by
          rcases hcase with ⟨_, hgj, hux, _⟩ | ⟨_, hz, _⟩
          · exact ⟨ha s1 (List.mem_of_getElem? hgj), Or.inl hux⟩
          · subst hz
            exact ⟨coll_zero _ rfl rfl, Or.inr rfl⟩
        obtain ⟨hct, hreq⟩ := collect_coll hr.1 hr.2.2.2.2 hhon hs1.1 hs1.2 hcol
        have hsok : SOk c { t with timer := false } := ⟨hok.2.inBuf, hok.2.inLen, ⟨hok.2.out.len, hok.2.out.outLen, hok.2.out.phase⟩⟩
        obtain ⟨tt2, ee2, e2, _, hsi, hown⟩ := dispatch_ok hc (i := j) (isNew := isNew) hw hrd (err := er) (rep := rep) hsok
        rw [hdis] at e2
        cases e2
        refine ⟨?_, ?_⟩
        · intro s hs
          rw [hst] at hs
          rcases List.mem_or_eq_of_mem_set hs with hs | hs
          · exact hid s hs
          · subst hs
            unfold finish
            split
            · exact coll_zero _ rfl rfl
            · exact coll_mono hct (List.Sublist.refl _) hsi.uuid hsi.inBuf hsi.inLen hsi.inFrag
        · intro i h' msg hm hfr
          obtain ⟨_, e1, e2, e3, e4, e5, _, _⟩ := dispatch_request hc hw hrd hsok hdis hm
          subst e1
          rcases e5 with e5 | e5
          · rw [e5] at hfr; cases hfr
          · obtain ⟨ds, g1, g2, g3, g4⟩ := hreq e2.symm hfr e5 e4
            exact ⟨d, ds, rfl, rfl, g1, g2, e3.trans g3, by rw [e3]; exact g4, e5⟩

theorem run_coll {c : Cfg} (hc : CfgOk c) {st : St} (hi : Inv c st) {rcvd : List (List Byte)} (ha : AllColl rcvd st)
    {ops : List Op} (hon : ∀ x ∈ received ops, Honest x) {st' : St} {ev : List Ev} (h : run c st ops = some (st', ev)) :
    AllColl (rcvd ++ received ops) st' ∧ Inv c st' := by
  induction ops generalizing st rcvd ev with
  | nil => cases h; exact ⟨by simpa [received] using ha, hi⟩
  | cons o os ih =>
    unfold run at h
    obtain ⟨x, hx, h⟩ := Option.bind_eq_some_iff.mp h
    obtain ⟨y, hy, h⟩ := Option.map_eq_some_iff.mp h
    cases h
    have hsplit : received (o :: os) = received [o] ++ received os := received_append [o] os
    obtain ⟨st1, e1, e2, hi1, _⟩ := step_ok hc hi o
    rw [hx] at e2
    cases e2
    have h1 := (step_coll hc hi ha (o := o) (fun z hz => hon z (by rw [hsplit]; exact List.mem_append_left _ hz)) hx).1
    obtain ⟨g1, g2⟩ := ih hi1 h1 (fun z hz => hon z (by rw [hsplit]; exact List.mem_append_right _ hz)) hy
    exact ⟨by rw [hsplit, ← List.append_assoc]; exact g1, g2⟩

end Verif.Rpc
