import Verif.Lldp.Tlv
/-! From the fields to the frame. -/
set_option linter.unusedSimpArgs false
set_option linter.unusedVariables false

namespace Verif.Lldp

open Verif.Wire

theorem says_other {z t : Nat} {v : List Byte} {w : View} (h1 : t ≠ 1) (h2 : t ≠ 2) (h3 : t ≠ 3) (h4 : t ≠ 4) (h8 : t ≠ 8)
    (h127 : t ≠ 127) : says z (t, v) w = some w := by
  unfold says
  split
  all_goals first | rfl | (exfalso; simp_all; done)

theorem field {z t : Nat} {v : List Byte} {p : Peer} (hz : 1 ≤ z) (hr : Regular (t, v)) (hw : Wf z p) (ht : Tidy z p)
    (h1 : t = 1 → v.length ≤ chassisSize ∨ p.chassis.valid = false)
    (h2 : t = 2 → v.length ≤ portIdSize ∨ p.port.valid = false) :
    (∃ q, Takes (getField z t v.length p) v q ∧ says z (t, v) (view p) = some (view q) ∧ Wf z q ∧ Tidy z q ∧ Same t p q) ∨
    (Errs (getField z t v.length p) v ∧ says z (t, v) (view p) = none) := by
  obtain ⟨r0, r1, r2, r3, r4⟩ := hr
  have r2 : v.length < 512 := r2
  unfold getField
  by_cases e1 : t = 1
  · subst e1
    left
    rw [if_pos rfl]
    have hv := newId_view (v := v) hw.chassis (by omega) (h1 rfl)
    refine ⟨{ p with chassis := newId chassisSize v p.chassis }, Takes.bind_nil (takes_getId hw.chassis (by omega) r2)
      (Takes.pure _), ?_, ?_, ?_, ?_⟩
    · show some _ = some _
      congr 1
      show ite _ _ _ = View.mk (viewId (newId chassisSize v p.chassis)) _ _ _ _ _ _ _ _
      rw [hv]
      split <;> rfl
    · exact ⟨newId_str hw.chassis (by omega), hw.port, hw.desc, hw.mgmt, hw.status, hw.mac⟩
    · exact ⟨newId_tidy hw.chassis (by omega) (h1 rfl) ht.chassis, ht.port, ht.desc, ht.mgmt⟩
    · exact ⟨fun h => absurd rfl h, fun _ => rfl⟩
  rw [if_neg e1]
  by_cases e2 : t = 2
  · subst e2
    left
    rw [if_pos rfl]
    have hv := newId_view (v := v) hw.port (by omega) (h2 rfl)
    refine ⟨{ p with port := newId portIdSize v p.port }, Takes.bind_nil (takes_getId hw.port (by omega) r2)
      (Takes.pure _), ?_, ?_, ?_, ?_⟩
    · show some _ = some _
      congr 1
      show ite _ _ _ = View.mk _ (viewId (newId portIdSize v p.port)) _ _ _ _ _ _ _
      rw [hv]
      split <;> rfl
    · exact ⟨hw.chassis, newId_str hw.port (by omega), hw.desc, hw.mgmt, hw.status, hw.mac⟩
    · exact ⟨ht.chassis, newId_tidy hw.port (by omega) (h2 rfl) ht.port, ht.desc, ht.mgmt⟩
    · exact ⟨fun _ => rfl, fun h => absurd rfl h⟩
  rw [if_neg e2]
  by_cases e3 : t = 3
  · subst e3
    rw [if_pos rfl]
    by_cases hl : v.length = 2
    · left
      refine ⟨{ p with ttl := BitVec.ofNat 16 (num v) }, Takes.bind_nil (a := BitVec.ofNat 16 (num v)) ?_ (Takes.pure _), ?_, ?_, ?_, ?_⟩
      · unfold getTtl
        rw [if_neg (by omega)]
        exact takes_u16 hl
      · show (if v.length = 2 then _ else _) = _
        rw [if_pos hl]
        congr 1
        show _ = View.mk _ _ (BitVec.ofNat 16 (num v)).toNat _ _ _ _ _ _
        rw [num_toNat2 hl]
        rfl
      · exact ⟨hw.chassis, hw.port, hw.desc, hw.mgmt, hw.status, hw.mac⟩
      · exact ⟨ht.chassis, ht.port, ht.desc, ht.mgmt⟩
      · exact ⟨fun _ => rfl, fun _ => rfl⟩
    · right
      refine ⟨Errs.map ?_, if_neg hl⟩
      unfold getTtl
      rw [if_pos (by omega)]
      exact errs_set
  rw [if_neg e3]
  by_cases e4 : t = 4
  · subst e4
    left
    rw [if_pos rfl]
    by_cases hl : v.length > z - 1
    · refine ⟨p, ?_, ?_, hw, ht, ⟨fun _ => rfl, fun _ => rfl⟩⟩
      · refine Takes.bind_nil (a := p.desc) ?_ (Takes.pure _)
        unfold getDesc
        rw [if_pos hl]
        exact Takes.bind_nil (takes_skip v 0 (by omega)) (Takes.pure _)
      · show some (if v.length < z then _ else _) = _
        rw [if_neg (by omega)]
    · refine ⟨{ p with desc := ⟨v ++ 0 :: p.desc.str.drop (v.length + 1), true, v.length⟩ }, ?_, ?_, ?_, ?_, ?_⟩
      · refine Takes.bind_nil (a := ⟨v ++ 0 :: p.desc.str.drop (v.length + 1), true, v.length⟩) ?_ (Takes.pure _)
        unfold getDesc
        rw [if_neg hl]
        refine Takes.bind_nil (Takes.of (parses_getMem true v)) ?_
        exact Takes.bind_nil (takes_fill (by rw [hw.desc]; omega)) (Takes.pure _)
      · show some (if v.length < z then _ else _) = _
        rw [if_pos (by omega)]
        congr 1
        show View.mk _ _ _ (some v) _ _ _ _ _ = View.mk _ _ _ (some ((v ++ _).take v.length)) _ _ _ _ _
        rw [List.take_append_of_le_length (by omega), List.take_of_length_le (by omega)]
        rfl
      · refine ⟨hw.chassis, hw.port, ?_, hw.mgmt, hw.status, hw.mac⟩
        have := hw.desc
        simp; omega
      · refine ⟨ht.chassis, ht.port, ?_, ht.mgmt⟩
        intro _
        refine ⟨by show v.length < z; omega, ?_⟩
        show (v ++ 0 :: p.desc.str.drop (v.length + 1))[v.length]? = some 0
        rw [List.getElem?_append_right (by omega)]; simp
      · exact ⟨fun _ => rfl, fun _ => rfl⟩
  rw [if_neg e4]
  by_cases e8 : t = 8
  · subst e8
    left
    rw [if_pos rfl]
    obtain ⟨m, m1, m2, m3, m4⟩ := takes_getMgmt (r3 rfl) r2
    by_cases h : m.isV4 = true
    · obtain ⟨k1, k2, k3, k4, k5⟩ := m4 h
      refine ⟨{ p with mgmt := m }, ?_, ?_, ?_, ?_, ?_⟩
      · refine Takes.bind_nil m1 ?_
        rw [if_pos h]
        exact Takes.pure _
      · show some (ite _ _ _) = _
        rw [if_pos (m3.1 h)]
        congr 1
        show _ = View.mk _ _ _ _ (if m.valid then some (m.value.take m.len, m.ifSubtype, m.ifNumber.toNat) else none) _ _ _ _
        rw [if_pos k1, k2, k3, k4, k5]
        rfl
      · exact ⟨hw.chassis, hw.port, hw.desc, m2, hw.status, hw.mac⟩
      · exact ⟨ht.chassis, ht.port, ht.desc, fun _ => k2⟩
      · exact ⟨fun _ => rfl, fun _ => rfl⟩
    · refine ⟨p, ?_, ?_, hw, ht, ⟨fun _ => rfl, fun _ => rfl⟩⟩
      · refine Takes.bind_nil m1 ?_
        rw [if_neg h]
        exact Takes.pure _
      · show some (ite _ _ _) = _
        rw [if_neg (fun k => h (m3.2 k))]
  rw [if_neg e8]
  by_cases e127 : t = 127
  · subst e127
    rw [if_pos rfl]
    exact org_field (r4 rfl) r2 hw ht
  rw [if_neg e127]
  left
  refine ⟨p, ?_, says_other e1 e2 e3 e4 e8 e127, hw, ht, ⟨fun _ => rfl, fun _ => rfl⟩⟩
  exact Takes.bind_nil (takes_skip v 0 (by omega)) (Takes.pure _)

/-! ## The loop -/

/-- From the head of a field on. -/
def loop (z fuel : Nat) (p : Peer) : P Peer := getTlv >>= fun tn => fields z fuel tn p

theorem takes_getTlv {t n : Nat} (ht : t < 128) (hn : n < 512) :
    Takes getTlv (enc16 true (BitVec.ofNat 16 (t * 512 + n))) (t, n) := by
  unfold getTlv
  refine Takes.bind_nil (Takes.of (parses_getU16 true _)) ?_
  refine Takes.nil_bind (Takes.of (parses_isOk true)) ?_
  rw [if_pos rfl]
  have e : (BitVec.ofNat 16 (t * 512 + n)).toNat = t * 512 + n := by rw [BitVec.toNat_ofNat]; omega
  have e1 : (t * 512 + n) / 512 = t := by omega
  have e2 : (t * 512 + n) % 512 = n := by omega
  rw [e, e1, e2]
  exact Takes.pure _

theorem getTlv_err {r : Rd} (h : r.err ≠ .ok) : getTlv r = some ((0, 0), r) := by
  have e : isOk r = some (false, r) := by
    unfold isOk
    cases hr : r.err <;> simp_all
  simp [getTlv, getU16, e]

theorem loop_step {z k t n : Nat} {p q : Peer} {r r1 r2 : Rd} (h0 : t ≠ 0) (e1 : getTlv r = some ((t, n), r1))
    (e2 : getField z t n p r1 = some (q, r2)) : loop z (k + 1) p r = loop z k q r2 := by
  unfold loop
  simp only [P.bind_def, e1, Option.bind_some]
  rw [fields, if_neg h0]
  simp only [P.bind_def, e2, Option.bind_some]

theorem loop_end {z k n : Nat} {p : Peer} {r r1 : Rd} (e1 : getTlv r = some ((0, n), r1)) :
    loop z (k + 1) p r = some (p, r1) := by
  unfold loop
  simp only [P.bind_def, e1, Option.bind_some]
  rw [fields, if_pos rfl]
  rfl

/-- No name is too long while there is one. -/
def nameOk (t size : Nat) (l : List Tlv) (valid : Bool) : Prop :=
  (valid = false ∧ (l.filter fun x => x.1 = t).length ≤ 1) ∨ ∀ x ∈ l, x.1 = t → x.2.length ≤ size

theorem nameOk_head {t size : Nat} {x : Tlv} {l : List Tlv} {valid : Bool} (h : nameOk t size (x :: l) valid) (e : x.1 = t) :
    x.2.length ≤ size ∨ valid = false := by
  rcases h with h | h
  · exact .inr h.1
  · exact .inl (h x (by simp) e)

theorem nameOk_tail_same {t size : Nat} {x : Tlv} {l : List Tlv} {v v' : Bool} (h : nameOk t size (x :: l) v) (e : x.1 = t) :
    nameOk t size l v' := by
  rcases h with h | h
  · right
    intro y hy ey
    have h2 := h.2
    rw [List.filter_cons_of_pos (by simpa using e)] at h2
    have : (l.filter fun x => x.1 = t) = [] := List.length_eq_zero_iff.1 (by simpa using h2)
    have := List.filter_eq_nil_iff.1 this y hy
    simp [ey] at this
  · exact .inr fun y hy => h y (by simp [hy])

theorem nameOk_tail_other {t size : Nat} {x : Tlv} {l : List Tlv} {v : Bool} (h : nameOk t size (x :: l) v) (e : x.1 ≠ t) :
    nameOk t size l v := by
  rcases h with h | h
  · left
    refine ⟨h.1, ?_⟩
    have h2 := h.2
    rwa [List.filter_cons_of_neg (by simpa using e)] at h2
  · exact .inr fun y hy => h y (by simp [hy])

/-- The fields are read one after the other; what follows is seen with what they say. -/
theorem loop_fields {z : Nat} (hz : 1 ≤ z) : ∀ (l : List Tlv) (k : Nat) (p : Peer) (r : Rd) (tail : List Byte),
    (∀ x ∈ l, Regular x) → nameOk 1 chassisSize l p.chassis.valid → nameOk 2 portIdSize l p.port.valid →
    At r (encAll l ++ tail) → Wf z p → Tidy z p →
    (∃ q r', loop z (k + 1 + l.length) p r = loop z (k + 1) q r' ∧ saysAll z l (view p) = some (view q) ∧ Wf z q ∧ Tidy z q ∧
      At r' tail ∧ r'.len = r.len ∧ r'.pos = r.pos + (encAll l).length ∧ r'.buf = r.buf) ∨
    (∃ q r', loop z (k + 1 + l.length) p r = some (q, r') ∧ r'.err ≠ .ok ∧ saysAll z l (view p) = none) := by
  intro l
  induction l with
  | nil =>
    intro k p r tail _ _ _ h hw ht
    exact .inl ⟨p, r, rfl, rfl, hw, ht, h, rfl, rfl, rfl⟩
  | cons x l ih =>
    intro k p r tail hreg n1 n2 h hw ht
    obtain ⟨t, v⟩ := x
    have hx := hreg (t, v) (by simp)
    obtain ⟨x0, x1, x2, _⟩ := hx
    have x0 : 0 < t := x0
    have e : encAll ((t, v) :: l) ++ tail =
        enc16 true (BitVec.ofNat 16 (t * 512 + v.length)) ++ (v ++ (encAll l ++ tail)) := by
      simp [encAll, encTlv]
    rw [e] at h
    obtain ⟨a1, a2⟩ := h.split
    obtain ⟨a3, a4⟩ := a2.split
    have g1 := takes_getTlv x1 x2 r a1
    rcases field (p := p) hz (hreg (t, v) (by simp)) hw ht (fun h => nameOk_head n1 h) (fun h => nameOk_head n2 h) with f | f
    · obtain ⟨q, f1, f2, f3, f4, f5⟩ := f
      have g2 := f1 _ a3
      have m1 : nameOk 1 chassisSize l q.chassis.valid := by
        by_cases h : t = 1
        · exact nameOk_tail_same n1 h
        · rw [f5.chassis h]; exact nameOk_tail_other n1 h
      have m2 : nameOk 2 portIdSize l q.port.valid := by
        by_cases h : t = 2
        · exact nameOk_tail_same n2 h
        · rw [f5.port h]; exact nameOk_tail_other n2 h
      have st := loop_step (z := z) (k := k + 1 + l.length) (by omega) g1 g2
      have sl : k + 1 + ((t, v) :: l).length = k + 1 + l.length + 1 := by simp; omega
      rw [sl, st]
      have sa : saysAll z ((t, v) :: l) (view p) = saysAll z l (view q) := by
        simp only [saysAll, f2, Option.bind_some]
      rw [sa]
      rcases ih k q _ tail (fun y hy => hreg y (by simp [hy])) m1 m2 a4 f3 f4 with w | w
      · obtain ⟨q', r', w1, w2, w3, w4, w5, w6, w7, w8⟩ := w
        refine .inl ⟨q', r', w1, w2, w3, w4, w5, w6, ?_, w8⟩
        rw [w7]
        simp [encAll, encTlv]; omega
      · exact .inr w
    · obtain ⟨f1, f2⟩ := f
      obtain ⟨q, r', g2, ge⟩ := f1 _ a3
      right
      have sl : k + 1 + ((t, v) :: l).length = k + l.length + 1 + 1 := by simp; omega
      refine ⟨q, r', ?_, ge, by simp only [saysAll, f2, Option.bind_none]⟩
      rw [sl, loop_step (by omega) g1 g2, loop_end (getTlv_err ge)]

theorem tidy_empty (z : Nat) : Tidy z (Peer.empty z) :=
  ⟨(nomatch ·), (nomatch ·), (nomatch ·), (nomatch ·)⟩

theorem view_empty (z : Nat) : view (Peer.empty z) = View.empty := rfl

theorem encAll_length (l : List Tlv) : l.length * 2 ≤ (encAll l).length := by
  induction l with
  | nil => simp
  | cons x l ih =>
    have : encAll (x :: l) = encTlv x ++ encAll l := rfl
    rw [this, List.length_append]
    have : (encTlv x).length = 2 + x.2.length := by simp [encTlv, enc16_length]
    simp; omega

theorem parseP_loop (z : Nat) : parseP z = loop z manyFields (Peer.empty z) := rfl

theorem slice_all (b : List Byte) : slice b 0 b.length = some b := by
  unfold slice
  rw [if_pos (by omega), List.drop_zero, List.take_length]

/-- A whole frame. -/
theorem parse_framed {z : Nat} (hz : 1 ≤ z) {l : List Tlv} {buf : List Byte} (hl : buf.length ≤ 64000) (hf : Framed l buf)
    (hreg : ∀ x ∈ l, Regular x) (h1 : oneName 1 chassisSize l) (h2 : oneName 2 portIdSize l) :
    (∃ q, parse z buf = some (some q) ∧ saysAll z l View.empty = some (view q) ∧ Wf z q ∧ Tidy z q) ∨
    (parse z buf = some none ∧ saysAll z l View.empty = none) := by
  obtain ⟨n, rest, hn, e⟩ := hf
  have hc := encAll_length l
  have hlen : (encAll l ++ (endMark n ++ rest)).length = buf.length := by rw [e]
  have hll : l.length ≤ 32000 := by simp at hlen; omega
  have hat : At (atStart buf) (encAll l ++ (endMark n ++ rest)) := by
    refine ⟨rfl, rfl, rfl, hl, by rw [hlen]; simp [atStart], ?_⟩
    rw [hlen, e]
    exact slice_all _
  have nm : ∀ t size, oneName t size l → nameOk t size l false := fun t size h => h.imp (fun k => ⟨rfl, k⟩) id
  obtain ⟨k, hk⟩ : ∃ k, manyFields = k + 1 + l.length := ⟨65536 - l.length, by omega⟩
  rcases loop_fields hz l k (Peer.empty z) _ _ hreg (nm _ _ h1) (nm _ _ h2) hat (wf_empty z) (tidy_empty z) with w | w
  · obtain ⟨q, r', w1, w2, w3, w4, w5, w6, w7, w8⟩ := w
    left
    refine ⟨q, ?_, w2, w3, w4⟩
    have g := takes_getTlv (t := 0) (n := n) (by omega) hn
    have e0 : enc16 true (BitVec.ofNat 16 (0 * 512 + n)) = endMark n := by simp [endMark]
    rw [e0] at g
    have := loop_end (z := z) (k := k) (p := q) (g _ w5.split.1)
    rw [← w1, ← hk] at this
    unfold parse
    rw [parseP_loop, this]
    show some (if r'.err = .ok then some q else none) = _
    rw [if_pos w5.ok]
  · obtain ⟨q, r', w1, w2, w3⟩ := w
    right
    refine ⟨?_, w3⟩
    unfold parse
    rw [parseP_loop, hk, w1]
    show some (if r'.err = .ok then some q else none) = _
    rw [if_neg w2]

/-- A frame that ends too early. -/
theorem parse_cut {z : Nat} (hz : 1 ≤ z) {l : List Tlv} {buf : List Byte} {t : Nat} (hl : buf.length ≤ 64000)
    (hf : CutOff l buf t) (ht : t ≠ 8) (hreg : ∀ x ∈ l, Regular x) (h1 : oneName 1 chassisSize l)
    (h2 : oneName 2 portIdSize l) : parse z buf = some none := by
  have hc := encAll_length l
  obtain ⟨tail, e⟩ : ∃ tail, buf = encAll l ++ tail := by
    rcases hf with ⟨b, _, e, _⟩ | ⟨n, v, _, _, _, _, e⟩
    · exact ⟨_, e⟩
    · exact ⟨_, e⟩
  have hlen : (encAll l ++ tail).length = buf.length := by rw [e]
  have hll : l.length ≤ 32000 := by simp at hlen; omega
  have hat : At (atStart buf) (encAll l ++ tail) := by
    refine ⟨rfl, rfl, rfl, hl, by rw [hlen]; simp [atStart], ?_⟩
    rw [hlen, e]
    exact slice_all _
  have nm : ∀ t size, oneName t size l → nameOk t size l false := fun t size h => h.imp (fun k => ⟨rfl, k⟩) id
  obtain ⟨k, hk⟩ : ∃ k, manyFields = k + 2 + l.length := ⟨65535 - l.length, by omega⟩
  rcases loop_fields hz l (k + 1) (Peer.empty z) _ _ hreg (nm _ _ h1) (nm _ _ h2) hat (wf_empty z) (tidy_empty z) with w | w
  · obtain ⟨q, r', w1, w2, w3, w4, w5, w6, w7, w8⟩ := w
    have hr : r'.len = r'.pos + tail.length := by
      rw [w6, w7]
      show buf.length = 0 + _ + _
      rw [e, List.length_append]; omega
    have key : ∃ q' r'', loop z (k + 1 + 1) q r' = some (q', r'') ∧ r''.err ≠ .ok := by
      rcases hf with ⟨b, hb, e', _⟩ | ⟨n, v, t0, t1, hn, hv, e'⟩
      · have htb : tail = b := List.append_cancel_left (e.symm.trans e')
        subst htb
        obtain ⟨tn, r1, g1, _, _, _, _, _, s, s2⟩ := getTlv_spec r' w5.null (by rw [w6, w8]; simp [atStart])
        have : r1.err ≠ .ok := by
          intro h
          have := s2 h; omega
        have h0 : tn.1 = 0 := by
          refine Decidable.byContradiction fun h => ?_
          exact this (s h).1
        obtain ⟨a, b⟩ := tn
        have h0 : a = 0 := h0
        subst h0
        exact ⟨q, r1, loop_end g1, this⟩
      · have htb : tail = enc16 true (BitVec.ofNat 16 (t * 512 + n)) ++ v := List.append_cancel_left (e.symm.trans e')
        rw [htb] at w5 hr
        obtain ⟨a1, a2⟩ := w5.split
        have g1 := takes_getTlv t1 hn r' a1
        have hb : r'.len ≤ r'.buf.length := by rw [w6, w8]; simp [atStart]
        obtain ⟨q1, r1, f1, b1, n1, l1, c1, y1, s1⟩ := go_getField_end (t := t) (n := n) hz (by omega) ht w3 _ a2.null hb
        obtain ⟨tn, r2, g2, _, _, _, _, _, s, s2⟩ := getTlv_spec r1 (by rw [n1]; exact a2.null) (by rw [l1, b1]; exact hb)
        have hr2 : r2.err ≠ .ok := by
          intro h
          obtain ⟨k1, k2, k3⟩ := s2 h
          have hp := (s1 k1).2
          rw [l1] at k3
          have hl2 := a2.len
          rw [List.length_append] at hr
          simp only at hp k3 hl2
          have := hp (by omega) (by omega)
          omega
        have h0 : tn.1 = 0 := Decidable.byContradiction fun h => hr2 (s h).1
        obtain ⟨a, b⟩ := tn
        have h0 : a = 0 := h0
        subst h0
        exact ⟨q1, r2, by rw [loop_step (by omega) g1 f1]; exact loop_end g2, hr2⟩
    obtain ⟨q', r'', k1, k2⟩ := key
    unfold parse
    rw [parseP_loop, hk, show k + 2 + l.length = k + 1 + 1 + l.length from by omega, w1, k1]
    show some (if r''.err = .ok then some q' else none) = _
    rw [if_neg k2]
  · obtain ⟨q, r', w1, w2, w3⟩ := w
    unfold parse
    rw [parseP_loop, hk, show k + 2 + l.length = k + 1 + 1 + l.length from by omega, w1]
    show some (if r'.err = .ok then some q else none) = _
    rw [if_neg w2]

/-- Every frame is whole or cut off. -/
theorem framed_or_cut (buf : List Byte) : ∃ l, (∀ x ∈ l, 0 < x.1 ∧ x.1 < 128 ∧ x.2.length < 512) ∧
    (Framed l buf ∨ ∃ t, CutOff l buf t) := by
  induction hn : buf.length using Nat.strongRecOn generalizing buf with
  | ind N ih =>
    match buf, hn with
    | [], _ => exact ⟨[], by simp, .inr ⟨0, .inl ⟨[], by simp, rfl, rfl⟩⟩⟩
    | [b], _ => exact ⟨[], by simp, .inr ⟨0, .inl ⟨[b], by simp, rfl, rfl⟩⟩⟩
    | a :: b :: rest, hn =>
      have hh := num_two a b
      have hlt := num_lt2 (v := [a, b]) rfl
      obtain ⟨t, ht⟩ : ∃ t, t = num [a, b] / 512 := ⟨_, rfl⟩
      obtain ⟨n, hn'⟩ : ∃ n, n = num [a, b] % 512 := ⟨_, rfl⟩
      have htn : num [a, b] = t * 512 + n := by omega
      rw [htn] at hh
      have eb : a :: b :: rest = enc16 true (BitVec.ofNat 16 (t * 512 + n)) ++ rest := by rw [hh]; rfl
      by_cases h0 : t = 0
      · refine ⟨[], by simp, .inl ⟨n, rest, by omega, ?_⟩⟩
        rw [eb, h0]; simp [endMark, encAll]
      · by_cases hr : rest.length < n
        · refine ⟨[], by simp, .inr ⟨t, .inr ⟨n, rest, by omega, by omega, by omega, hr, ?_⟩⟩⟩
          rw [eb]; simp [encAll]
        · have hd : (rest.drop n).length < N := by simp at hn ⊢; omega
          obtain ⟨l, l1, l2⟩ := ih _ hd (rest.drop n) rfl
          have hv : (rest.take n).length = n := by simp; omega
          have er : a :: b :: rest = encTlv (t, rest.take n) ++ rest.drop n := by
            rw [eb]
            show _ = enc16 true (BitVec.ofNat 16 (t * 512 + (rest.take n).length)) ++ rest.take n ++ _
            rw [hv, List.append_assoc, List.take_append_drop]
          have ec : ∀ tail, encAll ((t, rest.take n) :: l) ++ tail = encTlv (t, rest.take n) ++ (encAll l ++ tail) := by
            intro tail; simp [encAll]
          refine ⟨(t, rest.take n) :: l, ?_, ?_⟩
          · intro x hx
            rcases List.mem_cons.1 hx with rfl | hx
            · exact ⟨by show 0 < t; omega, by show t < 128; omega, by show (rest.take n).length < 512; omega⟩
            · exact l1 x hx
          · rcases l2 with ⟨m, rs, m1, m2⟩ | ⟨u, ⟨c, c1, c2, c3⟩ | ⟨m, w, u0, u1, m1, w1, w2⟩⟩
            · exact .inl ⟨m, rs, m1, by rw [ec, ← m2, er]⟩
            · exact .inr ⟨u, .inl ⟨c, c1, by rw [ec, ← c2, er], c3⟩⟩
            · exact .inr ⟨u, .inr ⟨m, w, u0, u1, m1, w1, by rw [ec, ← w2, er]⟩⟩

end Verif.Lldp
