import Verif.Epm.State

set_option linter.unusedSimpArgs false
set_option linter.unusedVariables false

namespace Verif.Epm
open Verif.Wire Verif.Epm.Spec

theorem floorNdr_length : floorNdr.length = 25 := rfl
theorem handle_length {mac : List Byte} (h : mac.length = 6) (ts : Nat) : (handle ts mac).length = 20 := by
  unfold handle
  rw [List.length_append, List.length_append, h]
  rfl

theorem entry_length {d : Dev} (hd : DevOk d) {ts : Nat} {o f p note : List Byte} (ho : o.length = 16) (hf : f.length = 25)
    (hp : p.length = 2) (hn : note.length = 64) : (entry d ts o f p note).length = 216 := by
  unfold entry
  simp only [List.length_append, handle_length hd.mac, ho, hf, hn, hp, order_length, enc32_length, floorNdr_length, List.length_cons,
    List.length_nil]

theorem body_length {d : Dev} (hd : DevOk d) {note : List Byte} (hn : note.length = 64) (ts : Nat) (k : Kind) :
    (body d ts note k).length ≤ 216 := by
  cases k with
  | finished => exact (show (body d ts note .finished).length = 40 from rfl) ▸ (by omega)
  | mapper => exact Nat.le_of_eq (entry_length hd (by rfl) (by rfl) (by rfl) hn)
  | device => exact Nat.le_of_eq (entry_length hd (by rfl) (by rfl) (by rfl) hn)

theorem says_rspOf {d : Dev} (hd : DevOk d) (u : Uuid) (ts : U32) (k : Kind) : Says d (u, ts, rspOf d ts k) k := by
  refine ⟨annotation d, isNote hd, annotation_length hd, ?_⟩
  intro cap start hc
  have hl := body_length hd (annotation_length hd) ts.toNat k
  obtain ⟨b, hw, he⟩ := writes_rspOf hd ts k ⟨List.replicate cap 0, cap, start⟩ (by simp) (by simp only; omega)
  unfold bodyOf
  rw [he]
  simp only [Option.map_some, Nat.add_sub_cancel_left, Option.some.injEq]
  have := slice_writeAt_same hw
  unfold slice at this
  split at this
  · exact Option.some.inj this
  · cases this

theorem hasSession_iff {u : Uuid} {t : Table} (hu : Unique t) : HasSession u t ↔ view u t ≠ none := by
  constructor
  · rintro ⟨s, hs, he⟩
    obtain ⟨i, hi⟩ := List.getElem?_of_mem hs
    rw [view_some hu hi he]
    simp
  · intro h
    cases hv : view u t with
    | none => exact absurd hv h
    | some s =>
      obtain ⟨i, hi, he⟩ := view_inv hv
      exact ⟨s, List.mem_of_getElem? hi, he⟩

theorem reach_unique {d : Dev} {n : Nat} {pre : List Ev} {t : Table} {a : List Ans}
    (h : run d (List.replicate n none) pre = some (t, a)) : Unique t := by
  obtain ⟨t', a', h', hu⟩ := run_spec (d := d) pre (unique_init n)
  rw [h] at h'
  simp at h'
  rw [h'.1]; exact hu

/-- C98: whatever other activities do, the requests of an activity for the next endpoint are answered, in turn, with the
endpoint of the mapper, that of the device, and that there are no more, then from the beginning; after the last one the
session is free. -/
theorem C98_enumeration {d : Dev} (hd : DevOk d) {n : Nat} {pre es : List Ev} {t : Table} {a0 : List Ans} {u : Uuid}
    (hr : run d (List.replicate n none) pre = some (t, a0)) (hno : ¬ HasSession u t) (ho : OnlyNext u es) :
    ∃ t' a, run d t es = some (t', a) ∧ (∀ i x, (to u a)[i]? = some x → Says d x (kindAt i)) ∧
      ((to u a).length % 3 = 0 → ¬ HasSession u t') := by
  have hu := reach_unique hr
  rw [hasSession_iff hu] at hno
  have hat : At u t (0 % 3) := .inl ⟨rfl, by simpa using hno⟩
  obtain ⟨t', a, h, hu', hat', hall⟩ := run_at (d := d) es hu hat ho
  refine ⟨t', a, h, ?_, ?_⟩
  · intro i x hx
    have hxr := hall i x hx
    have hxu : x = (x.1, x.2.1, rspOf d x.2.1 (kindAt i)) := by
      rw [Nat.zero_add] at hxr
      rw [← hxr]
    rw [hxu]
    exact says_rspOf hd _ _ _
  · intro h0
    rw [hasSession_iff hu']
    rw [Nat.zero_add, h0] at hat'
    rcases hat' with ⟨_, hv⟩ | ⟨h1, _⟩
    · simpa using hv
    · omega

/-- C98: a request is answered, unless all sessions are in use by others. -/
theorem C98_answered {d : Dev} {n : Nat} {pre : List Ev} {t : Table} {a0 : List Ans}
    (hr : run d (List.replicate n none) pre = some (t, a0)) (u : Uuid) (b : List Byte) (ts : U32) (timer : Bool) :
    ∃ t' a, step d t (.request u b ts timer) = some (t', a) ∧
      ((HasSession u t ∨ none ∈ t) → ∃ r, a = [(u, ts, r)]) ∧ (¬ (HasSession u t ∨ none ∈ t) → t' = t ∧ a = []) := by
  have hu := reach_unique hr
  obtain ⟨t', a, h, _, _, _, _, hm⟩ := step_spec (d := d) hu (.request u b ts timer)
  refine ⟨t', a, h, ?_⟩
  simp only [Ev.activity] at hm
  cases hs : session u t with
  | none =>
    rw [hs] at hm
    have := (session_none hu).mp hs
    refine ⟨?_, fun _ => hm⟩
    rintro (h | h)
    · exact absurd this.1 ((hasSession_iff hu).mp h)
    · exact absurd h this.2
  | some is =>
    obtain ⟨i, s⟩ := is
    rw [hs] at hm
    refine ⟨fun _ => ?_, ?_⟩
    · obtain ⟨x, hx, _⟩ := epmBranch_total d b ts timer s
      simp only [own, hx, Option.map_some, Option.some.injEq, Prod.mk.injEq] at hm
      exact ⟨_, hm.2.symm⟩
    · intro hn
      have : session u t = none := by
        rw [session_none hu]
        refine ⟨?_, fun h => hn (.inr h)⟩
        cases hv : view u t with
        | none => rfl
        | some s => exact absurd (.inl ((hasSession_iff hu).mpr (by rw [hv]; simp))) hn
      rw [hs] at this
      cases this

/-- Events of others leave the session of an activity alone. -/
theorem skip {d : Dev} {u : Uuid} (mid : List Ev) {t : Table} (hu : Unique t) (h : ∀ e ∈ mid, e.activity ≠ u) :
    ∃ t' a, run d t mid = some (t', a) ∧ Unique t' ∧ view u t' = view u t ∧ to u a = [] := by
  induction mid generalizing t with
  | nil => exact ⟨t, [], rfl, hu, rfl, rfl⟩
  | cons e es ih =>
    obtain ⟨t1, a1, e1, u1, _, hv, hne, _⟩ := step_spec (d := d) hu e
    obtain ⟨t2, a2, e2, u2, hv2, hto⟩ := ih u1 (fun e he => h e (List.mem_cons_of_mem _ he))
    have hne' := h e (List.mem_cons_self ..)
    refine ⟨t2, a1 ++ a2, by simp only [run, e1, e2, Option.bind_some, Option.map_some], u2,
      hv2.trans (hv u (fun h => hne' h.symm)), ?_⟩
    simp only [to, List.filter_append]
    rw [show List.filter (fun x => x.1 == u) a2 = [] from hto, List.append_nil, List.filter_eq_nil_iff]
    intro x hx
    simp [hne x hx, hne']

/-- C98: two clients with different activities, and a client that comes back, do not disturb each other: what an
activity is answered does not depend on the events of others, as long as there are sessions. -/
theorem C98_next {d : Dev} (hd : DevOk d) {n : Nat} {pre mid1 mid2 : List Ev} {t : Table} {a0 : List Ans} {u : Uuid}
    (hr : run d (List.replicate n none) pre = some (t, a0)) (hno : ¬ HasSession u t) (hfree : none ∈ t)
    (h1 : ∀ e ∈ mid1, e.activity ≠ u) (h2 : ∀ e ∈ mid2, e.activity ≠ u) {b1 b2 b3 : List Byte} (hb1 : AsksNext b1)
    (hb2 : AsksNext b2) (hb3 : AsksNext b3) (ts1 ts2 ts3 : U32) (m1 m2 m3 : Bool) :
    ∃ t' a x y z, run d t ([.request u b1 ts1 m1] ++ mid1 ++ [.request u b2 ts2 m2] ++ mid2 ++ [.request u b3 ts3 m3]) = some (t', a) ∧
      to u a = [x, y, z] ∧ Says d x .mapper ∧ Says d y .device ∧ Says d z .finished ∧ ¬ HasSession u t' := by
  have hu := reach_unique hr
  rw [hasSession_iff hu] at hno
  have hv0 : view u t = none := by simpa using hno
  have one : ∀ {t : Table} (b : List Byte) (ts : U32) (m : Bool) (k : Nat), Unique t → AsksNext b → At u t k → (k = 0 → none ∈ t) →
      ∃ t', run d t [.request u b ts m] = some (t', [(u, ts, rspOf d ts (kindAt k))]) ∧ Unique t' ∧ At u t' ((k + 1) % 3) := by
    intro t b ts m k hu hb hat hf
    obtain ⟨t', a, h, hu', hc⟩ := at_request (d := d) (ts := ts) (timer := m) hu hat.weaken hb
    rcases hc with ⟨rfl, hk, hat'⟩ | ⟨rfl, hat'⟩
    · exfalso
      obtain ⟨t2, a2, h2, _, _, _, _, hm⟩ := step_spec (d := d) hu (.request u b ts m)
      rw [h] at h2
      simp at h2
      simp only [Ev.activity] at hm
      cases hs : session u t with
      | none => exact ((session_none hu).mp hs).2 (hf hk)
      | some is =>
        obtain ⟨i, s⟩ := is
        rw [hs] at hm
        obtain ⟨x, hx, _⟩ := epmBranch_total d b ts m s
        simp only [own, hx, Option.map_some, Option.some.injEq, Prod.mk.injEq] at hm
        rw [← h2.2] at hm
        simp at hm
    · exact ⟨t', by simp [run, h], hu', hat'⟩
  obtain ⟨t1, e1, u1, at1⟩ := one b1 ts1 m1 0 hu hb1 (.inl ⟨rfl, hv0⟩) (fun _ => hfree)
  obtain ⟨t2, a2, e2, u2, hv2, hto2⟩ := skip (d := d) mid1 u1 h1
  have at2 : At u t2 1 := by unfold At at at1 ⊢; rw [hv2]; exact at1
  obtain ⟨t3, e3, u3, at3⟩ := one b2 ts2 m2 1 u2 hb2 at2 (by omega)
  obtain ⟨t4, a4, e4, u4, hv4, hto4⟩ := skip (d := d) mid2 u3 h2
  have at4 : At u t4 2 := by unfold At at at3 ⊢; rw [hv4]; exact at3
  obtain ⟨t5, e5, u5, at5⟩ := one b3 ts3 m3 2 u4 hb3 at4 (by omega)
  refine ⟨t5, [(u, ts1, rspOf d ts1 (kindAt 0))] ++ a2 ++ [(u, ts2, rspOf d ts2 (kindAt 1))] ++ a4 ++ [(u, ts3, rspOf d ts3 (kindAt 2))],
    (u, ts1, rspOf d ts1 .mapper), (u, ts2, rspOf d ts2 .device), (u, ts3, rspOf d ts3 .finished),
    by simp only [run_append, e1, e2, e3, e4, e5, Option.bind_some, Option.map_some], ?_, says_rspOf hd _ _ _, says_rspOf hd _ _ _,
    says_rspOf hd _ _ _, ?_⟩
  · simp only [to, List.filter_append] at hto2 hto4 ⊢
    rw [hto2, hto4]
    simp [kindAt]
  · rw [hasSession_iff u5]
    rcases at5 with ⟨_, hv⟩ | ⟨h, _⟩
    · simpa using hv
    · omega

/-- C98 fails for clients that also ask for something else: such a request is answered with "not registered", but it
counts, so that the mapper is never reported. -/
theorem C98_other_request_skips_false {d : Dev} (hd : DevOk d) {n : Nat} {pre : List Ev} {t : Table} {a0 : List Ans} {u : Uuid}
    (hr : run d (List.replicate n none) pre = some (t, a0)) (hno : ¬ HasSession u t) (hfree : none ∈ t)
    {b1 b2 b3 : List Byte} (hb1 : AsksOther b1) (hb2 : AsksNext b2) (hb3 : AsksNext b3) (ts1 ts2 ts3 : U32) (m1 m2 m3 : Bool) :
    ∃ t' x y z, run d t [.request u b1 ts1 m1, .request u b2 ts2 m2, .request u b3 ts3 m3] = some (t', [x, y, z]) ∧
      Says d x .finished ∧ Says d y .device ∧ Says d z .finished := by
  have hu := reach_unique hr
  rw [hasSession_iff hu] at hno
  have hv0 : view u t = none := by simpa using hno
  obtain ⟨t1, a1, e1, u1, _, _, _, hm⟩ := step_spec (d := d) hu (.request u b1 ts1 m1)
  simp only [Ev.activity] at hm
  obtain ⟨q, hq, hqo⟩ := hb1
  obtain ⟨r, hp⟩ := carries_parse hq
  have hlook : ∀ s, lookup d ts1 s q = (Rsp.none, false) := by
    intro s
    unfold lookup
    by_cases hm : q.maxEntries = 0
    · rw [if_pos hm]
    · rw [if_neg hm, if_neg (hqo.resolve_right hm)]
  cases hs : session u t with
  | none => exact absurd hfree ((session_none hu).mp hs).2
  | some is =>
    obtain ⟨i, s⟩ := is
    have hsv := (session_some hu hs).2.2
    rw [hv0] at hsv
    rw [hs] at hm
    simp only [own, epmBranch, hp, Option.map_some, hlook, Option.some.injEq, Prod.mk.injEq, Bool.false_eq_true, if_false] at hm
    have at1 : At u t1 1 := .inr ⟨by omega, by omega, _, hm.1.symm, by rw [hsv]; rfl⟩
    have ho : OnlyNext u [.request u b2 ts2 m2, .request u b3 ts3 m3] := by
      intro e he _
      simp only [List.mem_cons, List.not_mem_nil, or_false] at he
      rcases he with rfl | rfl
      · exact ⟨_, _, _, rfl, hb2⟩
      · exact ⟨_, _, _, rfl, hb3⟩
    obtain ⟨t2, a2, e2, u2, hc2⟩ := at_request (d := d) (ts := ts2) (timer := m2) u1 at1.weaken hb2
    rcases hc2 with ⟨_, h, _⟩ | ⟨rfl, at2⟩
    · omega
    obtain ⟨t3, a3, e3, u3, hc3⟩ := at_request (d := d) (ts := ts3) (timer := m3) u2 at2.weaken hb3
    rcases hc3 with ⟨_, h, _⟩ | ⟨rfl, at3⟩
    · omega
    refine ⟨t3, (u, ts1, rspOf d ts1 .finished), _, _, ?_, says_rspOf hd _ _ _, says_rspOf hd u ts2 .device,
      says_rspOf hd u ts3 .finished⟩
    rw [← hm.2] at e1
    simp only [run, e1, e2, e3, Option.bind_some, Option.map_some]
    rfl

/-- C98: the session of a lookup is released five seconds after the last request, if its timer could be started, and
otherwise never by the timer. -/
theorem C98_timeout {d : Dev} {n : Nat} {pre : List Ev} {t : Table} {a0 : List Ans}
    (hr : run d (List.replicate n none) pre = some (t, a0)) {s : Sess} (hs : some s ∈ t) :
    ∃ t', step d t (.timeout s.uuid) = some (t', []) ∧ (s.timer = true → ¬ HasSession s.uuid t') ∧ (s.timer = false → t' = t) := by
  have hu := reach_unique hr
  obtain ⟨i, hi⟩ := List.getElem?_of_mem hs
  have hv := view_some hu hi rfl
  cases hse : session s.uuid t with
  | none =>
    have := ((session_none hu).mp hse).1
    rw [hv] at this; cases this
  | some is =>
    obtain ⟨j, s'⟩ := is
    obtain ⟨hm, _, hsv⟩ := session_some hu hse
    rw [hv] at hsv
    simp only [Option.getD_some] at hsv
    subst hsv
    simp only [step, hse]
    refine ⟨_, rfl, ?_, ?_⟩
    · intro ht
      rw [if_pos ht, hasSession_iff (set_unique hu hm (by simp)), view_set_same hu hm (x := none) (by simp)]
      simp
    · intro ht
      rw [ht]; rfl

/-- C98: five seconds after the last request of a client its session is free, whatever the requests were and whatever
others do, if the timer could be started. -/
theorem C98_timer {d : Dev} {n : Nat} {pre mid : List Ev} {t : Table} {a0 : List Ans} {u : Uuid}
    (hr : run d (List.replicate n none) pre = some (t, a0)) (b : List Byte) (ts : U32) (hm : ∀ e ∈ mid, e.activity ≠ u)
    (hgot : HasSession u t ∨ none ∈ t) :
    ∃ t' a, run d t (.request u b ts true :: (mid ++ [.timeout u])) = some (t', a) ∧ ¬ HasSession u t' := by
  have hu := reach_unique hr
  obtain ⟨t1, a1, e1, u1, _, _, _, hm1⟩ := step_spec (d := d) hu (.request u b ts true)
  obtain ⟨t2, a2, e2, u2, hv2, _⟩ := skip (d := d) (u := u) mid u1 hm
  obtain ⟨t3, a3, e3, u3, _, _, _, hm3⟩ := step_spec (d := d) u2 (.timeout u)
  refine ⟨t3, _, by simp only [run, run_append, e1, e2, e3, Option.bind_some, Option.map_some]; rfl, ?_⟩
  rw [hasSession_iff u3]
  simp only [Ev.activity] at hm1 hm3
  have htimer : ∀ x, view u t1 = some x → x.timer = true := by
    intro x hx
    cases hs : session u t with
    | none =>
      have := (session_none hu).mp hs
      rcases hgot with h | h
      · exact absurd this.1 ((hasSession_iff hu).mp h)
      · exact absurd h this.2
    | some is =>
      obtain ⟨i, s⟩ := is
      rw [hs] at hm1
      obtain ⟨q, r, hp⟩ := parse_total b
      simp only [own, epmBranch, hp, Option.map_some, Option.some.injEq, Prod.mk.injEq] at hm1
      rw [hx] at hm1
      have h1 := hm1.1
      split at h1
      · cases h1
      · simp only [Option.some.injEq] at h1
        rw [← h1]
  rw [← hv2] at htimer
  cases hs : session u t2 with
  | none =>
    rw [hs] at hm3
    rw [hm3.1, ((session_none u2).mp hs).1]
    simp
  | some is =>
    obtain ⟨i, s⟩ := is
    rw [hs] at hm3
    simp only [own, Option.some.injEq, Prod.mk.injEq] at hm3
    cases hv : view u t2 with
    | none =>
      rw [← hm3.1, hv]
      simp
    | some x =>
      have hsv := (session_some u2 hs).2.2
      rw [hv] at hsv
      simp only [Option.getD_some] at hsv
      rw [← hm3.1, hsv, if_pos (htimer x hv)]
      simp

/-- C98: a lookup on the activity of a connection takes the session away from the connection: three requests, and it is
free for others. -/
theorem C98_takes_session_false {d : Dev} (hd : DevOk d) {n : Nat} {pre : List Ev} {t : Table} {a0 : List Ans} {u : Uuid}
    (hr : run d (List.replicate n none) pre = some (t, a0)) {s : Sess} (hs : some s ∈ t) (hsu : s.uuid = u) (h0 : s.seq = 0)
    {b1 b2 b3 : List Byte} (hb1 : AsksNext b1) (hb2 : AsksNext b2) (hb3 : AsksNext b3) (ts1 ts2 ts3 : U32) (m1 m2 m3 : Bool) :
    ∃ t' a, run d t [.request u b1 ts1 m1, .request u b2 ts2 m2, .request u b3 ts3 m3] = some (t', a) ∧ ¬ HasSession u t' := by
  have hu := reach_unique hr
  obtain ⟨i, hi⟩ := List.getElem?_of_mem hs
  have hv := view_some hu hi hsu
  obtain ⟨t1, a1, e1, u1, hc1⟩ := at_request (d := d) (ts := ts1) (timer := m1) (k := 0) hu (.inr ⟨by omega, s, hv, h0⟩) hb1
  have hat1 : At u t1 1 := by
    rcases hc1 with ⟨rfl, _, _⟩ | ⟨_, h⟩
    · obtain ⟨t2, a2, h2, hex, _⟩ := C98_answered hr u b1 ts1 m1
      obtain ⟨r, hr⟩ := hex (.inl ⟨s, hs, hsu⟩)
      rw [e1] at h2
      simp at h2
      rw [hr] at h2
      simp at h2
    · exact h
  obtain ⟨t2, a2, e2, u2, hc2⟩ := at_request (d := d) (ts := ts2) (timer := m2) u1 hat1.weaken hb2
  rcases hc2 with ⟨_, h, _⟩ | ⟨rfl, at2⟩
  · omega
  obtain ⟨t3, a3, e3, u3, hc3⟩ := at_request (d := d) (ts := ts3) (timer := m3) u2 at2.weaken hb3
  rcases hc3 with ⟨_, h, _⟩ | ⟨rfl, at3⟩
  · omega
  refine ⟨t3, _, by simp only [run, e1, e2, e3, Option.bind_some, Option.map_some]; rfl, ?_⟩
  rw [hasSession_iff u3]
  rcases at3 with ⟨_, hv⟩ | ⟨h, _⟩
  · simpa using hv
  · omega

/-- C99: the answers to requests for the next endpoint, on the wire. -/
theorem C99_answer {d : Dev} (hd : DevOk d) {b : List Byte} (hb : AsksNext b) (s : Sess) (ts : U32) (m : Bool) :
    ∃ s' r, epmBranch d b ts m s = some (s', r) ∧
      (s.seq = 0 → Says d (s.uuid, ts, r) .mapper ∧ s' ≠ none) ∧ (s.seq = 1 → Says d (s.uuid, ts, r) .device ∧ s' ≠ none) ∧
      (s.seq ≠ 0 → s.seq ≠ 1 → Says d (s.uuid, ts, r) .finished ∧ s' = none) := by
  obtain ⟨q, hq, h0, hm⟩ := hb
  obtain ⟨r, hp⟩ := carries_parse hq
  unfold epmBranch
  rw [hp]
  simp only [Option.map_some, lookup, if_neg hm, if_pos h0]
  by_cases c0 : s.seq = 0
  · simp only [if_pos c0]
    exact ⟨_, _, rfl, fun _ => ⟨says_rspOf hd _ _ .mapper, by simp⟩, fun h => absurd (c0.symm.trans h) (by decide),
      fun h => absurd c0 h⟩
  · by_cases c1 : s.seq = 1
    · simp only [if_neg c0, if_pos c1]
      exact ⟨_, _, rfl, fun h => absurd h c0, fun _ => ⟨says_rspOf hd _ _ .device, by simp⟩, fun _ h => absurd c1 h⟩
    · simp only [if_neg c0, if_neg c1]
      exact ⟨_, _, rfl, fun h => absurd h c0, fun h => absurd h c1, fun _ _ => ⟨says_rspOf hd _ _ .finished, rfl⟩⟩

/-- Where port and address are in the answer with an endpoint. -/
theorem entry_parts {d : Dev} (hd : DevOk d) {ts : Nat} {o f p note : List Byte} (ho : o.length = 16) (hf : f.length = 25)
    (hp : p.length = 2) (hn : note.length = 64) :
    slice (entry d ts o f p note) 200 2 = some (order d.bigHost p) ∧
      slice (entry d ts o f p note) 207 4 = some (order d.bigHost (enc32 true d.ip)) := by
  have key : ∀ (a b c : List Byte) (k n : Nat), a.length = k → b.length = n → slice (a ++ b ++ c) k n = some b := by
    intro a b c k n ha hb
    rw [slice_eq_some (by simp only [List.length_append]; omega), ← ha, ← hb]
    simp [List.append_assoc]
  constructor
  · have e : entry d ts o f p note = (handle ts d.mac ++ [1, 0, 0, 0] ++ [1, 0, 0, 0] ++ [0, 0, 0, 0] ++ [1, 0, 0, 0] ++ o ++
      [3, 0, 0, 0] ++ [0, 0, 0, 0] ++ [64, 0, 0, 0] ++ note ++ [75, 0, 0, 0] ++ [75, 0, 0, 0] ++ [5, 0] ++ f ++
      floorNdr ++ [1, 0, 0x0A, 2, 0, 0, 0] ++ [1, 0, 0x08, 2, 0]) ++ order d.bigHost p ++
        ([1, 0, 0x09, 4, 0] ++ order d.bigHost (enc32 true d.ip) ++ [0] ++ [0, 0, 0, 0]) := by
      unfold entry
      generalize order d.bigHost p = P, order d.bigHost (enc32 true d.ip) = I, handle ts d.mac = H, floorNdr = N
      simp only [List.append_assoc]
    rw [e]
    apply key
    · simp only [List.length_append, List.length_cons, List.length_nil, hn, ho, hf, handle_length hd.mac, floorNdr_length]
    · rw [order_length, hp]
  · have e : entry d ts o f p note = (handle ts d.mac ++ [1, 0, 0, 0] ++ [1, 0, 0, 0] ++ [0, 0, 0, 0] ++ [1, 0, 0, 0] ++ o ++
      [3, 0, 0, 0] ++ [0, 0, 0, 0] ++ [64, 0, 0, 0] ++ note ++ [75, 0, 0, 0] ++ [75, 0, 0, 0] ++ [5, 0] ++ f ++
      floorNdr ++ [1, 0, 0x0A, 2, 0, 0, 0] ++ [1, 0, 0x08, 2, 0] ++ order d.bigHost p ++ [1, 0, 0x09, 4, 0]) ++
        order d.bigHost (enc32 true d.ip) ++ ([0] ++ [0, 0, 0, 0]) := by
      unfold entry
      generalize order d.bigHost p = P, order d.bigHost (enc32 true d.ip) = I, handle ts d.mac = H, floorNdr = N
      simp only [List.append_assoc]
    rw [e]
    apply key
    · simp only [List.length_append, List.length_cons, List.length_nil, hn, ho, hf, hp, order_length, handle_length hd.mac, floorNdr_length]
    · rw [order_length, enc32_length]

/-- C99: the endpoint of the device has its port and IP address in network byte order on a little-endian processor; on a
big-endian processor both are reversed. -/
theorem C99_device_address {d : Dev} (hd : DevOk d) {ts : Nat} {note : List Byte} (hn : note.length = 64) :
    (d.bigHost = false → slice (body d ts note .device) 200 2 = some [0xC0, 0x03] ∧
      slice (body d ts note .device) 207 4 = some (enc32 true d.ip)) ∧
    (d.bigHost = true → slice (body d ts note .device) 200 2 = some [0x03, 0xC0] ∧
      slice (body d ts note .device) 207 4 = some (enc32 false d.ip)) := by
  have h := entry_parts hd (ts := ts) (o := objectDevice d) (f := floorDevice) (p := [0xC0, 0x03]) (note := note) (by rfl) (by rfl) (by rfl) hn
  constructor
  · intro hb
    rw [hb] at h
    exact h
  · intro hb
    rw [hb] at h
    rw [enc32_rev]
    exact h

/-- C99: on a big-endian processor the port in the answer is wrong. -/
theorem C99_big_endian_false {d : Dev} (hd : DevOk d) (hb : d.bigHost = true) (u : Uuid) (ts : U32) {b : List Byte} (hq : AsksNext b)
    (m : Bool) (cap start : Nat) (hc : start + 216 ≤ cap) :
    ∃ s' r bytes, epmBranch d b ts m ⟨u, 1, m⟩ = some (s', r) ∧ bodyOf d r cap start = some bytes ∧
      slice bytes 200 2 ≠ some [0xC0, 0x03] := by
  obtain ⟨s', r, he, _, h1, _⟩ := C99_answer hd hq ⟨u, 1, m⟩ ts m
  obtain ⟨⟨note, _, hl, hs⟩, _⟩ := h1 rfl
  refine ⟨s', r, _, he, hs cap start hc, ?_⟩
  rw [((C99_device_address hd hl).2 hb).1]
  decide

/-- C99: the handle distinguishes times only by their last 16 bits: it repeats every 65.536 milliseconds. -/
theorem C99_handle {ts ts' : Nat} {mac : List Byte} : handle ts mac = handle ts' mac ↔ ts % 65536 = ts' % 65536 := by
  simp only [handle, List.append_cancel_left_eq, List.append_cancel_right_eq, List.cons.injEq, and_true]
  constructor
  · rintro ⟨h1, h2⟩
    have h1 := congrArg BitVec.toNat h1
    have h2 := congrArg BitVec.toNat h2
    simp at h1 h2
    omega
  · intro h
    exact ⟨by rw [show ts % 256 = ts' % 256 by omega], by rw [show ts / 256 % 256 = ts' / 256 % 256 by omega]⟩

/-- C100: the annotation has 64 bytes, with every field in its columns. -/
theorem C100_annotation {d : Dev} (hd : DevOk d) : IsNote d (annotation d) ∧ (annotation d).length = 64 :=
  ⟨isNote hd, annotation_length hd⟩

theorem spaces_inj {k k' : Nat} {a b : List Byte} (ha : a.head? ≠ some 0x20) (hb : b.head? ≠ some 0x20)
    (h : List.replicate k (0x20 : Byte) ++ a = List.replicate k' 0x20 ++ b) : a = b := by
  induction k generalizing k' with
  | zero =>
    cases k' with
    | zero => simpa using h
    | succ k' =>
      rw [List.replicate_succ] at h
      simp at h
      rw [h] at ha
      simp at ha
  | succ k ih =>
    cases k' with
    | zero =>
      rw [List.replicate_succ] at h
      simp at h
      rw [← h] at hb
      simp at hb
    | succ k' =>
      rw [List.replicate_succ, List.replicate_succ] at h
      simp at h
      exact ih h

theorem isNumber_inj {bs : List Byte} {n m : Nat} (h1 : IsNumber bs n) (h2 : IsNumber bs m) : n = m := by
  obtain ⟨k, a, e1, n1, d1, v1, _⟩ := h1
  obtain ⟨k', b, e2, n2, d2, v2, _⟩ := h2
  have hh : ∀ (l : List Byte), (∀ x ∈ l, 48 ≤ x.toNat ∧ x.toNat ≤ 57) → l.head? ≠ some 0x20 := by
    intro l hl h
    have := hl _ (List.mem_of_mem_head? h)
    simp at this
  have := spaces_inj (hh a d1) (hh b d2) (e1.symm.trans e2)
  rw [← v1, ← v2, this]

theorem isText_inj {bs s s' : List Byte} (h1 : IsText bs s) (h2 : IsText bs s') (e1 : s.getLast? ≠ some 0x20)
    (e2 : s'.getLast? ≠ some 0x20) : s = s' := by
  obtain ⟨k, h1⟩ := h1
  obtain ⟨k', h2⟩ := h2
  have h := congrArg List.reverse (h1.symm.trans h2)
  rw [List.reverse_append, List.reverse_append, List.reverse_replicate, List.reverse_replicate] at h
  have := spaces_inj (by rw [List.head?_reverse]; exact e1) (by rw [List.head?_reverse]; exact e2) h
  exact List.reverse_inj.mp this

/-- C100: the annotation can be read back: it determines names (which do not end with a blank) and revisions. -/
theorem C100_readable {d e : Dev} (hd : DevOk d) (he : DevOk e) (h : annotation d = annotation e)
    (d1 : d.productName.getLast? ≠ some 0x20) (e1 : e.productName.getLast? ≠ some 0x20) (d2 : d.orderId.getLast? ≠ some 0x20)
    (e2 : e.orderId.getLast? ≠ some 0x20) :
    d.productName = e.productName ∧ d.orderId = e.orderId ∧ d.hwRev = e.hwRev ∧ d.swPrefix = e.swPrefix ∧ d.swFun = e.swFun ∧
      d.swFix = e.swFix ∧ d.swInt = e.swInt := by
  obtain ⟨a1, a2, a3, a4, a5, a6, ea, l1, l2, l3, l4, l5, l6, t1, t2, n3, n4, n5, n6⟩ := isNote hd
  obtain ⟨b1, b2, b3, b4, b5, b6, eb, m1, m2, m3, m4, m5, m6, u1, u2, k3, k4, k5, k6⟩ := isNote he
  rw [h, eb] at ea
  simp only [List.append_assoc] at ea
  obtain ⟨x1, ea⟩ := List.append_inj ea (by omega)
  obtain ⟨_, ea⟩ := List.append_inj ea (by rfl)
  obtain ⟨x2, ea⟩ := List.append_inj ea (by omega)
  obtain ⟨_, ea⟩ := List.append_inj ea (by rfl)
  obtain ⟨x3, ea⟩ := List.append_inj ea (by omega)
  obtain ⟨_, ea⟩ := List.append_inj ea (by rfl)
  obtain ⟨xp, ea⟩ := List.append_inj ea (by rfl)
  obtain ⟨x4, ea⟩ := List.append_inj ea (by omega)
  obtain ⟨x5, ea⟩ := List.append_inj ea (by omega)
  obtain ⟨x6, ea⟩ := List.append_inj ea (by omega)
  subst x1 x2 x3 x4 x5 x6
  exact ⟨isText_inj t1 u1 d1 e1, isText_inj t2 u2 d2 e2, BitVec.eq_of_toNat_eq (isNumber_inj n3 k3), by simpa using xp.symm,
    BitVec.eq_of_toNat_eq (isNumber_inj n4 k4), BitVec.eq_of_toNat_eq (isNumber_inj n5 k5), BitVec.eq_of_toNat_eq (isNumber_inj n6 k6)⟩

/-! ## The hypotheses can be met -/
namespace Demo

def dev : Dev :=
  ⟨[0x41, 0x42], [0x58, 0x31], 1024, 0x56, 1, 20, 255, 0x01, 0x02, 0xFE, 0xED, [1, 2, 3, 4, 5, 6], 0xC0A80001, false⟩

theorem dev_ok : DevOk dev := ⟨by decide, by decide, by decide⟩

def uA : Uuid := ⟨1, 2, 3, [1, 2, 3, 4, 5, 6, 7, 8]⟩
def uB : Uuid := ⟨9, 2, 3, [1, 2, 3, 4, 5, 6, 7, 8]⟩
def nilU : Uuid := ⟨0, 0, 0, List.replicate 8 0⟩
def q (inq max : U32) : Lookup := ⟨inq, 0, nilU, 0, nilU, 0, 0, 0, ⟨0, 0, 0, 0, 0, 0, List.replicate 6 0⟩, max⟩

theorem next : AsksNext (encLookup (q 0 1)) := ⟨q 0 1, ⟨rfl, rfl, rfl, [], by simp⟩, rfl, by decide⟩
theorem other : AsksOther (encLookup (q 1 1)) := ⟨q 1 1, ⟨rfl, rfl, rfl, [], by simp⟩, .inl (by decide)⟩

def rq (u : Uuid) : Ev := .request u (encLookup (q 0 1)) 7 true

/-- Two clients at once, and what the answers say: number of entries and return code. -/
theorem two_clients : (run dev (List.replicate 2 none) [rq uA, rq uB, rq uA, rq uA, rq uB, rq uA]).map (fun x =>
    x.2.map fun a => (a.1 == uA, a.2.2.num, a.2.2.tower.floor1.major, a.2.2.code)) =
    some [(true, 1, 3, 0), (false, 1, 3, 0), (true, 1, 1, 0), (true, 0, 0, 0x16C9A0D6), (false, 1, 1, 0), (true, 1, 3, 0)] := by
  decide +kernel

theorem only : OnlyNext uA [rq uA, rq uB, rq uA] := by
  intro e he hu
  simp only [List.mem_cons, List.not_mem_nil, or_false] at he
  rcases he with rfl | rfl | rfl
  · exact ⟨_, _, _, rfl, next⟩
  · exact absurd hu (by decide)
  · exact ⟨_, _, _, rfl, next⟩

theorem note : annotation dev = [0x41, 0x42] ++ List.replicate 24 0x20 ++ [0x58, 0x31] ++ List.replicate 19 0x20 ++
    [0x20, 0x31, 0x30, 0x32, 0x34, 0x20, 0x56, 0x20, 0x20, 0x31, 0x20, 0x32, 0x30, 0x32, 0x35, 0x35, 0] := by
  decide +kernel

end Demo

end Verif.Epm
