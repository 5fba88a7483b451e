import Verif.Layout.Requests
/-!
# C04 Cyclic I/O objects accepted at connect never share bytes of the frame
# C53 The table of I/O objects is never overrun
-/
set_option linter.unusedSimpArgs false
set_option linter.unusedVariables false
namespace Verif.Layout

/-- The three fields of a submodule in one frame. -/
inductive Kind | data | iops | iocs
deriving DecidableEq, Repr

/-- Byte `b` of the frame payload belongs to the field. -/
def Covers (d : IoData) : Kind → Nat → Prop
  | .data, b => d.dataOff ≤ b ∧ b < d.dataOff + d.dataLen
  | .iops, b => d.iopsOff ≤ b ∧ b < d.iopsOff + d.iopsLen
  | .iocs, b => d.iocsOff ≤ b ∧ b < d.iocsOff + d.iocsLen

theorem mapM_get {α β} {f : α → Option β} : ∀ {l : List α} {r : List β}, l.mapM f = some r →
    l.length = r.length ∧ ∀ (i : Nat) (h : i < l.length) (h' : i < r.length), f l[i] = some r[i]
  | [], r, h => by simp at h; subst h; simp
  | a :: l, r, h => by
    simp only [List.mapM_cons, Option.bind_eq_bind, Option.bind_eq_some_iff] at h
    obtain ⟨x, hx, y, hy, h⟩ := h
    injection h with h
    subst h
    obtain ⟨h1, h2⟩ := mapM_get hy
    refine ⟨by simp [h1], ?_⟩
    intro i h h'
    cases i with
    | zero => simpa using hx
    | succ i => simpa using h2 i (by simpa using h) (by simpa using h')

theorem accept_get {cap e ps ss} {i : Nat} {p s} (h : accept cap e ps = some (ss, true))
    (hp : ps[i]? = some p) (hs : ss[i]? = some s) :
    setupDesc cap e p = some (s, true) ∧ checkIocr e p s = true := by
  unfold accept at h
  simp only [Option.bind_eq_bind, Option.bind_eq_some_iff] at h
  obtain ⟨rs, h1, h2⟩ := h
  injection h2 with h2
  injection h2 with h3 h4
  rw [Bool.and_eq_true] at h4
  obtain ⟨h4, h5⟩ := h4
  obtain ⟨hi, rfl⟩ := List.getElem?_eq_some_iff.1 hp
  obtain ⟨hlen, hall⟩ := mapM_get h1
  have hi' : i < rs.length := hlen ▸ hi
  have hget : setupDesc cap e ps[i] = some rs[i] := hall i hi hi'
  have hrs : rs[i] = (s, true) := by
    rw [← h3, List.getElem?_map, List.getElem?_eq_getElem hi'] at hs
    simp at hs
    have := List.all_eq_true.1 h4 rs[i] (List.getElem_mem hi')
    exact Prod.ext hs this
  refine ⟨hrs ▸ hget, ?_⟩
  have := List.all_eq_true.1 h5 (ps[i], rs[i]) (by
    rw [List.mem_iff_getElem]
    exact ⟨i, by simp; omega, by simp⟩)
  simpa [hrs] using this

/-- Everything the final check guarantees about two descriptors. -/
theorem overlap_covers {p d : IoData} (h : checkOverlap [p] d = true) (k k' : Kind) (b : Nat) :
    ¬ (Covers p k b ∧ Covers d k' b) := by
  simp only [checkOverlap, List.all_cons, List.all_nil, Bool.and_true, Bool.and_eq_true] at h
  obtain ⟨⟨h1, h2⟩, h3⟩ := h
  have area : ∀ st ln, areaOk st ln p = true → ¬ (Covers p k b ∧ (st ≤ b ∧ b < st + ln)) := by
    intro st ln ha
    unfold areaOk at ha
    split at ha
    · simp only [Bool.and_eq_true, noStraddle_iff] at ha
      cases k <;> simp only [Covers]
      · have := ha.1.1 b; tauto
      · have := ha.2 b; tauto
      · have := ha.1.2 b; tauto
    · intro hh; omega
  cases k' <;> simp only [Covers]
  · exact area _ _ h1
  · exact area _ _ h2
  · exact area _ _ h3

/-- **C04 (partial).** In every accepted layout, each field of each submodule lies inside the
negotiated payload, and no byte belongs to two fields, except that the consumer status of a
submodule may lie on the data or the provider status of *the same* submodule. The full claim has no
exception; it is false, see `C04_own_iocs_overlap`. -/
theorem C04_fields_disjoint_partial (cap : Nat) (e : Exp) (ps : List IocrParam) (ss : List Setup)
    (h : accept cap e ps = some (ss, true)) (i : Nat) (p : IocrParam) (s : Setup)
    (hp : ps[i]? = some p) (hs : ss[i]? = some s) (hc : p.cSdu < 65536) :
    (∀ d ∈ s.descs, ∀ k b, Covers d k b → b < p.cSdu) ∧
    (∀ (j j' : Nat) (d d' : IoData), s.descs[j]? = some d → s.descs[j']? = some d' →
      ∀ k k' b, Covers d k b → Covers d' k' b →
        j = j' ∧ (k = k' ∨ k = .iocs ∨ k' = .iocs)) := by
  obtain ⟨h1, h2⟩ := accept_get h hp hs
  have hinv := setupDesc_inv h1
  unfold checkIocr at h2
  rw [Bool.and_eq_true] at h2
  obtain ⟨c1, _, c3⟩ := checkDescs_spec _ _ h2.2
  refine ⟨?_, ?_⟩
  · intro d hd k b hb
    have := c1 d hd
    cases k <;> simp only [Covers] at hb <;> omega
  · intro j j' d d' hj hj' k k' b hb hb'
    obtain ⟨hjl, rfl⟩ := List.getElem?_eq_some_iff.1 hj
    obtain ⟨hjl', rfl⟩ := List.getElem?_eq_some_iff.1 hj'
    rcases Nat.lt_trichotomy j j' with hlt | heq | hgt
    · exact absurd ⟨hb, hb'⟩ (overlap_covers (List.pairwise_iff_getElem.1 c3 j j' hjl hjl' hlt) k k' b)
    · subst heq
      refine ⟨rfl, ?_⟩
      have hok := hinv.2 _ (List.getElem_mem hjl)
      have hr := c1 _ (List.getElem_mem hjl)
      unfold DescOk at hok
      cases k <;> cases k' <;> simp only [Covers] at hb hb' <;> simp <;> omega
    · exact absurd ⟨hb', hb⟩ (overlap_covers (List.pairwise_iff_getElem.1 c3 j' j hjl' hjl hgt) k' k b)

/-- Each submodule has at most one descriptor per IOCR. -/
theorem C04_one_descriptor (cap : Nat) (e : Exp) (ps : List IocrParam) (ss : List Setup)
    (h : accept cap e ps = some (ss, true)) (i : Nat) (p : IocrParam) (s : Setup)
    (hp : ps[i]? = some p) (hs : ss[i]? = some s) : (s.descs.map (·.key)).Nodup :=
  (setupDesc_inv (accept_get h hp hs).1).1

/-- **C53.** The table of I/O objects (sized for all expected submodules) is never overrun,
whatever the IOCR blocks contain. -/
theorem C53_table_never_overrun (A S U : Nat) (e : Exp) (he : Bounded A S U e) (ps : List IocrParam) :
    (accept (A * S * U) e ps).isSome := by
  unfold accept
  have : ∃ rs, ps.mapM (setupDesc (A * S * U) e) = some rs := by
    induction ps with
    | nil => exact ⟨[], rfl⟩
    | cons p ps ih =>
      obtain ⟨rs, h⟩ := ih
      obtain ⟨r, hr⟩ := Option.isSome_iff_exists.1 (setupDesc_defined (p := p) he)
      exact ⟨r :: rs, by simp [hr, h]⟩
  obtain ⟨rs, h⟩ := this
  simp [h]

/-! ### The descriptors say what the request says -/

theorem combos_nodup {l : List FrameDesc} (h : combosUnique l = true) :
    (l.map fun f => (f.slot, f.subslot)).Nodup := by
  rw [List.nodup_iff_count_le_one]
  intro x
  by_cases hx : x ∈ l.map fun f => (f.slot, f.subslot)
  · obtain ⟨f, hf, rfl⟩ := List.mem_map.1 hx
    have := List.all_eq_true.1 h f hf
    simp only [beq_iff_eq] at this
    rw [List.count_eq_countP, List.countP_map, List.countP_eq_length_filter]
    refine Nat.le_of_eq (Eq.trans ?_ this)
    congr 1
  · rw [List.count_eq_zero_of_not_mem hx]; omega

theorem reqs_nodup {apis : List ApiEntry} (sel : ApiEntry → List FrameDesc)
    (hd : (apis.map (·.api)).Nodup) (hu : ∀ a ∈ apis, combosUnique (sel a) = true) :
    ((apis.flatMap fun a => (sel a).map fun f => ((⟨a.api, f.slot, f.subslot⟩, f.offset) : Req)).map (·.1)).Nodup := by
  induction apis with
  | nil => simp
  | cons a apis ih =>
    simp only [List.map_cons, List.nodup_cons] at hd
    simp only [List.flatMap_cons, List.map_append, List.nodup_append]
    refine ⟨?_, ih hd.2 (fun x hx => hu x (by simp [hx])), ?_⟩
    · have := combos_nodup (hu a (by simp))
      rw [List.map_map]
      have h2 : ((fun x : Req => x.1) ∘ fun f : FrameDesc => ((⟨a.api, f.slot, f.subslot⟩, f.offset) : Req)) =
          (fun x : Nat × Nat => (⟨a.api, x.1, x.2⟩ : Key)) ∘ fun f => (f.slot, f.subslot) := rfl
      rw [h2, ← List.map_map]
      apply List.Nodup.map _ this
      intro x y hxy
      simp at hxy
      exact Prod.ext hxy.1 hxy.2
    · intro x hx y hy hxy
      subst hxy
      simp only [List.mem_map, List.mem_flatMap] at hx hy
      obtain ⟨r, ⟨f, hf, rfl⟩, rfl⟩ := hx
      obtain ⟨r', ⟨a', ha', f', hf', rfl⟩, hk⟩ := hy
      simp at hk
      exact hd.1 (hk.1 ▸ List.mem_map_of_mem ha')

/-- Does the IOCR carry data from the device to the controller? -/
def IocrParam.isInput (p : IocrParam) : Bool := p.type == .input || p.type == .mcProvider

/-- `dd` describes the data that the submodule provides in the direction `toController` (direction 1 is input, 2 output). -/
def HasData (es : ExpSub) (toController : Bool) (dd : DataDescr) : Prop :=
  if toController then es.type ≠ .output ∧ es.descs.find? (fun x => x.dir == 1) = some dd
  else (es.type = .output ∨ es.type = .io) ∧ es.descs.find? (fun x => x.dir == 2) = some dd

/-- `dd` describes the data that the submodule receives, for which it sends a consumer status in the direction
`toController`. -/
def HasIocs (es : ExpSub) (toController : Bool) (dd : DataDescr) : Prop := HasData es (!toController) dd

theorem getDescr_iops {es : ExpSub} {b : Bool} {dd : DataDescr} : getDescr es b .iops = some dd ↔ HasData es b dd := by
  unfold getDescr calcDir HasData dirInput dirOutput
  cases b <;> cases es.type <;> simp

theorem getDescr_iocs {es : ExpSub} {b : Bool} {dd : DataDescr} : getDescr es b .iocs = some dd ↔ HasIocs es b dd := by
  unfold getDescr calcDir HasIocs HasData dirInput dirOutput
  cases b <;> cases es.type <;> simp

/-- **C04, fields as requested.** If the API numbers in an accepted IOCR are distinct, then each
submodule listed under `io_data`, if the expected configuration describes it with a data descriptor
of the right direction and no reduction flags, has its data at the requested offset with the expected
length, followed by its provider status; and each submodule listed under `iocs` has its consumer
status at the requested offset. Also `in_length`/`out_length` is the sum of all field lengths
(modulo 2^16). -/
theorem C04_fields_as_requested (cap : Nat) (e : Exp) (ps : List IocrParam) (ss : List Setup)
    (h : accept cap e ps = some (ss, true)) (i : Nat) (p : IocrParam) (s : Setup)
    (hp : ps[i]? = some p) (hs : ss[i]? = some s) (hd : (p.apis.map (·.api)).Nodup) :
    (∀ a ∈ p.apis, ∀ f ∈ a.ioData, ∀ es dd, getExpSub e a.api f.slot f.subslot = some es →
      HasData es p.isInput dd → es.discard = false → es.reduceIn = false → es.reduceOut = false →
      ∃ d ∈ s.descs, d.key = ⟨a.api, f.slot, f.subslot⟩ ∧ d.dataOff = f.offset ∧ d.dataLen = dd.dataLen ∧
        d.iopsOff = (f.offset + dd.dataLen) % 65536 ∧ d.iopsLen = dd.iopsLen) ∧
    (∀ a ∈ p.apis, ∀ f ∈ a.iocs, ∀ es dd, getExpSub e a.api f.slot f.subslot = some es →
      HasIocs es p.isInput dd → es.discard = false →
      ∃ d ∈ s.descs, d.key = ⟨a.api, f.slot, f.subslot⟩ ∧ d.iocsOff = f.offset ∧ d.iocsLen = dd.iocsLen) ∧
    (if p.isInput then s.inLen else s.outLen) % 65536 = (s.descs.map IoData.total).sum % 65536 := by
  obtain ⟨h1, h2⟩ := accept_get h hp hs
  unfold checkIocr at h2
  rw [Bool.and_eq_true, List.all_eq_true] at h2
  have hu1 : ∀ a ∈ p.apis, combosUnique a.ioData = true ∧ combosUnique a.iocs = true := by
    intro a ha
    have := h2.1 a ha
    unfold checkApi at this
    split at this
    · cases this
    · simp only [Bool.and_eq_true] at this
      exact ⟨this.1.1.1.2, this.1.2⟩
  have hio : ((ioReqs p.apis).map (·.1)).Nodup := reqs_nodup (fun a => a.ioData) hd (fun a ha => (hu1 a ha).1)
  have hcs : ((iocsReqs p.apis).map (·.1)).Nodup := reqs_nodup (fun a => a.iocs) hd (fun a ha => (hu1 a ha).2)
  unfold setupDesc at h1
  simp only [Option.bind_eq_bind, Option.bind_eq_some_iff, setupData_flat, setupIocs, setupIocs_flat] at h1
  obtain ⟨s1, e1, e2⟩ := h1
  obtain ⟨a1, a2, a3, a4, a5⟩ := data_fold (i := p.isInput) (ioReqs p.apis) ⟨[], 0, 0⟩ s1 (by simp [keys]) hio (by simp [keys])
    (by simp) (by simp [LenOk, total]) e1
  obtain ⟨b1, b2, b3, b4⟩ := iocs_fold (i := p.isInput) (iocsReqs p.apis) (s1, true) (s, true) a1 hcs
    (fun r _ d hd => a2 d (look_some hd).1) a3 e2
  refine ⟨?_, ?_, b2⟩
  · intro a ha f hf es dd hes hdd hdis hri hro
    have hr : ((⟨a.api, f.slot, f.subslot⟩, f.offset) : Req) ∈ ioReqs p.apis := by
      simp only [ioReqs, List.mem_flatMap, List.mem_map]
      exact ⟨a, ha, f, hf, rfl⟩
    have hl := a5 _ hr
    have hw : wantData e p.isInput ⟨a.api, f.slot, f.subslot⟩ = some (es, dd) := by
      simp [wantData, hes, getDescr_iops.2 hdd]
    simp only [hw, Option.map_some] at hl
    have hfin : ∃ d, look s.descs ⟨a.api, f.slot, f.subslot⟩ = some d ∧ d.dataOff = f.offset ∧
        d.dataLen = dd.dataLen ∧ d.iopsOff = (f.offset + dd.dataLen) % 65536 ∧ d.iopsLen = dd.iopsLen := by
      have hbase : ∀ d, d = fillData p.isInput es dd f.offset ⟨⟨a.api, f.slot, f.subslot⟩, 0, 0, 0, 0, 0, 0⟩ →
          d.dataOff = f.offset ∧ d.dataLen = dd.dataLen ∧ d.iopsOff = (f.offset + dd.dataLen) % 65536 ∧
          d.iopsLen = dd.iopsLen := by
        rintro d rfl
        simp [fillData, hdis, hri, hro]
      by_cases hm : (⟨a.api, f.slot, f.subslot⟩ : Key) ∈ (iocsReqs p.apis).map (·.1)
      · obtain ⟨r, hr1, hr2⟩ := List.mem_map.1 hm
        have hl2 := b4 r hr1
        rw [hr2] at hl2
        simp only [hl, Option.getD_some] at hl2
        cases hwi : wantIocs e p.isInput ⟨a.api, f.slot, f.subslot⟩ with
        | none => rw [hwi] at hl2; exact ⟨_, hl2, hbase _ rfl⟩
        | some x =>
          rw [hwi] at hl2
          refine ⟨_, hl2, ?_⟩
          have := hbase _ rfl
          unfold fillIocs
          split <;> exact this
      · have := b3 _ hm
        rw [hl] at this
        exact ⟨_, this, hbase _ rfl⟩
    obtain ⟨d, hd1, hd2⟩ := hfin
    exact ⟨d, (look_some hd1).1, (look_some hd1).2, hd2⟩
  · intro a ha f hf es dd hes hdd hdis
    have hr : ((⟨a.api, f.slot, f.subslot⟩, f.offset) : Req) ∈ iocsReqs p.apis := by
      simp only [iocsReqs, List.mem_flatMap, List.mem_map]
      exact ⟨a, ha, f, hf, rfl⟩
    have hl := b4 _ hr
    have hw : wantIocs e p.isInput ⟨a.api, f.slot, f.subslot⟩ = some (es, dd) := by
      simp [wantIocs, hes, getDescr_iocs.2 hdd]
    simp only [hw] at hl
    refine ⟨_, (look_some hl).1, (look_some hl).2, ?_⟩
    simp [fillIocs, hdis]

/-- **C04, nothing else.** Every field that occupies bytes in an accepted IOCR was asked for: data or a provider status by an
entry of `io_data` whose submodule provides data in that direction, a consumer status by an entry of `iocs` whose submodule
receives data. -/
theorem C04_only_requested (cap : Nat) (e : Exp) (ps : List IocrParam) (ss : List Setup)
    (h : accept cap e ps = some (ss, true)) (i : Nat) (p : IocrParam) (s : Setup)
    (hp : ps[i]? = some p) (hs : ss[i]? = some s) (hd : (p.apis.map (·.api)).Nodup) (d : IoData) (hds : d ∈ s.descs) :
    (0 < d.dataLen ∨ 0 < d.iopsLen → ∃ a ∈ p.apis, ∃ f ∈ a.ioData, ∃ es dd, d.key = ⟨a.api, f.slot, f.subslot⟩ ∧
      getExpSub e a.api f.slot f.subslot = some es ∧ HasData es p.isInput dd ∧ es.discard = false) ∧
    (0 < d.iocsLen → ∃ a ∈ p.apis, ∃ f ∈ a.iocs, ∃ es dd, d.key = ⟨a.api, f.slot, f.subslot⟩ ∧
      getExpSub e a.api f.slot f.subslot = some es ∧ HasIocs es p.isInput dd ∧ es.discard = false) := by
  obtain ⟨h1, h2⟩ := accept_get h hp hs
  unfold checkIocr at h2
  rw [Bool.and_eq_true, List.all_eq_true] at h2
  have hu1 : ∀ a ∈ p.apis, combosUnique a.ioData = true ∧ combosUnique a.iocs = true := by
    intro a ha
    have := h2.1 a ha
    unfold checkApi at this
    split at this
    · cases this
    · simp only [Bool.and_eq_true] at this
      exact ⟨this.1.1.1.2, this.1.2⟩
  have hio : ((ioReqs p.apis).map (·.1)).Nodup := reqs_nodup (fun a => a.ioData) hd (fun a ha => (hu1 a ha).1)
  have hcs : ((iocsReqs p.apis).map (·.1)).Nodup := reqs_nodup (fun a => a.iocs) hd (fun a ha => (hu1 a ha).2)
  unfold setupDesc at h1
  simp only [Option.bind_eq_bind, Option.bind_eq_some_iff, setupData_flat, setupIocs, setupIocs_flat] at h1
  obtain ⟨s1, e1, e2⟩ := h1
  obtain ⟨a1, a2, a3, a4, a5⟩ := data_fold (i := p.isInput) (ioReqs p.apis) ⟨[], 0, 0⟩ s1 (by simp [keys]) hio (by simp [keys])
    (by simp) (by simp [LenOk, total]) e1
  obtain ⟨b1, b2, b3, b4⟩ := iocs_fold (i := p.isInput) (iocsReqs p.apis) (s1, true) (s, true) a1 hcs
    (fun r _ d hd => a2 d (look_some hd).1) a3 e2
  have hl := look_mem b1 hds
  -- what the first pass left for this key
  have hbase : ∀ d0, look s1.descs d.key = some d0 → 0 < d0.dataLen ∨ 0 < d0.iopsLen →
      ∃ a ∈ p.apis, ∃ f ∈ a.ioData, ∃ es dd, d.key = ⟨a.api, f.slot, f.subslot⟩ ∧
      getExpSub e a.api f.slot f.subslot = some es ∧ HasData es p.isInput dd ∧ es.discard = false := by
    intro d0 h0 hpos
    by_cases hm : d.key ∈ (ioReqs p.apis).map (·.1)
    · obtain ⟨r, hr1, hr2⟩ := List.mem_map.1 hm
      have h5 := a5 r hr1
      rw [hr2, h0] at h5
      obtain ⟨x, hx, hx2⟩ := Option.map_eq_some_iff.1 h5.symm
      simp only [ioReqs, List.mem_flatMap, List.mem_map] at hr1
      obtain ⟨a, ha, f, hf, rfl⟩ := hr1
      simp only at hr2
      rw [← hr2] at hx
      unfold wantData at hx
      simp only [Option.bind_eq_bind, Option.bind_eq_some_iff] at hx
      obtain ⟨es, q1, dd, q2, q3⟩ := hx
      refine ⟨a, ha, f, hf, es, dd, hr2.symm, q1, getDescr_iops.1 q2, ?_⟩
      cases hdi : es.discard with
      | false => rfl
      | true =>
        injection q3 with q3
        rw [← hx2, ← q3] at hpos
        simp [fillData, hdi] at hpos
    · rw [a4 _ hm] at h0
      simp [look] at h0
  by_cases hm : d.key ∈ (iocsReqs p.apis).map (·.1)
  · obtain ⟨r, hr1, hr2⟩ := List.mem_map.1 hm
    have h4 := b4 r hr1
    rw [hr2] at h4
    simp only [hl] at h4
    cases hw : wantIocs e p.isInput d.key with
    | none =>
      rw [hw] at h4
      simp only at h4
      refine ⟨hbase d h4.symm, fun hpos => ?_⟩
      have := a2 d (look_some h4.symm).1
      omega
    | some x =>
      rw [hw] at h4
      simp only [Option.some.injEq] at h4
      refine ⟨fun hpos => ?_, fun hpos => ?_⟩
      · cases h0 : look s1.descs d.key with
        | none =>
          rw [h0] at h4
          rw [h4] at hpos
          unfold fillIocs at hpos
          split at hpos <;> simp at hpos
        | some d0 =>
          refine hbase d0 h0 ?_
          rw [h0] at h4
          rw [h4] at hpos
          unfold fillIocs at hpos
          split at hpos <;> simpa using hpos
      · simp only [iocsReqs, List.mem_flatMap, List.mem_map] at hr1
        obtain ⟨a, ha, f, hf, rfl⟩ := hr1
        simp only at hr2
        rw [← hr2] at hw
        unfold wantIocs at hw
        simp only [Option.bind_eq_bind, Option.bind_eq_some_iff] at hw
        obtain ⟨es, q1, dd, q2, q3⟩ := hw
        refine ⟨a, ha, f, hf, es, dd, hr2.symm, q1, getDescr_iocs.1 q2, ?_⟩
        cases hdi : es.discard with
        | false => rfl
        | true =>
          injection q3 with q3
          rw [h4, ← q3] at hpos
          simp [fillIocs, hdi] at hpos
  · have h3 := b3 _ hm
    rw [hl] at h3
    refine ⟨hbase d h3.symm, fun hpos => ?_⟩
    have := a2 d (look_some h3.symm).1
    omega

/-- If, in addition, no submodule's consumer status lies on its own data, the whole content is no
longer than the negotiated payload. -/
theorem C04_total_within_payload (cap : Nat) (e : Exp) (ps : List IocrParam) (ss : List Setup)
    (h : accept cap e ps = some (ss, true)) (i : Nat) (p : IocrParam) (s : Setup)
    (hp : ps[i]? = some p) (hs : ss[i]? = some s) (hc : p.cSdu < 65536)
    (hd : (p.apis.map (·.api)).Nodup) (hlt : s.inLen < 65536)
    (hown : ∀ d ∈ s.descs, ∀ k b, k ≠ .iocs → ¬ (Covers d k b ∧ Covers d .iocs b)) (hin : p.isInput = true) :
    s.inLen ≤ p.cSdu := by
  obtain ⟨q1, q2⟩ := C04_fields_disjoint_partial cap e ps ss h i p s hp hs hc
  obtain ⟨_, _, q3⟩ := C04_fields_as_requested cap e ps ss h i p s hp hs hd
  let fl : List (Nat × Nat) := s.descs.flatMap fun d => [(d.dataOff, d.dataLen), (d.iopsOff, d.iopsLen), (d.iocsOff, d.iocsLen)]
  have hsum : (fl.map (·.2)).sum = (s.descs.map IoData.total).sum := by
    show ((s.descs.flatMap fun d => [(d.dataOff, d.dataLen), (d.iopsOff, d.iopsLen), (d.iocsOff, d.iocsLen)]).map (·.2)).sum = _
    clear q1 q2 q3 hown hs fl h hlt
    induction s.descs with
    | nil => rfl
    | cons x xs ih => simp [IoData.total] at ih ⊢; omega
  have hle : (fl.map (·.2)).sum ≤ p.cSdu := by
    apply sum_disjoint
    · intro x hx
      obtain ⟨d, hd, hx⟩ := List.mem_flatMap.1 hx
      have c1 := q1 d hd .data (d.dataOff + d.dataLen - 1)
      have c2 := q1 d hd .iops (d.iopsOff + d.iopsLen - 1)
      have c3 := q1 d hd .iocs (d.iocsOff + d.iocsLen - 1)
      simp only [Covers] at c1 c2 c3
      simp at hx
      rcases hx with rfl | rfl | rfl <;> simp only <;> omega
    · show (s.descs.flatMap fun d => [(d.dataOff, d.dataLen), (d.iopsOff, d.iopsLen), (d.iocsOff, d.iocsLen)]).Pairwise _
      rw [List.pairwise_flatMap]
      refine ⟨?_, ?_⟩
      · intro d hd
        have o1 := fun b => hown d hd .data b (by simp)
        have o2 := fun b => hown d hd .iops b (by simp)
        obtain ⟨j, hj, rfl⟩ := List.mem_iff_getElem.1 hd
        have o3 := q2 j j _ _ (List.getElem?_eq_getElem hj) (List.getElem?_eq_getElem hj) .data .iops
        simp only [Covers] at o1 o2 o3
        simp only [List.pairwise_cons, List.mem_cons, List.not_mem_nil, or_false, forall_eq_or_imp, forall_eq]
        refine ⟨⟨fun b hb => ?_, fun b hb => o1 b ⟨hb.1, hb.2⟩⟩, fun b hb => o2 b ⟨hb.1, hb.2⟩, by simp, List.Pairwise.nil⟩
        have := (o3 b hb.1 hb.2).2
        simp at this
      · rw [List.pairwise_iff_getElem]
        intro j j' hj hj' hlt x hx y hy b hb
        have o := fun k k' => q2 j j' _ _ (List.getElem?_eq_getElem hj) (List.getElem?_eq_getElem hj') k k' b
        simp only [List.mem_cons, List.not_mem_nil, or_false] at hx hy
        have fin : ∀ k k', Covers s.descs[j] k b → Covers s.descs[j'] k' b → False := fun k k' h1 h2 => by
          have := (o k k' h1 h2).1; omega
        rcases hx with rfl | rfl | rfl <;> rcases hy with rfl | rfl | rfl
        · exact fin .data .data hb.1 hb.2
        · exact fin .data .iops hb.1 hb.2
        · exact fin .data .iocs hb.1 hb.2
        · exact fin .iops .data hb.1 hb.2
        · exact fin .iops .iops hb.1 hb.2
        · exact fin .iops .iocs hb.1 hb.2
        · exact fin .iocs .data hb.1 hb.2
        · exact fin .iocs .iops hb.1 hb.2
        · exact fin .iocs .iocs hb.1 hb.2
  simp only [hin, if_true, ← hsum] at q3
  omega

/-! ### Concrete instances -/

/-- Expected configuration: slot 0 with a submodule without I/O, slot 1 with 2 bytes in and 1 byte out. -/
def exExp : Exp := [⟨0, [⟨0, [⟨1, .noIo, false, false, false, [⟨1, 0, 1, 1⟩]⟩]⟩,
  ⟨1, [⟨1, .io, false, false, false, [⟨1, 2, 1, 1⟩, ⟨2, 1, 1, 1⟩]⟩]⟩]⟩]

/-- Input frame: IOPS of the first at 0, data of the second at 1..2, IOPS at 3, IOCS at 4. -/
def exIn : IocrParam := ⟨.input, 40, [⟨0, [⟨0, 1, 0⟩, ⟨1, 1, 1⟩], [⟨1, 1, 4⟩]⟩]⟩
def exOut : IocrParam := ⟨.output, 40, [⟨0, [⟨1, 1, 0⟩], [⟨0, 1, 2⟩, ⟨1, 1, 3⟩]⟩]⟩

/-- A sensible layout is accepted. -/
example : accept 4 exExp [exIn, exOut] = some
    ([⟨[⟨⟨0, 0, 1⟩, 0, 0, 0, 1, 0, 0⟩, ⟨⟨0, 1, 1⟩, 1, 2, 3, 1, 4, 1⟩], 5, 0⟩,
      ⟨[⟨⟨0, 1, 1⟩, 0, 1, 1, 1, 3, 1⟩, ⟨⟨0, 0, 1⟩, 0, 0, 0, 0, 2, 1⟩], 0, 4⟩], true) := by decide +kernel

example : Bounded 1 2 2 exExp := by unfold Bounded; decide

/-- An overlap between two submodules is refused. -/
example : (accept 4 exExp [⟨.input, 40, [⟨0, [⟨0, 1, 2⟩, ⟨1, 1, 1⟩], [⟨1, 1, 4⟩]⟩]⟩]).map (·.2) = some false := by
  decide +kernel

/-- **The full C04 is false**: a layout is accepted in which the consumer status of the submodule in
slot 1 lies on that submodule's own input data. -/
theorem C04_own_iocs_overlap : ∃ ps ss p s d b, accept 4 exExp ps = some (ss, true) ∧ ps[0]? = some p ∧
    ss[0]? = some s ∧ d ∈ s.descs ∧ Covers d .data b ∧ Covers d .iocs b := by
  refine ⟨[⟨.input, 40, [⟨0, [⟨0, 1, 0⟩, ⟨1, 1, 1⟩], [⟨1, 1, 2⟩]⟩]⟩],
    [⟨[⟨⟨0, 0, 1⟩, 0, 0, 0, 1, 0, 0⟩, ⟨⟨0, 1, 1⟩, 1, 2, 3, 1, 2, 1⟩], 5, 0⟩], _, _,
    ⟨⟨0, 1, 1⟩, 1, 2, 3, 1, 2, 1⟩, 2, by decide +kernel, rfl, rfl, by simp, by simp [Covers], by simp [Covers]⟩

/-- A layout with a gap is accepted, and then `in_length` (the number of bytes copied into each
sent frame) is smaller than the end of the last field. See C54. -/
theorem C04_gap_accepted : ∃ ps ss p s d, accept 4 exExp ps = some (ss, true) ∧ ps[0]? = some p ∧
    ss[0]? = some s ∧ d ∈ s.descs ∧ s.inLen < d.dataOff := by
  refine ⟨[⟨.input, 40, [⟨0, [⟨0, 1, 0⟩, ⟨1, 1, 20⟩], [⟨1, 1, 30⟩]⟩]⟩],
    [⟨[⟨⟨0, 0, 1⟩, 0, 0, 0, 1, 0, 0⟩, ⟨⟨0, 1, 1⟩, 20, 2, 22, 1, 30, 1⟩], 5, 0⟩], _, _,
    ⟨⟨0, 1, 1⟩, 20, 2, 22, 1, 30, 1⟩, by decide +kernel, rfl, rfl, by simp, by decide⟩

end Verif.Layout
