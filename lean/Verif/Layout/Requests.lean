import Verif.Layout.Lemmas
import Mathlib.Order.Interval.Finset.Nat
/-! The descriptors compared with the request: helper lemmas. -/
set_option linter.unusedSimpArgs false
set_option linter.unusedVariables false
namespace Verif.Layout

/-- A requested field: which submodule, at which frame offset. -/
abbrev Req := Key × Nat

def ioReqs (apis : List ApiEntry) : List Req :=
  apis.flatMap fun a => a.ioData.map fun f => (⟨a.api, f.slot, f.subslot⟩, f.offset)
def iocsReqs (apis : List ApiEntry) : List Req :=
  apis.flatMap fun a => a.iocs.map fun f => (⟨a.api, f.slot, f.subslot⟩, f.offset)

def fd (r : Req) : FrameDesc := ⟨r.1.slot, r.1.subslot, r.2⟩

theorem setupData_flat {cap e i} (apis : List ApiEntry) : ∀ s,
    setupData cap e i apis s = (ioReqs apis).foldlM (fun s r => dataStep cap e i r.1.api s (fd r)) s := by
  induction apis with
  | nil => intro s; rfl
  | cons a apis ih =>
    intro s
    have h1 : setupData cap e i (a :: apis) s =
        (a.ioData.foldlM (dataStep cap e i a.api) s).bind (setupData cap e i apis) := rfl
    rw [h1]
    simp only [ioReqs, List.flatMap_cons, List.foldlM_append, List.foldlM_map]
    show _ = Option.bind _ _
    congr 1
    funext s
    exact ih s

theorem setupIocs_flat {cap e i} (apis : List ApiEntry) : ∀ s,
    apis.foldlM (fun s a => a.iocs.foldlM (iocsStep cap e i a.api) s) s =
      (iocsReqs apis).foldlM (fun s r => iocsStep cap e i r.1.api s (fd r)) s := by
  induction apis with
  | nil => intro s; rfl
  | cons a apis ih =>
    intro s
    simp only [iocsReqs, List.flatMap_cons, List.foldlM_append, List.foldlM_map, List.foldlM_cons]
    show Option.bind _ _ = Option.bind _ _
    congr 1
    funext s
    exact ih s

def IoData.total (d : IoData) : Nat := d.dataLen + d.iopsLen + d.iocsLen
def total (descs : List IoData) : Nat := (descs.map IoData.total).sum

theorem total_set (descs : List IoData) (d : IoData) : ∀ i (h : i < descs.length),
    total (descs.set i d) + descs[i].total = total descs + d.total := by
  induction descs with
  | nil => intro i h; simp at h
  | cons x xs ih =>
    intro i h
    cases i with
    | zero => simp [total]; omega
    | succ i =>
      have := ih i (by simpa using h)
      simp [total] at this ⊢
      omega

theorem place_total {cap descs k f r d} (hn : (keys descs).Nodup) (h : place cap descs k f = some (r, d)) :
    total r + ((look descs k).getD ⟨k, 0, 0, 0, 0, 0, 0⟩).total = total descs + d.total := by
  unfold place at h
  simp only at h
  split at h
  · rename_i hi
    injection h with h
    injection h with h1 h2
    have hk : (descs[List.findIdx (fun d => d.key == k) descs]).key = k := by
      have := List.findIdx_getElem (w := hi)
      simpa using this
    have hl : look descs k = some descs[List.findIdx (fun d => d.key == k) descs] := by
      have := look_mem hn (List.getElem_mem hi)
      rwa [hk] at this
    rw [hl, ← h1, ← h2]
    exact total_set _ _ _ hi
  · rename_i hi
    split at h
    · injection h with h
      injection h with h1 h2
      have hnk : k ∉ keys descs := by
        intro hh
        apply hi
        rw [List.findIdx_lt_length]
        obtain ⟨d, hd, hdk⟩ := List.mem_map.1 hh
        exact ⟨d, hd, by simpa using hdk⟩
      rw [look_none.2 hnk, ← h1, ← h2]
      simp [total, IoData.total]
    · cases h

/-- What the request says about the data and IOPS of a submodule. -/
def wantData (e : Exp) (i : Bool) (k : Key) : Option (ExpSub × DataDescr) := do
  let es ← getExpSub e k.api k.slot k.subslot
  let dd ← getDescr es i .iops
  some (es, dd)
def wantIocs (e : Exp) (i : Bool) (k : Key) : Option (ExpSub × DataDescr) := do
  let es ← getExpSub e k.api k.slot k.subslot
  let dd ← getDescr es i .iocs
  some (es, dd)

theorem dataStep_eq {cap e i s r} : dataStep cap e i r.1.api s (fd r) =
    match wantData e i r.1 with
    | none => some s
    | some (es, dd) => (place cap s.descs r.1 (fillData i es dd r.2)).map fun x =>
      ⟨x.1, if i then (s.inLen + x.2.total) % 65536 else s.inLen,
        if i then s.outLen else (s.outLen + x.2.total) % 65536⟩ := by
  unfold dataStep wantData fd
  cases h : getExpSub e r.1.api r.1.slot r.1.subslot with
  | none => simp
  | some es =>
    cases hd : getDescr es i .iops with
    | none => simp [hd]
    | some dd =>
      simp only [hd, Option.bind_eq_bind, Option.bind_some]
      cases hp : place cap s.descs ⟨r.1.api, r.1.slot, r.1.subslot⟩ (fillData i es dd r.2) with
      | none => rfl
      | some x => rfl

theorem iocsStep_eq {cap e i s r} : iocsStep cap e i r.1.api s (fd r) =
    match wantIocs e i r.1 with
    | none => some (s.1, s.2 && (getExpSub e r.1.api r.1.slot r.1.subslot).isSome)
    | some (es, dd) => (place cap s.1.descs r.1 (fillIocs es dd r.2)).map fun x =>
      (⟨x.1, if i then (s.1.inLen + x.2.iocsLen) % 65536 else s.1.inLen,
        if i then s.1.outLen else (s.1.outLen + x.2.iocsLen) % 65536⟩, s.2) := by
  unfold iocsStep wantIocs fd
  cases h : getExpSub e r.1.api r.1.slot r.1.subslot with
  | none => simp
  | some es =>
    cases hd : getDescr es i .iocs with
    | none => simp [hd]
    | some dd =>
      simp only [hd, Option.bind_eq_bind, Option.bind_some]
      cases hp : place cap s.1.descs ⟨r.1.api, r.1.slot, r.1.subslot⟩ (fillIocs es dd r.2) with
      | none => rfl
      | some x => rfl

/-- Length accounting: `in_length` (`out_length`) is the sum of all lengths, modulo 2^16. -/
def LenOk (i : Bool) (s : Setup) : Prop :=
  (if i then s.inLen else s.outLen) % 65536 = total s.descs % 65536

theorem data_fold {cap e i} (l : List Req) : ∀ s s', (keys s.descs).Nodup →
    (l.map (·.1)).Nodup → (∀ r ∈ l, r.1 ∉ keys s.descs) → (∀ d ∈ s.descs, d.iocsLen = 0) → LenOk i s →
    l.foldlM (fun s r => dataStep cap e i r.1.api s (fd r)) s = some s' →
    (keys s'.descs).Nodup ∧ (∀ d ∈ s'.descs, d.iocsLen = 0) ∧ LenOk i s' ∧
    (∀ k, k ∉ l.map (·.1) → look s'.descs k = look s.descs k) ∧
    (∀ r ∈ l, look s'.descs r.1 = (wantData e i r.1).map fun x => fillData i x.1 x.2 r.2 ⟨r.1, 0, 0, 0, 0, 0, 0⟩) := by
  induction l with
  | nil =>
    intro s s' h1 h2 h3 h4 h5 h
    simp at h
    subst h
    exact ⟨h1, h4, h5, fun _ _ => rfl, by simp⟩
  | cons r l ih =>
    intro s s' h1 h2 h3 h4 h5 h
    simp only [List.foldlM_cons, Option.bind_eq_bind, Option.bind_eq_some_iff] at h
    obtain ⟨s1, hs1, h⟩ := h
    rw [dataStep_eq] at hs1
    simp only [List.map_cons, List.nodup_cons] at h2
    have hr := h3 r (by simp)
    cases hw : wantData e i r.1 with
    | none =>
      rw [hw] at hs1
      injection hs1 with hs1
      subst hs1
      obtain ⟨a1, a2, a3, a4, a5⟩ := ih s s' h1 h2.2 (fun x hx => h3 x (by simp [hx])) h4 h5 h
      refine ⟨a1, a2, a3, fun k hk => a4 k (by simp at hk ⊢; exact hk.2), ?_⟩
      intro x hx
      rcases List.mem_cons.1 hx with rfl | hx
      · rw [a4 _ h2.1, hw, look_none.2 hr]; rfl
      · exact a5 x hx
    | some w =>
      obtain ⟨es, dd⟩ := w
      rw [hw] at hs1
      simp only [Option.map_eq_some_iff] at hs1
      obtain ⟨⟨descs, d⟩, hp, hs1⟩ := hs1
      obtain ⟨p1, p2, p3, p4, p5⟩ := place_spec fillData_key h1 hp
      have pt := place_total h1 hp
      rw [look_none.2 hr] at p2 pt
      simp only [Option.getD_none] at p2 pt
      have hb : (⟨r.1, 0, 0, 0, 0, 0, 0⟩ : IoData).total = 0 := rfl
      rw [hb, Nat.add_zero] at pt
      subst hs1
      simp only at h
      obtain ⟨a1, a2, a3, a4, a5⟩ := ih _ s' p1 h2.2 (fun x hx => by
          simp only [p5, not_or]
          exact ⟨h3 x (by simp [hx]), fun hh => h2.1 (hh ▸ List.mem_map_of_mem hx)⟩) (fun x hx => by
          simp only at hx
          have hl := look_mem p1 hx
          by_cases hk : x.key = r.1
          · rw [hk, p3] at hl
            injection hl with hl
            rw [← hl, p2]
            unfold fillData; split <;> rfl
          · rw [p4 _ hk] at hl
            exact h4 x (look_some hl).1) (by
          unfold LenOk at h5 ⊢
          simp only [pt]
          cases i <;> simp at h5 ⊢ <;> omega) h
      refine ⟨a1, a2, a3, ?_, ?_⟩
      · intro k hk
        simp at hk
        rw [a4 k (by simpa using hk.2), p4 k hk.1]
      · intro x hx
        rcases List.mem_cons.1 hx with rfl | hx
        · rw [a4 _ h2.1, hw, p3, p2]; rfl
        · exact a5 x hx

theorem iocs_fold {cap e i} (l : List Req) : ∀ s s', (keys s.1.descs).Nodup →
    (l.map (·.1)).Nodup → (∀ r ∈ l, ∀ d, look s.1.descs r.1 = some d → d.iocsLen = 0) → LenOk i s.1 →
    l.foldlM (fun s r => iocsStep cap e i r.1.api s (fd r)) s = some s' →
    (keys s'.1.descs).Nodup ∧ LenOk i s'.1 ∧
    (∀ k, k ∉ l.map (·.1) → look s'.1.descs k = look s.1.descs k) ∧
    (∀ r ∈ l, look s'.1.descs r.1 = match wantIocs e i r.1 with
      | none => look s.1.descs r.1
      | some x => some (fillIocs x.1 x.2 r.2 ((look s.1.descs r.1).getD ⟨r.1, 0, 0, 0, 0, 0, 0⟩))) := by
  induction l with
  | nil =>
    intro s s' h1 h2 h3 h5 h
    simp at h
    subst h
    exact ⟨h1, h5, fun _ _ => rfl, by simp⟩
  | cons r l ih =>
    intro s s' h1 h2 h3 h5 h
    simp only [List.foldlM_cons, Option.bind_eq_bind, Option.bind_eq_some_iff] at h
    obtain ⟨s1, hs1, h⟩ := h
    rw [iocsStep_eq] at hs1
    simp only [List.map_cons, List.nodup_cons] at h2
    cases hw : wantIocs e i r.1 with
    | none =>
      rw [hw] at hs1
      injection hs1 with hs1
      subst hs1
      obtain ⟨a1, a3, a4, a5⟩ := ih (s.1, s.2 && (getExpSub e r.1.api r.1.slot r.1.subslot).isSome) s' h1 h2.2 (fun x hx => h3 x (by simp [hx])) h5 h
      refine ⟨a1, a3, fun k hk => a4 k (by simp at hk ⊢; exact hk.2), ?_⟩
      intro x hx
      rcases List.mem_cons.1 hx with rfl | hx
      · rw [a4 _ h2.1, hw]
      · exact a5 x hx
    | some w =>
      obtain ⟨es, dd⟩ := w
      rw [hw] at hs1
      simp only [Option.map_eq_some_iff] at hs1
      obtain ⟨⟨descs, d⟩, hp, hs1⟩ := hs1
      obtain ⟨p1, p2, p3, p4, p5⟩ := place_spec fillIocs_key h1 hp
      have pt := place_total h1 hp
      have hz : ((look s.1.descs r.1).getD ⟨r.1, 0, 0, 0, 0, 0, 0⟩).iocsLen = 0 := by
        cases hl : look s.1.descs r.1 with
        | none => rfl
        | some x => exact h3 r (by simp) x hl
      have hd : d.total = d.iocsLen + ((look s.1.descs r.1).getD ⟨r.1, 0, 0, 0, 0, 0, 0⟩).total := by
        rw [p2]
        unfold IoData.total fillIocs
        split <;> simp [hz] <;> omega
      subst hs1
      simp only at h
      obtain ⟨a1, a3, a4, a5⟩ := ih _ s' p1 h2.2 (fun x hx y hy => by
          simp only at hy
          have hne : x.1 ≠ r.1 := fun hh => h2.1 (hh ▸ List.mem_map_of_mem hx)
          rw [p4 _ hne] at hy
          exact h3 x (by simp [hx]) y hy) (by
          unfold LenOk at h5 ⊢
          cases i <;> simp at h5 ⊢ <;> omega) h
      refine ⟨a1, a3, ?_, ?_⟩
      · intro k hk
        simp at hk
        rw [a4 k (by simpa using hk.2), p4 k hk.1]
      · intro x hx
        rcases List.mem_cons.1 hx with rfl | hx
        · rw [a4 _ h2.1, hw, p3, p2]
        · rw [a5 x hx]
          have hne : x.1 ≠ r.1 := fun hh => h2.1 (hh ▸ List.mem_map_of_mem hx)
          simp only [p4 _ hne]

/-! ### Capacity -/

/-- The keys of the expected configuration. -/
def expKeys (e : Exp) : List Key :=
  e.flatMap fun a => a.mods.flatMap fun m => m.subs.map fun s => ⟨a.api, m.slot, s.subslot⟩

theorem getExpSub_mem {e k es} (h : getExpSub e k.api k.slot k.subslot = some es) : k ∈ expKeys e := by
  unfold getExpSub getExpMod getExpApi at h
  simp only [Option.bind_eq_bind, Option.bind_eq_some_iff] at h
  obtain ⟨m, ⟨a, ha, hm⟩, hs⟩ := h
  have ha1 := List.mem_of_find?_eq_some ha
  have ha2 := List.find?_some ha
  have hm1 := List.mem_of_find?_eq_some hm
  have hm2 := List.find?_some hm
  have hs1 := List.mem_of_find?_eq_some hs
  have hs2 := List.find?_some hs
  simp at ha2 hm2 hs2
  simp only [expKeys, List.mem_flatMap, List.mem_map]
  exact ⟨a, ha1, m, hm1, es, hs1, by rw [ha2, hm2, hs2]⟩

/-- Sizes of the tables of expected modules. -/
def Bounded (A S U : Nat) (e : Exp) : Prop :=
  e.length ≤ A ∧ ∀ a ∈ e, a.mods.length ≤ S ∧ ∀ m ∈ a.mods, m.subs.length ≤ U

theorem sum_le {α} (l : List α) (f : α → Nat) (n : Nat) (h : ∀ a ∈ l, f a ≤ n) : (l.map f).sum ≤ l.length * n := by
  induction l with
  | nil => simp
  | cons a l ih =>
    have := ih (fun x hx => h x (by simp [hx]))
    have := h a (by simp)
    simp [Nat.add_mul]; omega

theorem expKeys_length {A S U e} (h : Bounded A S U e) : (expKeys e).length ≤ A * S * U := by
  have h1 : (expKeys e).length ≤ e.length * (S * U) := by
    simp only [expKeys, List.length_flatMap]
    apply sum_le
    intro a ha
    simp only [List.length_flatMap, List.length_map]
    have := sum_le a.mods (fun m => m.subs.length) U (fun m hm => (h.2 a ha).2 m hm)
    exact this.trans (Nat.mul_le_mul_right _ (h.2 a ha).1)
  rw [Nat.mul_assoc]
  exact h1.trans (Nat.mul_le_mul_right _ h.1)

def CapInv (e : Exp) (s : Setup) : Prop := (keys s.descs).Nodup ∧ ∀ k ∈ keys s.descs, k ∈ expKeys e

theorem cap_lt {e s k cap} (h : CapInv e s) (hk : k ∈ expKeys e) (hc : (expKeys e).length ≤ cap) :
    s.descs.length < cap ∨ k ∈ keys s.descs := by
  by_cases hm : k ∈ keys s.descs
  · exact Or.inr hm
  · left
    have hn : (k :: keys s.descs).Nodup := List.nodup_cons.2 ⟨hm, h.1⟩
    have hsub : (k :: keys s.descs) ⊆ expKeys e := by
      intro x hx
      rcases List.mem_cons.1 hx with rfl | hx
      · exact hk
      · exact h.2 x hx
    have := (List.Nodup.subperm hn hsub).length_le
    simp [keys] at this
    omega

theorem dataStep_defined {cap e i s r} (hc : (expKeys e).length ≤ cap) (h : CapInv e s) :
    ∃ s', dataStep cap e i r.1.api s (fd r) = some s' ∧ CapInv e s' := by
  rw [dataStep_eq]
  cases hw : wantData e i r.1 with
  | none => exact ⟨s, rfl, h⟩
  | some w =>
    obtain ⟨es, dd⟩ := w
    have hk : r.1 ∈ expKeys e := by
      unfold wantData at hw
      simp only [Option.bind_eq_bind, Option.bind_eq_some_iff] at hw
      obtain ⟨es', h1, _⟩ := hw
      exact getExpSub_mem h1
    have hd := place_defined (f := fillData i es dd r.2) (cap_lt h hk hc)
    obtain ⟨⟨descs, d⟩, hp⟩ := Option.isSome_iff_exists.1 hd
    obtain ⟨p1, p2, p3, p4, p5⟩ := place_spec fillData_key h.1 hp
    simp only [hp, Option.map_some]
    refine ⟨_, rfl, p1, ?_⟩
    intro k hkk
    rcases (p5 k).1 hkk with hh | rfl
    · exact h.2 k hh
    · exact hk

theorem iocsStep_defined {cap e i s r} (hc : (expKeys e).length ≤ cap) (h : CapInv e s.1) :
    ∃ s', iocsStep cap e i r.1.api s (fd r) = some s' ∧ CapInv e s'.1 := by
  rw [iocsStep_eq]
  cases hw : wantIocs e i r.1 with
  | none => exact ⟨_, rfl, h⟩
  | some w =>
    obtain ⟨es, dd⟩ := w
    have hk : r.1 ∈ expKeys e := by
      unfold wantIocs at hw
      simp only [Option.bind_eq_bind, Option.bind_eq_some_iff] at hw
      obtain ⟨es', h1, _⟩ := hw
      exact getExpSub_mem h1
    have hd := place_defined (f := fillIocs es dd r.2) (cap_lt h hk hc)
    obtain ⟨⟨descs, d⟩, hp⟩ := Option.isSome_iff_exists.1 hd
    obtain ⟨p1, p2, p3, p4, p5⟩ := place_spec fillIocs_key h.1 hp
    simp only [hp, Option.map_some]
    refine ⟨_, rfl, p1, ?_⟩
    intro k hkk
    rcases (p5 k).1 hkk with hh | rfl
    · exact h.2 k hh
    · exact hk

theorem foldlM_defined {α β} (P : β → Prop) (f : β → α → Option β) (hf : ∀ b a, P b → ∃ b', f b a = some b' ∧ P b')
    (l : List α) : ∀ b, P b → ∃ b', l.foldlM f b = some b' ∧ P b' := by
  induction l with
  | nil => intro b hb; exact ⟨b, rfl, hb⟩
  | cons a l ih =>
    intro b hb
    obtain ⟨b1, h1, h2⟩ := hf b a hb
    obtain ⟨b2, h3, h4⟩ := ih b1 h2
    exact ⟨b2, by simp [h1, h3], h4⟩

theorem setupDesc_defined {A S U e p} (h : Bounded A S U e) : (setupDesc (A * S * U) e p).isSome := by
  have hc := expKeys_length h
  unfold setupDesc
  simp only [setupData_flat]
  obtain ⟨s1, e1, hs1⟩ := foldlM_defined (CapInv e)
    (fun s (r : Req) => dataStep (A * S * U) e (p.type == .input || p.type == .mcProvider) r.1.api s (fd r))
    (fun b a hb => dataStep_defined hc hb) (ioReqs p.apis) ⟨[], 0, 0⟩ ⟨by simp [keys], by simp [keys]⟩
  obtain ⟨s2, e2, _⟩ := foldlM_defined (fun s : Setup × Bool => CapInv e s.1)
    (fun s (r : Req) => iocsStep (A * S * U) e (p.type == .input || p.type == .mcProvider) r.1.api s (fd r))
    (fun b a hb => iocsStep_defined hc hb) (iocsReqs p.apis) (s1, true) hs1
  simp only [e1, Option.bind_eq_bind, Option.bind_some, setupIocs, setupIocs_flat, e2]
  rfl

/-! ### Disjoint fields: the sum of their lengths -/

theorem sum_disjoint (n : Nat) (l : List (Nat × Nat)) (hin : ∀ x ∈ l, x.2 = 0 ∨ x.1 + x.2 ≤ n)
    (hd : l.Pairwise fun x y => ∀ b, ¬ ((x.1 ≤ b ∧ b < x.1 + x.2) ∧ (y.1 ≤ b ∧ b < y.1 + y.2))) :
    (l.map (·.2)).sum ≤ n := by
  have key : ∃ S : Finset Nat, S.card = (l.map (·.2)).sum ∧
      ∀ b, b ∈ S ↔ ∃ x ∈ l, x.1 ≤ b ∧ b < x.1 + x.2 := by
    clear hin
    induction l with
    | nil => exact ⟨∅, by simp⟩
    | cons x l ih =>
      rw [List.pairwise_cons] at hd
      obtain ⟨S, h1, h2⟩ := ih hd.2
      refine ⟨Finset.Ico x.1 (x.1 + x.2) ∪ S, ?_, ?_⟩
      · rw [Finset.card_union_of_disjoint, Nat.card_Ico, h1]
        · simp
        · rw [Finset.disjoint_left]
          intro b hb hb2
          obtain ⟨y, hy, hy2⟩ := (h2 b).1 hb2
          rw [Finset.mem_Ico] at hb
          exact hd.1 y hy b ⟨hb, hy2⟩
      · intro b
        simp [h2]
  obtain ⟨S, h1, h2⟩ := key
  rw [← h1, ← Finset.card_range n]
  apply Finset.card_le_card
  intro b hb
  obtain ⟨x, hx, hb1, hb2⟩ := (h2 b).1 hb
  rw [Finset.mem_range]
  rcases hin x hx with h | h <;> omega

end Verif.Layout
