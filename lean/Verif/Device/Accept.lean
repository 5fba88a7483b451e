import Verif.Device.ConnProps

/-!
C142: a connect request is accepted only if all that it expects is there.
-/
set_option linter.unusedSimpArgs false
set_option linter.unusedVariables false

namespace Verif.Device

/-! ## Specification -/

/-- What the numbers of an expected module must satisfy: a slot number, an ident number, at least one submodule. -/
structure ModOk (m : ExpMod) : Prop where
  slot : m.slot ≤ 0x7FFF
  ident : m.ident ≠ 0
  some : m.subs ≠ []

/-- What the number of an expected submodule must satisfy; subslots from 0x8000 belong to the device access point, which
has API 0. -/
structure SubOk (a : Nat) (u : ExpSub) : Prop where
  number : u.number ≤ 0x9FFF
  dap : 0x8000 ≤ u.number → a = 0

/-- The expected submodule is plugged and controlled by some connection: by `i`, or by the one that has controlled it
before. -/
def Controlled (before after : St) (i a s ss : Nat) : Prop :=
  ∃ j, ownerOf after a s ss = some j ∧ (j = i ∨ ownerOf before a s ss = some j ∨ getSub before.apis a s ss = none)

/-! ## The numbers of the APIs in the table -/

def apiKeys (d : Dev) : List (Bool × Nat) := d.map fun x => (x.inUse, x.id)

theorem map_modFirst {α β : Type} (g : α → β) (p : α → Bool) (f : α → α) (h : ∀ x, g (f x) = g x) (l : List α) :
    (modFirst p f l).map g = l.map g := by
  induction l with
  | nil => rfl
  | cons a l ih =>
    unfold modFirst
    split
    · simp [h]
    · simp [ih]

theorem apiKeys_updApi (d : Dev) (a : Nat) (f : Api → Api) (h : ∀ x, (f x).inUse = x.inUse ∧ (f x).id = x.id) :
    apiKeys (updApi d a f) = apiKeys d :=
  map_modFirst _ _ _ (fun x => by rw [(h x).1, (h x).2]) d

theorem apiKeys_updSlot (d : Dev) (a s : Nat) (f : Slot → Slot) : apiKeys (updSlot d a s f) = apiKeys d :=
  apiKeys_updApi _ _ _ fun _ => ⟨rfl, rfl⟩

theorem apiKeys_plugModule (d : Dev) (a s m : Nat) : apiKeys (plugModule d a s m).1 = apiKeys d := by
  unfold plugModule
  split
  · rfl
  · split
    · rfl
    · unfold newSlot
      split
      · rfl
      · split
        · rfl
        · split
          · rfl
          · exact apiKeys_updApi _ _ _ fun _ => ⟨rfl, rfl⟩

theorem apiKeys_newSub (d : Dev) (a s ss i : Nat) (info : Info) (w : Option Nat) :
    apiKeys (newSub d a s ss i info w).1 = apiKeys d := by
  unfold newSub
  split
  · rfl
  · split
    · rfl
    · split
      · rfl
      · exact apiKeys_updSlot _ _ _ _

theorem apiKeys_plug {w : Nat → Nat → Nat → Option Nat} (d : Dev) (o : AppOp) (ho : o.IsPlug) :
    apiKeys (tstep d (o.toT w)).1 = apiKeys d := by
  cases o with
  | plugModule a s m => exact apiKeys_plugModule d a s m
  | plugSub a s ss m i info al =>
    have hp : apiKeys (plugPrepare d a s ss m i false al).1 = apiKeys d := by
      unfold plugPrepare
      split
      · rfl
      · split
        · exact apiKeys_plugModule d a s m
        · split
          · rfl
          · simp only [Bool.false_eq_true, if_false]
    show apiKeys (plugSub d a s ss m i info false (w a s ss) al).1 = _
    unfold plugSub
    generalize plugPrepare d a s ss m i false al = r at *
    obtain ⟨d1, b⟩ := r
    simp only
    cases b with
    | true => exact hp
    | false => exact (apiKeys_newSub _ _ _ _ _ _ _).trans hp
  | pullSub => exact ho.elim
  | pullModule => exact ho.elim

/-- The table is full and the API is not in it. -/
def NoRoom (a : Nat) (d : Dev) : Prop := (∀ k ∈ apiKeys d, k.1 = true ∧ k.2 ≠ a)

theorem NoRoom.getApi {a : Nat} {d : Dev} (h : NoRoom a d) : getApi d a = none := by
  unfold Device.getApi
  rw [List.find?_eq_none]
  intro x hx
  have := h (x.inUse, x.id) (List.mem_map_of_mem hx)
  simp only [isApi, Bool.and_eq_true, beq_iff_eq, not_and]
  exact fun _ => this.2

theorem NoRoom.full {a : Nat} {d : Dev} (h : NoRoom a d) : d.find? (fun x => !x.inUse) = none := by
  rw [List.find?_eq_none]
  intro x hx
  have := h (x.inUse, x.id) (List.mem_map_of_mem hx)
  have h1 : x.inUse = true := this.1
  simp [h1]

theorem noRoom_of {a : Nat} {d : Dev} (h : Device.getApi d a = none) (hf : (newApi d a).2 = false) : NoRoom a d := by
  unfold newApi at hf
  rw [h] at hf
  simp only at hf
  cases hx : d.find? (fun x => !x.inUse) with
  | some x => rw [hx] at hf; cases hf
  | none =>
    intro k hk
    obtain ⟨x, hx1, rfl⟩ := List.mem_map.1 hk
    rw [List.find?_eq_none] at hx
    have h1 : x.inUse = true := by simpa using hx x hx1
    refine ⟨h1, fun he => ?_⟩
    unfold Device.getApi at h
    rw [List.find?_eq_none] at h
    have := h x hx1
    simp only [isApi, h1, Bool.true_and, beq_iff_eq] at this
    exact this he

theorem NoRoom.newApi {a : Nat} {d : Dev} (h : NoRoom a d) (b : Nat) : (Device.newApi d b).1 = d := by
  unfold Device.newApi
  cases Device.getApi d b with
  | some x => rfl
  | none => simp only [h.full]

theorem NoRoom.moves {w : Nat → Nat → Nat → Option Nat} {i a : Nat} {d d' : Dev} (h : NoRoom a d)
    (hm : Moves w i AppOp.IsPlug d d') : NoRoom a d' :=
  hm.ind (NoRoom a) (fun d o ho h => by unfold NoRoom; rw [apiKeys_plug d o ho]; exact h)
    (fun d b h => by rw [h.newApi b]; exact h)
    (fun d a' s ss h => by unfold NoRoom claim updSub; rw [apiKeys_updSlot]; exact h) h

theorem Moves.trans {w : Nat → Nat → Nat → Option Nat} {i : Nat} {Q : AppOp → Prop} {d d' d'' : Dev} (h : Moves w i Q d d')
    (h' : Moves w i Q d' d'') : Moves w i Q d d'' := by
  induction h' with
  | refl => exact h
  | app o _ hq ih => exact ih.app o hq
  | api a _ ih => exact ih.api a
  | claim a s ss _ ih => exact ih.claim a s ss

/-! ## What configuring checks -/

theorem Keeps.moves {w : Nat → Nat → Nat → Option Nat} {a s ss i k : Nat} {d d' : Dev}
    (hm : Moves w k AppOp.IsPlug d d') (h : Keeps a s ss i d) : Keeps a s ss i d' :=
  hm.ind (Keeps a s ss i) (fun d o hq hd => hd.plug d o hq) (fun d a' hd => hd.newApi d a')
    (fun d a' s' ss' hd => hd.claim d a' s' ss' _) h

/-- The submodule is plugged and has an owner. -/
def Owned (a s ss : Nat) (d : Dev) : Prop := ∃ j, Keeps a s ss j d

section
variable {w : Nat → Nat → Nat → Option Nat} {i : Nat} {rq : Request}

theorem subLoop_false (a s ai mi : Nat) (todo : List ExpSub) : ∀ (done : List ExpSub) (d : Dev),
    (subLoop w rq i a s ai mi done todo d false).2 = false := by
  induction todo with
  | nil => intro done d; rfl
  | cons e todo ih =>
    intro done d
    unfold subLoop
    simp only [Bool.false_and]
    exact ih _ _

theorem modLoop_false (a ai : Nat) (todo : List ExpMod) : ∀ (done : List ExpMod) (d : Dev),
    (modLoop w rq i a ai done todo d false).2 = false := by
  induction todo with
  | nil => intro done d; rfl
  | cons e todo ih =>
    intro done d
    unfold modLoop
    simp only [Bool.false_eq_true, if_false]
    exact ih _ _

theorem apiLoop_false (todo : List ExpApi) : ∀ (ai : Nat) (d : Dev), (apiLoop w rq i ai todo d false).2 = false := by
  induction todo with
  | nil => intro done d; rfl
  | cons e todo ih =>
    intro done d
    unfold apiLoop
    simp only [Bool.false_eq_true, if_false]
    exact ih _ _

/-- After a good result all submodules of the module have good numbers, no two the same, and are owned. -/
theorem subLoop_good (hq : rq.All AppOp.IsPlug) (a s ai mi : Nat) (todo : List ExpSub) :
    ∀ (done : List ExpSub) (d : Dev), (subLoop w rq i a s ai mi done todo d true).2 = true →
      (done.map (·.number)).Nodup →
      ((done ++ todo).map (·.number)).Nodup ∧ ∀ (k : Nat) (u : ExpSub), todo[k]? = some u →
        SubOk a u ∧ rq.subOk ai mi (done.length + k) = true ∧
        Owned a s u.number (subLoop w rq i a s ai mi done todo d true).1 := by
  induction todo with
  | nil => intro done d h hn; exact ⟨by simpa using hn, fun k u hu => by simp at hu⟩
  | cons e todo ih =>
    intro done d h hn
    unfold subLoop at h
    rw [subLoop]
    simp only [Bool.true_and] at h ⊢
    generalize (if (getSub d a s e.number).isNone = true then runApp w d (rq.subCb ai mi done.length) else d) = d1 at *
    cases hc : (!(done.any (fun z => z.number == e.number)) && decide (e.number ≤ 0x9FFF) &&
        (getSub d1 a s e.number).isSome && !(decide (0x8000 ≤ e.number) && a != 0) && rq.subOk ai mi done.length) with
    | false => rw [hc, subLoop_false] at h; cases h
    | true =>
      rw [hc] at h
      simp only [if_true] at h ⊢
      simp only [Bool.and_eq_true, Bool.not_eq_true', decide_eq_true_eq, Bool.and_eq_false_imp] at hc
      obtain ⟨⟨⟨⟨c1, c2⟩, c3⟩, c4⟩, c5⟩ := hc
      have hnew : e.number ∉ done.map (·.number) := by
        intro hm
        obtain ⟨z, hz1, hz2⟩ := List.mem_map.1 hm
        have : done.any (fun z => z.number == e.number) = true :=
          List.any_eq_true.2 ⟨z, hz1, by simp [hz2]⟩
        rw [this] at c1; cases c1
      have hn' : ((done ++ [e]).map (·.number)).Nodup := by
        rw [List.map_append, List.nodup_append]
        refine ⟨hn, by simp, ?_⟩
        intro x hx y hy
        simp at hy
        subst hy
        exact fun he => hnew (he ▸ hx)
      obtain ⟨i1, i2⟩ := ih (done ++ [e]) _ h hn'
      refine ⟨by simpa using i1, ?_⟩
      intro k u hu
      cases k with
      | zero =>
        simp at hu
        subst hu
        refine ⟨⟨c2, fun h8 => by simpa using c4 h8⟩, by simpa using c5, ?_⟩
        obtain ⟨z, hz⟩ := Option.isSome_iff_exists.1 c3
        have h0 : Owned a s e.number (claim d1 a s e.number i) := by
          cases ho : z.owner with
          | none =>
            refine ⟨i, { z with owner := some i }, ?_, rfl⟩
            rw [getSub_claim, hz]
            simp [ho]
          | some j =>
            refine ⟨j, z, ?_, ho⟩
            rw [getSub_claim, hz]
            simp [ho]
        obtain ⟨j, hj⟩ := h0
        exact ⟨j, hj.moves (subLoop_moves (i := i) hq a s ai mi todo _ _ _ _ (.refl _))⟩
      | succ k =>
        simp at hu
        obtain ⟨j1, j2, j3⟩ := i2 k u hu
        refine ⟨j1, ?_, j3⟩
        rw [List.length_append] at j2
        simpa [Nat.add_assoc, Nat.add_comm 1 k] using j2

theorem modLoop_good (hq : rq.All AppOp.IsPlug) (a ai : Nat) (todo : List ExpMod) :
    ∀ (done : List ExpMod) (d : Dev), (modLoop w rq i a ai done todo d true).2 = true →
      (done.map (·.slot)).Nodup →
      ((done ++ todo).map (·.slot)).Nodup ∧ ∀ (mi : Nat) (m : ExpMod), todo[mi]? = some m →
        ModOk m ∧ (m.subs.map (·.number)).Nodup ∧ ∀ (k : Nat) (u : ExpSub), m.subs[k]? = some u →
          SubOk a u ∧ rq.subOk ai (done.length + mi) k = true ∧
          Owned a m.slot u.number (modLoop w rq i a ai done todo d true).1 := by
  induction todo with
  | nil => intro done d h hn; exact ⟨by simpa using hn, fun k u hu => by simp at hu⟩
  | cons m todo ih =>
    intro done d h hn
    unfold modLoop at h
    rw [modLoop]
    simp only [if_true] at h ⊢
    generalize (if (getSlot d a m.slot).isNone = true then runApp w d (rq.modCb ai done.length) else d) = d1 at *
    by_cases hc : (!(done.any (fun y => y.slot == m.slot)) && decide (m.slot ≤ 0x7FFF) &&
          (getSlot d1 a m.slot).isSome && m.ident != 0 && !m.subs.isEmpty) = true
    · rw [if_pos hc] at h
      rw [if_pos hc]
      simp only [Bool.and_eq_true, Bool.not_eq_true', decide_eq_true_eq, bne_iff_ne] at hc
      obtain ⟨⟨⟨⟨c1, c2⟩, c3⟩, c4⟩, c5⟩ := hc
      have hnew : m.slot ∉ done.map (·.slot) := by
        intro hm
        obtain ⟨z, hz1, hz2⟩ := List.mem_map.1 hm
        have : done.any (fun z => z.slot == m.slot) = true :=
          List.any_eq_true.2 ⟨z, hz1, by simp [hz2]⟩
        rw [this] at c1; cases c1
      have hn' : ((done ++ [m]).map (·.slot)).Nodup := by
        rw [List.map_append, List.nodup_append]
        refine ⟨hn, by simp, ?_⟩
        intro x hx y hy
        simp at hy
        subst hy
        exact fun he => hnew (he ▸ hx)
      cases hs : (subLoop w rq i a m.slot ai done.length [] m.subs d1 true).2 with
      | false => rw [hs, modLoop_false] at h; cases h
      | true =>
        rw [hs] at h
        obtain ⟨s1, s2⟩ := subLoop_good (w := w) (i := i) hq a m.slot ai done.length m.subs [] d1 hs (by simp)
        obtain ⟨i1, i2⟩ := ih (done ++ [m]) _ h hn'
        refine ⟨by simpa using i1, ?_⟩
        intro mi m' hm'
        cases mi with
        | zero =>
          simp at hm'
          subst hm'
          refine ⟨⟨c2, c4, by intro he; rw [he] at c5; cases c5⟩, by simpa using s1, ?_⟩
          intro k u hu
          obtain ⟨t1, t2, j, t3⟩ := s2 k u hu
          exact ⟨t1, by simpa using t2, j, t3.moves (modLoop_moves (i := i) hq a ai todo _ _ _ _ (.refl _))⟩
        | succ mi =>
          simp at hm'
          obtain ⟨j1, j2, j3⟩ := i2 mi m' hm'
          refine ⟨j1, j2, ?_⟩
          intro k u hu
          obtain ⟨t1, t2, t3⟩ := j3 k u hu
          refine ⟨t1, ?_, t3⟩
          rw [List.length_append] at t2
          simpa [Nat.add_assoc, Nat.add_comm 1 mi] using t2
    · rw [if_neg hc, modLoop_false] at h
      cases h

/-- The part of the request about one API is fulfilled in the tables `d`. -/
structure ApiGood (rq : Request) (ai : Nat) (e : ExpApi) (d : Dev) : Prop where
  slots : (e.mods.map (·.slot)).Nodup
  mods : ∀ m ∈ e.mods, ModOk m ∧ (m.subs.map (·.number)).Nodup
  subs : ∀ (mi : Nat) (m : ExpMod), e.mods[mi]? = some m → ∀ (k : Nat) (u : ExpSub), m.subs[k]? = some u →
    SubOk e.api u ∧ rq.subOk ai mi k = true ∧ Owned e.api m.slot u.number d

theorem ApiGood.moves {ai : Nat} {e : ExpApi} {d d' : Dev} (h : ApiGood rq ai e d) (hm : Moves w i AppOp.IsPlug d d') :
    ApiGood rq ai e d' :=
  ⟨h.slots, h.mods, fun mi m h1 k u h2 =>
    ⟨(h.subs mi m h1 k u h2).1, (h.subs mi m h1 k u h2).2.1,
      let ⟨j, hj⟩ := (h.subs mi m h1 k u h2).2.2; ⟨j, hj.moves hm⟩⟩⟩

theorem apiLoop_good (hq : rq.All AppOp.IsPlug) (todo : List ExpApi) :
    ∀ (ai : Nat) (d : Dev), (apiLoop w rq i ai todo d true).2 = true →
      ∀ (k : Nat) (e : ExpApi), todo[k]? = some e → NoRoom e.api (apiLoop w rq i ai todo d true).1 ∨
        ApiGood rq (ai + k) e (apiLoop w rq i ai todo d true).1 := by
  induction todo with
  | nil => intro ai d h k e he; simp at he
  | cons e todo ih =>
    intro ai d h k e' he'
    unfold apiLoop at h
    rw [apiLoop]
    simp only [if_true] at h ⊢
    have hnk : (if (getApi d e.api).isSome = true then (d, true) else newApi d e.api).2 = false →
        NoRoom e.api (if (getApi d e.api).isSome = true then (d, true) else newApi d e.api).1 := by
      intro hk
      split at hk
      · cases hk
      · rename_i hs
        rw [if_neg hs]
        have h0 := noRoom_of (by simpa using hs) hk
        rw [h0.newApi]; exact h0
    generalize (if (getApi d e.api).isSome = true then (d, true) else newApi d e.api) = r at *
    obtain ⟨d1, known⟩ := r
    simp only at h ⊢ hnk
    cases known with
    | false =>
      simp only [Bool.false_eq_true, if_false] at h ⊢
      cases k with
      | zero =>
        simp at he'
        subst he'
        exact .inl ((hnk rfl).moves (apiLoop_moves (i := i) hq todo _ _ _ _ (.refl _)))
      | succ k =>
        have := ih (ai + 1) d1 h k e' (by simpa using he')
        rwa [Nat.add_assoc, Nat.add_comm 1 k] at this
    | true =>
      simp only [if_true] at h ⊢
      cases hm : (modLoop w rq i e.api ai [] e.mods d1 true).2 with
      | false => rw [hm, apiLoop_false] at h; cases h
      | true =>
        rw [hm] at h
        cases k with
        | zero =>
          simp at he'
          subst he'
          obtain ⟨m1, m2⟩ := modLoop_good (w := w) (i := i) hq e.api ai e.mods [] d1 hm (by simp)
          refine .inr (ApiGood.moves (w := w) (i := i) (d := (modLoop w rq i e.api ai [] e.mods d1 true).1) ⟨by simpa using m1, ?_, ?_⟩
            (apiLoop_moves (i := i) hq todo _ _ _ _ (.refl _)))
          · intro m hm
            obtain ⟨mi, hmi⟩ := List.mem_iff_getElem?.1 hm
            exact ⟨(m2 mi m hmi).1, (m2 mi m hmi).2.1⟩
          · intro mi m hmi k u hu
            have := (m2 mi m hmi).2.2 k u hu
            simpa using this
        | succ k =>
          have := ih (ai + 1) _ h k e' (by simpa using he')
          rwa [Nat.add_assoc, Nat.add_comm 1 k] at this

end

/-! ## Ownership of submodules that were plugged before -/

theorem plug_same {a s ss : Nat} {z : Sub} {w : Nat → Nat → Nat → Option Nat} (d : Dev) (o : AppOp)
    (ho : o.IsPlug) (h : getSub d a s ss = some z) : getSub (tstep d (o.toT w)).1 a s ss = some z := by
  have hpm : ∀ a' s' m, getSub (plugModule d a' s' m).1 a s ss = some z := by
    intro a' s' m
    unfold plugModule
    cases getApi d a' with
    | none => exact h
    | some x =>
      simp only
      cases findSlot x s' with
      | some y => exact h
      | none => rw [getSub_newSlot]; exact h
  cases o with
  | plugModule a' s' m => exact hpm a' s' m
  | plugSub a' s' ss' m i' info al =>
    have hp : getSub (plugPrepare d a' s' ss' m i' false al).1 a s ss = some z := by
      unfold plugPrepare
      cases getApi d a' with
      | none => exact h
      | some x =>
        simp only
        cases findSlot x s' with
        | none => exact hpm a' s' m
        | some y =>
          simp only
          cases findSub y ss' with
          | none => exact h
          | some z' => simp only [Bool.false_eq_true, if_false]; exact h
    show getSub (plugSub d a' s' ss' m i' info false (w a' s' ss') al).1 a s ss = some z
    unfold plugSub
    generalize plugPrepare d a' s' ss' m i' false al = r at *
    obtain ⟨d1, b⟩ := r
    simp only
    cases b with
    | true => exact hp
    | false => exact getSub_newSub hp a' s' ss' i' info (w a' s' ss')
  | pullSub => exact ho.elim
  | pullModule => exact ho.elim

/-- A free submodule stays free or is taken by `i`. -/
def FreeOr (a s ss i : Nat) (d : Dev) : Prop :=
  ∃ z, getSub d a s ss = some z ∧ (z.owner = none ∨ z.owner = some i)

theorem FreeOr.moves {w : Nat → Nat → Nat → Option Nat} {a s ss i : Nat} {d d' : Dev}
    (hm : Moves w i AppOp.IsPlug d d') (h : FreeOr a s ss i d) : FreeOr a s ss i d' := by
  refine hm.ind (FreeOr a s ss i) ?_ ?_ ?_ h
  · rintro d o ho ⟨z, hz, hzo⟩
    exact ⟨z, plug_same d o ho hz, hzo⟩
  · rintro d a' ⟨z, hz, hzo⟩
    exact ⟨z, by unfold getSub; rw [getSlot_newApi]; exact hz, hzo⟩
  · rintro d a' s' ss' ⟨z, hz, hzo⟩
    rw [FreeOr, getSub_claim, hz]
    simp only [Option.map_some]
    refine ⟨_, rfl, ?_⟩
    split
    · exact .inr rfl
    · exact hzo

/-! ## Accepted requests -/

theorem connect_accepted {n : Nat} {st : St} (h : CInv n st) (rq : Request) (hq : rq.All AppOp.IsPlug)
    (hacc : (connect st rq).2 = true) (herr : rq.errSet = true) :
    ∃ i w x, (∀ x, ¬ Live st i x) ∧ Live (connect st rq).1 i x ∧ x.uuid = rq.uuid ∧
      rq.preOk = true ∧ rq.postOk = true ∧ rq.appOk = true ∧
      (configure w rq i st.apis).2 = true ∧ Moves w i AppOp.IsPlug (configure w rq i st.apis).1 (connect st rq).1.apis := by
  unfold connect at *
  cases ha : allocAr st with
  | none => rw [ha] at hacc; cases hacc
  | some p =>
    obtain ⟨i, st1⟩ := p
    rw [ha] at hacc
    obtain ⟨hle, hi, rfl⟩ := allocAr_spec h ha
    have hlt : i < st.ars.length := by rw [h.len]; omega
    simp only at hacc ⊢
    cases hparse : rq.parseOk with
    | false => rw [hparse] at hacc; simp at hacc
    | true =>
      rw [hparse] at hacc
      simp only [if_true] at hacc ⊢
      have hset : setAr (withAr st i (allocated i n)) i (fun x =>
          { x with uuid := rq.uuid, exp := rq.exp, devAccess := rq.devAccess }) =
          withAr st i (parsed i n rq) := setAr_withAr hlt (allocated i n) _ st.apis st.eps
      rw [hset] at hacc ⊢
      cases hu : findUuid (withAr st i (parsed i n rq)) rq.uuid with
      | some j => rw [hu] at hacc; cases hacc
      | none =>
        rw [hu] at hacc
        simp only at hacc ⊢
        split at hacc
        · cases hacc
        · rename_i hx
          rw [if_neg hx]
          have hno : ∀ x, ¬ Live st i x := by
            rintro x ⟨h1, h2⟩
            rw [hi] at h1
            cases h1
            cases h2
          have hlive : ∀ (d : Dev) (e : List (Option Nat)) (f : Ar → Ar), (∀ x, (f x).inUse = x.inUse ∧ (f x).uuid = x.uuid) →
              ∃ x, Live (setAr { withAr st i (parsed i n rq) with apis := d, eps := e } i f) i x ∧ x.uuid = rq.uuid := by
            intro d e f hf
            refine ⟨f (parsed i n rq), ⟨?_, ?_⟩, ?_⟩
            · rw [setAr_withAr hlt]
              simp [withAr, hlt]
            · rw [(hf _).1]; rfl
            · rw [(hf _).2]; rfl
          have hap : (withAr st i (parsed i n rq)).apis = st.apis := rfl
          unfold cmdevConnect at hacc ⊢
          simp only [refuse, herr, if_true, hap] at hacc ⊢
          generalize who (withAr st i (parsed i n rq)).ars (withAr st i (parsed i n rq)).order = w at *
          cases hpre : rq.preOk with
          | false => rw [hpre] at hacc; simp at hacc
          | true =>
            rw [hpre] at hacc
            simp only [if_true] at hacc ⊢
            cases hcf : (configure w rq i st.apis).2 with
            | false => rw [hcf] at hacc; simp at hacc
            | true =>
              cases hpo : rq.postOk with
              | false => rw [hcf, hpo] at hacc; simp at hacc
              | true =>
                rw [hcf, hpo] at hacc
                simp only [Bool.and_self, if_true] at hacc ⊢
                cases hap : rq.appOk with
                | false => rw [hap] at hacc; simp at hacc
                | true =>
                  rw [hap] at hacc
                  simp only [if_true] at hacc ⊢
                  have hmv : Moves w i AppOp.IsPlug (configure w rq i st.apis).1
                      (runApp w (runApp w (configure w rq i st.apis).1 rq.connectCb) rq.stateCb) :=
                    runApp_moves _ (runApp_moves _ (.refl _) hq.2.2.1) hq.2.2.2
                  cases hdev : rq.devAccess with
                  | true =>
                    obtain ⟨x, hx1, hx2⟩ := hlive (runApp w (runApp w (configure w rq i st.apis).1 rq.connectCb) rq.stateCb)
                      (allocEp { withAr st i (parsed i n rq) with apis := (configure w rq i st.apis).1 } i).eps
                      (fun x => { x with phase := .data }) (fun x => ⟨rfl, rfl⟩)
                    simp only [if_true]
                    exact ⟨i, w, x, hno, hx1, hx2, trivial, trivial, trivial, hcf, hmv⟩
                  | false =>
                    rw [hdev] at hacc
                    simp only [Bool.false_eq_true, if_false] at hacc ⊢
                    cases hst : rq.startOk with
                    | false => rw [hst] at hacc; simp at hacc
                    | true =>
                      obtain ⟨x, hx1, hx2⟩ := hlive (runApp w (runApp w (configure w rq i st.apis).1 rq.connectCb) rq.stateCb)
                        (allocEp { withAr st i (parsed i n rq) with apis := (configure w rq i st.apis).1 } i).eps
                        (fun x => { x with phase := .wPeind, started := true }) (fun x => ⟨rfl, rfl⟩)
                      simp only [if_true]
                      exact ⟨i, w, x, hno, hx1, hx2, trivial, trivial, trivial, hcf, hmv⟩

/-- **C142 (partial).** After any history, let a connect request be accepted (each refusal carrying an error code, and the
application not pulling anything in its callbacks).  Then there is a new connection `i` with the name in the request; the checks
of the parameters and the application agreed; and for each expected API that the device has afterwards: no two expected modules
have the same slot, slot, ident and subslot numbers are allowed ones, no two expected submodules of a module have the same
subslot, each expected submodule passed its own checks, and it is plugged and controlled by connection `i` or by another
connection (which controlled it before, or for which it was plugged during the request).  Missing: an API that the device does
not have and cannot create is passed over, see `C142_unknown_api_accepted`. -/
theorem C142_accepted_partial (nA nS nB n : Nat) (os : List Op) (rq : Request) (hq : rq.All AppOp.IsPlug)
    (herr : rq.errSet = true) (hacc : (connect (exec (init nA nS nB n) os) rq).2 = true) :
    let st := exec (init nA nS nB n) os
    let st' := (connect st rq).1
    ∃ i x, (∀ x, ¬ Live st i x) ∧ Live st' i x ∧ x.uuid = rq.uuid ∧ rq.preOk = true ∧ rq.postOk = true ∧ rq.appOk = true ∧
      (rq.devAccess = false → rq.exp ≠ []) ∧
      ∀ (ai : Nat) (e : ExpApi), rq.exp[ai]? = some e → getApi st'.apis e.api ≠ none →
        (e.mods.map (·.slot)).Nodup ∧
        ∀ (mi : Nat) (m : ExpMod), e.mods[mi]? = some m → ModOk m ∧ (m.subs.map (·.number)).Nodup ∧
          ∀ (k : Nat) (u : ExpSub), m.subs[k]? = some u →
            SubOk e.api u ∧ rq.subOk ai mi k = true ∧ Controlled st st' i e.api m.slot u.number := by
  have hc := CInv.exec os (CInv.init nA nS nB n)
  generalize exec (init nA nS nB n) os = st at *
  intro st0 st'
  obtain ⟨i, w, x, h1, h2, h3, h4, h5, h6, h7, h8⟩ := connect_accepted hc rq hq hacc herr
  refine ⟨i, x, h1, h2, h3, h4, h5, h6, ?_, ?_⟩
  · intro hd he
    unfold configure at h7
    rw [hd, he] at h7
    simp at h7
  · intro ai e he hk
    have hm : Moves w i AppOp.IsPlug st.apis st'.apis := by
      have := configure_moves (w := w) (i := i) hq (.refl st.apis)
      exact this.trans h8
    unfold configure at h7 h8
    split at h7
    · cases h7
    · rename_i hne
      rw [if_neg hne] at h8
      rcases apiLoop_good hq rq.exp 0 st.apis h7 ai e he with hnr | hg
      · exact absurd (hnr.moves h8).getApi hk
      · rw [Nat.zero_add] at hg
        have hg' := hg.moves h8
        refine ⟨hg'.slots, fun mi m hmi => ⟨(hg'.mods m (List.mem_of_getElem? hmi)).1, (hg'.mods m (List.mem_of_getElem? hmi)).2, ?_⟩⟩
        intro k u hu
        obtain ⟨s1, s2, j, z, hz, hzo⟩ := hg'.subs mi m hmi k u hu
        refine ⟨s1, s2, j, ?_, ?_⟩
        · unfold ownerOf
          rw [hz]; exact hzo
        · cases hb : getSub st.apis e.api m.slot u.number with
          | none => exact .inr (.inr rfl)
          | some z0 =>
            cases ho : z0.owner with
            | some j0 =>
              obtain ⟨z1, hz1, hzo1⟩ := Keeps.moves hm (⟨z0, hb, ho⟩ : Keeps e.api m.slot u.number j0 st.apis)
              rw [hz] at hz1
              cases hz1
              rw [hzo] at hzo1
              cases hzo1
              refine .inr (.inl ?_)
              unfold ownerOf
              show (getSub st.apis e.api m.slot u.number).bind Sub.owner = some j
              rw [hb]; exact ho
            | none =>
              obtain ⟨z1, hz1, hzo1⟩ := FreeOr.moves hm (⟨z0, hb, .inl ho⟩ : FreeOr e.api m.slot u.number i st.apis)
              rw [hz] at hz1
              cases hz1
              rw [hzo] at hzo1
              rcases hzo1 with h | h
              · cases h
              · exact .inl (Option.some.inj h)

/-- C142 is false without the condition on the APIs: if the table of APIs is full and none of the expected APIs is in it, then
configuring succeeds whatever modules and submodules are expected in them, without a callback and without any change of the
tables. -/
theorem C142_unknown_api_accepted (w : Nat → Nat → Nat → Option Nat) (rq : Request) (i : Nat) (d : Dev)
    (hfull : ∀ x ∈ d, x.inUse = true) (hne : rq.exp ≠ []) (hno : ∀ e ∈ rq.exp, getApi d e.api = none) :
    configure w rq i d = (d, true) := by
  unfold configure
  have : rq.exp.isEmpty = false := by
    cases h : rq.exp with
    | nil => exact absurd h hne
    | cons => rfl
  rw [this]
  simp only [Bool.and_false, Bool.false_eq_true, if_false]
  have hf : d.find? (fun x => !x.inUse) = none := by
    rw [List.find?_eq_none]
    intro x hx
    simp [hfull x hx]
  have key : ∀ (l : List ExpApi) (ai : Nat), (∀ e ∈ l, getApi d e.api = none) → apiLoop w rq i ai l d true = (d, true) := by
    intro l
    induction l with
    | nil => intro ai _; rfl
    | cons e l ih =>
      intro ai hl
      have h1 : getApi d e.api = none := hl e (by simp)
      have h2 : newApi d e.api = (d, false) := by unfold newApi; simp only [h1, hf]
      unfold apiLoop
      simp only [if_true, h1, h2, Option.isSome_none, Bool.false_eq_true, if_false]
      exact ih _ fun e' he' => hl e' (by simp [he'])
  exact key rq.exp 0 hno

/-! ### Witnesses -/

/-- A device with a table for one API accepts a connection that expects a submodule in API 5, which it does not have; the submodule
is not there. -/
example : (connect (exec (init 1 2 2 2) [samplePlug]) (sampleRequest 7 [⟨5, [⟨1, 0x10, [⟨1, 0x20⟩]⟩]⟩] true)).2 = true ∧
    getSub (connect (exec (init 1 2 2 2) [samplePlug]) (sampleRequest 7 [⟨5, [⟨1, 0x10, [⟨1, 0x20⟩]⟩]⟩] true)).1.apis 5 1 1 = none := by
  decide +kernel

/-- The hypotheses of `C142_accepted_partial` are met by a request for a plugged submodule, which the new connection then controls. -/
theorem C142_example : (sampleRequest 7 sampleExp true).All AppOp.IsPlug ∧ (sampleRequest 7 sampleExp true).errSet = true ∧
    (connect (exec (init 1 2 2 2) [samplePlug]) (sampleRequest 7 sampleExp true)).2 = true ∧
    ownerOf (connect (exec (init 1 2 2 2) [samplePlug]) (sampleRequest 7 sampleExp true)).1 0 1 1 = some 0 := by
  refine ⟨⟨(fun _ _ o h => by cases h), (fun _ _ _ o h => by cases h), (fun o h => by cases h), (fun o h => by cases h)⟩, rfl, ?_, ?_⟩ <;>
    decide +kernel

/-- A request for a submodule that is not plugged, or with a subslot number above 0x9FFF, is refused. -/
example : (connect (exec (init 1 2 2 2) [samplePlug]) (sampleRequest 7 [⟨0, [⟨1, 0x10, [⟨2, 0x20⟩]⟩]⟩] true)).2 = false ∧
    (connect (exec (init 1 2 2 2) [.app (.plugSub 0 1 0xA000 0x10 0x20 ⟨1, 4, 0⟩ true)])
      (sampleRequest 7 [⟨0, [⟨1, 0x10, [⟨0xA000, 0x20⟩]⟩]⟩] true)).2 = false := by
  decide +kernel

end Verif.Device
