import Verif.Device.Model

/-! Lemmas about look-ups and the shape invariant of the tables. -/
set_option linter.unusedSimpArgs false
set_option linter.unusedVariables false

namespace Verif.Device

theorem getApi_updApi (d : Dev) (a : Nat) (f : Api → Api)
    (hf : ∀ x, (f x).inUse = x.inUse ∧ (f x).id = x.id) (a' : Nat) :
    getApi (updApi d a f) a' = if a' = a then (getApi d a).map f else getApi d a' := by
  unfold getApi updApi
  by_cases h : a' = a
  · subst h
    rw [if_pos rfl]
    exact find_modFirst_same _ _ _ (fun x _ hx => by
      simp only [isApi, hf] at *; exact hx)
  · rw [if_neg h]
    refine find_modFirst_other _ _ _ _ (fun x _ hx => ?_)
    simp only [isApi, hf, Bool.and_eq_true, beq_iff_eq, Bool.and_eq_false_iff,
      beq_eq_false_iff_ne] at *
    exact ⟨Or.inr (by rw [hx.2]; exact fun h' => h h'.symm),
      Or.inr (by rw [hx.2]; exact fun h' => h h'.symm)⟩

theorem getSlot_updApi_other (d : Dev) (a : Nat) (f : Api → Api)
    (hf : ∀ x, (f x).inUse = x.inUse ∧ (f x).id = x.id) (a' s : Nat) (h : a' ≠ a) :
    getSlot (updApi d a f) a' s = getSlot d a' s := by
  unfold getSlot
  rw [getApi_updApi d a f hf, if_neg h]

theorem getSlot_updSlot (d : Dev) (a s : Nat) (f : Slot → Slot)
    (hf : ∀ x, (f x).inUse = x.inUse ∧ (f x).number = x.number) (a' s' : Nat) :
    getSlot (updSlot d a s f) a' s' =
      if a' = a ∧ s' = s then (getSlot d a s).map f else getSlot d a' s' := by
  unfold updSlot
  by_cases ha : a' = a
  · subst ha
    unfold getSlot
    rw [getApi_updApi (hf := ?hf), if_pos rfl]
    case hf => intro x; exact ⟨rfl, rfl⟩
    cases hg : getApi d a' with
    | none => simp
    | some x =>
      simp only [Option.map_some, Option.bind_some, true_and]
      unfold findSlot
      by_cases hs : s' = s
      · subst hs
        rw [if_pos rfl]
        exact find_modFirst_same _ _ _ (fun y _ hy => by simp only [isSlot, hf] at *; exact hy)
      · rw [if_neg hs]
        refine find_modFirst_other _ _ _ _ (fun y _ hy => ?_)
        simp only [isSlot, hf, Bool.and_eq_true, beq_iff_eq, Bool.and_eq_false_iff,
          beq_eq_false_iff_ne] at *
        exact ⟨Or.inr (by rw [hy.2]; exact fun h' => hs h'.symm),
          Or.inr (by rw [hy.2]; exact fun h' => hs h'.symm)⟩
  · rw [if_neg (fun h => ha h.1)]
    apply getSlot_updApi_other _ _ _ _ _ _ ha
    intro x; exact ⟨rfl, rfl⟩

theorem getApi_updSlot (d : Dev) (a s : Nat) (f : Slot → Slot) (a' : Nat) :
    (getApi (updSlot d a s f) a').isSome = (getApi d a').isSome := by
  unfold updSlot
  rw [getApi_updApi (hf := ?hf)]
  case hf => intro x; exact ⟨rfl, rfl⟩
  split
  · rename_i h; subst h; simp
  · rfl

/-- Shape of the tables: sizes, and no number twice at any level. -/
structure Inv (nA nS nB : Nat) (d : Dev) : Prop where
  len : d.length = nA
  slots : ∀ x ∈ d, x.slots.length = nS
  subs : ∀ x ∈ d, ∀ y ∈ x.slots, y.subs.length = nB
  apiKeys : (keysOf Api.inUse Api.id d).Nodup
  slotKeys : ∀ x ∈ d, (keysOf Slot.inUse Slot.number x.slots).Nodup
  subKeys : ∀ x ∈ d, ∀ y ∈ x.slots, (keysOf Sub.inUse Sub.number y.subs).Nodup

/-- Shape of one API entry. -/
structure ApiOk (nS nB : Nat) (x : Api) : Prop where
  slots : x.slots.length = nS
  subs : ∀ y ∈ x.slots, y.subs.length = nB
  slotKeys : (keysOf Slot.inUse Slot.number x.slots).Nodup
  subKeys : ∀ y ∈ x.slots, (keysOf Sub.inUse Sub.number y.subs).Nodup

structure SlotOk (nB : Nat) (y : Slot) : Prop where
  subs : y.subs.length = nB
  subKeys : (keysOf Sub.inUse Sub.number y.subs).Nodup

theorem Inv.api {nA nS nB : Nat} {d : Dev} (h : Inv nA nS nB d) {x : Api} (hx : x ∈ d) :
    ApiOk nS nB x :=
  ⟨h.slots x hx, h.subs x hx, h.slotKeys x hx, h.subKeys x hx⟩

theorem Inv.of_api {nA nS nB : Nat} {d : Dev} (h1 : d.length = nA)
    (h2 : (keysOf Api.inUse Api.id d).Nodup) (h3 : ∀ x ∈ d, ApiOk nS nB x) : Inv nA nS nB d :=
  ⟨h1, fun x hx => (h3 x hx).slots, fun x hx => (h3 x hx).subs, h2,
    fun x hx => (h3 x hx).slotKeys, fun x hx => (h3 x hx).subKeys⟩

theorem ApiOk.slot {nS nB : Nat} {x : Api} (h : ApiOk nS nB x) {y : Slot} (hy : y ∈ x.slots) :
    SlotOk nB y := ⟨h.subs y hy, h.subKeys y hy⟩

theorem ApiOk.of_slot {nS nB : Nat} {x : Api} (h1 : x.slots.length = nS)
    (h2 : (keysOf Slot.inUse Slot.number x.slots).Nodup) (h3 : ∀ y ∈ x.slots, SlotOk nB y) :
    ApiOk nS nB x := ⟨h1, fun y hy => (h3 y hy).subs, h2, fun y hy => (h3 y hy).subKeys⟩

theorem Inv.getApi {nA nS nB : Nat} {d : Dev} (h : Inv nA nS nB d) {a : Nat} {x : Api}
    (hx : getApi d a = some x) : ApiOk nS nB x ∧ x.inUse = true ∧ x.id = a := by
  have h1 := List.mem_of_find?_eq_some hx
  have h2 := List.find?_some hx
  simp only [isApi, Bool.and_eq_true, beq_iff_eq] at h2
  exact ⟨h.api h1, h2⟩

theorem ApiOk.findSlot {nS nB : Nat} {x : Api} (h : ApiOk nS nB x) {s : Nat} {y : Slot}
    (hy : findSlot x s = some y) : SlotOk nB y ∧ y.inUse = true ∧ y.number = s := by
  have h1 := List.mem_of_find?_eq_some hy
  have h2 := List.find?_some hy
  simp only [isSlot, Bool.and_eq_true, beq_iff_eq] at h2
  exact ⟨h.slot h1, h2⟩

theorem Inv.getSlot {nA nS nB : Nat} {d : Dev} (h : Inv nA nS nB d) {a s : Nat} {y : Slot}
    (hy : getSlot d a s = some y) : SlotOk nB y ∧ y.inUse = true ∧ y.number = s := by
  unfold Device.getSlot at hy
  cases hx : Device.getApi d a with
  | none => simp [hx] at hy
  | some x =>
    rw [hx] at hy
    exact (h.getApi hx).1.findSlot hy

/-- A change of an API entry that keeps its shape keeps the invariant. -/
theorem Inv.updApi {nA nS nB : Nat} {d : Dev} (h : Inv nA nS nB d) (a : Nat) (f : Api → Api)
    (hf : ∀ x, (f x).inUse = x.inUse ∧ (f x).id = x.id)
    (hok : ∀ x, ApiOk nS nB x → ApiOk nS nB (f x)) : Inv nA nS nB (updApi d a f) := by
  refine Inv.of_api ?_ ?_ ?_
  · unfold Device.updApi; rw [modFirst_length]; exact h.len
  · unfold Device.updApi
    rw [keys_modFirst_same _ _ _ _ _ (fun x _ _ => hf x)]; exact h.apiKeys
  · intro x hx
    rcases mem_modFirst _ _ _ _ hx with h1 | ⟨y, hy, rfl⟩
    · exact h.api h1
    · exact hok y (h.api (List.mem_of_find?_eq_some hy))

theorem ApiOk.updSlot {nS nB : Nat} {x : Api} (h : ApiOk nS nB x) (p : Slot → Bool) (f : Slot → Slot)
    (hk : (keysOf Slot.inUse Slot.number (modFirst p f x.slots)).Nodup)
    (hok : ∀ y, SlotOk nB y → SlotOk nB (f y)) :
    ApiOk nS nB { x with slots := modFirst p f x.slots } := by
  refine ApiOk.of_slot ?_ hk ?_
  · simp only [modFirst_length]; exact h.slots
  · intro y hy
    rcases mem_modFirst _ _ _ _ hy with h1 | ⟨z, hz, rfl⟩
    · exact h.slot h1
    · exact hok z (h.slot (List.mem_of_find?_eq_some hz))

theorem Inv.updSlot {nA nS nB : Nat} {d : Dev} (h : Inv nA nS nB d) (a s : Nat) (f : Slot → Slot)
    (hf : ∀ x, (f x).inUse = x.inUse ∧ (f x).number = x.number)
    (hok : ∀ y, SlotOk nB y → SlotOk nB (f y)) : Inv nA nS nB (updSlot d a s f) := by
  refine h.updApi a _ (fun x => ⟨rfl, rfl⟩) (fun x hx => ?_)
  refine hx.updSlot _ _ ?_ hok
  rw [keys_modFirst_same _ _ _ _ _ (fun x _ _ => hf x)]; exact hx.slotKeys

theorem SlotOk.updSub {nB : Nat} {y : Slot} (h : SlotOk nB y) (p : Sub → Bool) (f : Sub → Sub)
    (hk : (keysOf Sub.inUse Sub.number (modFirst p f y.subs)).Nodup) :
    SlotOk nB { y with subs := modFirst p f y.subs } :=
  ⟨by simp only [modFirst_length]; exact h.subs, hk⟩

/-! ### Each operation keeps the shape -/

theorem notin_of_find (x : Api) (s : Nat) (h : findSlot x s = none) :
    s ∉ keysOf Slot.inUse Slot.number x.slots := by
  rw [mem_keysOf]
  rintro ⟨e, he⟩
  unfold findSlot isSlot at h
  rw [h] at he
  simp at he

theorem notin_of_findSub (y : Slot) (ss : Nat) (h : findSub y ss = none) :
    ss ∉ keysOf Sub.inUse Sub.number y.subs := by
  rw [mem_keysOf]
  rintro ⟨e, he⟩
  unfold findSub isSub at h
  rw [h] at he
  simp at he

theorem keysOf_replicate_zero (n : Nat) :
    keysOf Sub.inUse Sub.number (List.replicate n Sub.zero) = [] := by
  unfold keysOf
  simp [Sub.zero]

theorem keysOf_zero_slots (l : List Slot) :
    keysOf Slot.inUse Slot.number (l.map (fun y => Slot.zero y.subs.length)) = [] := by
  unfold keysOf
  simp [Slot.zero]

theorem slotOk_zero (n : Nat) : SlotOk n (Slot.zero n) :=
  ⟨by simp [Slot.zero], by rw [Slot.zero, keysOf_replicate_zero]; exact List.nodup_nil⟩

/-- `modFirst` with a function that depends on the entry it changes only where it matters. -/
theorem modFirst_congr {α : Type} (p : α → Bool) (f g : α → α) (l : List α)
    (h : ∀ a ∈ l, l.find? p = some a → f a = g a) : modFirst p f l = modFirst p g l := by
  induction l with
  | nil => rfl
  | cons a l ih =>
    cases hp : p a with
    | true => simp [modFirst, hp, h a (by simp) (by simp [hp])]
    | false =>
      simp only [modFirst, hp, Bool.false_eq_true, if_false]
      rw [ih (fun b hb hf => h b (by simp [hb]) (by simp [hp, hf]))]

/-- A change that depends on the entry found: it is enough that the shape is kept for it. -/
theorem Inv.updApi' {nA nS nB : Nat} {d : Dev} (h : Inv nA nS nB d) (a : Nat) (f : Api → Api)
    (hf : ∀ x, (f x).inUse = x.inUse ∧ (f x).id = x.id) (x : Api) (hx : Device.getApi d a = some x)
    (hok : ApiOk nS nB (f x)) : Inv nA nS nB (Device.updApi d a f) := by
  refine Inv.of_api ?_ ?_ ?_
  · unfold Device.updApi; rw [modFirst_length]; exact h.len
  · unfold Device.updApi
    rw [keys_modFirst_same _ _ _ _ _ (fun x _ _ => hf x)]; exact h.apiKeys
  · intro y hy
    rcases mem_modFirst _ _ _ _ hy with h1 | ⟨z, hz, rfl⟩
    · exact h.api h1
    · have : some z = some x := by rw [← hz]; exact hx
      cases this
      exact hok

theorem Inv.updSlot' {nA nS nB : Nat} {d : Dev} (h : Inv nA nS nB d) (a s : Nat) (f : Slot → Slot)
    (hf : ∀ x, (f x).inUse = x.inUse ∧ (f x).number = x.number) (y : Slot)
    (hy : Device.getSlot d a s = some y) (hok : SlotOk nB (f y)) :
    Inv nA nS nB (Device.updSlot d a s f) := by
  unfold Device.getSlot at hy
  cases hx : Device.getApi d a with
  | none => simp [hx] at hy
  | some x =>
    rw [hx] at hy
    have hxo := (h.getApi hx).1
    refine h.updApi' a _ (fun x => ⟨rfl, rfl⟩) x hx ?_
    refine ApiOk.of_slot ?_ ?_ ?_
    · simp only [modFirst_length]; exact hxo.slots
    · simp only
      rw [keys_modFirst_same _ _ _ _ _ (fun x _ _ => hf x)]; exact hxo.slotKeys
    · intro z hz
      rcases mem_modFirst _ _ _ _ hz with h1 | ⟨w, hw, rfl⟩
      · exact hxo.slot h1
      · have : some w = some y := by rw [← hw]; exact hy
        cases this
        exact hok

theorem inv_newApi {nA nS nB : Nat} {d : Dev} (h : Inv nA nS nB d) (a : Nat) :
    Inv nA nS nB (newApi d a).1 := by
  unfold newApi
  cases hg : getApi d a with
  | some x => exact h
  | none =>
    simp only
    cases hf : d.find? (fun x => !x.inUse) with
    | none => exact h
    | some x =>
      simp only
      have hn : a ∉ keysOf Api.inUse Api.id d := by
        rw [mem_keysOf]
        rintro ⟨e, he⟩
        unfold getApi isApi at hg
        rw [hg] at he
        simp at he
      refine Inv.of_api ?_ ?_ ?_
      · rw [modFirst_length]; exact h.len
      · exact (keys_modFirst_new Api.inUse Api.id _ d a (fun _ => ⟨rfl, rfl⟩) hn h.apiKeys).1
      · intro y hy
        rcases mem_modFirst _ _ _ _ hy with h1 | ⟨z, hz, rfl⟩
        · exact h.api h1
        · have hz' := h.api (List.mem_of_find?_eq_some hz)
          refine ApiOk.of_slot ?_ ?_ ?_
          · simp only [List.length_map]; exact hz'.slots
          · simp only; rw [keysOf_zero_slots]; exact List.nodup_nil
          · intro w hw
            obtain ⟨v, hv, rfl⟩ := List.mem_map.1 hw
            rw [hz'.subs v hv]
            exact slotOk_zero nB

theorem inv_newSlot {nA nS nB : Nat} {d : Dev} (h : Inv nA nS nB d) (a s ident : Nat) :
    Inv nA nS nB (newSlot d a s ident).1 := by
  unfold newSlot
  cases hg : getApi d a with
  | none => exact h
  | some x =>
    simp only
    cases hs : findSlot x s with
    | some y => exact h
    | none =>
      simp only
      cases hf : x.slots.find? (fun y => !y.inUse) with
      | none => exact h
      | some y =>
        simp only
        have hx := (h.getApi hg).1
        refine h.updApi' a _ (fun x => ⟨rfl, rfl⟩) x hg ?_
        refine hx.updSlot _ _ ?_ ?_
        · exact (keys_modFirst_new Slot.inUse Slot.number _ x.slots s (fun _ => ⟨rfl, rfl⟩)
            (notin_of_find x s hs) hx.slotKeys).1
        · intro z hz
          exact ⟨by simp [hz.subs], by simp only [keysOf_replicate_zero]; exact List.nodup_nil⟩

theorem inv_plugModule {nA nS nB : Nat} {d : Dev} (h : Inv nA nS nB d) (a s ident : Nat) :
    Inv nA nS nB (plugModule d a s ident).1 := by
  unfold plugModule
  cases hg : getApi d a with
  | none => exact h
  | some x =>
    simp only
    cases hs : findSlot x s with
    | some y => exact h
    | none => exact inv_newSlot h a s ident

theorem inv_pullSub {nA nS nB : Nat} {d : Dev} (h : Inv nA nS nB d) (a s ss : Nat) (al : Bool) :
    Inv nA nS nB (pullSub d a s ss al).1 := by
  unfold pullSub
  cases hg : getSub d a s ss with
  | none => exact h
  | some z =>
    simp only
    unfold updSub
    refine h.updSlot a s _ (fun x => ⟨rfl, rfl⟩) (fun y hy => ?_)
    refine hy.updSub _ _ ?_
    exact (keys_modFirst_drop _ _ _ _ _ (fun _ _ _ => rfl)).nodup hy.subKeys

theorem inv_newSub {nA nS nB : Nat} {d : Dev} (h : Inv nA nS nB d) (a s ss ident : Nat) (info : Info)
    (who : Option Nat) : Inv nA nS nB (newSub d a s ss ident info who).1 := by
  unfold newSub
  cases hg : getSlot d a s with
  | none => exact h
  | some x =>
    simp only
    cases hs : findSub x ss with
    | some y => exact h
    | none =>
      simp only
      cases hf : x.subs.find? (fun y => !y.inUse) with
      | none => exact h
      | some y =>
        simp only
        have hx := (h.getSlot hg).1
        refine h.updSlot' a s _ (fun x => ⟨rfl, rfl⟩) x hg ?_
        refine hx.updSub _ _ ?_
        exact (keys_modFirst_new Sub.inUse Sub.number _ x.subs ss (fun _ => ⟨rfl, rfl⟩)
            (notin_of_findSub x ss hs) hx.subKeys).1

theorem inv_plugPrepare {nA nS nB : Nat} {d : Dev} (h : Inv nA nS nB d) (a s ss m i : Nat)
    (u al : Bool) : Inv nA nS nB (plugPrepare d a s ss m i u al).1 := by
  unfold plugPrepare
  cases hg : getApi d a with
  | none => exact h
  | some x =>
    simp only
    cases hs : findSlot x s with
    | none => exact inv_plugModule h a s m
    | some y =>
      simp only
      cases hz : findSub y ss with
      | none => exact h
      | some z =>
        simp only
        split
        · exact inv_pullSub h a s ss al
        · exact h

theorem inv_plugSub {nA nS nB : Nat} {d : Dev} (h : Inv nA nS nB d) (a s ss m i : Nat) (info : Info)
    (u : Bool) (who : Option Nat) (al : Bool) :
    Inv nA nS nB (plugSub d a s ss m i info u who al).1 := by
  unfold plugSub
  have h1 := inv_plugPrepare h a s ss m i u al
  cases hp : plugPrepare d a s ss m i u al with
  | mk d1 b =>
    rw [hp] at h1
    cases b with
    | true => exact h1
    | false =>
      simp only [Bool.false_eq_true, if_false]
      exact inv_newSub h1 a s ss i info who

theorem inv_pullLoop {nA nS nB : Nat} (a s : Nat) (al : Nat → Bool) (l : List Nat) {d : Dev}
    (h : Inv nA nS nB d) : Inv nA nS nB (pullLoop a s al l d).1 := by
  induction l generalizing d with
  | nil => exact h
  | cons i rest ih =>
    unfold pullLoop
    cases hg : getSlot d a s with
    | none => exact h
    | some x =>
      simp only
      cases hy : x.subs[i]? with
      | none => exact ih h
      | some y =>
        simp only
        split
        · have h1 := inv_pullSub h a s y.number (al y.number)
          cases hp : pullSub d a s y.number (al y.number) with
          | mk d1 b =>
            rw [hp] at h1
            cases b with
            | true => exact ih h1
            | false => exact h1
        · exact ih h

theorem Inv.dropSlot {nA nS nB : Nat} {d : Dev} (h : Inv nA nS nB d) (a s : Nat) :
    Inv nA nS nB (Device.updSlot d a s (fun x => { x with inUse := false })) := by
  refine h.updApi a _ (fun x => ⟨rfl, rfl⟩) (fun x hx => ?_)
  refine hx.updSlot _ _ ?_ (fun y hy => ⟨hy.subs, hy.subKeys⟩)
  exact (keys_modFirst_drop _ _ _ _ _ (fun _ _ _ => rfl)).nodup hx.slotKeys

theorem inv_pullModule {nA nS nB : Nat} {d : Dev} (h : Inv nA nS nB d) (a s : Nat) (al : Nat → Bool) :
    Inv nA nS nB (pullModule d a s al).1 := by
  unfold pullModule
  cases hg : getSlot d a s with
  | none => exact h
  | some x =>
    simp only
    have h1 := inv_pullLoop a s al (List.range x.subs.length) h
    cases hp : pullLoop a s al (List.range x.subs.length) d with
    | mk d1 b =>
      rw [hp] at h1
      cases b with
      | true => exact h1.dropSlot a s
      | false => exact h1

theorem keysOf_map {α : Type} (u : α → Bool) (k : α → Nat) (f : α → α)
    (hf : ∀ a, u (f a) = u a ∧ k (f a) = k a) (l : List α) :
    keysOf u k (l.map f) = keysOf u k l := by
  unfold keysOf
  induction l with
  | nil => rfl
  | cons a l ih =>
    cases hu : u a <;> simp [List.filter_cons, hf a, hu, ih]

theorem inv_setOwners {nA nS nB : Nat} {d : Dev} (h : Inv nA nS nB d)
    (f : Nat → Nat → Nat → Sub → Option Nat) : Inv nA nS nB (setOwners f d) := by
  unfold setOwners
  refine Inv.of_api ?_ ?_ ?_
  · rw [List.length_map]; exact h.len
  · rw [keysOf_map (hf := ?hf)]
    case hf => intro x; exact ⟨rfl, rfl⟩
    exact h.apiKeys
  · intro x hx
    obtain ⟨w, hw, rfl⟩ := List.mem_map.1 hx
    have hw' := h.api hw
    refine ApiOk.of_slot ?_ ?_ ?_
    · simp only [List.length_map]; exact hw'.slots
    · simp only; rw [keysOf_map (hf := ?hf)]
      case hf => intro x; exact ⟨rfl, rfl⟩
      exact hw'.slotKeys
    · intro y hy
      obtain ⟨v, hv, rfl⟩ := List.mem_map.1 hy
      have hv' := hw'.slot hv
      exact ⟨by simp only [List.length_map]; exact hv'.subs,
        by
          simp only; rw [keysOf_map (hf := ?hf)]
          case hf => intro x; exact ⟨rfl, rfl⟩
          exact hv'.subKeys⟩

theorem inv_claim {nA nS nB : Nat} {d : Dev} (h : Inv nA nS nB d) (a s ss i : Nat) :
    Inv nA nS nB (claim d a s ss i) := by
  unfold claim updSub
  refine h.updSlot a s _ (fun x => ⟨rfl, rfl⟩) (fun y hy => ?_)
  refine hy.updSub _ _ ?_
  rw [keys_modFirst_same (hf := ?hf)]
  case hf => intro x _ _; split <;> exact ⟨rfl, rfl⟩
  exact hy.subKeys

theorem inv_tstep {nA nS nB : Nat} {d : Dev} (h : Inv nA nS nB d) (o : TOp) :
    Inv nA nS nB (tstep d o).1 := by
  cases o with
  | plugModule a s i => exact inv_plugModule h a s i
  | plugSub a s ss m i info who al => exact inv_plugSub h a s ss m i info false who al
  | pullSub a s ss al => exact inv_pullSub h a s ss al
  | pullModule a s al => exact inv_pullModule h a s al
  | newApi a => exact inv_newApi h a
  | claim a s ss i => exact inv_claim h a s ss i
  | own f => exact inv_setOwners h f

theorem inv_texec {nA nS nB : Nat} (os : List TOp) {d : Dev} (h : Inv nA nS nB d) :
    Inv nA nS nB (texec d os) := by
  induction os generalizing d with
  | nil => exact h
  | cons o os ih => exact ih (inv_tstep h o)

theorem inv_zero (nA nS nB : Nat) : Inv nA nS nB (List.replicate nA (Api.zero nS nB)) := by
  refine Inv.of_api (by simp) ?_ ?_
  · unfold keysOf; simp [Api.zero]
  · intro x hx
    obtain ⟨_, rfl⟩ := List.mem_replicate.1 hx
    refine ApiOk.of_slot (by simp [Api.zero]) ?_ ?_
    · unfold keysOf; simp [Api.zero, Slot.zero]
    · intro y hy
      obtain ⟨_, rfl⟩ := List.mem_replicate.1 hy
      exact slotOk_zero nB

theorem inv_dev0 (nA nS nB : Nat) : Inv nA nS nB (dev0 nA nS nB) := inv_newApi (inv_zero nA nS nB) 0

end Verif.Device
