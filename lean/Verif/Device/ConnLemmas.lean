import Verif.Device.Conn
import Verif.Device.Slots

/-!
Invariants of the table of connections and of the ownership of submodules.
-/
set_option linter.unusedSimpArgs false
set_option linter.unusedVariables false

namespace Verif.Device

/-! ## What happens to the tables during a connect request -/

/-- `d'` results from `d` by calls of the application (all satisfying `Q`), creating APIs and taking
ownership of free submodules for connection `i`. -/
inductive Moves (w : Nat → Nat → Nat → Option Nat) (i : Nat) (Q : AppOp → Prop) : Dev → Dev → Prop
  | refl (d : Dev) : Moves w i Q d d
  | app {d d' : Dev} (o : AppOp) : Moves w i Q d d' → Q o → Moves w i Q d (tstep d' (o.toT w)).1
  | api {d d' : Dev} (a : Nat) : Moves w i Q d d' → Moves w i Q d (newApi d' a).1
  | claim {d d' : Dev} (a s ss : Nat) : Moves w i Q d d' → Moves w i Q d (claim d' a s ss i)

theorem Moves.ind {w : Nat → Nat → Nat → Option Nat} {i : Nat} {Q : AppOp → Prop} {d d' : Dev}
    (P : Dev → Prop) (h : Moves w i Q d d') (happ : ∀ d o, Q o → P d → P (tstep d (o.toT w)).1)
    (hapi : ∀ d a, P d → P (newApi d a).1) (hclaim : ∀ d a s ss, P d → P (Device.claim d a s ss i))
    (h0 : P d) : P d' := by
  induction h with
  | refl => exact h0
  | app o _ hq ih => exact happ _ _ hq ih
  | api a _ ih => exact hapi _ _ ih
  | claim a s ss _ ih => exact hclaim _ _ _ _ ih

theorem runApp_moves {w : Nat → Nat → Nat → Option Nat} {i : Nat} {Q : AppOp → Prop}
    (os : List AppOp) {d d' : Dev} (h : Moves w i Q d d') (hq : ∀ o ∈ os, Q o) :
    Moves w i Q d (runApp w d' os) := by
  induction os generalizing d' with
  | nil => exact h
  | cons o os ih =>
    exact ih (h.app o (hq o (by simp))) (fun o' ho' => hq o' (by simp [ho']))

/-- All calls made in the callbacks of a request satisfy `Q`. -/
def Request.All (Q : AppOp → Prop) (rq : Request) : Prop :=
  (∀ ai mi, ∀ o ∈ rq.modCb ai mi, Q o) ∧ (∀ ai mi k, ∀ o ∈ rq.subCb ai mi k, Q o) ∧
  (∀ o ∈ rq.connectCb, Q o) ∧ (∀ o ∈ rq.stateCb, Q o)

section
variable {w : Nat → Nat → Nat → Option Nat} {i : Nat} {Q : AppOp → Prop} {rq : Request}

theorem subLoop_moves (hq : rq.All Q) (a s ai mi : Nat) (todo : List ExpSub) :
    ∀ (done : List ExpSub) (d d' : Dev) (ok : Bool), Moves w i Q d d' →
      Moves w i Q d (subLoop w rq i a s ai mi done todo d' ok).1 := by
  induction todo with
  | nil => intro done d d' ok h; exact h
  | cons e todo ih =>
    intro done d d' ok h
    unfold subLoop
    apply ih
    have h1 : Moves w i Q d (if (getSub d' a s e.number).isNone = true then
        runApp w d' (rq.subCb ai mi done.length) else d') := by
      split
      · exact runApp_moves _ h (hq.2.1 _ _ _)
      · exact h
    generalize (if (getSub d' a s e.number).isNone = true then
        runApp w d' (rq.subCb ai mi done.length) else d') = d1 at *
    split
    · exact h1.claim a s e.number
    · exact h1

theorem modLoop_moves (hq : rq.All Q) (a ai : Nat) (todo : List ExpMod) :
    ∀ (done : List ExpMod) (d d' : Dev) (ok : Bool), Moves w i Q d d' →
      Moves w i Q d (modLoop w rq i a ai done todo d' ok).1 := by
  induction todo with
  | nil => intro done d d' ok h; exact h
  | cons m todo ih =>
    intro done d d' ok h
    unfold modLoop
    split
    · have h1 : Moves w i Q d (if (getSlot d' a m.slot).isNone = true then
          runApp w d' (rq.modCb ai done.length) else d') := by
        split
        · exact runApp_moves _ h (hq.1 _ _)
        · exact h
      generalize (if (getSlot d' a m.slot).isNone = true then
          runApp w d' (rq.modCb ai done.length) else d') = d1 at *
      simp only
      split
      · exact ih _ _ _ _ (subLoop_moves hq _ _ _ _ _ _ _ _ _ h1)
      · exact ih _ _ _ _ h1
    · exact ih _ _ _ _ h

theorem apiLoop_moves (hq : rq.All Q) (todo : List ExpApi) :
    ∀ (ai : Nat) (d d' : Dev) (ok : Bool), Moves w i Q d d' →
      Moves w i Q d (apiLoop w rq i ai todo d' ok).1 := by
  induction todo with
  | nil => intro ai d d' ok h; exact h
  | cons e todo ih =>
    intro ai d d' ok h
    unfold apiLoop
    split
    · have h1 : Moves w i Q d (if (getApi d' e.api).isSome = true then (d', true)
          else newApi d' e.api).1 := by
        split
        · exact h
        · exact h.api e.api
      generalize (if (getApi d' e.api).isSome = true then (d', true) else newApi d' e.api) = r at *
      obtain ⟨d1, known⟩ := r
      simp only
      split
      · exact ih _ _ _ _ (modLoop_moves hq _ _ _ _ _ _ _ h1)
      · exact ih _ _ _ _ h1
    · exact ih _ _ _ _ h

theorem configure_moves (hq : rq.All Q) {d d' : Dev} (h : Moves w i Q d d') :
    Moves w i Q d (configure w rq i d').1 := by
  unfold configure
  split
  · exact h
  · exact apiLoop_moves hq _ _ _ _ _ h

end

/-! ## Invariant of the table of connections -/

structure CInv (n : Nat) (st : St) : Prop where
  len : st.ars.length = n + 1
  epsLen : st.eps.length = n
  ordNodup : st.order.Nodup
  ordIff : ∀ i : Nat, i ∈ st.order ↔ i < n ∧ ∃ x, st.ars[i]? = some x ∧ x.inUse = true
  last : ∀ (i : Nat) (x : Ar), st.ars[i]? = some x → x.inUse = true → i < n ∧ x.arep = i + 1 ∧ x.phase ≠ .powerOn
  zero : ∀ (i : Nat) (x : Ar), st.ars[i]? = some x → x.inUse = false → x = Ar.zero
  uuid : ∀ (i j : Nat) (x y : Ar), st.ars[i]? = some x → st.ars[j]? = some y → x.inUse = true → y.inUse = true →
    x.uuid = y.uuid → i = j

theorem CInv.maxAr {n : Nat} {st : St} (h : CInv n st) : st.maxAr = n := by
  unfold St.maxAr; rw [h.len]; omega

/-- The AR as it is after allocation. -/
def allocated (i n : Nat) : Ar := ⟨true, if i < n then i + 1 else 0, 0, [], false, .powerOn, false⟩

/-- The state with one connection more. -/
def withAr (st : St) (i : Nat) (x : Ar) : St :=
  { st with ars := st.ars.set i x, order := if i < st.maxAr then st.order ++ [i] else st.order }

theorem allocAr_spec {n : Nat} {st : St} (h : CInv n st) {i : Nat} {st1 : St}
    (ha : allocAr st = some (i, st1)) :
    i ≤ n ∧ st.ars[i]? = some Ar.zero ∧
    st1 = withAr st i (allocated i n) := by
  unfold allocAr at ha
  cases hf : st.ars.findIdx? (fun x => !x.inUse) with
  | none => simp [hf] at ha
  | some k =>
    simp only [hf, Option.some.injEq, Prod.mk.injEq] at ha
    obtain ⟨rfl, rfl⟩ := ha
    rw [List.findIdx?_eq_some_iff_getElem] at hf
    obtain ⟨hk, hp, _⟩ := hf
    have hlen := h.len
    refine ⟨by omega, ?_, ?_⟩
    · rw [List.getElem?_eq_getElem hk]
      have := h.zero k st.ars[k] (List.getElem?_eq_getElem hk) (by simpa using hp)
      rw [this]
    · simp only [withAr, h.maxAr]; rfl

theorem release_withAr {n : Nat} {st : St} (h : CInv n st) {i : Nat} (hi : st.ars[i]? = some Ar.zero)
    (x : Ar) (hx : x.inUse = true) (ha : x.arep = if i < n then i + 1 else 0) (d : Dev)
    (e : List (Option Nat)) :
    releaseAr { withAr st i x with apis := d, eps := e } i = { st with apis := d, eps := e } := by
  have hlt : i < st.ars.length := by
    rcases Nat.lt_or_ge i st.ars.length with h1 | h1
    · exact h1
    · rw [List.getElem?_eq_none h1] at hi; simp at hi
  have hset : st.ars.set i Ar.zero = st.ars := by
    apply List.ext_getElem?
    intro j
    rw [List.getElem?_set]
    split
    · rename_i hj; subst hj; rw [hi]
    · rfl
  have hno : i ∉ st.order := by
    intro hm
    obtain ⟨_, y, hy, hu⟩ := (h.ordIff i).1 hm
    rw [hi] at hy
    cases hy
    simp [Ar.zero] at hu
  unfold releaseAr withAr
  simp only [List.getElem?_set, if_true, hlt, hx, List.set_set, hset, h.maxAr]
  rw [ha]
  by_cases hn : i < n
  · simp only [hn, if_true]
    have : (st.order ++ [i]).erase i = st.order := by
      rw [List.erase_append_right _ hno]
      simp
    simp [this]
  · simp [hn]

theorem setAr_withAr {st : St} {i : Nat} (hi : i < st.ars.length) (x : Ar) (f : Ar → Ar) (d : Dev)
    (e : List (Option Nat)) :
    setAr { withAr st i x with apis := d, eps := e } i f = { withAr st i (f x) with apis := d, eps := e } := by
  unfold setAr withAr
  simp only [St.mk.injEq, true_and, and_true]
  apply List.ext_getElem?
  intro j
  rw [List.getElem?_modify]
  simp only [List.getElem?_set]
  split
  · rename_i hj; subst hj; simp [hi]
  · simp

/-- Adding a connection with an unused UUID keeps the invariant. -/
theorem CInv.withAr {n : Nat} {st : St} (h : CInv n st) {i : Nat} (hn : i < n)
    (hi : st.ars[i]? = some Ar.zero) (x : Ar) (hx : x.inUse = true) (ha : x.arep = i + 1)
    (hp : x.phase ≠ .powerOn)
    (hu : ∀ (j : Nat) (y : Ar), st.ars[j]? = some y → y.inUse = true → y.uuid ≠ x.uuid) (d : Dev)
    (e : List (Option Nat)) (he : e.length = n) :
    CInv n { withAr st i x with apis := d, eps := e } := by
  have hlt : i < st.ars.length := by rw [h.len]; omega
  have hno : i ∉ st.order := by
    intro hm
    obtain ⟨_, y, hy, hu⟩ := (h.ordIff i).1 hm
    rw [hi] at hy
    cases hy
    simp [Ar.zero] at hu
  have hget : ∀ j y, (st.ars.set i x)[j]? = some y → (j = i ∧ y = x) ∨ (j ≠ i ∧ st.ars[j]? = some y) := by
    intro j y hy
    rw [List.getElem?_set] at hy
    split at hy
    · rename_i hj
      left
      simp [hlt] at hy
      exact ⟨hj.symm, hy.symm⟩
    · rename_i hj
      right
      exact ⟨fun h => hj h.symm, hy⟩
  constructor
  · simp [Device.withAr, h.len]
  · exact he
  · simp only [Device.withAr, h.maxAr, hn, if_true]
    rw [List.nodup_append]
    refine ⟨h.ordNodup, by simp, fun a hmem b hb => ?_⟩
    simp only [List.mem_singleton] at hb
    subst hb
    intro hab
    subst hab
    exact hno hmem
  · intro j
    simp only [Device.withAr, h.maxAr, hn, if_true, List.mem_append, List.mem_singleton]
    constructor
    · rintro (hj | rfl)
      · obtain ⟨h1, y, h2, h3⟩ := (h.ordIff j).1 hj
        refine ⟨h1, y, ?_, h3⟩
        rw [List.getElem?_set, if_neg (fun (hh : i = j) => hno (by rw [hh]; exact hj))]
        exact h2
      · exact ⟨hn, x, by simp [hlt], hx⟩
    · rintro ⟨h1, y, h2, h3⟩
      rcases hget j y h2 with ⟨rfl, _⟩ | ⟨_, h4⟩
      · right; rfl
      · left; exact (h.ordIff j).2 ⟨h1, y, h4, h3⟩
  · intro j y hy hu'
    rcases hget j y hy with ⟨rfl, rfl⟩ | ⟨_, h4⟩
    · exact ⟨hn, ha, hp⟩
    · exact h.last j y h4 hu'
  · intro j y hy hu'
    rcases hget j y hy with ⟨rfl, rfl⟩ | ⟨_, h4⟩
    · rw [hx] at hu'; simp at hu'
    · exact h.zero j y h4 hu'
  · intro j k y z hy hz hyu hzu hyz
    rcases hget j y hy with ⟨rfl, rfl⟩ | ⟨_, h4⟩ <;> rcases hget k z hz with ⟨rfl, rfl⟩ | ⟨_, h5⟩
    · rfl
    · exact absurd hyz.symm (hu k z h5 hzu)
    · exact absurd hyz (hu j y h4 hyu)
    · exact h.uuid j k y z h4 h5 hyu hzu hyz

theorem CInv.congr {n : Nat} {st : St} (h : CInv n st) (d : Dev) (e : List (Option Nat))
    (he : e.length = n) : CInv n { st with apis := d, eps := e } :=
  ⟨h.len, he, h.ordNodup, h.ordIff, h.last, h.zero, h.uuid⟩

theorem CInv.release {n : Nat} {st : St} (h : CInv n st) {i : Nat} {x : Ar}
    (hi : st.ars[i]? = some x) (hx : x.inUse = true) :
    CInv n (releaseAr st i) ∧ (releaseAr st i).order = st.order.erase i ∧
    (releaseAr st i).ars = st.ars.set i Ar.zero ∧ (releaseAr st i).apis = st.apis ∧
    (releaseAr st i).eps = st.eps := by
  obtain ⟨hn, ha, hp⟩ := h.last i x hi hx
  have hlt : i < st.ars.length := by rw [h.len]; omega
  have hr : releaseAr st i = { st with ars := st.ars.set i Ar.zero, order := st.order.erase i } := by
    unfold releaseAr
    simp [hi, hx, ha]
  rw [hr]
  refine ⟨?_, rfl, rfl, rfl, rfl⟩
  have hget : ∀ j y, (st.ars.set i Ar.zero)[j]? = some y →
      (j = i ∧ y = Ar.zero) ∨ (j ≠ i ∧ st.ars[j]? = some y) := by
    intro j y hy
    rw [List.getElem?_set] at hy
    split at hy
    · rename_i hj
      left
      simp [hlt] at hy
      exact ⟨hj.symm, hy.symm⟩
    · rename_i hj
      right
      exact ⟨fun h => hj h.symm, hy⟩
  constructor
  · simp [h.len]
  · exact h.epsLen
  · exact h.ordNodup.erase i
  · intro j
    simp only
    rw [h.ordNodup.mem_erase_iff]
    constructor
    · rintro ⟨hj, hm⟩
      obtain ⟨h1, y, h2, h3⟩ := (h.ordIff j).1 hm
      exact ⟨h1, y, by rw [List.getElem?_set, if_neg (fun hh => hj hh.symm)]; exact h2, h3⟩
    · rintro ⟨h1, y, h2, h3⟩
      rcases hget j y h2 with ⟨rfl, rfl⟩ | ⟨h4, h5⟩
      · simp [Ar.zero] at h3
      · exact ⟨h4, (h.ordIff j).2 ⟨h1, y, h5, h3⟩⟩
  · intro j y hy hu'
    rcases hget j y hy with ⟨rfl, rfl⟩ | ⟨_, h4⟩
    · simp [Ar.zero] at hu'
    · exact h.last j y h4 hu'
  · intro j y hy hu'
    rcases hget j y hy with ⟨rfl, rfl⟩ | ⟨_, h4⟩
    · rfl
    · exact h.zero j y h4 hu'
  · intro j k y z hy hz hyu hzu hyz
    rcases hget j y hy with ⟨rfl, rfl⟩ | ⟨_, h4⟩ <;> rcases hget k z hz with ⟨rfl, rfl⟩ | ⟨_, h5⟩
    · rfl
    · simp [Ar.zero] at hyu
    · simp [Ar.zero] at hzu
    · exact h.uuid j k y z h4 h5 hyu hzu hyz

/-- What ending a connection does. -/
theorem abortAr_spec {n : Nat} {st : St} (h : CInv n st) (i : Nat) (cb : List AppOp) :
    (abortAr st i cb = st ∧ i ∉ st.order) ∨
    ∃ x e, st.ars[i]? = some x ∧ x.inUse = true ∧ e.length = n ∧
      (x.started = false → e = st.eps) ∧
      (x.started = true → e = modFirst (fun e => e == some i) (fun _ => none) st.eps) ∧
      abortAr st i cb =
        { apis := setOwners (fun a s ss z => if z.owner = some i then
              who (st.ars.set i Ar.zero) (st.order.erase i) a s ss else z.owner)
            (runApp (who st.ars st.order) st.apis cb)
          ars := st.ars.set i Ar.zero, order := st.order.erase i, eps := e } ∧
      CInv n (abortAr st i cb) := by
  unfold abortAr
  cases hi : st.ars[i]? with
  | none =>
    left
    refine ⟨rfl, fun hm => ?_⟩
    obtain ⟨_, y, hy, _⟩ := (h.ordIff i).1 hm
    rw [hi] at hy; simp at hy
  | some x =>
    simp only
    by_cases hx : x.inUse = true
    · right
      rw [if_pos hx]
      have key : ∀ e : List (Option Nat), e.length = n → ∀ d,
          deviceClear (releaseAr { st with apis := d, eps := e } i) i =
          { apis := setOwners (fun a s ss z => if z.owner = some i then
              who (st.ars.set i Ar.zero) (st.order.erase i) a s ss else z.owner) d
            ars := st.ars.set i Ar.zero, order := st.order.erase i, eps := e } ∧
          CInv n (deviceClear (releaseAr { st with apis := d, eps := e } i) i) := by
        intro e he d
        obtain ⟨r1, r2, r3, r4, r5⟩ := (h.congr d e he).release (i := i) hi hx
        constructor
        · unfold deviceClear
          rw [r2, r3, r4]
          cases hr : releaseAr { st with apis := d, eps := e } i with
          | mk q1 q2 q3 q4 =>
            rw [hr] at r2 r3 r4 r5
            simp only at r2 r3 r4 r5
            simp only [r2, r3, r4, r5]
        · unfold deviceClear
          exact r1.congr _ _ r1.epsLen
      by_cases hs : x.started = true
      · have he : (modFirst (fun e => e == some i) (fun _ => none) st.eps).length = n := by
          rw [modFirst_length]; exact h.epsLen
        obtain ⟨k1, k2⟩ := key _ he (runApp (who st.ars st.order) st.apis cb)
        refine ⟨x, _, rfl, hx, he, fun hh => by rw [hs] at hh; simp at hh, fun _ => rfl, ?_, ?_⟩
        · simp only [hs, if_true]
          exact k1
        · simp only [hs, if_true]
          exact k2
      · obtain ⟨k1, k2⟩ := key _ h.epsLen (runApp (who st.ars st.order) st.apis cb)
        refine ⟨x, _, rfl, hx, h.epsLen, fun _ => rfl, fun hh => absurd hh hs, ?_, ?_⟩
        · simp only [hs, if_false, Bool.false_eq_true]
          exact k1
        · simp only [hs, if_false, Bool.false_eq_true]
          exact k2
    · left
      rw [if_neg hx]
      refine ⟨rfl, fun hm => ?_⟩
      obtain ⟨_, y, hy, hu⟩ := (h.ordIff i).1 hm
      rw [hi] at hy
      cases hy
      exact hx hu

theorem CInv.abort {n : Nat} {st : St} (h : CInv n st) (i : Nat) (cb : List AppOp) :
    CInv n (abortAr st i cb) := by
  rcases abortAr_spec h i cb with ⟨h1, _⟩ | ⟨x, e, _, _, _, _, _, _, h1⟩
  · rw [h1]; exact h
  · exact h1

theorem cmAbort_cases (st : St) (i : Nat) (cb : List AppOp) :
    cmAbort st i cb = st ∨ cmAbort st i cb = abortAr st i cb := by
  unfold cmAbort
  cases hi : st.ars[i]? with
  | none => left; rfl
  | some x => simp only; split <;> simp

theorem findIdx_congr {α : Type} (p : α → Bool) (l : List α) (i : Nat) (x y : α)
    (hy : l[i]? = some y) (h1 : p x = false) (h2 : p y = false) :
    (l.set i x).findIdx? p = l.findIdx? p := by
  induction l generalizing i with
  | nil => simp at hy
  | cons a l ih =>
    cases i with
    | zero =>
      simp only [List.getElem?_cons_zero, Option.some.injEq] at hy
      subst hy
      simp [List.findIdx?_cons, h1, h2]
    | succ i =>
      simp only [List.getElem?_cons_succ] at hy
      simp only [List.set_cons_succ, List.findIdx?_cons]
      rw [ih i hy]

theorem findUuid_withAr {n : Nat} {st : St} {i : Nat} (hi : st.ars[i]? = some Ar.zero) (x : Ar)
    (hp : x.phase = .powerOn) (u : Nat) : findUuid (withAr st i x) u = findUuid st u := by
  unfold findUuid withAr
  simp only
  apply findIdx_congr _ _ _ _ _ hi
  · simp [hp]
  · simp [Ar.zero]

theorem findUuid_none {st : St} {u : Nat} (h : findUuid st u = none) {n : Nat} (hc : CInv n st)
    (j : Nat) (y : Ar) (hy : st.ars[j]? = some y) (hu : y.inUse = true) : y.uuid ≠ u := by
  unfold findUuid at h
  rw [List.findIdx?_eq_none_iff] at h
  have h1 := h y (List.mem_of_getElem? hy)
  have h2 := (hc.last j y hy hu).2.2
  simp only [hu, Bool.true_and, Bool.and_eq_false_iff, bne_eq_false_iff_eq, beq_eq_false_iff_ne] at h1
  rcases h1 with h1 | h1
  · exact absurd h1 h2
  · exact h1

/-! ## Outcome of a connect request -/

/-- The AR as it is after parsing. -/
def parsed (i n : Nat) (rq : Request) : Ar :=
  ⟨true, if i < n then i + 1 else 0, rq.uuid, rq.exp, rq.devAccess, .powerOn, false⟩

theorem who_congr (st : St) (i : Nat) (hi : i < st.ars.length) (x y : Ar) (h : x.exp = y.exp) :
    who (withAr st i x).ars (withAr st i x).order = who (withAr st i y).ars (withAr st i y).order := by
  funext a s ss
  unfold who withAr
  simp only
  congr 1
  funext j
  simp only [List.getElem?_set]
  split
  · rename_i hj; subst hj; simp [hi, h]
  · rfl

/-- All outcomes of a connect request. -/
inductive Outcome (n : Nat) (st : St) (rq : Request) (Q : AppOp → Prop) : St × Bool → Prop
  /-- Refused before the expected configuration was looked at. -/
  | early : (rq.parseOk = false ∨ rq.preOk = false ∨ (∀ i < n, i ∈ st.order)) →
      Outcome n st rq Q (st, false)
  /-- The UUID is in use: refused, the old connection is ended. -/
  | dup (j : Nat) : findUuid st rq.uuid = some j → rq.parseOk = true →
      Outcome n st rq Q (cmAbort st j rq.stateCb, false)
  /-- Refused later. -/
  | late (i : Nat) (d : Dev) (e : List (Option Nat)) : i < n → st.ars[i]? = some Ar.zero →
      rq.parseOk = true → rq.preOk = true → findUuid st rq.uuid = none →
      Moves (who (withAr st i (parsed i n rq)).ars (withAr st i (parsed i n rq)).order) i Q st.apis d →
      (e = st.eps ∨ e = modFirst (fun e => e.isNone) (fun _ => some i) st.eps) →
      Outcome n st rq Q ({ st with apis := d, eps := e }, false)
  /-- Accepted. -/
  | ok (i : Nat) (x : Ar) (d : Dev) (e : List (Option Nat)) : i < n → st.ars[i]? = some Ar.zero →
      rq.parseOk = true → findUuid st rq.uuid = none →
      Moves (who (withAr st i (parsed i n rq)).ars (withAr st i (parsed i n rq)).order) i Q st.apis d →
      (e = st.eps ∨ e = modFirst (fun e => e.isNone) (fun _ => some i) st.eps) →
      x.inUse = true → x.arep = i + 1 → x.uuid = rq.uuid → x.exp = rq.exp →
      x.devAccess = rq.devAccess → x.phase ≠ .powerOn →
      Outcome n st rq Q ({ withAr st i x with apis := d, eps := e }, true)

theorem refuse_outcome {n : Nat} {st : St} (h : CInv n st) (rq : Request) (Q : AppOp → Prop) {i : Nat}
    (hn : i < n) (hi : st.ars[i]? = some Ar.zero) (hparse : rq.parseOk = true)
    (hu : findUuid st rq.uuid = none) (d : Dev) (e : List (Option Nat)) (x : Ar)
    (hx : x.inUse = true) (ha : x.arep = i + 1) (hxu : x.uuid = rq.uuid) (hxe : x.exp = rq.exp)
    (hxd : x.devAccess = rq.devAccess)
    (hm : Moves (who (withAr st i (parsed i n rq)).ars (withAr st i (parsed i n rq)).order) i Q
      st.apis d)
    (he : e = st.eps ∨ e = modFirst (fun e => e.isNone) (fun _ => some i) st.eps) (err : Bool)
    (hpre : rq.preOk = true ∨ (d = st.apis ∧ e = st.eps ∧ rq.preOk = false)) :
    Outcome n st rq Q (refuse { withAr st i x with apis := d, eps := e } i err) := by
  have hlt : i < st.ars.length := by rw [h.len]; omega
  unfold refuse
  cases err with
  | true =>
    simp only [if_true]
    rw [release_withAr h hi x hx (by simp [hn, ha]) d e]
    rcases hpre with hpre | ⟨rfl, rfl, hpre⟩
    · exact .late i d e hn hi hparse hpre hu hm he
    · exact .early (Or.inr (Or.inl hpre))
  | false =>
    simp only [Bool.false_eq_true, if_false]
    rw [setAr_withAr hlt]
    exact .ok i _ d e hn hi hparse hu hm he hx ha hxu hxe hxd (by simp)

theorem connect_outcome {n : Nat} {st : St} (h : CInv n st) (rq : Request) (Q : AppOp → Prop)
    (hq : rq.All Q) : Outcome n st rq Q (connect st rq) := by
  unfold connect
  cases ha : allocAr st with
  | none =>
    refine .early (Or.inr (Or.inr ?_))
    intro i hi
    unfold allocAr at ha
    cases hf : st.ars.findIdx? (fun x => !x.inUse) with
    | some k => simp [hf] at ha
    | none =>
      rw [List.findIdx?_eq_none_iff] at hf
      have hlt : i < st.ars.length := by rw [h.len]; omega
      exact (h.ordIff i).2 ⟨hi, _, List.getElem?_eq_getElem hlt,
        by simpa using hf _ (List.getElem_mem hlt)⟩
  | some p =>
    obtain ⟨i, st1⟩ := p
    obtain ⟨hle, hi, rfl⟩ := allocAr_spec h ha
    have hlt : i < st.ars.length := by rw [h.len]; omega
    simp only
    have hw : ∀ x, withAr st i x = { withAr st i x with apis := st.apis, eps := st.eps } := fun _ => rfl
    have hst : { st with apis := st.apis, eps := st.eps } = st := rfl
    cases hparse : rq.parseOk with
    | false =>
      simp only [Bool.false_eq_true, if_false]
      rw [hw, release_withAr h hi _ rfl rfl]
      exact .early (Or.inl hparse)
    | true =>
      simp only [if_true]
      have hset : setAr (withAr st i (allocated i n)) i (fun x =>
          { x with uuid := rq.uuid, exp := rq.exp, devAccess := rq.devAccess }) =
          withAr st i (parsed i n rq) := setAr_withAr hlt (allocated i n) _ st.apis st.eps
      rw [hset, findUuid_withAr (n := n) hi _ rfl]
      have hrel : releaseAr (withAr st i (parsed i n rq)) i = st := by
        rw [hw, release_withAr h hi _ rfl rfl]
      cases hu : findUuid st rq.uuid with
      | some j =>
        simp only
        rw [hrel]
        exact .dup j hu hparse
      | none =>
        simp only
        have harep : (((withAr st i (parsed i n rq)).ars[i]?).any (fun x => x.arep == 0)) =
            !decide (i < n) := by
          simp only [withAr, List.getElem?_set, if_true, hlt, parsed, Option.any_some]
          by_cases hn : i < n <;> simp [hn]
        rw [harep]
        by_cases hn : i < n
        · simp only [hn, decide_true, Bool.not_true, Bool.false_eq_true, if_false]
          -- the rest
          unfold cmdevConnect
          have hA : (parsed i n rq).arep = i + 1 := by simp [parsed, hn]
          cases hpre : rq.preOk with
          | false =>
            simp only [Bool.false_eq_true, if_false]
            rw [hw]
            exact refuse_outcome h rq Q hn hi hparse hu st.apis st.eps _ rfl hA rfl rfl rfl (.refl _)
              (Or.inl rfl) _ (Or.inr ⟨rfl, rfl, hpre⟩)
          | true =>
            simp only [if_true]
            have hm : Moves (who (withAr st i (parsed i n rq)).ars (withAr st i (parsed i n rq)).order)
              i Q st.apis (configure (who (withAr st i (parsed i n rq)).ars
                (withAr st i (parsed i n rq)).order) rq i (withAr st i (parsed i n rq)).apis).1 :=
              configure_moves hq (.refl _)
            generalize configure (who (withAr st i (parsed i n rq)).ars
                (withAr st i (parsed i n rq)).order) rq i (withAr st i (parsed i n rq)).apis = r at *
            obtain ⟨d, ok⟩ := r
            simp only at hm ⊢
            split
            · have hm1 := runApp_moves rq.connectCb hm hq.2.2.1
              unfold allocEp
              simp only
              generalize runApp (who (withAr st i (parsed i n rq)).ars
                (withAr st i (parsed i n rq)).order) d rq.connectCb = d1 at *
              have hm2 := runApp_moves rq.stateCb hm1 hq.2.2.2
              have heps : (withAr st i (parsed i n rq)).eps = st.eps := rfl
              rw [heps]
              split
              · split
                · have := setAr_withAr hlt (parsed i n rq) (fun x => { x with phase := .data })
                    (runApp (who (withAr st i (parsed i n rq)).ars
                      (withAr st i (parsed i n rq)).order) d1 rq.stateCb)
                    (modFirst (fun e => e.isNone) (fun _ => some i) st.eps)
                  rw [this]
                  exact .ok i _ _ _ hn hi hparse hu hm2 (Or.inr rfl) rfl hA rfl rfl rfl (by simp)
                · split
                  · have := setAr_withAr hlt (parsed i n rq)
                      (fun x => { x with phase := .wPeind, started := true })
                      (runApp (who (withAr st i (parsed i n rq)).ars
                        (withAr st i (parsed i n rq)).order) d1 rq.stateCb)
                      (modFirst (fun e => e.isNone) (fun _ => some i) st.eps)
                    rw [this]
                    exact .ok i _ _ _ hn hi hparse hu hm2 (Or.inr rfl) rfl hA rfl rfl rfl (by simp)
                  · have := setAr_withAr hlt (parsed i n rq)
                      (fun x => { x with phase := .wSucnf, started := true }) d1
                      (modFirst (fun e => e.isNone) (fun _ => some i) st.eps)
                    rw [this]
                    exact refuse_outcome h rq Q hn hi hparse hu _ _
                      { parsed i n rq with phase := .wSucnf, started := true } rfl hA rfl rfl rfl hm1
                      (Or.inr rfl) _ (Or.inl hpre)
              · exact refuse_outcome h rq Q hn hi hparse hu _ _ _ rfl hA rfl rfl rfl hm1
                      (Or.inr rfl) _ (Or.inl hpre)
            · exact refuse_outcome h rq Q hn hi hparse hu _ _ _ rfl hA rfl rfl rfl hm
                      (Or.inl rfl) _ (Or.inl hpre)
        · simp only [hn, decide_false, Bool.not_false, if_true]
          rw [hrel]
          refine .early (Or.inr (Or.inr ?_))
          intro k hk
          have hin : i = n := by omega
          subst hin
          unfold allocAr at ha
          cases hf : st.ars.findIdx? (fun x => !x.inUse) with
          | none => simp [hf] at ha
          | some k' =>
            simp only [hf, Option.some.injEq, Prod.mk.injEq] at ha
            obtain ⟨rfl, _⟩ := ha
            rw [List.findIdx?_eq_some_iff_getElem] at hf
            obtain ⟨h1, h2, h3⟩ := hf
            have hkl : k < st.ars.length := by omega
            exact (h.ordIff k).2 ⟨hk, _, List.getElem?_eq_getElem hkl, by simpa using h3 k hk⟩

theorem eps_len {n : Nat} {st : St} (h : CInv n st) {i : Nat} {e : List (Option Nat)}
    (he : e = st.eps ∨ e = modFirst (fun e => e.isNone) (fun _ => some i) st.eps) : e.length = n := by
  rcases he with rfl | rfl
  · exact h.epsLen
  · rw [modFirst_length]; exact h.epsLen

theorem CInv.connect {n : Nat} {st : St} (h : CInv n st) (rq : Request) : CInv n (connect st rq).1 := by
  have ho := connect_outcome h rq (fun _ => True) ⟨fun _ _ _ _ => trivial, fun _ _ _ _ _ => trivial,
    fun _ _ => trivial, fun _ _ => trivial⟩
  generalize Device.connect st rq = r at ho
  cases ho with
  | early _ => exact h
  | dup j _ _ =>
    simp only
    rcases cmAbort_cases st j rq.stateCb with h1 | h1 <;> rw [h1]
    · exact h
    · exact h.abort j _
  | late i d e hn hi _ _ _ _ he => exact h.congr d e (eps_len h he)
  | ok i x d e hn hi _ hu _ he hx ha hxu _ _ hp =>
    exact h.withAr hn hi x hx ha hp (fun j y hy hyu => by rw [hxu]; exact findUuid_none hu h j y hy hyu)
      d e (eps_len h he)

theorem CInv.advance {n : Nat} {st : St} (h : CInv n st) (i : Nat) (p : Phase) :
    CInv n (step st (.advance i p)).1 := by
  have hget : ∀ (j : Nat) (y : Ar), (st.ars.modify i (fun x => if x.inUse = true ∧ p ≠ .powerOn then
      { x with phase := p } else x))[j]? = some y → ∃ z, st.ars[j]? = some z ∧ y.inUse = z.inUse ∧
      y.arep = z.arep ∧ y.uuid = z.uuid ∧ (z.phase ≠ .powerOn → y.phase ≠ .powerOn) ∧
      (z.inUse = false → y = z) := by
    intro j y hy
    rw [List.getElem?_modify] at hy
    cases hz : st.ars[j]? with
    | none => simp [hz] at hy
    | some z =>
      rw [hz] at hy
      simp only [Option.map_eq_map, Option.map_some, Option.some.injEq] at hy
      refine ⟨z, rfl, ?_⟩
      subst hy
      split
      · split
        · rename_i hc
          exact ⟨rfl, rfl, rfl, fun _ => hc.2, fun hh => by rw [hc.1] at hh; simp at hh⟩
        · exact ⟨rfl, rfl, rfl, id, fun _ => rfl⟩
      · exact ⟨rfl, rfl, rfl, id, fun _ => rfl⟩
  have hget' : ∀ (j : Nat) (z : Ar), st.ars[j]? = some z → ∃ y, (st.ars.modify i (fun x =>
      if x.inUse = true ∧ p ≠ .powerOn then { x with phase := p } else x))[j]? = some y ∧
      y.inUse = z.inUse := by
    intro j z hz
    rw [List.getElem?_modify, hz]
    simp only [Option.map_eq_map, Option.map_some, Option.some.injEq, exists_eq_left']
    split
    · split <;> rfl
    · rfl
  unfold step setAr
  simp only
  constructor
  · simp [h.len]
  · exact h.epsLen
  · exact h.ordNodup
  · intro j
    simp only
    rw [h.ordIff j]
    constructor
    · rintro ⟨h1, z, hz, hu⟩
      obtain ⟨y, hy, hyu⟩ := hget' j z hz
      exact ⟨h1, y, hy, by rw [hyu, hu]⟩
    · rintro ⟨h1, y, hy, hu⟩
      obtain ⟨z, hz, h2, _⟩ := hget j y hy
      exact ⟨h1, z, hz, by rw [← h2, hu]⟩
  · intro j y hy hu
    obtain ⟨z, hz, h2, h3, h4, h5, _⟩ := hget j y hy
    obtain ⟨q1, q2, q3⟩ := h.last j z hz (by rw [← h2, hu])
    exact ⟨q1, by rw [h3, q2], h5 q3⟩
  · intro j y hy hu
    obtain ⟨z, hz, h2, h3, h4, h5, h6⟩ := hget j y hy
    have hzu : z.inUse = false := by rw [← h2, hu]
    rw [h6 hzu]
    exact h.zero j z hz hzu
  · intro j k y y' hy hy' hu hu' he
    obtain ⟨z, hz, h2, h3, h4, _⟩ := hget j y hy
    obtain ⟨z', hz', h2', h3', h4', _⟩ := hget k y' hy'
    exact h.uuid j k z z' hz hz' (by rw [← h2, hu]) (by rw [← h2', hu']) (by rw [← h4, ← h4', he])

theorem CInv.step {n : Nat} {st : St} (h : CInv n st) (o : Op) : CInv n (step st o).1 := by
  cases o with
  | app o => exact h.congr _ _ h.epsLen
  | connect rq => exact h.connect rq
  | abort i cb => exact h.abort i cb
  | cmAbort i cb =>
    show CInv n (Device.cmAbort st i cb)
    rcases cmAbort_cases st i cb with h1 | h1 <;> rw [h1]
    · exact h
    · exact h.abort i cb
  | advance i p => exact h.advance i p

theorem CInv.exec {n : Nat} (os : List Op) {st : St} (h : CInv n st) : CInv n (exec st os) := by
  induction os generalizing st with
  | nil => exact h
  | cons o os ih => exact ih (h.step o)

theorem CInv.init (nA nS nB n : Nat) : CInv n (init nA nS nB n) := by
  have hz : ∀ (i : Nat) (x : Ar), (List.replicate (n + 1) Ar.zero)[i]? = some x → x = Ar.zero := by
    intro i x hx
    exact (List.mem_replicate.1 (List.mem_of_getElem? hx)).2
  constructor
  · simp [Device.init]
  · simp [Device.init]
  · simp [Device.init]
  · intro i
    simp only [Device.init, List.not_mem_nil, false_iff]
    rintro ⟨_, x, hx, hu⟩
    rw [hz i x hx] at hu
    simp [Ar.zero] at hu
  · intro i x hx hu
    rw [hz i x hx] at hu
    simp [Ar.zero] at hu
  · intro i x hx _
    exact hz i x hx
  · intro i j x y hx _ hu
    rw [hz i x hx] at hu
    simp [Ar.zero] at hu

end Verif.Device
