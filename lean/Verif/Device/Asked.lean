import Verif.Device.Conn
import Verif.Check.Model
/-!
C164: which modules and submodules the application is asked to plug when a controller connects (call-backs `pnet_exp_module_ind` and `pnet_exp_submodule_ind`), with which arguments.
What comes of the request is in `Verif.Device.configure`; here the same loops keep a list of what they looked at (`C164_same`: the outcome is the same).
-/
set_option linter.unusedSimpArgs false
set_option linter.unusedVariables false
namespace Verif.Device

open Verif.Layout (DataDescr SubType)

/-! ## Model -/

/-- `pnet_data_cfg_t` (include/pnet_api.h:403-406): whether the bits PNET_DIR_INPUT and PNET_DIR_OUTPUT of the direction are set, and the two sizes. -/
structure DataCfg where
  inp : Bool
  out : Bool
  insize : Nat
  outsize : Nat
deriving DecidableEq

/-- The body of the loop over the data descriptors at the begin of pf_cmdev_exp_submodule_configure (src/device/pf_cmdev.c:3376-3757). -/
def dataStep (x : DataCfg) (d : DataDescr) : DataCfg :=
  let x1 := if d.dir = 1 then { x with inp := true, insize := d.dataLen } else x
  if d.dir = 2 then { x1 with out := true, outsize := d.dataLen } else x1

/-- That loop: `exp_data`. -/
def dataCfg (ds : List DataDescr) : DataCfg := ds.foldl dataStep ⟨false, false, 0, 0⟩

/-- A module or submodule of the request, with the arguments of the call-backs. -/
inductive Wanted where
  | module (a s ident : Nat)
  | sub (a s ss mident ident : Nat) (data : DataCfg)
deriving DecidableEq

/-- What the loops come across, with the tables at this moment: pf_fspm_exp_module_ind (src/device/pf_fspm.c:568-584) or pf_fspm_exp_submodule_ind (src/device/pf_fspm.c:586-611) is called, it is not called, or an API is left out. -/
inductive Seen where
  | asked (q : Wanted) (d : Dev)
  | passed (q : Wanted) (d : Dev)
  | skipped (a : Nat) (d : Dev)

/-- pf_cmdev_exp_submodule_configure (src/device/pf_cmdev.c:3376-3757) as in `subLoop`.  `ds`: data descriptors by indices in the request.  The application is asked before the checks of the submodule, also if an
earlier one was refused. -/
def subAsk (w : Nat → Nat → Nat → Option Nat) (rq : Request) (ds : Nat → Nat → Nat → List DataDescr) (i a s mident ai mi : Nat) :
    List ExpSub → List ExpSub → Dev → Bool → Dev × Bool × List Seen
  | _, [], d, ok => (d, ok, [])
  | done, e :: todo, d, ok =>
    let k := done.length
    let q := Wanted.sub a s e.number mident e.ident (dataCfg (ds ai mi k))
    let seen := if (getSub d a s e.number).isNone then Seen.asked q d else Seen.passed q d
    let d1 := if (getSub d a s e.number).isNone then runApp w d (rq.subCb ai mi k) else d
    let ok1 := ok && !(done.any (fun z => z.number == e.number)) &&
      decide (e.number ≤ 0x9FFF) && (getSub d1 a s e.number).isSome &&
      !(decide (0x8000 ≤ e.number) && a != 0) && rq.subOk ai mi k
    let d2 := if ok1 then claim d1 a s e.number i else d1
    let r := subAsk w rq ds i a s mident ai mi (done ++ [e]) todo d2 ok1
    (r.1, r.2.1, seen :: r.2.2)

/-- pf_cmdev_exp_modules_configure (src/device/pf_cmdev.c:3777-3897) as in `modLoop`.  The application is asked before the checks of the module. -/
def modAsk (w : Nat → Nat → Nat → Option Nat) (rq : Request) (ds : Nat → Nat → Nat → List DataDescr) (i a ai : Nat) :
    List ExpMod → List ExpMod → Dev → Bool → Dev × Bool × List Seen
  | _, [], d, ok => (d, ok, [])
  | done, m :: todo, d, ok =>
    if ok then
      let q := Wanted.module a m.slot m.ident
      let seen := if (getSlot d a m.slot).isNone then Seen.asked q d else Seen.passed q d
      let d1 := if (getSlot d a m.slot).isNone then runApp w d (rq.modCb ai done.length) else d
      if !(done.any (fun y => y.slot == m.slot)) && decide (m.slot ≤ 0x7FFF) &&
          (getSlot d1 a m.slot).isSome && m.ident != 0 && !m.subs.isEmpty then
        let r := subAsk w rq ds i a m.slot m.ident ai done.length [] m.subs d1 true
        let t := modAsk w rq ds i a ai (done ++ [m]) todo r.1 r.2.1
        (t.1, t.2.1, seen :: (r.2.2 ++ t.2.2))
      else
        let t := modAsk w rq ds i a ai (done ++ [m]) todo d1 false
        (t.1, t.2.1, seen :: t.2.2)
    else modAsk w rq ds i a ai (done ++ [m]) todo d false

/-- pf_cmdev_exp_apis_configure (src/device/pf_cmdev.c:3916-3964) as in `apiLoop`. -/
def apiAsk (w : Nat → Nat → Nat → Option Nat) (rq : Request) (ds : Nat → Nat → Nat → List DataDescr) (i : Nat) :
    Nat → List ExpApi → Dev → Bool → Dev × Bool × List Seen
  | _, [], d, ok => (d, ok, [])
  | ai, e :: todo, d, ok =>
    if ok then
      let x := if (getApi d e.api).isSome then (d, true) else newApi d e.api
      if x.2 then
        let r := modAsk w rq ds i e.api ai [] e.mods x.1 true
        let t := apiAsk w rq ds i (ai + 1) todo r.1 r.2.1
        (t.1, t.2.1, r.2.2 ++ t.2.2)
      else
        let t := apiAsk w rq ds i (ai + 1) todo x.1 true
        (t.1, t.2.1, .skipped e.api d :: t.2.2)
    else apiAsk w rq ds i (ai + 1) todo d false

/-- pf_cmdev_exp_apis_configure (src/device/pf_cmdev.c:3916-3964) as in `configure`. -/
def configureAsk (w : Nat → Nat → Nat → Option Nat) (rq : Request) (ds : Nat → Nat → Nat → List DataDescr) (i : Nat) (d : Dev) : Dev × Bool × List Seen :=
  if !rq.devAccess && rq.exp.isEmpty then (d, false, []) else apiAsk w rq ds i 0 rq.exp d true

/-! ## Specification -/

/-- The submodules of a module, in the order of the request, from index `k` on. -/
def subsOf (ds : Nat → Nat → Nat → List DataDescr) (a s mident ai mi : Nat) : Nat → List ExpSub → List Wanted
  | _, [] => []
  | k, e :: l => .sub a s e.number mident e.ident (dataCfg (ds ai mi k)) :: subsOf ds a s mident ai mi (k + 1) l

/-- The modules of an API, each followed by its submodules. -/
def modsOf (ds : Nat → Nat → Nat → List DataDescr) (a ai : Nat) : Nat → List ExpMod → List Wanted
  | _, [] => []
  | mi, m :: l => .module a m.slot m.ident :: (subsOf ds a m.slot m.ident ai mi 0 m.subs ++ modsOf ds a ai (mi + 1) l)

/-- All that the request wants, in its order. -/
def wanted (ds : Nat → Nat → Nat → List DataDescr) : Nat → List ExpApi → List Wanted
  | _, [] => []
  | ai, e :: l => modsOf ds e.api ai 0 e.mods ++ wanted ds (ai + 1) l

/-- It is plugged. -/
def There (d : Dev) : Wanted → Prop
  | .module a s _ => (getSlot d a s).isSome = true
  | .sub a s ss _ _ _ => (getSub d a s ss).isSome = true

/-- The calls of the call-backs, the oldest first. -/
def calls (l : List Seen) : List Wanted :=
  l.filterMap fun
    | .asked q _ => some q
    | _ => none

/-- All that was come across, asked for or not. -/
def visited (l : List Seen) : List Wanted :=
  l.filterMap fun
    | .asked q _ => some q
    | .passed q _ => some q
    | .skipped _ _ => none

/-- What was noted is right. -/
def Right : Seen → Prop
  | .asked q d => ¬ There d q
  | .passed q d => There d q
  | .skipped a d => getApi d a = none ∧ ∀ x ∈ d, x.inUse = true

/-- The direction and sizes of the data of a submodule of this type with these descriptors. -/
def expected : SubType → List DataDescr → DataCfg
  | .noIo, _ => ⟨false, false, 0, 0⟩
  | .input, l => ⟨true, false, (l.filter fun d => d.dir = 1).foldl (fun _ d => d.dataLen) 0, 0⟩
  | .output, l => ⟨false, true, 0, (l.filter fun d => d.dir = 2).foldl (fun _ d => d.dataLen) 0⟩
  | .io, l => ⟨true, true, (l.filter fun d => d.dir = 1).foldl (fun _ d => d.dataLen) 0, (l.filter fun d => d.dir = 2).foldl (fun _ d => d.dataLen) 0⟩

/-- **C164**: for a submodule that passes the checks of its descriptors, the application is told direction and sizes; and it is not asked to plug submodules of a module
of which one was refused already. -/
def C164_statement : Prop :=
  (∀ s : Layout.ExpSub, Check.descsFit s = true → (∀ d ∈ s.descs, Check.descCheck s d = none) → dataCfg s.descs = expected s.type s.descs) ∧
  ∀ w rq ds i a s mident ai mi done todo d, calls (subAsk w rq ds i a s mident ai mi done todo d false).2.2 = []

/-! ## The outcome is that of the request -/

theorem subAsk_same (w : Nat → Nat → Nat → Option Nat) (rq : Request) (ds : Nat → Nat → Nat → List DataDescr) (i a s mident ai mi : Nat) (todo : List ExpSub) :
    ∀ done d ok, ((subAsk w rq ds i a s mident ai mi done todo d ok).1, (subAsk w rq ds i a s mident ai mi done todo d ok).2.1) = subLoop w rq i a s ai mi done todo d ok := by
  induction todo with
  | nil => intro done d ok; rfl
  | cons e todo ih => intro done d ok; rw [subAsk, subLoop]; exact ih _ _ _

theorem modAsk_same (w : Nat → Nat → Nat → Option Nat) (rq : Request) (ds : Nat → Nat → Nat → List DataDescr) (i a ai : Nat) (todo : List ExpMod) :
    ∀ done d ok, ((modAsk w rq ds i a ai done todo d ok).1, (modAsk w rq ds i a ai done todo d ok).2.1) = modLoop w rq i a ai done todo d ok := by
  induction todo with
  | nil => intro done d ok; rfl
  | cons m todo ih =>
    intro done d ok
    rw [modAsk, modLoop]
    cases ok
    · exact ih _ _ _
    · simp only [if_true]
      generalize (if (getSlot d a m.slot).isNone = true then runApp w d (rq.modCb ai done.length) else d) = d1
      generalize (if (getSlot d a m.slot).isNone = true then Seen.asked (Wanted.module a m.slot m.ident) d else Seen.passed (Wanted.module a m.slot m.ident) d) = z
      split
      · rw [← subAsk_same w rq ds i a m.slot m.ident ai done.length]
        exact ih _ _ _
      · exact ih _ _ _

theorem apiAsk_same (w : Nat → Nat → Nat → Option Nat) (rq : Request) (ds : Nat → Nat → Nat → List DataDescr) (i : Nat) (todo : List ExpApi) :
    ∀ ai d ok, ((apiAsk w rq ds i ai todo d ok).1, (apiAsk w rq ds i ai todo d ok).2.1) = apiLoop w rq i ai todo d ok := by
  induction todo with
  | nil => intro ai d ok; rfl
  | cons e todo ih =>
    intro ai d ok
    rw [apiAsk, apiLoop]
    cases ok
    · exact ih _ _ _
    · simp only [if_true]
      generalize (if (getApi d e.api).isSome = true then (d, true) else newApi d e.api) = x
      obtain ⟨x1, x2⟩ := x
      dsimp only
      split
      · rw [← modAsk_same w rq ds i e.api ai]
        exact ih _ _ _
      · exact ih _ _ _

/-- **C164**: keeping the list changes nothing. -/
theorem C164_same (w : Nat → Nat → Nat → Option Nat) (rq : Request) (ds : Nat → Nat → Nat → List DataDescr) (i : Nat) (d : Dev) :
    ((configureAsk w rq ds i d).1, (configureAsk w rq ds i d).2.1) = configure w rq i d := by
  unfold configureAsk configure
  split
  · rfl
  · exact apiAsk_same w rq ds i _ _ _ _

/-! ## Order -/

theorem visited_append (l m : List Seen) : visited (l ++ m) = visited l ++ visited m := List.filterMap_append ..

theorem calls_sub (l : List Seen) : (calls l).Sublist (visited l) := by
  induction l with
  | nil => exact List.Sublist.refl _
  | cons x l ih =>
    cases x with
    | asked q d => exact ih.cons_cons q
    | passed q d => exact ih.cons q
    | skipped a d => exact ih

theorem visited_ite (b : Bool) (q : Wanted) (d : Dev) (l : List Seen) :
    visited ((if b = true then Seen.asked q d else Seen.passed q d) :: l) = q :: visited l := by
  cases b <;> rfl

/-- Every submodule of the module is looked at, whatever comes of it. -/
theorem subAsk_visited (w : Nat → Nat → Nat → Option Nat) (rq : Request) (ds : Nat → Nat → Nat → List DataDescr) (i a s mident ai mi : Nat) (todo : List ExpSub) :
    ∀ done d ok, visited (subAsk w rq ds i a s mident ai mi done todo d ok).2.2 = subsOf ds a s mident ai mi done.length todo := by
  induction todo with
  | nil => intro done d ok; rfl
  | cons e todo ih =>
    intro done d ok
    rw [subAsk, subsOf]
    simp only [visited_ite]
    rw [ih, List.length_append]
    rfl

theorem modAsk_off (w : Nat → Nat → Nat → Option Nat) (rq : Request) (ds : Nat → Nat → Nat → List DataDescr) (i a ai : Nat) (todo : List ExpMod) :
    ∀ done d, modAsk w rq ds i a ai done todo d false = (d, false, []) := by
  induction todo with
  | nil => intro done d; rfl
  | cons m todo ih => intro done d; rw [modAsk]; exact ih _ _

theorem modAsk_visited (w : Nat → Nat → Nat → Option Nat) (rq : Request) (ds : Nat → Nat → Nat → List DataDescr) (i a ai : Nat) (todo : List ExpMod) :
    ∀ done d ok, (visited (modAsk w rq ds i a ai done todo d ok).2.2).Sublist (modsOf ds a ai done.length todo) ∧
      ((modAsk w rq ds i a ai done todo d ok).2.1 = true → visited (modAsk w rq ds i a ai done todo d ok).2.2 = modsOf ds a ai done.length todo) := by
  induction todo with
  | nil => intro done d ok; exact ⟨List.Sublist.refl _, fun _ => rfl⟩
  | cons m todo ih =>
    intro done d ok
    cases ok
    · rw [modAsk_off]
      exact ⟨List.nil_sublist _, fun h => by cases h⟩
    · rw [modAsk, modsOf]
      simp only [if_true]
      generalize (if (getSlot d a m.slot).isNone = true then runApp w d (rq.modCb ai done.length) else d) = d1
      split
      · have h := ih (done ++ [m])
        simp only [visited_ite, visited_append, subAsk_visited, List.length_append, List.length_singleton, List.length_nil] at h ⊢
        refine ⟨((List.Sublist.refl _).append (h _ _).1).cons_cons _, fun ht => ?_⟩
        rw [(h _ _).2 ht]
      · rw [modAsk_off]
        simp only [visited_ite]
        refine ⟨List.Sublist.cons_cons _ (List.nil_sublist _), fun h => by cases h⟩

theorem apiAsk_off (w : Nat → Nat → Nat → Option Nat) (rq : Request) (ds : Nat → Nat → Nat → List DataDescr) (i : Nat) (todo : List ExpApi) :
    ∀ ai d, apiAsk w rq ds i ai todo d false = (d, false, []) := by
  induction todo with
  | nil => intro ai d; rfl
  | cons m todo ih => intro ai d; rw [apiAsk]; exact ih _ _

theorem apiAsk_visited (w : Nat → Nat → Nat → Option Nat) (rq : Request) (ds : Nat → Nat → Nat → List DataDescr) (i : Nat) (todo : List ExpApi) :
    ∀ ai d ok, (visited (apiAsk w rq ds i ai todo d ok).2.2).Sublist (wanted ds ai todo) ∧
      ((apiAsk w rq ds i ai todo d ok).2.1 = true → (∀ a d', Seen.skipped a d' ∉ (apiAsk w rq ds i ai todo d ok).2.2) →
        visited (apiAsk w rq ds i ai todo d ok).2.2 = wanted ds ai todo) := by
  induction todo with
  | nil => intro ai d ok; exact ⟨List.Sublist.refl _, fun _ _ => rfl⟩
  | cons e todo ih =>
    intro ai d ok
    cases ok
    · rw [apiAsk_off]
      exact ⟨List.nil_sublist _, fun h => by cases h⟩
    · rw [apiAsk, wanted]
      simp only [if_true]
      generalize (if (getApi d e.api).isSome = true then (d, true) else newApi d e.api) = x
      split
      · have hm := modAsk_visited w rq ds i e.api ai e.mods [] x.1 true
        simp only [visited_append, List.length_nil] at hm ⊢
        refine ⟨hm.1.append (ih _ _ _).1, fun ht hn => ?_⟩
        have hr : (modAsk w rq ds i e.api ai [] e.mods x.1 true).2.1 = true := by
          cases hb : (modAsk w rq ds i e.api ai [] e.mods x.1 true).2.1
          · rw [hb, apiAsk_off] at ht; cases ht
          · rfl
        rw [hm.2 hr, (ih _ _ _).2 ht (fun a d' h => hn a d' (List.mem_append_right _ h))]
      · refine ⟨?_, fun _ hn => absurd (List.mem_cons_self ..) (hn e.api d)⟩
        exact (ih _ _ _).1.trans (List.sublist_append_right _ _)

/-- **C164**, order: for every request, state of the tables and whatever the application plugs or pulls in the call-backs, the calls are, in the order of the request and each at most
once, for modules and submodules of the request, with their numbers, identities and data; a module comes before its submodules. -/
theorem C164_order (w : Nat → Nat → Nat → Option Nat) (rq : Request) (ds : Nat → Nat → Nat → List DataDescr) (i : Nat) (d : Dev) :
    (calls (configureAsk w rq ds i d).2.2).Sublist (wanted ds 0 rq.exp) := by
  unfold configureAsk
  split
  · exact List.nil_sublist _
  · exact (calls_sub _).trans (apiAsk_visited w rq ds i _ _ _ _).1

/-! ## Who is asked for -/

theorem some_none {α : Type} (o : Option α) : o.isSome = true ↔ o.isNone = false := by cases o <;> simp

theorem right_ite (q : Wanted) (d : Dev) (b : Bool) (h : There d q ↔ b = false) : Right (if b = true then Seen.asked q d else Seen.passed q d) := by
  cases b
  · exact h.2 rfl
  · exact fun hp => by cases h.1 hp

theorem subAsk_right (w : Nat → Nat → Nat → Option Nat) (rq : Request) (ds : Nat → Nat → Nat → List DataDescr) (i a s mident ai mi : Nat) (todo : List ExpSub) :
    ∀ done d ok, ∀ x ∈ (subAsk w rq ds i a s mident ai mi done todo d ok).2.2, Right x := by
  induction todo with
  | nil => intro done d ok x hx; cases hx
  | cons e todo ih =>
    intro done d ok x hx
    rw [subAsk] at hx
    rcases List.mem_cons.1 hx with rfl | hx
    · exact right_ite _ _ _ (some_none _)
    · exact ih _ _ _ x hx

theorem modAsk_right (w : Nat → Nat → Nat → Option Nat) (rq : Request) (ds : Nat → Nat → Nat → List DataDescr) (i a ai : Nat) (todo : List ExpMod) :
    ∀ done d ok, ∀ x ∈ (modAsk w rq ds i a ai done todo d ok).2.2, Right x := by
  induction todo with
  | nil => intro done d ok x hx; cases hx
  | cons m todo ih =>
    intro done d ok x hx
    cases ok
    · rw [modAsk_off] at hx; cases hx
    · rw [modAsk] at hx
      simp only [if_true] at hx
      generalize (if (getSlot d a m.slot).isNone = true then runApp w d (rq.modCb ai done.length) else d) = d1 at hx
      have hq : Right (if (getSlot d a m.slot).isNone = true then Seen.asked (.module a m.slot m.ident) d else Seen.passed (.module a m.slot m.ident) d) :=
        right_ite _ _ _ (some_none _)
      generalize (if (getSlot d a m.slot).isNone = true then Seen.asked (Wanted.module a m.slot m.ident) d else Seen.passed (Wanted.module a m.slot m.ident) d) = z at hx hq
      split at hx
      · rcases List.mem_cons.1 hx with rfl | hx
        · exact hq
        · rcases List.mem_append.1 hx with hx | hx
          · exact subAsk_right _ _ _ _ _ _ _ _ _ _ _ _ _ x hx
          · exact ih _ _ _ x hx
      · rcases List.mem_cons.1 hx with rfl | hx
        · exact hq
        · exact ih _ _ _ x hx

theorem newApi_full {d : Dev} {a : Nat} (h1 : getApi d a = none) (h2 : ¬ (newApi d a).2 = true) : ∀ x ∈ d, x.inUse = true := by
  unfold newApi at h2
  rw [h1] at h2
  simp only at h2
  split at h2
  · rename_i hf
    intro x hx
    have := List.find?_eq_none.1 hf x hx
    simpa using this
  · simp at h2

theorem apiAsk_right (w : Nat → Nat → Nat → Option Nat) (rq : Request) (ds : Nat → Nat → Nat → List DataDescr) (i : Nat) (todo : List ExpApi) :
    ∀ ai d ok, ∀ x ∈ (apiAsk w rq ds i ai todo d ok).2.2, Right x := by
  induction todo with
  | nil => intro ai d ok x hx; cases hx
  | cons e todo ih =>
    intro ai d ok x hx
    cases ok
    · rw [apiAsk_off] at hx; cases hx
    · rw [apiAsk] at hx
      simp only [if_true] at hx
      generalize hgx : (if (getApi d e.api).isSome = true then (d, true) else newApi d e.api) = y at hx
      split at hx
      · rcases List.mem_append.1 hx with hx | hx
        · exact modAsk_right _ _ _ _ _ _ _ _ _ _ x hx
        · exact ih _ _ _ x hx
      · rename_i hno
        rcases List.mem_cons.1 hx with rfl | hx
        · subst hgx
          cases hg : getApi d e.api with
          | some y => rw [hg] at hno; exact absurd rfl hno
          | none =>
            rw [hg] at hno
            exact ⟨hg, newApi_full hg hno⟩
        · exact ih _ _ _ x hx

/-- **C164**, who is asked for: every call is for a module or submodule that is not plugged at this moment; if the request is not refused by the configuration, then each module and
submodule of it was either asked for or plugged when its turn came - except for those of APIs that are not known and for which there is no room. -/
theorem C164_asked (w : Nat → Nat → Nat → Option Nat) (rq : Request) (ds : Nat → Nat → Nat → List DataDescr) (i : Nat) (d : Dev) :
    (∀ q d', .asked q d' ∈ (configureAsk w rq ds i d).2.2 → ¬ There d' q) ∧
    (∀ q d', .passed q d' ∈ (configureAsk w rq ds i d).2.2 → There d' q) ∧
    (∀ a d', .skipped a d' ∈ (configureAsk w rq ds i d).2.2 → getApi d' a = none ∧ ∀ x ∈ d', x.inUse = true) ∧
    ((configure w rq i d).2 = true → (∀ a d', .skipped a d' ∉ (configureAsk w rq ds i d).2.2) →
      ∀ q ∈ wanted ds 0 rq.exp, ∃ d', .asked q d' ∈ (configureAsk w rq ds i d).2.2 ∨ .passed q d' ∈ (configureAsk w rq ds i d).2.2) := by
  have hr : ∀ x ∈ (configureAsk w rq ds i d).2.2, Right x := by
    unfold configureAsk
    split
    · intro x hx; cases hx
    · exact apiAsk_right w rq ds i _ _ _ _
  refine ⟨fun q d' h => hr _ h, fun q d' h => hr _ h, fun a d' h => hr _ h, fun hok hn q hq => ?_⟩
  have hv : visited (configureAsk w rq ds i d).2.2 = wanted ds 0 rq.exp := by
    rw [← C164_same w rq ds i d] at hok
    unfold configureAsk at hok hn ⊢
    split at hok
    · cases hok
    · rename_i hc
      rw [if_neg hc] at hn ⊢
      exact (apiAsk_visited w rq ds i _ _ _ _).2 hok hn
  rw [← hv] at hq
  obtain ⟨x, hx, hxq⟩ := List.mem_filterMap.1 hq
  cases x with
  | asked q' d' => cases hxq; exact ⟨d', Or.inl hx⟩
  | passed q' d' => cases hxq; exact ⟨d', Or.inr hx⟩
  | skipped a d' => cases hxq

/-! ## Data of submodules -/

/-- **C164**, data: for a submodule whose descriptors fit its type (input, output, or both in any order) the application is told exactly these directions and sizes.  Missing: submodules
without data (`C164_fails_no_io`). -/
theorem C164_data_partial (s : Layout.ExpSub) (hf : Check.descsFit s = true) (ht : s.type ≠ .noIo) : dataCfg s.descs = expected s.type s.descs := by
  unfold Check.descsFit at hf
  split at hf
  · rename_i h _; exact absurd h ht
  · rename_i d h1 h2
    rw [h1, h2]
    simp only [beq_iff_eq] at hf
    simp [dataCfg, dataStep, expected, hf]
  · rename_i d h1 h2
    rw [h1, h2]
    simp only [beq_iff_eq] at hf
    simp [dataCfg, dataStep, expected, hf]
  · rename_i d d' h1 h2
    rw [h1, h2]
    simp only [Bool.and_eq_true, Bool.or_eq_true, beq_iff_eq] at hf
    obtain ⟨a | a, b | b⟩ := hf
    · omega
    · simp [dataCfg, dataStep, expected, a, b]
    · simp [dataCfg, dataStep, expected, a, b]
    · omega
  · cases hf

/-- **C164** fails for every submodule without data: the application is told "input". -/
theorem C164_fails_no_io (s : Layout.ExpSub) (hf : Check.descsFit s = true) (hd : ∀ d ∈ s.descs, Check.descCheck s d = none) (ht : s.type = .noIo) :
    dataCfg s.descs = ⟨true, false, 0, 0⟩ := by
  obtain ⟨ss, ty, r1, r2, r3, l⟩ := s
  dsimp only at ht hd ⊢
  subst ht
  match l, hf, hd with
  | [d], hf, hd =>
    have hf : d.dir = 1 := by simpa [Check.descsFit] using hf
    have hc := hd d (by simp)
    have : d.dataLen = 0 := by
      by_cases h0 : d.dataLen = 0
      · exact h0
      · simp [Check.descCheck, hf, h0] at hc
    simp [dataCfg, dataStep, hf, this]
  | [], hf, _ => cases hf
  | _ :: _ :: _, hf, _ => cases hf

/-- **C164** fails after a refusal: for every module, once one of its submodules is refused, the remaining ones that are not plugged are still asked for, all of them if the application plugs nothing. -/
theorem C164_fails_refused (w : Nat → Nat → Nat → Option Nat) (rq : Request) (ds : Nat → Nat → Nat → List DataDescr) (i a s mident ai mi : Nat) (hcb : ∀ x y z, rq.subCb x y z = [])
    (todo : List ExpSub) : ∀ done d, (∀ e ∈ todo, getSub d a s e.number = none) →
      (subAsk w rq ds i a s mident ai mi done todo d false).2.1 = false ∧
      calls (subAsk w rq ds i a s mident ai mi done todo d false).2.2 = subsOf ds a s mident ai mi done.length todo := by
  induction todo with
  | nil => intro done d _; exact ⟨rfl, rfl⟩
  | cons e todo ih =>
    intro done d hd
    have he := hd e (by simp)
    have h := ih (done ++ [e]) d (fun x hx => hd x (by simp [hx]))
    rw [subAsk, subsOf]
    simp only [he, Option.isNone_none, if_true, hcb, runApp, Bool.false_and, Bool.false_eq_true, if_false, List.length_append, List.length_singleton] at h ⊢
    refine ⟨h.1, ?_⟩
    rw [← h.2]
    rfl

/-! ## Examples -/

def noIoSub : Layout.ExpSub := ⟨1, .noIo, false, false, false, [⟨1, 0, 1, 1⟩]⟩
def ioSub : Layout.ExpSub := ⟨1, .io, false, false, false, [⟨2, 3, 1, 1⟩, ⟨1, 2, 1, 1⟩]⟩

/-- A request for one module with two submodules; the application plugs what it is asked for, but not the second submodule. -/
def askRq : Request :=
  { uuid := 7, devAccess := false, exp := [⟨0, [⟨1, 50, [⟨1, 60⟩, ⟨2, 61⟩]⟩]⟩], parseOk := true, preOk := true, subOk := fun _ _ _ => true, postOk := true, appOk := true,
    startOk := true, errSet := true, modCb := fun _ _ => [.plugModule 0 1 50],
    subCb := fun _ _ k => if k = 0 then [.plugSub 0 1 1 50 60 ⟨3, 2, 3⟩ true] else [], connectCb := [], stateCb := [] }

/-- The same, but only the first submodule is wanted. -/
def askRq1 : Request := { askRq with exp := [⟨0, [⟨1, 50, [⟨1, 60⟩]⟩]⟩] }

def askDev : Dev := [⟨false, 0, List.replicate 2 ⟨false, 0, 0, List.replicate 2 Sub.zero⟩⟩]

/-- Requests that meet the hypotheses: the application is asked for all that is not plugged; with the second submodule the request is refused, with the first alone it is not. -/
theorem C164_example :
    (configure (fun _ _ _ => none) askRq1 0 askDev).2 = true ∧
    calls (configureAsk (fun _ _ _ => none) askRq1 (fun _ _ _ => ioSub.descs) 0 askDev).2.2 = [.module 0 1 50, .sub 0 1 1 50 60 ⟨true, true, 2, 3⟩] ∧
    (configure (fun _ _ _ => none) askRq 0 askDev).2 = false ∧
    calls (configureAsk (fun _ _ _ => none) askRq (fun _ _ _ => ioSub.descs) 0 askDev).2.2 =
      [.module 0 1 50, .sub 0 1 1 50 60 ⟨true, true, 2, 3⟩, .sub 0 1 2 50 61 ⟨true, true, 2, 3⟩] ∧
    (Check.descsFit ioSub = true ∧ ioSub.type ≠ .noIo) ∧ (Check.descsFit noIoSub = true ∧ ∀ d ∈ noIoSub.descs, Check.descCheck noIoSub d = none) := by
  refine ⟨by rfl, by rfl, by rfl, by rfl, ⟨by rfl, by simp [ioSub]⟩, by rfl, ?_⟩
  intro d hd
  simp only [noIoSub, List.mem_singleton] at hd
  subst hd
  rfl

/-- **C164** fails. -/
theorem C164_fails : ¬ C164_statement := fun h => by
  have hx := C164_example.2.2.2.2.2
  have := h.1 noIoSub hx.1 hx.2
  rw [C164_fails_no_io noIoSub hx.1 hx.2 rfl] at this
  cases this

end Verif.Device
