import Verif.Device.ConnLemmas

/-!
Properties of connections: distinct identifiers (C30), ownership of submodules (C19), refused
connect requests (C50), end of a connection (C59).
-/
set_option linter.unusedSimpArgs false
set_option linter.unusedVariables false

namespace Verif.Device

/-! ## Specification

A connection is an entry of the connection table that is in use. -/

/-- Connection `i` exists, with data `x`. -/
def Live (st : St) (i : Nat) (x : Ar) : Prop := st.ars[i]? = some x ∧ x.inUse = true

/-- The connection that controls the plugged submodule, if any. -/
def ownerOf (st : St) (a s ss : Nat) : Option Nat := (getSub st.apis a s ss).bind Sub.owner

/-- The submodule is plugged. -/
def Plugged (st : St) (a s ss : Nat) : Prop := (getSub st.apis a s ss).isSome = true

/-! ## Ownership over all table entries -/

def AllOwn (Q : Option Nat → Prop) (d : Dev) : Prop :=
  ∀ x ∈ d, ∀ y ∈ x.slots, ∀ z ∈ y.subs, Q z.owner

section
variable {Q : Option Nat → Prop} {d : Dev}

theorem AllOwn.updApi (h : AllOwn Q d) (p : Api → Bool) (f : Api → Api)
    (hf : ∀ x ∈ d, ∀ y ∈ (f x).slots, ∀ z ∈ y.subs, Q z.owner) : AllOwn Q (modFirst p f d) := by
  intro x hx
  rcases mem_modFirst _ _ _ _ hx with h1 | ⟨x', h1, rfl⟩
  · exact h x h1
  · exact hf x' (List.mem_of_find?_eq_some h1)

theorem AllOwn.updSlot (h : AllOwn Q d) (a s : Nat) (f : Slot → Slot)
    (hf : ∀ x ∈ d, ∀ y ∈ x.slots, ∀ z ∈ (f y).subs, Q z.owner) : AllOwn Q (updSlot d a s f) := by
  unfold Device.updSlot Device.updApi
  refine h.updApi _ _ (fun x hx y hy => ?_)
  rcases mem_modFirst _ _ _ _ hy with h1 | ⟨y', h1, rfl⟩
  · exact h x hx y h1
  · exact hf x hx y' (List.mem_of_find?_eq_some h1)

theorem AllOwn.updSub (h : AllOwn Q d) (a s ss : Nat) (f : Sub → Sub)
    (hf : ∀ z, Q z.owner → Q (f z).owner) : AllOwn Q (updSub d a s ss f) := by
  unfold Device.updSub
  refine h.updSlot a s _ (fun x hx y hy z hz => ?_)
  rcases mem_modFirst _ _ _ _ hz with h1 | ⟨z', h1, rfl⟩
  · exact h x hx y hy z h1
  · exact hf z' (h x hx y hy z' (List.mem_of_find?_eq_some h1))

theorem AllOwn.newApi (h : AllOwn Q d) (h0 : Q none) (a : Nat) : AllOwn Q (newApi d a).1 := by
  unfold Device.newApi
  cases getApi d a with
  | some x => exact h
  | none =>
    simp only
    cases d.find? (fun x => !x.inUse) with
    | none => exact h
    | some x =>
      simp only
      refine h.updApi _ _ (fun x hx y hy z hz => ?_)
      obtain ⟨y', _, rfl⟩ := List.mem_map.1 hy
      obtain ⟨_, rfl⟩ := List.mem_replicate.1 hz
      exact h0

theorem AllOwn.newSlot (h : AllOwn Q d) (h0 : Q none) (a s i : Nat) : AllOwn Q (newSlot d a s i).1 := by
  unfold Device.newSlot
  cases getApi d a with
  | none => exact h
  | some x =>
    simp only
    cases findSlot x s with
    | some y => exact h
    | none =>
      simp only
      cases x.slots.find? (fun y => !y.inUse) with
      | none => exact h
      | some y =>
        simp only
        unfold Device.updApi
        refine h.updApi _ _ (fun x hx y hy z hz => ?_)
        rcases mem_modFirst _ _ _ _ hy with h1 | ⟨y', h1, rfl⟩
        · exact h x hx y h1 z hz
        · obtain ⟨_, rfl⟩ := List.mem_replicate.1 hz
          exact h0

theorem AllOwn.plugModule (h : AllOwn Q d) (h0 : Q none) (a s i : Nat) :
    AllOwn Q (plugModule d a s i).1 := by
  unfold Device.plugModule
  cases getApi d a with
  | none => exact h
  | some x =>
    simp only
    cases findSlot x s with
    | some y => exact h
    | none => exact h.newSlot h0 a s i

theorem AllOwn.pullSub (h : AllOwn Q d) (a s ss : Nat) (al : Bool) : AllOwn Q (pullSub d a s ss al).1 := by
  unfold Device.pullSub
  cases getSub d a s ss with
  | none => exact h
  | some z => exact h.updSub a s ss _ (fun _ hz => hz)

theorem AllOwn.newSub (h : AllOwn Q d) (a s ss i : Nat) (info : Info) (w : Option Nat) (hw : Q w) :
    AllOwn Q (newSub d a s ss i info w).1 := by
  unfold Device.newSub
  cases getSlot d a s with
  | none => exact h
  | some y =>
    simp only
    cases findSub y ss with
    | some z => exact h
    | none =>
      simp only
      cases y.subs.find? (fun z => !z.inUse) with
      | none => exact h
      | some z =>
        simp only
        refine h.updSlot a s _ (fun x hx y hy z hz => ?_)
        rcases mem_modFirst _ _ _ _ hz with h1 | ⟨z', h1, rfl⟩
        · exact h x hx y hy z h1
        · exact hw

theorem AllOwn.plugSub (h : AllOwn Q d) (h0 : Q none) (a s ss m i : Nat) (info : Info)
    (w : Option Nat) (al : Bool) (hw : Q w) : AllOwn Q (plugSub d a s ss m i info false w al).1 := by
  have hp : AllOwn Q (plugPrepare d a s ss m i false al).1 := by
    unfold plugPrepare
    cases getApi d a with
    | none => exact h
    | some x =>
      simp only
      cases findSlot x s with
      | none => exact h.plugModule h0 a s m
      | some y =>
        simp only
        cases findSub y ss with
        | none => exact h
        | some z => simp only [Bool.false_eq_true, if_false]; exact h
  unfold Device.plugSub
  generalize plugPrepare d a s ss m i false al = r at *
  obtain ⟨d1, b⟩ := r
  simp only
  cases b with
  | true => exact hp
  | false => exact AllOwn.newSub hp a s ss i info w hw

theorem AllOwn.pullLoop (a s : Nat) (al : Nat → Bool) (l : List Nat) {d : Dev} (h : AllOwn Q d) :
    AllOwn Q (pullLoop a s al l d).1 := by
  induction l generalizing d with
  | nil => exact h
  | cons i l ih =>
    unfold Device.pullLoop
    cases getSlot d a s with
    | none => exact h
    | some x =>
      simp only
      cases x.subs[i]? with
      | none => exact ih h
      | some y =>
        simp only
        split
        · have := h.pullSub a s y.number (al y.number)
          generalize Device.pullSub d a s y.number (al y.number) = r at *
          obtain ⟨d1, b⟩ := r
          cases b with
          | true => exact ih this
          | false => exact this
        · exact ih h

theorem AllOwn.pullModule (h : AllOwn Q d) (a s : Nat) (al : Nat → Bool) :
    AllOwn Q (pullModule d a s al).1 := by
  unfold Device.pullModule
  cases getSlot d a s with
  | none => exact h
  | some x =>
    simp only
    have := AllOwn.pullLoop a s al (List.range x.subs.length) h
    generalize Device.pullLoop a s al (List.range x.subs.length) d = r at *
    obtain ⟨d1, b⟩ := r
    cases b with
    | true => exact AllOwn.updSlot this a s _ (fun x hx y hy z hz => this x hx y hy z hz)
    | false => exact this

theorem AllOwn.app {w : Nat → Nat → Nat → Option Nat} (h0 : Q none) (hw : ∀ a s ss, Q (w a s ss))
    (o : AppOp) {d : Dev} (h : AllOwn Q d) : AllOwn Q (tstep d (o.toT w)).1 := by
  cases o with
  | plugModule a s i => exact h.plugModule h0 a s i
  | plugSub a s ss m i info al => exact h.plugSub h0 a s ss m i info _ al (hw a s ss)
  | pullSub a s ss al => exact h.pullSub a s ss al
  | pullModule a s al => exact h.pullModule a s al

theorem AllOwn.claim (h : AllOwn Q d) (a s ss i : Nat) (hi : Q (some i)) :
    AllOwn Q (claim d a s ss i) := by
  unfold Device.claim
  refine h.updSub a s ss _ (fun z hz => ?_)
  split
  · exact hi
  · exact hz

theorem AllOwn.moves {w : Nat → Nat → Nat → Option Nat} {i : Nat} {R : AppOp → Prop} {d d' : Dev}
    (h0 : Q none) (hw : ∀ a s ss, Q (w a s ss)) (hi : Q (some i)) (hm : Moves w i R d d')
    (h : AllOwn Q d) : AllOwn Q d' :=
  hm.ind (AllOwn Q) (fun d o _ hd => AllOwn.app h0 hw o hd) (fun d a hd => hd.newApi h0 a)
    (fun d a s ss hd => hd.claim a s ss i hi) h

theorem AllOwn.runApp {w : Nat → Nat → Nat → Option Nat} (h0 : Q none) (hw : ∀ a s ss, Q (w a s ss))
    (os : List AppOp) {d : Dev} (h : AllOwn Q d) : AllOwn Q (runApp w d os) := by
  induction os generalizing d with
  | nil => exact h
  | cons o os ih => exact ih (AllOwn.app h0 hw o h)

theorem AllOwn.get (h : AllOwn Q d) {a s ss : Nat} {z : Sub} (hz : getSub d a s ss = some z) :
    Q z.owner := by
  unfold getSub getSlot at hz
  cases hx : getApi d a with
  | none => simp [hx] at hz
  | some x =>
    simp only [hx, Option.bind_some] at hz
    cases hy : findSlot x s with
    | none => simp [hy] at hz
    | some y =>
      simp only [hy, Option.bind_some] at hz
      exact h x (List.mem_of_find?_eq_some hx) y (List.mem_of_find?_eq_some hy) z
        (List.mem_of_find?_eq_some hz)

theorem AllOwn.setOwners {R : Option Nat → Prop} (h : AllOwn R d)
    (f : Nat → Nat → Nat → Sub → Option Nat) (hf : ∀ a s ss z, R z.owner → Q (f a s ss z)) :
    AllOwn Q (setOwners f d) := by
  intro x hx y hy z hz
  unfold Device.setOwners at hx
  obtain ⟨x', hx', rfl⟩ := List.mem_map.1 hx
  obtain ⟨y', hy', rfl⟩ := List.mem_map.1 hy
  obtain ⟨z', hz', rfl⟩ := List.mem_map.1 hz
  exact hf _ _ _ _ (h x' hx' y' hy' z' hz')

end

theorem who_mem {ars : List Ar} {order : List Nat} {a s ss i : Nat}
    (h : who ars order a s ss = some i) : i ∈ order := List.mem_of_find?_eq_some h

theorem allOwn_dev0 {Q : Option Nat → Prop} (h0 : Q none) (nA nS nB : Nat) : AllOwn Q (dev0 nA nS nB) := by
  unfold dev0
  refine AllOwn.newApi ?_ h0 0
  intro x hx y hy z hz
  obtain ⟨_, rfl⟩ := List.mem_replicate.1 hx
  obtain ⟨_, rfl⟩ := List.mem_replicate.1 hy
  obtain ⟨_, rfl⟩ := List.mem_replicate.1 hz
  exact h0

/-! ## C30 -/

/-- **C30**.  After any history two connections differ in UUID and AREP, and looking up a connection
by its AREP or its UUID gives that connection. -/
theorem C30_distinct_identifiers (nA nS nB n : Nat) (hn : n < 65536) (os : List Op) (i j : Nat)
    (x y : Ar) (hx : Live (exec (init nA nS nB n) os) i x) (hy : Live (exec (init nA nS nB n) os) j y) :
    (x.uuid = y.uuid → i = j) ∧ (x.arep = y.arep → i = j) ∧ x.arep ≠ 0 ∧
    findArep (exec (init nA nS nB n) os) x.arep = some i ∧
    findUuid (exec (init nA nS nB n) os) x.uuid = some i := by
  have h := CInv.exec os (CInv.init nA nS nB n)
  generalize exec (init nA nS nB n) os = st at *
  obtain ⟨hx1, hx2⟩ := hx
  obtain ⟨hy1, hy2⟩ := hy
  obtain ⟨p1, p2, p3⟩ := h.last i x hx1 hx2
  obtain ⟨q1, q2, q3⟩ := h.last j y hy1 hy2
  refine ⟨h.uuid i j x y hx1 hy1 hx2 hy2, fun he => by omega, by omega, ?_, ?_⟩
  · unfold findArep
    rw [p2]
    have hm : (i + 1 - 1) % 65536 = i := by omega
    simp only [hm, hx1, Option.any_some, hx2, if_true, Nat.succ_pos]
  · unfold findUuid
    cases hf : st.ars.findIdx? (fun z => z.inUse && z.phase != .powerOn && z.uuid == x.uuid) with
    | none =>
      rw [List.findIdx?_eq_none_iff] at hf
      have := hf x (List.mem_of_getElem? hx1)
      simp [hx2, p3] at this
    | some k =>
      rw [List.findIdx?_eq_some_iff_getElem] at hf
      obtain ⟨hk, hp, _⟩ := hf
      simp only [Bool.and_eq_true, bne_iff_ne, ne_eq, beq_iff_eq] at hp
      have := h.uuid k i _ x (List.getElem?_eq_getElem hk) hx1 hp.1.1 hx2 hp.2
      rw [this]

/-- AREPs are looked up in 16 bits: a number that is no AREP can be taken for one. -/
theorem C30_arep_alias (st : St) (arep : Nat) (h : 0 < arep) :
    findArep st (arep + 65536) = findArep st arep := by
  unfold findArep
  have : (arep + 65536 - 1) % 65536 = (arep - 1) % 65536 := by omega
  simp only [this, h, Nat.add_pos_left h, if_true]

/-! ## C19 -/

/-- A connect request is decided before the expected configuration is looked at, or accepted. -/
def CleanConnect (st : St) (rq : Request) : Prop :=
  (connect st rq).2 = true ∨ rq.parseOk = false ∨ rq.preOk = false ∨ (findUuid st rq.uuid).isSome ∨
  (∀ i < st.maxAr, ∃ x, Live st i x)

/-- All connect requests of the history are of this kind. -/
def CleanHistory : St → List Op → Prop
  | _, [] => True
  | st, o :: os => (∀ rq, o = .connect rq → CleanConnect st rq) ∧ CleanHistory (step st o).1 os

/-- Every table entry that has an owner belongs to a live connection. -/
def OwnInv (st : St) : Prop := AllOwn (fun o => ∀ i, o = some i → i ∈ st.order) st.apis

theorem OwnInv.abort {n : Nat} {st : St} (hc : CInv n st) (h : OwnInv st) (i : Nat) (cb : List AppOp) :
    OwnInv (abortAr st i cb) := by
  rcases abortAr_spec hc i cb with ⟨h1, _⟩ | ⟨x, e, _, _, _, _, _, h1, _⟩
  · rw [h1]; exact h
  · rw [h1]
    unfold OwnInv
    dsimp only
    refine AllOwn.setOwners (R := fun o => ∀ j, o = some j → j ∈ st.order) ?_ _ ?_
    · exact AllOwn.runApp (by simp) (fun a s ss j hj => who_mem hj) cb h
    · intro a s ss z hz j hj
      split at hj
      · exact who_mem hj
      · rename_i hne
        exact (hc.ordNodup.mem_erase_iff).2 ⟨fun hji => hne (by rw [hj, hji]), hz j hj⟩

theorem OwnInv.step {n : Nat} {st : St} (hc : CInv n st) (h : OwnInv st) (o : Op)
    (hclean : ∀ rq, o = .connect rq → CleanConnect st rq) : OwnInv (step st o).1 := by
  cases o with
  | app o => exact AllOwn.app (by simp) (fun a s ss j hj => who_mem hj) o h
  | abort i cb => exact h.abort hc i cb
  | cmAbort i cb =>
    show OwnInv (Device.cmAbort st i cb)
    rcases cmAbort_cases st i cb with h1 | h1 <;> rw [h1]
    · exact h
    · exact h.abort hc i cb
  | advance i p => exact h
  | connect rq =>
    have hcl := hclean rq rfl
    have ho := connect_outcome hc rq (fun _ => True) ⟨fun _ _ _ _ => trivial,
      fun _ _ _ _ _ => trivial, fun _ _ => trivial, fun _ _ => trivial⟩
    show OwnInv (Device.connect st rq).1
    unfold CleanConnect at hcl
    generalize Device.connect st rq = r at ho hcl
    cases ho with
    | early _ => exact h
    | dup j _ _ =>
      simp only
      rcases cmAbort_cases st j rq.stateCb with h1 | h1 <;> rw [h1]
      · exact h
      · exact h.abort hc j _
    | late i d e hn hi hp1 hp2 hu _ _ =>
      exfalso
      rcases hcl with h1 | h1 | h1 | h1 | h1
      · simp at h1
      · rw [hp1] at h1; simp at h1
      · rw [hp2] at h1; simp at h1
      · rw [hu] at h1; simp at h1
      · rw [hc.maxAr] at h1
        obtain ⟨x, hx1, hx2⟩ := h1 i hn
        rw [hi] at hx1
        cases hx1
        simp [Ar.zero] at hx2
    | ok i x d e hn hi _ _ hm _ _ _ _ hxe _ _ =>
      have hlt : i < st.ars.length := by rw [hc.len]; omega
      have hmem : ∀ j, j ∈ (withAr st i x).order ↔ j ∈ st.order ∨ j = i := by
        intro j; simp [withAr, hc.maxAr, hn]
      refine AllOwn.moves (by simp) (fun a s ss j hj => ?_) ?_ hm ?_
      · exact who_mem hj
      · intro j hj
        cases hj
        exact (hmem _).2 (Or.inr rfl)
      · intro x1 hx1 y hy z hz j hj
        exact (hmem j).2 (Or.inl (h x1 hx1 y hy z hz j hj))

/-- **C19 (partial), owners are live**.  After any history in which every connect request is accepted
or refused before its expected configuration is looked at, each plugged submodule that is owned is
owned by a connection that exists.  Missing: histories with connect requests that are refused
later; see `C19_stale_owner`. -/
theorem C19_owner_is_live_partial (nA nS nB n : Nat) (os : List Op)
    (hclean : CleanHistory (init nA nS nB n) os) (a s ss i : Nat)
    (ho : ownerOf (exec (init nA nS nB n) os) a s ss = some i) :
    ∃ x, Live (exec (init nA nS nB n) os) i x := by
  have key : ∀ (os : List Op) (st : St), CInv n st → OwnInv st → CleanHistory st os →
      OwnInv (exec st os) ∧ CInv n (exec st os) := by
    intro os
    induction os with
    | nil => intro st hc h _; exact ⟨h, hc⟩
    | cons o os ih =>
      intro st hc h hcl
      exact ih _ (hc.step o) (h.step hc o hcl.1) hcl.2
  have h0 : OwnInv (init nA nS nB n) := allOwn_dev0 (by simp) nA nS nB
  obtain ⟨h, hc⟩ := key os _ (CInv.init nA nS nB n) h0 hclean
  generalize exec (init nA nS nB n) os = st at *
  unfold ownerOf at ho
  cases hz : getSub st.apis a s ss with
  | none => simp [hz] at ho
  | some z =>
    rw [hz] at ho
    obtain ⟨_, x, hx, hu⟩ := (hc.ordIff i).1 (h.get hz i ho)
    exact ⟨x, hx, hu⟩

/-- **C19, after the end**.  Whatever happened before (including refused connects), after a
connection ends no submodule is owned by it, and a submodule it owned now belongs to nobody or to
another live connection. -/
theorem C19_nothing_owned_after_end (nA nS nB n : Nat) (os : List Op) (i : Nat) (x : Ar)
    (cb : List AppOp) (hx : Live (exec (init nA nS nB n) os) i x) (a s ss : Nat) :
    ownerOf (step (exec (init nA nS nB n) os) (.abort i cb)).1 a s ss ≠ some i ∧
    ∀ y, ¬ Live (step (exec (init nA nS nB n) os) (.abort i cb)).1 i y := by
  have hc := CInv.exec os (CInv.init nA nS nB n)
  generalize exec (init nA nS nB n) os = st at *
  obtain ⟨hx1, hx2⟩ := hx
  have hin : i ∈ st.order := (hc.ordIff i).2 ⟨(hc.last i x hx1 hx2).1, x, hx1, hx2⟩
  show ownerOf (abortAr st i cb) a s ss ≠ some i ∧ ∀ y, ¬ Live (abortAr st i cb) i y
  rcases abortAr_spec hc i cb with ⟨_, h1⟩ | ⟨x', e, _, _, _, _, _, h1, hc'⟩
  · exact absurd hin h1
  · have hord : i ∉ (abortAr st i cb).order := by
      rw [h1]
      intro hm
      exact ((hc.ordNodup.mem_erase_iff).1 hm).1 rfl
    have hall : AllOwn (fun o => o ≠ some i) (abortAr st i cb).apis := by
      rw [h1]
      dsimp only
      refine AllOwn.setOwners (R := fun _ => True) (fun _ _ _ _ _ _ => trivial) _ ?_
      intro a s ss z _
      split
      · intro hh
        exact ((hc.ordNodup.mem_erase_iff).1 (who_mem hh)).1 rfl
      · assumption
    constructor
    · unfold ownerOf
      cases hz : getSub (abortAr st i cb).apis a s ss with
      | none => simp
      | some z => exact hall.get hz
    · rintro y ⟨hy1, hy2⟩
      exact hord ((hc'.ordIff i).2 ⟨(hc'.last i y hy1 hy2).1, y, hy1, hy2⟩)

/-- The call plugs, it does not pull. -/
def AppOp.IsPlug : AppOp → Prop
  | .plugModule .. | .plugSub .. => True
  | .pullSub .. | .pullModule .. => False

/-- No submodule is pulled by the application in this step. -/
def Op.NoPull : Op → Prop
  | .app o => o.IsPlug
  | .connect rq => rq.All AppOp.IsPlug
  | .abort _ cb | .cmAbort _ cb => ∀ o ∈ cb, o.IsPlug
  | .advance _ _ => True

/-- The submodule is plugged and owned by `i`. -/
def Keeps (a s ss i : Nat) (d : Dev) : Prop := ∃ z, getSub d a s ss = some z ∧ z.owner = some i

theorem getSub_newSub {d : Dev} {a s ss : Nat} {z : Sub} (h : getSub d a s ss = some z)
    (a' s' ss' i : Nat) (info : Info) (w : Option Nat) :
    getSub (newSub d a' s' ss' i info w).1 a s ss = some z := by
  unfold newSub
  cases hg : getSlot d a' s' with
  | none => exact h
  | some y =>
    simp only
    cases hs : findSub y ss' with
    | some z' => exact h
    | none =>
      simp only
      cases hf : y.subs.find? (fun z => !z.inUse) with
      | none => exact h
      | some z' =>
        simp only
        rw [getSub_updNew d a' s' ss' i info w y z' hg hs hf]
        rw [if_neg]
        · exact h
        · rintro ⟨rfl, rfl, rfl⟩
          simp [getSub, hg, hs] at h

theorem Keeps.plug {a s ss i : Nat} {w : Nat → Nat → Nat → Option Nat} (d : Dev) (o : AppOp)
    (ho : o.IsPlug) (h : Keeps a s ss i d) : Keeps a s ss i (tstep d (o.toT w)).1 := by
  have hpm : ∀ a' s' m, Keeps a s ss i (plugModule d a' s' m).1 := by
    intro a' s' m
    unfold plugModule
    cases getApi d a' with
    | none => exact h
    | some x =>
      simp only
      cases findSlot x s' with
      | some y => exact h
      | none =>
        obtain ⟨z, hz, hzo⟩ := h
        exact ⟨z, by rw [getSub_newSlot]; exact hz, hzo⟩
  cases o with
  | plugModule a' s' m => exact hpm a' s' m
  | plugSub a' s' ss' m i' info al =>
    have hp : Keeps a s ss i (plugPrepare d a' s' ss' m i' false al).1 := by
      unfold plugPrepare
      cases getApi d a' with
      | none => exact h
      | some x =>
        simp only
        cases findSlot x s' with
        | none => exact hpm a' s' m
        | some y =>
          simp only
          cases findSub y ss' with
          | none => exact h
          | some z => simp only [Bool.false_eq_true, if_false]; exact h
    show Keeps a s ss i (plugSub d a' s' ss' m i' info false (w a' s' ss') al).1
    unfold plugSub
    generalize plugPrepare d a' s' ss' m i' false al = r at *
    obtain ⟨d1, b⟩ := r
    simp only
    cases b with
    | true => exact hp
    | false =>
      obtain ⟨z, hz, hzo⟩ := hp
      exact ⟨z, getSub_newSub hz a' s' ss' i' info (w a' s' ss'), hzo⟩
  | pullSub => exact ho.elim
  | pullModule => exact ho.elim

theorem Keeps.newApi {a s ss i : Nat} (d : Dev) (a' : Nat) (h : Keeps a s ss i d) :
    Keeps a s ss i (newApi d a').1 := by
  obtain ⟨z, hz, hzo⟩ := h
  exact ⟨z, by unfold getSub; rw [getSlot_newApi]; exact hz, hzo⟩

theorem Keeps.claim {a s ss i : Nat} (d : Dev) (a' s' ss' j : Nat) (h : Keeps a s ss i d) :
    Keeps a s ss i (claim d a' s' ss' j) := by
  obtain ⟨z, hz, hzo⟩ := h
  refine ⟨z, ?_, hzo⟩
  rw [getSub_claim, hz]
  simp [hzo]

theorem Keeps.runApp {a s ss i : Nat} {w : Nat → Nat → Nat → Option Nat} (os : List AppOp) (d : Dev)
    (ho : ∀ o ∈ os, o.IsPlug) (h : Keeps a s ss i d) : Keeps a s ss i (runApp w d os) := by
  induction os generalizing d with
  | nil => exact h
  | cons o os ih =>
    exact ih _ (fun o' ho' => ho o' (by simp [ho'])) (h.plug d o (ho o (by simp)))

theorem Keeps.abort {n : Nat} {st : St} (hc : CInv n st) {a s ss i j : Nat} (cb : List AppOp)
    (hcb : ∀ o ∈ cb, o.IsPlug) (hij : i ≠ j ∨ i ∉ st.order) (h : Keeps a s ss i st.apis) :
    Keeps a s ss i (abortAr st j cb).apis := by
  rcases abortAr_spec hc j cb with ⟨h1, _⟩ | ⟨x, e, hx1, hx2, _, _, _, h1, _⟩
  · rw [h1]; exact h
  · have hne : i ≠ j := by
      rcases hij with h2 | h2
      · exact h2
      · rintro rfl
        exact h2 ((hc.ordIff i).2 ⟨(hc.last i x hx1 hx2).1, x, hx1, hx2⟩)
    rw [h1]
    obtain ⟨z, hz, hzo⟩ := h.runApp (w := who st.ars st.order) cb _ hcb
    refine ⟨z, ?_, hzo⟩
    rw [getSub_setOwners, hz]
    have : (z.owner = some j) = False := by
      rw [hzo]; simp [hne]
    simp only [Option.map_some, this, if_false]

/-- **C19, not taken away**.  After any history: if a submodule is owned by connection `i` (live or
not) and the next step does not end connection `i` and the application pulls nothing in it, then the
submodule is still plugged and owned by `i` afterwards.  In particular no connect request and no end
of another connection takes it away. -/
theorem C19_not_taken_away (nA nS nB n : Nat) (os : List Op) (o : Op) (ho : o.NoPull)
    (a s ss i : Nat) (h : ownerOf (exec (init nA nS nB n) os) a s ss = some i)
    (hend : (∃ x, Live (exec (init nA nS nB n) os) i x) →
      ∃ x, Live (step (exec (init nA nS nB n) os) o).1 i x) :
    ownerOf (step (exec (init nA nS nB n) os) o).1 a s ss = some i := by
  have hc := CInv.exec os (CInv.init nA nS nB n)
  generalize exec (init nA nS nB n) os = st at *
  have hk : Keeps a s ss i st.apis := by
    unfold ownerOf at h
    cases hz : getSub st.apis a s ss with
    | none => simp [hz] at h
    | some z => exact ⟨z, hz, by simpa [hz] using h⟩
  suffices hs : Keeps a s ss i (step st o).1.apis by
    obtain ⟨z, hz, hzo⟩ := hs
    unfold ownerOf
    rw [hz]; exact hzo
  have habort : ∀ j cb, (∀ o ∈ cb, AppOp.IsPlug o) →
      ((∃ x, Live st i x) → ∃ x, Live (abortAr st j cb) i x) →
      Keeps a s ss i (abortAr st j cb).apis := by
    intro j cb hcb hend'
    refine hk.abort hc cb hcb ?_
    by_cases hij : i = j
    · right
      subst hij
      intro hm
      obtain ⟨_, x, hx1, hx2⟩ := (hc.ordIff i).1 hm
      obtain ⟨y, hy1, hy2⟩ := hend' ⟨x, hx1, hx2⟩
      rcases abortAr_spec hc i cb with ⟨_, h1⟩ | ⟨x', e, _, _, _, _, _, h1, hc'⟩
      · exact h1 hm
      · have : i ∈ (abortAr st i cb).order :=
          (hc'.ordIff i).2 ⟨(hc'.last i y hy1 hy2).1, y, hy1, hy2⟩
        rw [h1] at this
        exact ((hc.ordNodup.mem_erase_iff).1 this).1 rfl
    · left; exact hij
  cases o with
  | app o => exact hk.plug _ o ho
  | abort j cb => exact habort j cb ho hend
  | cmAbort j cb =>
    show Keeps a s ss i (Device.cmAbort st j cb).apis
    have hend' : (∃ x, Live st i x) → ∃ x, Live (Device.cmAbort st j cb) i x := hend
    rcases cmAbort_cases st j cb with h1 | h1 <;> rw [h1] at hend' ⊢
    · exact hk
    · exact habort j cb ho hend'
  | advance j p => exact hk
  | connect rq =>
    have hout := connect_outcome hc rq AppOp.IsPlug ho
    have hend' : (∃ x, Live st i x) → ∃ x, Live (Device.connect st rq).1 i x := hend
    show Keeps a s ss i (Device.connect st rq).1.apis
    generalize Device.connect st rq = r at hout hend'
    have hmoves : ∀ {w : Nat → Nat → Nat → Option Nat} {k : Nat} {d : Dev},
        Moves w k AppOp.IsPlug st.apis d → Keeps a s ss i d := fun hm =>
      hm.ind (Keeps a s ss i) (fun d o hq hd => hd.plug d o hq) (fun d a' hd => hd.newApi d a')
        (fun d a' s' ss' hd => hd.claim d a' s' ss' _) hk
    cases hout with
    | early _ => exact hk
    | dup j _ _ =>
      simp only at hend' ⊢
      rcases cmAbort_cases st j rq.stateCb with h1 | h1 <;> rw [h1] at hend' ⊢
      · exact hk
      · exact habort j _ ho.2.2.2 hend'
    | late k d e _ _ _ _ _ hm _ => exact hmoves hm
    | ok k x d e _ _ _ _ hm _ _ _ _ _ _ _ => exact hmoves hm

/-! ### Witnesses -/

/-- A controller that expects one submodule in API 0, slot 1, subslot 1. -/
def sampleExp : List ExpApi := [⟨0, [⟨1, 0x10, [⟨1, 0x20⟩]⟩]⟩]

/-- A request for it; `post` is the outcome of the later checks. -/
def sampleRequest (uuid : Nat) (exp : List ExpApi) (post : Bool) : Request :=
  { uuid := uuid, devAccess := false, exp := exp, parseOk := true, preOk := true,
    subOk := fun _ _ _ => true, postOk := post, appOk := true, startOk := true, errSet := true,
    modCb := fun _ _ => [], subCb := fun _ _ _ => [], connectCb := [], stateCb := [] }

def samplePlug : Op := .app (.plugSub 0 1 1 0x10 0x20 ⟨1, 4, 0⟩ true)

/-- The other submodule and a controller for it. -/
def samplePlug2 : Op := .app (.plugSub 0 2 1 0x10 0x20 ⟨1, 4, 0⟩ true)
def sampleExp2 : List ExpApi := [⟨0, [⟨2, 0x10, [⟨1, 0x20⟩]⟩]⟩]

/-- A history in which two connections share the device. -/
def sampleOps : List Op :=
  [samplePlug, samplePlug2, .connect (sampleRequest 7 sampleExp true),
   .connect (sampleRequest 8 sampleExp2 true)]

theorem C19_example :
    let st := exec (init 1 2 2 2) sampleOps
    ownerOf st 0 1 1 = some 0 ∧ ownerOf st 0 2 1 = some 1 ∧
    (∃ x, Live st 0 x) ∧ (∃ x, Live st 1 x) := by
  refine ⟨by decide +kernel, by decide +kernel, ⟨_, ⟨rfl, by decide +kernel⟩⟩,
    ⟨_, ⟨rfl, by decide +kernel⟩⟩⟩

/-- **C19, what is false**.  A connect request that is refused after the expected configuration was
looked at leaves the submodule owned by the connection that was not established.  Here the first
connection ends, and the controller that connects afterwards, although it is the only one connected,
does not own the submodule it expects. -/
theorem C19_stale_owner :
    let st := exec (init 1 2 2 2) [samplePlug, samplePlug2, .connect (sampleRequest 7 sampleExp2 true),
      .connect (sampleRequest 8 sampleExp false), .abort 0 []]
    let st' := (step st (.connect (sampleRequest 9 sampleExp true))).1
    (step st (.connect (sampleRequest 9 sampleExp true))).2 = true ∧
    st'.order = [0] ∧ ownerOf st' 0 1 1 = some 1 ∧ (st'.ars[1]?).any (fun x => x.inUse) = false := by
  decide +kernel

/-! ## C50 -/

/-- **C50 (partial)**.  After any history, if a connect request is refused and its UUID is not in use,
then the connections are exactly as before; a request refused before its expected configuration
is looked at changes nothing at all; in any case submodules owned before stay owned by the same
connection (unless pulled by the application), submodules that change hands were free, and at most
one alarm endpoint changes, from free to used.  Missing: ownership and endpoints are not restored,
see `C50_refused_connect_leaks`. -/
theorem C50_refused_connect_partial (nA nS nB n : Nat) (os : List Op) (rq : Request)
    (hdup : findUuid (exec (init nA nS nB n) os) rq.uuid = none)
    (href : (connect (exec (init nA nS nB n) os) rq).2 = false) :
    let st := exec (init nA nS nB n) os
    let st' := (connect st rq).1
    st'.ars = st.ars ∧ st'.order = st.order ∧
    (rq.parseOk = false ∨ rq.preOk = false ∨ (∀ i < n, ∃ x, Live st i x) → st' = st) ∧
    (rq.All AppOp.IsPlug → ∀ a s ss i, ownerOf st a s ss = some i → ownerOf st' a s ss = some i) ∧
    (st'.eps = st.eps ∨ ∃ i, st'.eps = modFirst (fun e => e.isNone) (fun _ => some i) st.eps) := by
  have hc := CInv.exec os (CInv.init nA nS nB n)
  have hkeep := C19_not_taken_away nA nS nB n os (.connect rq)
  generalize exec (init nA nS nB n) os = st at *
  intro st0 st'
  have hout := connect_outcome hc rq (fun _ => True) ⟨fun _ _ _ _ => trivial,
      fun _ _ _ _ _ => trivial, fun _ _ => trivial, fun _ _ => trivial⟩
  have hst' : (step st (.connect rq)).1 = st' := rfl
  rw [hst'] at hkeep
  have hr : Device.connect st rq = (st', false) := Prod.ext rfl href
  rw [hr] at hout
  clear_value st'
  cases hout with
  | early _ => exact ⟨rfl, rfl, fun _ => rfl, fun _ _ _ _ _ h => h, Or.inl rfl⟩
  | dup j hj _ => rw [hdup] at hj; simp at hj
  | late i d e hn hi hp1 hp2 _ _ he =>
    refine ⟨rfl, rfl, ?_, ?_, ?_⟩
    · rintro (h1 | h1 | h1)
      · rw [hp1] at h1; simp at h1
      · rw [hp2] at h1; simp at h1
      · obtain ⟨x, hx1, hx2⟩ := h1 i hn
        rw [hi] at hx1
        cases hx1
        simp [Ar.zero] at hx2
    · intro hq a s ss k hk
      exact hkeep hq a s ss k hk (fun ⟨x, hx⟩ => ⟨x, hx⟩)
    · rcases he with h1 | h1
      · left; exact h1
      · right; exact ⟨i, h1⟩

/-- A refused connect meets the hypotheses of the theorem above. -/
theorem C50_example :
    findUuid (exec (init 1 2 2 3) sampleOps) 9 = none ∧
    (connect (exec (init 1 2 2 3) sampleOps) (sampleRequest 9 sampleExp false)).2 = false := by
  decide +kernel

/-- The application refuses the connect request and sets an error code. -/
def appRefuses (rq : Request) : Request := { rq with appOk := false }

/-- **C50, what is false**.  A request refused by the later checks leaves the submodule owned, a
request refused by the application in addition leaves an alarm endpoint used; after as many such
requests as there are endpoints none is left, so a later good request gets no endpoint.  A
duplicate of an existing connection is refused but ends the existing connection. -/
theorem C50_refused_connect_leaks :
    (let st := exec (init 1 2 2 1) [samplePlug]
     let r := connect st (sampleRequest 7 sampleExp false)
     r.2 = false ∧ ownerOf st 0 1 1 = none ∧ ownerOf r.1 0 1 1 = some 0) ∧
    (let st := exec (init 1 2 2 1) [samplePlug]
     let r := connect st (appRefuses (sampleRequest 7 sampleExp true))
     r.2 = false ∧ st.eps = [none] ∧ r.1.eps = [some 0]) ∧
    (let st := exec (init 1 2 2 2) [samplePlug, .connect (sampleRequest 7 sampleExp true)]
     let r := connect st (sampleRequest 7 sampleExp true)
     r.2 = false ∧ st.order = [0] ∧ r.1.order = []) := by
  decide +kernel

/-! ## C59 -/

/-- **C59 (partial)**.  After any history the end of a connection frees its entry in the connection
table and its place in the order of connections, leaves all other connections as they are, and, if
its protocol machines had been started, frees the first alarm endpoint that refers to it.  Missing:
connections whose protocol machines were never started, see `C59_endpoint_leak`. -/
theorem C59_end_frees_resources_partial (nA nS nB n : Nat) (os : List Op) (i : Nat) (x : Ar)
    (cb : List AppOp) (hx : Live (exec (init nA nS nB n) os) i x) :
    let st := exec (init nA nS nB n) os
    let st' := (step st (.abort i cb)).1
    st'.ars[i]? = some Ar.zero ∧ i ∉ st'.order ∧ st'.order = st.order.erase i ∧
    (∀ j, j ≠ i → st'.ars[j]? = st.ars[j]?) ∧
    (x.started = true → st'.eps = modFirst (fun e => e == some i) (fun _ => none) st.eps) := by
  have hc := CInv.exec os (CInv.init nA nS nB n)
  generalize exec (init nA nS nB n) os = st at *
  intro st0 st'
  obtain ⟨hx1, hx2⟩ := hx
  have hin : i ∈ st.order := (hc.ordIff i).2 ⟨(hc.last i x hx1 hx2).1, x, hx1, hx2⟩
  have hlt : i < st.ars.length := by
    have := (hc.last i x hx1 hx2).1; rw [hc.len]; omega
  have hst' : st' = abortAr st i cb := rfl
  clear_value st'
  rcases abortAr_spec hc i cb with ⟨_, h1⟩ | ⟨x', e, hx', _, _, _, he, h1, hc'⟩
  · exact absurd hin h1
  · rw [hst', h1]
    rw [hx1] at hx'
    cases hx'
    refine ⟨by simp [hlt], ?_, rfl, ?_, he⟩
    · intro hm
      exact ((hc.ordNodup.mem_erase_iff).1 hm).1 rfl
    · intro j hj
      simp only [List.getElem?_set, if_neg (fun h : i = j => hj h.symm)]
      rfl

/-- A connection that satisfies the hypotheses. -/
theorem C59_example : ∃ x, Live (exec (init 1 2 2 2) sampleOps) 1 x ∧ x.started = true := by
  refine ⟨_, ⟨rfl, by decide +kernel⟩, by decide +kernel⟩

/-- **C59, what is false**.  A connection for device access has no protocol machines: its alarm
endpoint stays used after the end.  With one endpoint the next connection gets none. -/
theorem C59_endpoint_leak :
    let rq := { sampleRequest 7 [] true with devAccess := true }
    let st := exec (init 1 2 2 1) [.connect rq, .abort 0 []]
    st.order = [] ∧ st.eps = [some 0] := by
  decide +kernel

/-! ## The tables in the full system -/

/-- Whatever happens to the tables in the full system is a sequence of table operations, so the
theorems about the tables (C20) hold in the full system. -/
theorem apis_are_histories (nA nS nB n : Nat) (os : List Op) :
    ∃ ts : List TOp, (exec (init nA nS nB n) os).apis = texec (dev0 nA nS nB) ts := by
  have happend : ∀ (ts ts' : List TOp) (d : Dev), texec d (ts ++ ts') = texec (texec d ts) ts' := by
    intro ts
    induction ts with
    | nil => intro _ _; rfl
    | cons t ts ih => intro ts' d; exact ih ts' _
  have hone : ∀ d t, (∃ ts : List TOp, d = texec (dev0 nA nS nB) ts) →
      ∃ ts : List TOp, (tstep d t).1 = texec (dev0 nA nS nB) ts := by
    rintro d t ⟨ts, rfl⟩
    exact ⟨ts ++ [t], by rw [happend]; rfl⟩
  have hrun : ∀ (w : Nat → Nat → Nat → Option Nat) (cb : List AppOp) (d : Dev),
      (∃ ts : List TOp, d = texec (dev0 nA nS nB) ts) →
      ∃ ts : List TOp, runApp w d cb = texec (dev0 nA nS nB) ts := by
    intro w cb
    induction cb with
    | nil => intro d h; exact h
    | cons o cb ih => intro d h; exact ih _ (hone d _ h)
  have habort : ∀ (st : St) (hc : CInv n st) (i : Nat) (cb : List AppOp),
      (∃ ts : List TOp, st.apis = texec (dev0 nA nS nB) ts) →
      ∃ ts : List TOp, (abortAr st i cb).apis = texec (dev0 nA nS nB) ts := by
    intro st hc i cb h
    rcases abortAr_spec hc i cb with ⟨h1, _⟩ | ⟨x', e, hx', _, _, _, he, h1, hc'⟩
    · rw [h1]; exact h
    · rw [h1]
      exact hone _ (.own _) (hrun _ cb _ h)
  have key : ∀ (os : List Op) (st : St), CInv n st →
      (∃ ts : List TOp, st.apis = texec (dev0 nA nS nB) ts) →
      ∃ ts : List TOp, (exec st os).apis = texec (dev0 nA nS nB) ts := by
    intro os
    induction os with
    | nil => intro st _ h; exact h
    | cons o os ih =>
      intro st hc h
      refine ih _ (hc.step o) ?_
      cases o with
      | app o => exact hone _ _ h
      | abort i cb => exact habort st hc i cb h
      | cmAbort i cb =>
        show ∃ ts : List TOp, (Device.cmAbort st i cb).apis = _
        rcases cmAbort_cases st i cb with h1 | h1 <;> rw [h1]
        · exact h
        · exact habort st hc i cb h
      | advance i p => exact h
      | connect rq =>
        have hout := connect_outcome hc rq (fun _ => True) ⟨fun _ _ _ _ => trivial,
          fun _ _ _ _ _ => trivial, fun _ _ => trivial, fun _ _ => trivial⟩
        show ∃ ts : List TOp, (Device.connect st rq).1.apis = _
        have hmoves : ∀ {w : Nat → Nat → Nat → Option Nat} {k : Nat} {d : Dev},
            Moves w k (fun _ => True) st.apis d → ∃ ts : List TOp, d = texec (dev0 nA nS nB) ts :=
          fun hm => hm.ind (fun d => ∃ ts : List TOp, d = texec (dev0 nA nS nB) ts)
            (fun d o _ hd => hone d _ hd) (fun d a' hd => hone d (.newApi a') hd)
            (fun d a' s' ss' hd => hone d (.claim a' s' ss' _) hd) h
        generalize Device.connect st rq = r at hout
        cases hout with
        | early _ => exact h
        | dup j _ _ =>
          simp only
          rcases cmAbort_cases st j rq.stateCb with h1 | h1 <;> rw [h1]
          · exact h
          · exact habort st hc j _ h
        | late k d e _ _ _ _ _ hm _ => exact hmoves hm
        | ok k x d e _ _ _ _ hm _ _ _ _ _ _ _ => exact hmoves hm
  exact key os _ (CInv.init nA nS nB n) ⟨[], rfl⟩

end Verif.Device
