import Verif.Budget.Model
import Mathlib.Data.List.Perm.Subperm
/-!
# C153: A timer is always available

The claim: whatever happens, every timer that is wanted is available. It is false in two ways: the table is too small for small
numbers of CRs per connection, and acknowledged alarms and aborted start-ups leave timers running. Without these it is true.
-/
set_option linter.unusedSimpArgs false
set_option linter.unusedVariables false
namespace Verif.Budget

/-! ## Specification -/

/-- The step does not leave the timer of an earlier alarm or of an ended connection behind: no alarm is sent while the timer of an
earlier alarm of this priority runs, and no connection ends while the supervision of its outputs runs. -/
def Calm (st : St) : Op → Prop
  | .alarm a high => .apmx a high ∉ st.timers
  | .abort a => .cmio a ∉ st.timers
  | _ => True

/-- All steps are calm, up to the first timer that is not available. -/
def CalmRun (l : Lim) (st : St) : List Op → Prop
  | [] => True
  | o :: os => Calm st o ∧ ((step l st o).2 = true → CalmRun l (step l st o).1 os)

/-! ## Invariant -/

/-- A handle that may have a timer. -/
def Valid (l : Lim) (st : St) : Handle → Prop
  | .tx p | .rx p => p < l.ports
  | .link | .hello | .led | .sam | .ident => True
  | .cr a k => a < l.ars ∧ k < l.crs ∧ (st.ars a).phase ≠ .idle ∧
      ∃ b, (st.ars a).outs[k]? = some b ∧ ((st.ars a).phase = .startup → b = true)
  | .cmsm a => a < l.ars
  | .cmio a => a < l.ars ∧ (st.ars a).phase = .prm
  | .apmx a _ => a < l.ars
  | .resend s | .epm s => s < l.sess ∧ st.ses s ≠ .free

structure Good (l : Lim) (st : St) : Prop where
  nodup : st.timers.Nodup
  valid : ∀ h ∈ st.timers, Valid l st h
  ars : ∀ a, (st.ars a).phase ≠ .idle → a < l.ars
  crs : ∀ a, (st.ars a).outs.length ≤ l.crs

/-- All handles. -/
def univ (l : Lim) : List Handle :=
  [.link, .hello, .led, .sam, .ident] ++
  (List.range l.ports).flatMap (fun p => [.tx p, .rx p]) ++
  (List.range l.sess).flatMap (fun s => [.resend s, .epm s]) ++
  (List.range l.ars).flatMap (fun a => [.cmsm a, .cmio a, .apmx a false, .apmx a true] ++
    (List.range l.crs).map (Handle.cr a))

theorem flatMap_length {α β} (n : Nat) (l : List α) (f : α → List β) (h : ∀ a ∈ l, (f a).length = n) :
    (l.flatMap f).length = l.length * n := by
  induction l with
  | nil => simp
  | cons a l ih =>
    simp only [List.flatMap_cons, List.length_append, List.length_cons]
    rw [h a (by simp), ih (fun b hb => h b (by simp [hb]))]
    rw [Nat.succ_mul]; omega

theorem univ_length (l : Lim) : (univ l).length = 5 + 2 * l.ports + 2 * l.sess + l.ars * (l.crs + 4) := by
  unfold univ
  simp only [List.length_append]
  rw [flatMap_length 2, flatMap_length 2, flatMap_length (l.crs + 4)]
  · simp; omega
  · intro a _; simp
  · intro a _; simp
  · intro a _; simp

theorem mem_univ {l : Lim} {st : St} {h : Handle} (v : Valid l st h) : h ∈ univ l := by
  cases h with
  | cr a k => obtain ⟨h1, h2, _⟩ := v; simp [univ]; exact ⟨h1, h2⟩
  | cmio a => simp [univ]; exact v.1
  | apmx a hi => cases hi <;> (simp [univ]; exact v)
  | resend s => simp [univ]; exact v.1
  | epm s => simp [univ]; exact v.1
  | _ => first | (simp [univ]; done) | (simp [univ]; exact v)

theorem Good.length {l : Lim} {st : St} (g : Good l st) : st.timers.length ≤ (univ l).length :=
  (List.subperm_of_subset g.nodup fun h hh => mem_univ (g.valid h hh)).length_le

/-! ## Steps -/

theorem Valid.congr {l : Lim} {st st' : St} (ha : ∀ a, (st'.ars a).phase = (st.ars a).phase ∧ (st'.ars a).outs = (st.ars a).outs)
    (hs : ∀ s, st.ses s ≠ .free → st'.ses s ≠ .free) {h : Handle} (v : Valid l st h) : Valid l st' h := by
  cases h <;> simp only [Valid] at v ⊢ <;> first | exact v | skip
  · rw [(ha _).1, (ha _).2]; exact v
  · rw [(ha _).1]; exact v
  · exact ⟨v.1, hs _ v.2⟩
  · exact ⟨v.1, hs _ v.2⟩

/-- Starting a timer that does not run. -/
theorem Good.add {l : Lim} (hl : (univ l).length ≤ l.cap) {st : St} (g : Good l st) {h : Handle} (hn : h ∉ st.timers)
    (v : Valid l st h) : Budget.add l h st = ({ st with timers := h :: st.timers }, true) ∧
      Good l { st with timers := h :: st.timers } := by
  have g' : Good l { st with timers := h :: st.timers } := by
    refine ⟨List.nodup_cons.2 ⟨hn, g.nodup⟩, ?_, g.ars, g.crs⟩
    intro x hx
    rcases List.mem_cons.1 hx with rfl | hx
    · exact Valid.congr (fun _ => ⟨rfl, rfl⟩) (fun _ h => h) v
    · exact Valid.congr (fun _ => ⟨rfl, rfl⟩) (fun _ h => h) (g.valid x hx)
  have := g'.length
  simp only [List.length_cons] at this
  refine ⟨?_, g'⟩
  unfold Budget.add
  rw [if_pos (by omega)]

theorem Good.remove {l : Lim} {st : St} (g : Good l st) (h : Handle) : Good l (Budget.remove h st) := by
  refine ⟨g.nodup.erase h, ?_, g.ars, g.crs⟩
  intro x hx
  exact Valid.congr (fun _ => ⟨rfl, rfl⟩) (fun _ h => h) (g.valid x (List.mem_of_mem_erase hx))

theorem not_mem_remove {l : Lim} {st : St} (g : Good l st) (h : Handle) : h ∉ (Budget.remove h st).timers :=
  fun hm => by
    have := (g.nodup.mem_erase_iff (a := h) (b := h)).1 hm
    exact this.1 rfl

theorem Good.restart {l : Lim} (hl : (univ l).length ≤ l.cap) {st : St} (g : Good l st) {h : Handle}
    (v : Valid l st h) : (Budget.restart l h st).2 = true ∧ Good l (Budget.restart l h st).1 := by
  have := (g.remove h).add hl (not_mem_remove g h) (v.congr (st' := Budget.remove h st) (fun _ => ⟨rfl, rfl⟩) fun _ h => h)
  unfold Budget.restart
  rw [this.1]
  exact ⟨rfl, this.2⟩

theorem removeAll_ars (hs : List Handle) (st : St) : (removeAll hs st).ars = st.ars := by
  induction hs generalizing st with
  | nil => rfl
  | cons h hs ih => rw [removeAll, ih]; rfl

theorem removeAll_ses (hs : List Handle) (st : St) : (removeAll hs st).ses = st.ses := by
  induction hs generalizing st with
  | nil => rfl
  | cons h hs ih => rw [removeAll, ih]; rfl

theorem Good.removeAll {l : Lim} (hs : List Handle) {st : St} (g : Good l st) : Good l (Budget.removeAll hs st) := by
  induction hs generalizing st with
  | nil => exact g
  | cons h hs ih => exact ih (g.remove h)

theorem mem_removeAll {hs : List Handle} {st : St} (hn : st.timers.Nodup) {h : Handle}
    (hm : h ∈ (removeAll hs st).timers) : h ∈ st.timers ∧ h ∉ hs := by
  induction hs generalizing st with
  | nil => exact ⟨hm, by simp⟩
  | cons x hs ih =>
    have := ih (st := remove x st) (hn.erase x) hm
    have h2 := (hn.mem_erase_iff).1 this.1
    exact ⟨h2.2, by simp [h2.1, this.2]⟩

theorem Good.setSes {l : Lim} {st : St} (g : Good l st) (s : Nat) {x : Ses} (hx : x ≠ .free) : Good l (Budget.setSes st s x) :=
  ⟨g.nodup, fun h hh => Valid.congr (st := st) (st' := Budget.setSes st s x) (fun _ => ⟨rfl, rfl⟩) (fun r hr => by
    simp only [Budget.setSes]; split
    · exact hx
    · exact hr) (g.valid h hh), g.ars, g.crs⟩

/-- Starting several timers that do not run. -/
theorem Good.addAll {l : Lim} (hl : (univ l).length ≤ l.cap) (hs : List Handle) {st : St} (g : Good l st)
    (hn : hs.Nodup) (hd : ∀ h ∈ hs, h ∉ st.timers) (v : ∀ h ∈ hs, Valid l st h) :
    (Budget.addAll l hs st).2 = true ∧ Good l (Budget.addAll l hs st).1 ∧
    (Budget.addAll l hs st).1.ars = st.ars := by
  induction hs generalizing st with
  | nil => exact ⟨rfl, g, rfl⟩
  | cons h hs ih =>
    have h1 := g.add hl (hd h (by simp)) (v h (by simp))
    have h2 := ih h1.2 (List.nodup_cons.1 hn).2
      (fun x hx hm => by
        rcases List.mem_cons.1 hm with rfl | hm
        · exact (List.nodup_cons.1 hn).1 hx
        · exact hd x (by simp [hx]) hm)
      (fun x hx => (v x (by simp [hx])).congr (fun _ => ⟨rfl, rfl⟩) fun _ h => h)
    rw [Budget.addAll, h1.1]
    exact ⟨h2.1, h2.2.1, h2.2.2⟩

theorem Good.addEach {l : Lim} (hl : (univ l).length ≤ l.cap) (hs : List Handle) {st : St} (g : Good l st)
    (hn : hs.Nodup) (hd : ∀ h ∈ hs, h ∉ st.timers) (v : ∀ h ∈ hs, Valid l st h) :
    (Budget.addEach l hs st).2 = true ∧ Good l (Budget.addEach l hs st).1 := by
  induction hs generalizing st with
  | nil => exact ⟨rfl, g⟩
  | cons h hs ih =>
    have h1 := g.add hl (hd h (by simp)) (v h (by simp))
    have h2 := ih h1.2 (List.nodup_cons.1 hn).2
      (fun x hx hm => by
        rcases List.mem_cons.1 hm with rfl | hm
        · exact (List.nodup_cons.1 hn).1 hx
        · exact hd x (by simp [hx]) hm)
      (fun x hx => (v x (by simp [hx])).congr (fun _ => ⟨rfl, rfl⟩) fun _ h => h)
    simp only [Budget.addEach, h1.1]
    exact ⟨by simp [h2.1], h2.2⟩

theorem crHandles_nodup (a : Nat) (b : Bool) (outs : List Bool) : (crHandles a b outs).Nodup := by
  unfold crHandles
  have h : ((List.range outs.length).filter fun k => decide (outs[k]? = some b)).Nodup := List.nodup_range.filter _
  exact List.Pairwise.map (Handle.cr a) (fun x y hxy e => hxy (by cases e; rfl)) h

theorem mem_crHandles {a : Nat} {b : Bool} {outs : List Bool} {h : Handle} (hm : h ∈ crHandles a b outs) :
    ∃ k, h = .cr a k ∧ k < outs.length ∧ outs[k]? = some b := by
  simp only [crHandles, List.mem_map, List.mem_filter, List.mem_range, decide_eq_true_eq] at hm
  obtain ⟨k, ⟨h1, h2⟩, rfl⟩ := hm
  exact ⟨k, rfl, h1, h2⟩

theorem Good.releaseSes {l : Lim} {st : St} (g : Good l st) (s : Nat) : Good l (Budget.releaseSes s st) := by
  have g1 := g.removeAll [.resend s, .epm s]
  refine ⟨g1.nodup, fun h hh => ?_, g1.ars, g1.crs⟩
  have v := g1.valid h hh
  have hm := mem_removeAll g.nodup hh
  have hs : ∀ r, r ≠ s → ((Budget.removeAll [.resend s, .epm s] st).ses r ≠ .free) →
      (Budget.releaseSes s st).ses r ≠ .free := by
    intro r hr h
    simpa [Budget.releaseSes, Budget.setSes, hr] using h
  cases h <;> simp only [Valid] at v ⊢ <;> first | exact v | skip
  · rename_i r
    exact ⟨v.1, hs r (fun e => hm.2 (by simp [e])) v.2⟩
  · rename_i r
    exact ⟨v.1, hs r (fun e => hm.2 (by simp [e])) v.2⟩

/-- An AR is changed; no timer of it depends on the old content. -/
theorem Good.setAr {l : Lim} {st : St} (g : Good l st) (a : Nat) (x : Ar)
    (hv : ∀ h ∈ st.timers, Valid l (Budget.setAr st a x) h) (ha : x.phase ≠ .idle → a < l.ars)
    (hc : x.outs.length ≤ l.crs) : Good l (Budget.setAr st a x) := by
  refine ⟨g.nodup, hv, ?_, ?_⟩
  · intro b hb
    simp only [Budget.setAr] at hb
    split at hb
    · rename_i e; subst e; exact ha hb
    · exact g.ars b hb
  · intro b
    simp only [Budget.setAr]
    split
    · exact hc
    · exact g.crs b

theorem Good.connect {l : Lim} (hl : (univ l).length ≤ l.cap) {st : St} (g : Good l st) {a s : Nat} {outs : List Bool}
    (ha : a < l.ars) (hi : (st.ars a).phase = .idle) (ho : outs.length ≤ l.crs) :
    (Budget.connect l a s outs st).2 = true ∧ Good l (Budget.connect l a s outs st).1 := by
  have g1 : Good l (Budget.setAr st a ⟨.startup, outs, fun _ => false⟩) := by
    refine g.setAr a _ ?_ (fun _ => ha) ho
    intro h hh
    have v := g.valid h hh
    cases h <;> simp only [Valid, Budget.setAr] at v ⊢ <;> first | exact v | skip
    · split
      · rename_i e; rw [e] at v; exact absurd hi v.2.2.1
      · exact v
    · split
      · rename_i e; rw [e, hi] at v; cases v.2
      · exact v
  have g2 := g1.setSes s (x := .ofAr a) (by simp)
  have h3 := g2.addAll hl (crHandles a true outs) (crHandles_nodup _ _ _)
    (fun h hh hm => by
      obtain ⟨k, rfl, _, _⟩ := mem_crHandles hh
      exact (g.valid _ hm).2.2.1 hi)
    (fun h hh => by
      obtain ⟨k, rfl, h1, h2⟩ := mem_crHandles hh
      refine ⟨ha, by omega, ?_, true, ?_, fun _ => rfl⟩
      · simp [Budget.setSes, Budget.setAr]
      · simpa [Budget.setSes, Budget.setAr] using h2)
  unfold Budget.connect
  revert h3
  generalize Budget.addAll l _ _ = r
  obtain ⟨st', ok⟩ := r
  rintro ⟨h4, h5, _⟩
  simp only at h4 h5
  subst h4
  exact h5.restart hl ha

theorem Good.prmEnd {l : Lim} (hl : (univ l).length ≤ l.cap) {st : St} (g : Good l st) {a : Nat}
    (hp : (st.ars a).phase = .startup) : (Budget.prmEnd l a st).2 = true ∧ Good l (Budget.prmEnd l a st).1 := by
  have ha : a < l.ars := g.ars a (by rw [hp]; decide)
  have g1 : Good l (Budget.setAr st a { st.ars a with phase := .prm }) := by
    refine g.setAr a _ ?_ (fun _ => ha) (g.crs a)
    intro h hh
    have v := g.valid h hh
    cases h <;> simp only [Valid, Budget.setAr] at v ⊢ <;> first | exact v | skip
    · split
      · rename_i e; rw [e] at v ⊢
        obtain ⟨v1, v2, v3, b, v4, v5⟩ := v
        exact ⟨v1, v2, by simp, b, v4, by simp⟩
      · exact v
    · split
      · rename_i e; rw [e]; exact ⟨ha, rfl⟩
      · exact v
  unfold Budget.prmEnd
  refine g1.addEach hl _ ?_ ?_ ?_
  · refine List.nodup_append.2 ⟨crHandles_nodup _ _ _, by simp, ?_⟩
    intro x hx y hy
    obtain ⟨k, rfl, _⟩ := mem_crHandles hx
    simp at hy
    rw [hy]; intro h; cases h
  · intro h hh hm
    rcases List.mem_append.1 hh with hh | hh
    · obtain ⟨k, rfl, _, h2⟩ := mem_crHandles hh
      obtain ⟨_, _, _, b, v4, v5⟩ := g.valid _ hm
      rw [h2] at v4
      rw [← Option.some.inj v4] at v5
      cases v5 hp
    · simp at hh
      subst hh
      have := (g.valid _ hm).2
      rw [hp] at this
      cases this
  · intro h hh
    rcases List.mem_append.1 hh with hh | hh
    · obtain ⟨k, rfl, h1, h2⟩ := mem_crHandles hh
      have := g.crs a
      refine ⟨ha, by omega, ?_, false, ?_, ?_⟩ <;> simp [Budget.setAr, h2]
    · simp at hh
      subst hh
      exact ⟨ha, by simp [Budget.setAr]⟩

theorem Good.abort {l : Lim} {st : St} (g : Good l st) {a : Nat} (hc : .cmio a ∉ st.timers) :
    Good l (Budget.abort a st) := by
  have g1 := g.removeAll (((List.range (st.ars a).outs.length).map (Handle.cr a)) ++
    [.apmx a false, .apmx a true, .cmsm a])
  have hmem := fun (h : Handle) => mem_removeAll (hs := ((List.range (st.ars a).outs.length).map (Handle.cr a)) ++
    [.apmx a false, .apmx a true, .cmsm a]) g.nodup (h := h)
  have hars := removeAll_ars (((List.range (st.ars a).outs.length).map (Handle.cr a)) ++
    [.apmx a false, .apmx a true, .cmsm a]) st
  unfold Budget.abort
  revert g1 hmem hars
  generalize Budget.removeAll _ st = st1
  intro g1 hmem hars
  have g2 : Good l (Budget.setAr st1 a Ar.none) := by
    refine g1.setAr a _ ?_ (fun h => absurd rfl h) (by simp [Ar.none])
    intro h hh
    have v := g1.valid h hh
    have hm := hmem h hh
    cases h <;> simp only [Valid, Budget.setAr] at v ⊢ <;> first | exact v | skip
    · rename_i b k
      split
      · rename_i e
        exfalso
        subst e
        obtain ⟨_, _, _, c, v4, _⟩ := v
        rw [hars] at v4
        obtain ⟨hk, _⟩ := List.getElem?_eq_some_iff.1 v4
        exact hm.2 (by simp; exact hk)
      · exact v
    · split
      · rename_i e
        rw [e] at hm
        exact absurd hm.1 hc
      · exact v
  refine ⟨g2.nodup.filter _, ?_, g2.ars, g2.crs⟩
  intro h hh
  have hf := List.mem_filter.1 hh
  have v := g2.valid h hf.1
  cases h <;> simp only [Valid] at v ⊢ <;> first | exact v | skip
  · refine ⟨v.1, ?_⟩
    have h2 := hf.2
    simp only at h2
    split
    · rename_i hm; simp [hm] at h2
    · exact v.2
  · refine ⟨v.1, ?_⟩
    have h2 := hf.2
    simp only at h2
    split
    · rename_i hm; simp [hm] at h2
    · exact v.2

theorem Good.step {l : Lim} (hl : (univ l).length ≤ l.cap) {st : St} (g : Good l st) {o : Op} (hc : Calm st o) :
    (Budget.step l st o).2 = true ∧ Good l (Budget.step l st o).1 := by
  cases o with
  | txOn p => simp only [Budget.step]; split; exacts [g.restart hl (by assumption), ⟨rfl, g⟩]
  | txOff p => exact ⟨rfl, g.remove _⟩
  | rxOn p => simp only [Budget.step]; split; exacts [g.restart hl (by assumption), ⟨rfl, g⟩]
  | rxOff p => exact ⟨rfl, g.remove _⟩
  | hello =>
    simp only [Budget.step]; split
    · exact ⟨rfl, g⟩
    · rename_i hn; have h := g.add hl hn trivial; rw [h.1]; exact ⟨rfl, h.2⟩
  | helloOff => exact ⟨rfl, g.remove _⟩
  | led =>
    simp only [Budget.step]; split
    · exact ⟨rfl, g⟩
    · rename_i hn; have h := g.add hl hn trivial; rw [h.1]; exact ⟨rfl, h.2⟩
  | sam => exact g.restart hl trivial
  | ident =>
    simp only [Budget.step]; split
    · exact ⟨rfl, g⟩
    · rename_i hn; have h := g.add hl hn trivial; rw [h.1]; exact ⟨rfl, h.2⟩
  | lookup s =>
    simp only [Budget.step]
    split
    · rename_i hs
      split
      · exact (g.setSes s (x := .incoming) (by simp)).restart hl ⟨hs, by simp [Budget.setSes]⟩
      · rename_i e; exact g.restart hl ⟨hs, by simp [e]⟩
      · rename_i e; exact g.restart hl ⟨hs, by simp [e]⟩
      · exact ⟨rfl, g⟩
    · exact ⟨rfl, g⟩
  | release s => simp only [Budget.step]; split; exacts [⟨rfl, g.releaseSes s⟩, ⟨rfl, g⟩]
  | heard s => exact ⟨rfl, g.remove _⟩
  | connect a s outs =>
    simp only [Budget.step]; split
    · rename_i h; exact g.connect hl h.1 h.2.1 h.2.2.2.2
    · exact ⟨rfl, g⟩
  | read s =>
    simp only [Budget.step]
    split
    · rename_i hs
      split
      · rename_i e; exact g.restart hl ⟨hs, by simp [e]⟩
      · exact ⟨rfl, g⟩
    · exact ⟨rfl, g⟩
  | write s a =>
    simp only [Budget.step]
    split
    · rename_i hs
      split
      · rename_i e; exact g.restart hl ⟨hs.1, by simp [e]⟩
      · rename_i e; exact g.restart hl ⟨hs.1, by simp [e]⟩
      · exact ⟨rfl, g⟩
    · exact ⟨rfl, g⟩
  | touch a =>
    simp only [Budget.step]; split
    · rename_i h
      exact g.restart hl (g.ars a (by rcases h with h | h <;> rw [h] <;> decide))
    · exact ⟨rfl, g⟩
  | prmEnd a => simp only [Budget.step]; split; exacts [g.prmEnd hl (by assumption), ⟨rfl, g⟩]
  | ready a s =>
    simp only [Budget.step]; split
    · rename_i h; exact (g.setSes s (x := .fromMe a) (by simp)).restart hl ⟨h.2.1, by simp [Budget.setSes]⟩
    · exact ⟨rfl, g⟩
  | confirmed s => simp only [Budget.step]; split; exacts [⟨rfl, g.releaseSes s⟩, ⟨rfl, g⟩]
  | data a =>
    simp only [Budget.step]; split
    · rename_i hp
      refine ⟨rfl, ?_⟩
      have ha : a < l.ars := g.ars a (by rw [hp]; decide)
      have g1 := g.removeAll [.cmsm a, .cmio a]
      have hm := fun h => mem_removeAll (hs := [.cmsm a, .cmio a]) g.nodup (h := h)
      have e : Budget.removeAll [.cmsm a, .cmio a] (Budget.setAr st a { st.ars a with phase := .data })
          = Budget.setAr (Budget.removeAll [.cmsm a, .cmio a] st) a { st.ars a with phase := .data } := rfl
      rw [e]
      refine g1.setAr a _ ?_ (fun _ => ha) (g.crs a)
      intro h hh
      have v := g1.valid h hh
      have hm := hm h hh
      cases h <;> simp only [Valid, Budget.setAr] at v ⊢ <;> first | exact v | skip
      · split
        · rename_i e; rw [e] at v ⊢
          obtain ⟨v1, v2, v3, b, v4, v5⟩ := v
          exact ⟨v1, v2, by simp, b, v4, by simp⟩
        · exact v
      · split
        · rename_i e; rw [e] at hm; exact absurd hm.2 (by simp)
        · exact v
    · exact ⟨rfl, g⟩
  | alarm a high =>
    simp only [Budget.step]; split
    · rename_i h
      have ha : a < l.ars := g.ars a (by rcases h.1 with h | h <;> rw [h] <;> decide)
      have g1 : Good l (Budget.setAr st a { st.ars a with wait := fun q => if q = high then true else (st.ars a).wait q }) := by
        refine g.setAr a _ ?_ (fun _ => ha) (g.crs a)
        intro x hx
        refine Valid.congr (st := st) ?_ (fun s h => by simpa [Budget.setAr] using h) (g.valid x hx)
        intro b
        simp only [Budget.setAr]
        split
        · rename_i e; rw [e]; exact ⟨rfl, rfl⟩
        · exact ⟨rfl, rfl⟩
      have := g1.add hl (h := .apmx a high) hc ha
      rw [this.1]
      exact ⟨rfl, this.2⟩
    · exact ⟨rfl, g⟩
  | ack a high =>
    refine ⟨rfl, g.setAr a _ ?_ (g.ars a) (g.crs a)⟩
    intro x hx
    refine Valid.congr (st := st) ?_ (fun s h => by simpa [Budget.setAr] using h) (g.valid x hx)
    intro b
    simp only [Budget.setAr]
    split
    · rename_i e; rw [e]; exact ⟨rfl, rfl⟩
    · exact ⟨rfl, rfl⟩
  | abort a => simp only [Budget.step]; split; exacts [⟨rfl, g⟩, ⟨rfl, g.abort hc⟩]
  | fire h again =>
    simp only [Budget.step]
    split
    · rename_i hm
      split
      · exact ⟨rfl, (g.remove _).releaseSes _⟩
      · split
        · have := (g.remove h).add hl (not_mem_remove g h) ((g.valid h hm).congr (fun _ => ⟨rfl, rfl⟩) fun _ h => h)
          rw [this.1]
          exact ⟨rfl, this.2⟩
        · exact ⟨rfl, g.remove h⟩
    · exact ⟨rfl, g⟩

theorem good_init (l : Lim) : Good l init := by
  refine ⟨by simp [init], ?_, ?_, ?_⟩
  · intro h hh; simp [init] at hh; subst hh; trivial
  · intro a h; exact absurd rfl h
  · intro a; simp [init, Ar.none]

/-- The timers in use belong to a running connection, a session in use, or something that exists always. -/
def Alive (l : Lim) (st : St) : Handle → Prop
  | .cr a k => a < l.ars ∧ (st.ars a).phase ≠ .idle ∧ k < (st.ars a).outs.length
  | .cmio a => a < l.ars ∧ (st.ars a).phase = .prm
  | .resend s | .epm s => st.ses s ≠ .free
  | _ => True

theorem run_good {l : Lim} (hl : (univ l).length ≤ l.cap) (os : List Op) {st : St} (g : Good l st) (hc : CalmRun l st os) :
    Good l (os.foldl (fun s o => (step l s o).1) st) := by
  induction os generalizing st with
  | nil => exact g
  | cons o os ih =>
    have h := g.step hl hc.1
    exact ih h.2 (hc.2 h.1)

theorem run {l : Lim} (hl : (univ l).length ≤ l.cap) (os : List Op) {st : St} (g : Good l st) (hc : CalmRun l st os) :
    allOk l st os = true := by
  induction os generalizing st with
  | nil => rfl
  | cons o os ih =>
    have h := g.step hl hc.1
    simp only [allOk, h.1, Bool.true_and]
    exact ih h.2 (hc.2 h.1)

/-! ## C153 -/

/-- If `8 * PNET_MAX_AR ≤ PNET_MAX_AR * PNET_MAX_CR + 2`, then in every run from the start of the stack that leaves no timer of an
acknowledged alarm and no timer of an aborted start-up behind, every timer that is wanted is available. Missing: the conditions, which
the code does not ensure (`C153_fails_alarms`, `C153_fails_aborts`, `C153_fails_sizes`). -/
theorem C153_enough_partial (l : Lim) (hl : 8 * l.ars ≤ l.ars * l.crs + 2) (os : List Op) (hc : CalmRun l init os) :
    allOk l init os = true := by
  refine run ?_ os (good_init l) hc
  rw [univ_length]
  unfold Lim.sess Lim.cap
  rw [Nat.mul_add l.ars, Nat.mul_assoc 2]
  omega

/-- In such a run each handle has at most one timer, and no timer outlives what it belongs to: a timer of a CR means that the connection is
up, a supervision of outputs that it is before data exchange, a timer of a session that the session is in use. -/
theorem C153_owners_partial (l : Lim) (hl : 8 * l.ars ≤ l.ars * l.crs + 2) (os : List Op) (hc : CalmRun l init os) :
    (os.foldl (fun s o => (step l s o).1) init).timers.Nodup ∧
    ∀ h ∈ (os.foldl (fun s o => (step l s o).1) init).timers, Alive l (os.foldl (fun s o => (step l s o).1) init) h := by
  have hu : (univ l).length ≤ l.cap := by
    rw [univ_length]
    unfold Lim.sess Lim.cap
    rw [Nat.mul_add l.ars, Nat.mul_assoc 2]
    omega
  have g := run_good hu os (good_init l) hc
  refine ⟨g.nodup, fun h hh => ?_⟩
  have v := g.valid h hh
  cases h <;> simp only [Valid, Alive] at v ⊢
  · obtain ⟨v1, _, v3, b, v4, _⟩ := v
    exact ⟨v1, v3, (List.getElem?_eq_some_iff.1 v4).1⟩
  · exact v
  · exact v.2
  · exact v.2

end Verif.Budget
