import Verif.Rx.Inv

set_option linter.unusedSimpArgs false
set_option linter.unusedVariables false

namespace Verif.Rx

open Verif.Connect (Cr Ar crAt)
open Verif.Device (modFirst)

theorem map_modFirst {α β : Type} (g : α → β) (p : α → Bool) (p' : β → Bool) (f : α → α) (f' : β → β) (l : List α)
    (hp : ∀ a, p a = p' (g a)) (hf : ∀ a, g (f a) = f' (g a)) : (modFirst p f l).map g = modFirst p' f' (l.map g) := by
  induction l with
  | nil => rfl
  | cons a l ih =>
    unfold modFirst
    rw [List.map_cons]
    dsimp only
    rw [hp a]
    split
    · simp [hf]
    · simp [ih]

/-- What holds in addition when the device chooses all frame IDs and all connections are IO
connections. -/
structure AutoInv (n : Nat) (st : St) : Prop where
  use : ∀ (i : Nat) a, st.ars[i]? = some a → a.inUse = true → st.started i = true
  eps : ∀ i, (st.eps.map (·.1)).count (some i) = if st.started i = true then 1 else 0
  dist : Distinct st
  low : ∀ i k f, OutputCr st i k f → f.toNat ≤ 0xF7FF

theorem endpoint_free {n maxCr size : Nat} {st : St} (hI : Inv n maxCr size st) (hA : AutoInv n st) {i : Nat} (hi : i < n)
    (hs : st.started i = false) : ∃ e ∈ st.eps, e.1 = none := by
  apply Classical.byContradiction
  intro hno
  have hnone : ∀ o ∈ st.eps.map (·.1), o ≠ none := by
    intro o ho h
    obtain ⟨e, he, h1⟩ := List.mem_map.1 ho
    exact hno ⟨e, he, by rw [h1, h]⟩
  have hnd : (st.eps.map (·.1)).Nodup := by
    rw [List.nodup_iff_count_le_one]
    intro o
    cases o with
    | none => rw [List.count_eq_zero.2 (fun h => hnone none h rfl)]; omega
    | some j => rw [hA.eps j]; split <;> omega
  have hsub : st.eps.map (·.1) ⊆ ((List.range n).erase i).map some := by
    intro o ho
    cases o with
    | none => exact absurd rfl (hnone none ho)
    | some j =>
      have hc := List.count_pos_iff.2 ho
      rw [hA.eps j] at hc
      have hj : st.started j = true := by
        apply Classical.byContradiction
        intro h; rw [if_neg h] at hc; omega
      refine List.mem_map.2 ⟨j, ?_, rfl⟩
      rw [List.Nodup.mem_erase_iff List.nodup_range]
      refine ⟨(by rintro rfl; rw [hs] at hj; cases hj), List.mem_range.2 (hI.run j hj).1⟩
  have hle := (List.subperm_of_subset hnd hsub).length_le
  rw [List.length_map, List.length_map, List.length_erase_of_mem (List.mem_range.2 hi), List.length_range, hI.ep.len] at hle
  omega

/-- A range of 14336 numbers cannot be used up by `n * maxCr` CRs. -/
theorem range_not_full {n maxCr : Nat} {ars : List Ar} (hc : ∀ i k c, crAt ars i k = some c → k < maxCr) (h : n * maxCr < 14336)
    {cls : Nat} (hcls : cls ∈ [1, 2, 3, 4]) : ¬ ∀ g, Connect.InRange cls g → ∃ i' j', Connect.UsedAt n ars i' j' g := by
  intro hall
  let start := if cls = 2 then 0x8000 else if cls = 3 then 0x0100 else 0xC000
  have hr : ∀ g < 14336, Connect.InRange cls (start + g) := by
    intro g hg
    simp only [List.mem_cons, List.not_mem_nil, or_false] at hcls
    unfold Connect.InRange
    rcases hcls with rfl | rfl | rfl | rfl <;> simp [start] <;> omega
  let P := (List.range n).flatMap fun i => (List.range maxCr).map fun k => ((crAt ars i k).map fun c => c.frameId.toNat).getD 0
  let N := (List.range 14336).map fun g => start + g
  have hN : N.Nodup := by
    refine List.Nodup.map (fun a b hab => ?_) List.nodup_range
    omega
  have hsub : N ⊆ P := by
    intro g hg
    obtain ⟨g', hg', rfl⟩ := List.mem_map.1 hg
    obtain ⟨i, k, h1, _, c, h2, h3⟩ := hall _ (hr g' (List.mem_range.1 hg'))
    refine List.mem_flatMap.2 ⟨i, List.mem_range.2 h1, List.mem_map.2 ⟨k, List.mem_range.2 (hc i k c h2), ?_⟩⟩
    rw [h2]; exact h3
  have hle := (List.subperm_of_subset hN hsub).length_le
  have e1 : N.length = 14336 := by simp [N]
  have e2 : P.length = n * maxCr := by simp [P, List.length_flatMap]
  omega

theorem auto_io {n maxCr size : Nat} (hsize : 5 + n * maxCr ≤ size) (hcap : (n + 1) * maxCr < 14336) {st st' : St}
    (hI : Inv n maxCr size st) (hA : AutoInv n st) {crs : List Cr}
    (ho : Auto maxCr (.io crs)) {i : Nat} {ars : List Ar}
    (ht : take n st crs = some (i, ars)) (hs : connectIo n st i ars = some st') : AutoInv n st' := by
  obtain ⟨hlen, hauto⟩ := ho
  obtain ⟨hi, rfl, a, ha, hau⟩ := take_spec ht
  have hil : i < st.ars.length := (List.getElem?_eq_some_iff.1 ha).1
  have hns : st.started i = false := by
    cases h : st.started i with
    | false => rfl
    | true => obtain ⟨_, b, hb, hbu⟩ := hI.run i h; rw [ha] at hb; cases hb; rw [hau] at hbu; cases hbu
  have hfree := endpoint_free hI hA hi hns
  unfold connectIo at hs
  cases hf : Connect.fixFrameIds n (st.ars.set i ⟨true, crs⟩) i with
  | none => rw [hf] at hs; cases hs
  | some ars' =>
    rw [hf] at hs
    simp only [Option.map_some, Option.some.injEq] at hs
    obtain ⟨f1, f2, f3, f4, f5⟩ := fix_frame hi hil hf
    have hars : st'.ars = ars' := by rw [← hs]
    have hst : st'.started = fun j => if j = i then true else st.started j := by rw [← hs]
    have heps : st'.eps = setActive (allocEp st.eps i) i true := by rw [← hs]
    clear hs
    have har1 : (st.ars.set i ⟨true, crs⟩)[i]? = some ⟨true, crs⟩ := by simp [hil]
    obtain ⟨c1, c2, _⟩ := Connect.C18_frame_ids_partial n _ ars' i _ hi har1 rfl hf
    have hat1 : ∀ k, crAt (st.ars.set i ⟨true, crs⟩) i k = crs[k]? := by intro k; unfold crAt; rw [har1]; rfl
    have hcrs' : ∀ j k c, crAt ars' j k = some c → k < maxCr := by
      intro j k c h
      by_cases hji : j = i
      · subst hji; have := f5 k c h; omega
      · rw [f2 j k hji] at h; exact hI.crs j k c h
    have hgood : ∀ k c, crAt ars' i k = some c → c.type = 2 → Connect.GoodChoice n ars' i k c.rtClass c.frameId.toNat := by
      intro k c hc hty
      have hk := f5 k c hc
      have h0 : crAt (st.ars.set i ⟨true, crs⟩) i k = some crs[k] := by rw [hat1]; exact List.getElem?_eq_getElem hk
      by_cases hty0 : crs[k].type = 2
      · obtain ⟨hff, hcls⟩ := hauto _ (List.getElem_mem hk) hty0
        obtain ⟨f, hf1, hf2⟩ := c1 k _ h0 hty0 (by rw [hff]; rfl)
        rw [hf1] at hc
        cases hc
        rcases hf2 hcls with h | ⟨_, h⟩
        · exact h
        · exact absurd h (range_not_full hcrs' (by rw [Nat.succ_mul] at hcap; omega) hcls)
      · have := c2 i k _ h0 (fun h => hty0 h.2.1)
        rw [this] at hc
        cases hc
        exact absurd hty hty0
    have hout : ∀ j k f, j ≠ i → (OutputCr st' j k f ↔ OutputCr st j k f) := by
      intro j k f hj
      unfold OutputCr
      rw [hars, hst, f2 j k hj]
      simp only [if_neg hj]
    have hused : ∀ j k f, OutputCr st' j k f → Connect.UsedAt n ars' j k f.toNat := by
      rintro j k f ⟨h1, c, h2, h3, h4⟩
      rw [hars] at h2
      by_cases hji : j = i
      · subst hji; exact ⟨hi, f4, c, h2, by rw [h4]⟩
      · rw [hst] at h1
        simp only [if_neg hji] at h1
        exact ⟨(hI.run j h1).1, (f3 j hji).2 (hI.run j h1).2, c, h2, by rw [h4]⟩
    have hlow : ∀ j k f, OutputCr st' j k f → f.toNat ≤ 0xF7FF := by
      intro j k f h
      by_cases hji : j = i
      · subst hji
        obtain ⟨_, c, h2, h3, h4⟩ := h
        rw [hars] at h2
        have := (hgood k c h2 h3).1
        rw [h4] at this
        unfold Connect.InRange at this
        omega
      · exact hA.low j k f ((hout j k f hji).1 h)
    have hone : ∀ k j' k' f, OutputCr st' i k f → OutputCr st' j' k' f → j' = i ∧ k' = k := by
      rintro k j' k' f ⟨h1, c, h2, h3, h4⟩ hb
      rw [hars] at h2
      have := (hgood k c h2 h3).2.1 j' k' (by rw [h4]; exact hused j' k' f hb)
      exact this
    refine ⟨?_, ?_, ⟨?_, ?_⟩, hlow⟩
    · intro j b hb hbu
      rw [hst]
      by_cases hji : j = i
      · simp [hji]
      · simp only [if_neg hji]
        rw [hars] at hb
        obtain ⟨b', hb', hbu'⟩ := (f3 j hji).1 ⟨b, hb, hbu⟩
        exact hA.use j b' hb' hbu'
    · intro j
      have e1 : st'.eps.map (·.1) = modFirst (fun o => o.isNone) (fun _ => some i) (st.eps.map (·.1)) := by
        rw [heps]
        have h1 : (setActive (allocEp st.eps i) i true).map (·.1) = (allocEp st.eps i).map (·.1) := by
          unfold setActive
          rw [map_modFirst (g := Prod.fst) (p' := fun o => o == some i) (f' := id) _ _ _ (by intro a; rfl) (by intro a; rfl)]
          generalize (allocEp st.eps i).map Prod.fst = l
          induction l with
          | nil => rfl
          | cons a l ih => unfold modFirst; rw [ih]; simp
        rw [h1]
        unfold allocEp
        rw [map_modFirst (g := Prod.fst) (p' := fun o => o.isNone) (f' := fun _ => some i) _ _ _ (by intro a; rfl) (by intro a; rfl)]
      rw [e1, hst]
      have hj := hA.eps j
      rcases count_modFirst (fun o : Option Nat => o.isNone) (fun _ => some i) (st.eps.map (·.1)) (some j) with ⟨h1, h2⟩ | ⟨e, h1, h2⟩
      · obtain ⟨e, he, he'⟩ := hfree
        have := (any_find _ _).1 h1 e.1 (List.mem_map.2 ⟨e, he, rfl⟩)
        rw [he'] at this
        cases this
      · have hen : e = none := by simpa using List.find?_some h1
        subst hen
        rw [if_neg (by simp)] at h2
        by_cases hji : j = i
        · subst hji
          rw [if_pos rfl] at h2
          rw [if_neg (by rw [hns]; simp)] at hj
          simp only [if_true]
          omega
        · rw [if_neg (by simp; exact fun h => hji h.symm)] at h2
          simp only [if_neg hji]
          omega
    · intro j k j' k' f h1 h2
      by_cases hji : j = i
      · subst hji
        obtain ⟨h3, h4⟩ := hone k j' k' f h1 h2
        exact ⟨h3.symm, h4.symm⟩
      · by_cases hji' : j' = i
        · subst hji'
          exact hone k' j k f h2 h1
        · exact hA.dist.1 j k j' k' f ((hout j k f hji).1 h1) ((hout j' k' f hji').1 h2)
    · intro j k f h hm
      have := hlow j k f h
      simp only [List.mem_cons, List.not_mem_nil, or_false] at hm
      omega

theorem auto_close {n maxCr size : Nat} {st : St} (hI : Inv n maxCr size st) (hA : AutoInv n st) (i : Nat) : AutoInv n (closeConn st i) := by
  have hout := (close_inv hI i).2
  have hd : Distinct (closeConn st i) :=
    ⟨fun j k j' k' f h1 h2 => hA.dist.1 j k j' k' f (hout j k f h1) (hout j' k' f h2), fun j k f h => hA.dist.2 j k f (hout j k f h)⟩
  have hl : ∀ j k f, OutputCr (closeConn st i) j k f → f.toNat ≤ 0xF7FF := fun j k f h => hA.low j k f (hout j k f h)
  cases ha : st.ars[i]? with
  | none =>
    have : closeConn st i = st := by unfold closeConn; rw [ha]
    rw [this]; exact hA
  | some a =>
    by_cases hu : a.inUse = true
    swap
    · have : closeConn st i = st := by unfold closeConn; rw [ha]; dsimp only; rw [if_neg hu]
      rw [this]; exact hA
    have hs := hA.use i a ha hu
    have e : closeConn st i = ⟨st.ars.set i ⟨false, []⟩, fun j => if j = i then false else st.started j,
        freeEp (setActive st.eps i false) i, alarmClose (closeCrs a.crs st.map) (setActive st.eps i false)⟩ := by
      unfold closeConn; rw [ha]; dsimp only; rw [if_pos hu, if_pos hs]
    refine ⟨?_, ?_, hd, hl⟩
    · intro j b hb hbu
      rw [e] at hb ⊢
      dsimp only at hb ⊢
      rw [List.getElem?_set] at hb
      by_cases hji : j = i
      · subst hji
        rw [if_pos rfl] at hb
        split at hb
        · cases hb; cases hbu
        · cases hb
      · rw [if_neg (fun h => hji h.symm)] at hb
        rw [if_neg hji]
        exact hA.use j b hb hbu
    · intro j
      rw [e]
      dsimp only
      have e1 : (freeEp (setActive st.eps i false) i).map (·.1) = modFirst (fun o => o == some i) (fun _ => none) (st.eps.map (·.1)) := by
        unfold freeEp
        rw [map_modFirst (g := Prod.fst) (p' := fun o => o == some i) (f' := fun _ => none) _ _ _ (by intro a; rfl) (by intro a; rfl)]
        congr 1
        unfold setActive
        rw [map_modFirst (g := Prod.fst) (p' := fun o => o == some i) (f' := id) _ _ _ (by intro a; rfl) (by intro a; rfl)]
        generalize st.eps.map Prod.fst = l
        induction l with
        | nil => rfl
        | cons a l ih => unfold modFirst; rw [ih]; simp
      rw [e1]
      have hj := hA.eps j
      rcases count_modFirst (fun o : Option Nat => o == some i) (fun _ => none) (st.eps.map (·.1)) (some j) with ⟨h1, h2⟩ | ⟨x, h1, h2⟩
      · have hi' := hA.eps i
        rw [if_pos hs] at hi'
        have hm : some i ∈ st.eps.map (·.1) := List.count_pos_iff.1 (by omega)
        have := (any_find _ _).1 h1 _ hm
        simp at this
      · have hx : x = some i := by simpa using List.find?_some h1
        subst hx
        rw [if_neg (show ¬ (none : Option Nat) = some j by simp)] at h2
        by_cases hji : j = i
        · subst hji
          rw [if_pos rfl] at h2
          rw [if_pos hs] at hj
          simp only [if_true, Bool.false_eq_true, if_false]
          omega
        · rw [if_neg (by simp; exact fun h => hji h.symm)] at h2
          simp only [if_neg hji]
          omega

theorem auto_init (n size : Nat) : AutoInv n (init n size) := by
  refine ⟨?_, ?_, ⟨?_, ?_⟩, ?_⟩
  · intro i a ha hu
    have := List.mem_of_getElem? ha
    have := List.eq_of_mem_replicate this
    subst this; cases hu
  · intro i
    simp [init, List.count_replicate]
  · rintro i k i' k' f ⟨h, _⟩; cases h
  · rintro i k f ⟨h, _⟩; cases h
  · rintro i k f ⟨h, _⟩; cases h

theorem auto_good {n maxCr size : Nat} (hsize : 5 + n * maxCr ≤ size) (hcap : (n + 1) * maxCr < 14336) (os : List Op) :
    ∀ st, Inv n maxCr size st → AutoInv n st → (∀ o ∈ os, Auto maxCr o) → Good n maxCr st os := by
  induction os with
  | nil => intro st _ _ _; trivial
  | cons o os ih =>
    intro st hI hA ho
    have hoo := ho o (by simp)
    have hok : StepOk n maxCr st o := by
      cases o with
      | io crs =>
        refine ⟨hoo.1, ?_⟩
        cases ht : take n st crs with
        | none => exact Or.inl (take_none hI.arsLen ht)
        | some p =>
          obtain ⟨i, ars⟩ := p
          obtain ⟨hi, _, a, ha, hau⟩ := take_spec ht
          refine Or.inr (endpoint_free hI hA hi ?_)
          cases h : st.started i with
          | false => rfl
          | true => obtain ⟨_, b, hb, hbu⟩ := hI.run i h; rw [ha] at hb; cases hb; rw [hau] at hbu; cases hbu
      | access => trivial
      | refused crs => exact hoo.elim
      | failed crs k => exact hoo.elim
      | close i => trivial
    refine ⟨hok, ?_⟩
    intro st' hs
    have hA' : AutoInv n st' := by
      cases o with
      | io crs =>
        simp only [step] at hs
        cases ht : take n st crs with
        | none => rw [ht] at hs; cases hs; exact hA
        | some p =>
          obtain ⟨i, ars⟩ := p
          rw [ht] at hs
          exact auto_io hsize hcap hI hA hoo ht hs
      | access => exact hoo.elim
      | refused crs => exact hoo.elim
      | failed crs k => exact hoo.elim
      | close i =>
        simp only [step, Option.some.injEq] at hs
        subst hs
        exact auto_close hI hA i
    obtain ⟨st'', hs', hI'⟩ := step_inv hsize (by omega) hI o hok
    rw [hs] at hs'
    cases hs'
    exact ⟨hA'.dist, ih st' (hI' hA'.dist) hA' (fun o' h' => ho o' (by simp [h']))⟩

end Verif.Rx
