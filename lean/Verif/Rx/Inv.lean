import Verif.Rx.Lemmas

set_option linter.unusedSimpArgs false
set_option linter.unusedVariables false

namespace Verif.Rx

open Verif.Connect (Cr Ar crAt)
open Verif.Eth (live)

structure Inv (n maxCr size : Nat) (st : St) : Prop where
  arsLen : st.ars.length = n + 1
  crs : ∀ i k c, crAt st.ars i k = some c → k < maxCr
  run : ∀ i, st.started i = true → i < n ∧ ∃ a, st.ars[i]? = some a ∧ a.inUse = true
  ep : EpInv n st.started st.eps
  mapLen : st.map.length = size
  nodup : (keys st.map).Nodup
  mem : ∀ f h, (f, h) ∈ live st.map ↔ Owner st f h

/-! ## Size -/

def pairAt (st : St) (i k : Nat) : BitVec 16 × Handler := (((crAt st.ars i k).map Cr.frameId).getD 0, .output i k)

def allPairs (n maxCr : Nat) (st : St) : List (BitVec 16 × Handler) :=
  dcpIds ++ alarmIds ++ (List.range n).flatMap fun i => (List.range maxCr).map fun k => pairAt st i k

theorem allPairs_length (n maxCr : Nat) (st : St) : (allPairs n maxCr st).length = 5 + n * maxCr := by
  unfold allPairs
  rw [List.length_append, List.length_flatMap]
  simp [dcpIds, alarmIds]

theorem bound {n maxCr : Nat} {st : St} (h1 : ∀ i k c, crAt st.ars i k = some c → k < maxCr)
    (h2 : ∀ i, st.started i = true → i < n) (L : List (BitVec 16 × Handler)) (hn : (L.map (·.1)).Nodup)
    (ho : ∀ p ∈ L, Owner st p.1 p.2) : L.length ≤ 5 + n * maxCr := by
  rw [← allPairs_length n maxCr st]
  refine (List.subperm_of_subset (List.Nodup.of_map _ hn) ?_).length_le
  intro p hp
  unfold allPairs
  rw [List.mem_append, List.mem_append]
  rcases ho p hp with h | ⟨_, h⟩ | ⟨i, k, ⟨hs, c, hc, ht, hf⟩, hh⟩
  · exact Or.inl (Or.inl h)
  · exact Or.inl (Or.inr h)
  · refine Or.inr (List.mem_flatMap.2 ⟨i, List.mem_range.2 (h2 i hs), List.mem_map.2 ⟨k, List.mem_range.2 (h1 i k c hc), ?_⟩⟩)
    unfold pairAt
    rw [hc, ← hh]
    show (c.frameId, p.2) = p
    rw [hf]

/-! ## Taking an entry and choosing the frame IDs -/

theorem take_spec {n : Nat} {st : St} {crs : List Cr} {i : Nat} {ars : List Ar} (h : take n st crs = some (i, ars)) :
    i < n ∧ ars = st.ars.set i ⟨true, crs⟩ ∧ ∃ a, st.ars[i]? = some a ∧ a.inUse = false := by
  unfold take at h
  cases hf : st.ars.findIdx? (fun a => !a.inUse) with
  | none => rw [hf] at h; cases h
  | some j =>
    rw [hf] at h
    dsimp only at h
    by_cases hj : j < n
    · rw [if_pos hj] at h
      cases h
      refine ⟨hj, rfl, ?_⟩
      obtain ⟨hl, h1, _⟩ := List.findIdx?_eq_some_iff_getElem.1 hf
      exact ⟨_, List.getElem?_eq_getElem hl, by simpa using h1⟩
    · rw [if_neg hj] at h; cases h

theorem take_none {n : Nat} {st : St} {crs : List Cr} (hl : st.ars.length = n + 1) (h : take n st crs = none) : TableFull n st := by
  intro i hi
  have hil : i < st.ars.length := by omega
  refine ⟨_, List.getElem?_eq_getElem hil, ?_⟩
  unfold take at h
  cases hf : st.ars.findIdx? (fun a => !a.inUse) with
  | none =>
    have := List.findIdx?_eq_none_iff.1 hf st.ars[i] (List.getElem_mem hil)
    simpa using this
  | some j =>
    rw [hf] at h
    dsimp only at h
    by_cases hj : j < n
    · rw [if_pos hj] at h; cases h
    · obtain ⟨hl', _, h2⟩ := List.findIdx?_eq_some_iff_getElem.1 hf
      have := h2 i (by omega)
      simpa using this

/-- What the choice of frame IDs leaves alone. -/
theorem fix_frame {n : Nat} {st : St} {crs : List Cr} {i : Nat} {ars' : List Ar}
    (hi : i < n) (hl : i < st.ars.length) (h : Connect.fixFrameIds n (st.ars.set i ⟨true, crs⟩) i = some ars') :
    ars'.length = st.ars.length ∧
    (∀ j k, j ≠ i → crAt ars' j k = crAt st.ars j k) ∧
    (∀ j : Nat, j ≠ i → ((∃ a : Ar, ars'[j]? = some a ∧ a.inUse = true) ↔ ∃ a : Ar, st.ars[j]? = some a ∧ a.inUse = true)) ∧
    (∃ a : Ar, ars'[i]? = some a ∧ a.inUse = true) ∧
    (∀ k c, crAt ars' i k = some c → k < crs.length) := by
  have har : (st.ars.set i ⟨true, crs⟩)[i]? = some ⟨true, crs⟩ := by simp [hl]
  unfold Connect.fixFrameIds at h
  rw [har] at h
  dsimp only at h
  have hu : ∃ ar : Ar, (st.ars.set i ⟨true, crs⟩)[i]? = some ar ∧ ar.inUse = true := ⟨_, har, rfl⟩
  have h0 : Connect.FixInv n (st.ars.set i ⟨true, crs⟩) i 0 (st.ars.set i ⟨true, crs⟩) :=
    ⟨rfl, fun _ => Iff.rfl, fun _ _ _ => rfl, fun _ _ h _ => h, fun j' hj' => absurd hj' (by omega)⟩
  have hinv := Connect.fixFrom_inv hi hu crs.length 0 _ ars' h0 h
  rw [Nat.zero_add] at hinv
  have hset : ∀ j, j ≠ i → (st.ars.set i ⟨true, crs⟩)[j]? = st.ars[j]? := by
    intro j hj
    rw [List.getElem?_set, if_neg (fun h => hj h.symm)]
  refine ⟨by rw [hinv.len]; simp, ?_, ?_, (hinv.use i).2 hu, ?_⟩
  · intro j k hj
    rw [hinv.other j k (fun h => hj h.1)]
    unfold crAt
    rw [hset j hj]
  · intro j hj
    rw [hinv.use j, hset j hj]
  · intro k c hc
    apply Nat.lt_of_not_le
    intro hle
    rw [hinv.other i k (by omega)] at hc
    unfold crAt at hc
    rw [har] at hc
    simp at hc
    have := (List.getElem?_eq_some_iff.1 hc).1
    omega

theorem fix_some {n maxCr size : Nat} {st : St} (hI : Inv n maxCr size st) (hcap : (n + 1) * maxCr < 65536) {crs : List Cr} {i : Nat}
    (hc : crs.length ≤ maxCr) : ∃ ars', Connect.fixFrameIds n (st.ars.set i ⟨true, crs⟩) i = some ars' := by
  refine Option.isSome_iff_exists.1 (Connect.C18_terminates n _ i ?_)
  have hlen : ∀ a ∈ st.ars.set i ⟨true, crs⟩, a.crs.length ≤ maxCr := by
    intro a ha
    rcases List.mem_or_eq_of_mem_set ha with ha | rfl
    · obtain ⟨j, hj⟩ := List.getElem?_of_mem ha
      apply Nat.le_of_not_lt
      intro hlt
      have hx : crAt st.ars j maxCr = some a.crs[maxCr] := by
        unfold crAt; rw [hj]; simp [hlt]
      have := hI.crs j maxCr _ hx
      omega
    · exact hc
  have : ∀ l : List Ar, (∀ a ∈ l, a.crs.length ≤ maxCr) → (l.flatMap (·.crs)).length ≤ l.length * maxCr := by
    intro l
    induction l with
    | nil => intro _; simp
    | cons a l ih =>
      intro h
      rw [List.flatMap_cons, List.length_append, List.length_cons, Nat.succ_mul]
      have h1 := h a (by simp)
      have h2 := ih (fun b hb => h b (by simp [hb]))
      omega
  have h3 := this _ hlen
  rw [List.length_set, hI.arsLen] at h3
  omega

/-! ## Operations -/

theorem outs_nodup (i : Nat) (cs : List Cr) : ∀ k, (∀ (j j' : Nat) (c c' : Cr), cs[j]? = some c → cs[j']? = some c' →
    c.type = 2 → c'.type = 2 → c.frameId = c'.frameId → j = j') → ((outsFrom i k cs).map (·.1)).Nodup := by
  induction cs with
  | nil => intro k _; simp [outsFrom]
  | cons c cs ih =>
    intro k h
    have ih' := ih (k + 1) (by
      intro j j' d d' h1 h2 h3 h4 h5
      have := h (j + 1) (j' + 1) d d' (by simpa using h1) (by simpa using h2) h3 h4 h5
      omega)
    rw [outsFrom]
    split
    · rename_i ht
      rw [List.map_cons, List.nodup_cons]
      refine ⟨?_, ih'⟩
      intro hm
      obtain ⟨p, hp, hpf⟩ := List.mem_map.1 hm
      obtain ⟨j, d, h1, h2, h3⟩ := (mem_outsFrom i cs (k + 1) p).1 hp
      rw [h3] at hpf
      have := h 0 (j + 1) c d rfl (by simpa using h1) ht h2 hpf.symm
      omega
    · exact ih'

theorem crsOf_get (ars : List Ar) (i k : Nat) : (crsOf ars i)[k]? = crAt ars i k := by
  unfold crsOf crAt
  cases ars[i]? <;> simp

theorem dcp_bad {f : BitVec 16} {h : Handler} (hm : (f, h) ∈ dcpIds) : f.toNat ∈ [0xFEFC, 0xFEFD, 0xFEFE, 0xFE01, 0xFC01] := by
  simp only [dcpIds, List.mem_cons, Prod.mk.injEq, List.not_mem_nil, or_false] at hm
  rcases hm with ⟨rfl, _⟩ | ⟨rfl, _⟩ | ⟨rfl, _⟩ <;> decide

theorem alarm_bad {f : BitVec 16} {h : Handler} (hm : (f, h) ∈ alarmIds) : f.toNat ∈ [0xFEFC, 0xFEFD, 0xFEFE, 0xFE01, 0xFC01] := by
  simp only [alarmIds, List.mem_cons, Prod.mk.injEq, List.not_mem_nil, or_false] at hm
  rcases hm with ⟨rfl, _⟩ | ⟨rfl, _⟩ <;> decide

theorem dcp_alarm {f : BitVec 16} {h h' : Handler} (hm : (f, h) ∈ dcpIds) (hm' : (f, h') ∈ alarmIds) : False := by
  simp only [dcpIds, alarmIds, List.mem_cons, Prod.mk.injEq, List.not_mem_nil, or_false] at hm hm'
  rcases hm with ⟨rfl, _⟩ | ⟨rfl, _⟩ | ⟨rfl, _⟩ <;> rcases hm' with ⟨h, _⟩ | ⟨h, _⟩ <;> revert h <;> decide

theorem not_output {p : BitVec 16} {i k : Nat} : (p, Handler.output i k) ∉ dcpIds ∧ (p, Handler.output i k) ∉ alarmIds := by
  constructor <;> intro h <;> simp [dcpIds, alarmIds] at h

theorem io_inv {n maxCr size : Nat} (hsize : 5 + n * maxCr ≤ size) {st st' : St} (hI : Inv n maxCr size st) {crs : List Cr}
    (hc : crs.length ≤ maxCr) (he : ∃ e ∈ st.eps, e.1 = none) {i : Nat} {ars : List Ar}
    (ht : take n st crs = some (i, ars)) (hs : connectIo n st i ars = some st') (hd : Distinct st') : Inv n maxCr size st' := by
  obtain ⟨hi, rfl, a, ha, hau⟩ := take_spec ht
  have hil : i < st.ars.length := (List.getElem?_eq_some_iff.1 ha).1
  have hns : st.started i = false := by
    cases h : st.started i with
    | false => rfl
    | true => obtain ⟨_, b, hb, hbu⟩ := hI.run i h; rw [ha] at hb; cases hb; rw [hau] at hbu; cases hbu
  unfold connectIo at hs
  cases hf : Connect.fixFrameIds n (st.ars.set i ⟨true, crs⟩) i with
  | none => rw [hf] at hs; cases hs
  | some ars' =>
    rw [hf] at hs
    simp only [Option.map_some, Option.some.injEq] at hs
    obtain ⟨f1, f2, f3, f4, f5⟩ := fix_frame hi hil hf
    have hars : st'.ars = ars' := by rw [← hs]
    have hst : st'.started = fun j => if j = i then true else st.started j := by rw [← hs]
    have heps : st'.eps = setActive (allocEp st.eps i) i true := by rw [← hs]
    have hmap : st'.map = addAll (outsFrom i 0 (crsOf ars' i) ++ (if (allocEp st.eps i).any (·.2) then [] else alarmIds)) st.map := by
      rw [addAll_append, ← startCrs_eq, ← alarmActivate_eq, ← hs]
    clear hs
    have hrun' : ∀ j, st'.started j = true → j < n ∧ ∃ a, st'.ars[j]? = some a ∧ a.inUse = true := by
      intro j hj
      rw [hars]
      by_cases hji : j = i
      · subst hji; exact ⟨hi, f4⟩
      · rw [hst] at hj
        simp only [if_neg hji] at hj
        exact ⟨(hI.run j hj).1, (f3 j hji).2 (hI.run j hj).2⟩
    have hcrs' : ∀ j k c, crAt st'.ars j k = some c → k < maxCr := by
      intro j k c h
      rw [hars] at h
      by_cases hji : j = i
      · subst hji; have := f5 k c h; omega
      · rw [f2 j k hji] at h; exact hI.crs j k c h
    have hout : ∀ j k f, j ≠ i → (OutputCr st' j k f ↔ OutputCr st j k f) := by
      intro j k f hj
      unfold OutputCr
      rw [hars, hst, f2 j k hj]
      simp only [if_neg hj]
    have houti : ∀ k f, OutputCr st' i k f ↔ (f, Handler.output i k) ∈ outsFrom i 0 (crsOf ars' i) := by
      intro k f
      rw [mem_outsFrom]
      unfold OutputCr
      rw [hars, hst]
      simp only [if_true, true_and, Nat.zero_add, Prod.mk.injEq, Handler.output.injEq, crsOf_get]
      constructor
      · rintro ⟨c, h1, h2, h3⟩; exact ⟨k, c, h1, h2, h3.symm, rfl⟩
      · rintro ⟨j, c, h1, h2, h3, h4⟩; subst h4; exact ⟨c, h1, h2, h3.symm⟩
    have hnout : ∀ k f, ¬ OutputCr st i k f := by rintro k f ⟨h, _⟩; rw [hns] at h; cases h
    have hea := alloc_inv hI.ep hns
    have hany : (allocEp st.eps i).any (·.2) = true ↔ ∃ j, st.started j = true := hea.any
    have hex' : ∃ j, st'.started j = true := ⟨i, by rw [hst]; simp⟩
    generalize hL : outsFrom i 0 (crsOf ars' i) ++ (if (allocEp st.eps i).any (·.2) then [] else alarmIds) = L at hmap
    have hLm : ∀ f h, (f, h) ∈ L ↔ (∃ k, OutputCr st' i k f ∧ h = .output i k) ∨ ((¬ ∃ j, st.started j = true) ∧ (f, h) ∈ alarmIds) := by
      intro f h
      rw [← hL, List.mem_append]
      refine or_congr ?_ ?_
      · constructor
        · intro hm
          obtain ⟨j, c, h1, h2, h3⟩ := (mem_outsFrom _ _ _ _).1 hm
          simp only [Nat.zero_add, Prod.mk.injEq] at h3
          rw [h3.2] at hm
          exact ⟨j, (houti j f).2 hm, h3.2⟩
        · rintro ⟨k, h1, rfl⟩; exact (houti k f).1 h1
      · by_cases hb : (allocEp st.eps i).any (·.2) = true
        · rw [if_pos hb]; simp [hany.1 hb]
        · rw [if_neg hb]
          rw [hany] at hb
          simp only [hb, not_false_eq_true, true_and]
    have howner : ∀ f h, Owner st' f h ↔ (f, h) ∈ L ∨ (f, h) ∈ live st.map := by
      intro f h
      rw [hLm, hI.mem]
      constructor
      · rintro (h1 | ⟨_, h1⟩ | ⟨j, k, h1, h2⟩)
        · exact Or.inr (Or.inl h1)
        · by_cases hx : ∃ j, st.started j = true
          · exact Or.inr (Or.inr (Or.inl ⟨hx, h1⟩))
          · exact Or.inl (Or.inr ⟨hx, h1⟩)
        · by_cases hji : j = i
          · subst hji; exact Or.inl (Or.inl ⟨k, h1, h2⟩)
          · exact Or.inr (Or.inr (Or.inr ⟨j, k, (hout j k f hji).1 h1, h2⟩))
      · rintro ((⟨k, h1, h2⟩ | ⟨_, h1⟩) | h1 | ⟨_, h1⟩ | ⟨j, k, h1, h2⟩)
        · exact Or.inr (Or.inr ⟨i, k, h1, h2⟩)
        · exact Or.inr (Or.inl ⟨hex', h1⟩)
        · exact Or.inl h1
        · exact Or.inr (Or.inl ⟨hex', h1⟩)
        · have hji : j ≠ i := by rintro rfl; exact hnout k f h1
          exact Or.inr (Or.inr ⟨j, k, (hout j k f hji).2 h1, h2⟩)
    have hLn : (L.map (·.1)).Nodup := by
      rw [← hL, List.map_append, List.nodup_append]
      refine ⟨?_, ?_, ?_⟩
      · refine outs_nodup i _ 0 ?_
        intro j j' c c' h1 h2 h3 h4 h5
        have o1 : OutputCr st' i j c.frameId := (houti j _).2 ((mem_outsFrom _ _ _ _).2 ⟨j, c, h1, h3, by rw [Nat.zero_add]⟩)
        have o2 : OutputCr st' i j' c'.frameId := (houti j' _).2 ((mem_outsFrom _ _ _ _).2 ⟨j', c', h2, h4, by rw [Nat.zero_add]⟩)
        rw [← h5] at o2
        exact (hd.1 i j i j' _ o1 o2).2
      · split
        · simp
        · decide
      · intro f hf' g hg hfg
        subst hfg
        obtain ⟨⟨f', h'⟩, h1, rfl⟩ := List.mem_map.1 hf'
        obtain ⟨⟨g', h''⟩, h2, h3⟩ := List.mem_map.1 hg
        simp only at h3
        subst h3
        have h2' : (g', h'') ∈ alarmIds := by
          by_cases hb : (allocEp st.eps i).any (·.2) = true
          · rw [if_pos hb] at h2; cases h2
          · rw [if_neg hb] at h2; exact h2
        obtain ⟨j, c, c1, c2, c3⟩ := (mem_outsFrom _ _ _ _).1 h1
        simp only [Nat.zero_add, Prod.mk.injEq] at c3
        rw [c3.2] at h1
        exact hd.2 i j _ ((houti j _).2 h1) (alarm_bad h2')
    have hdis : ∀ f ∈ L.map (·.1), f ∉ keys st.map := by
      intro f hf' hk
      obtain ⟨⟨f', h'⟩, h1, rfl⟩ := List.mem_map.1 hf'
      obtain ⟨⟨g', h''⟩, h2, h3⟩ := List.mem_map.1 hk
      simp only at h3
      subst h3
      rw [hI.mem] at h2
      rcases (hLm _ _).1 h1 with ⟨k, o1, _⟩ | ⟨hno, hal⟩
      · rcases h2 with h2 | ⟨_, h2⟩ | ⟨j, k', o2, _⟩
        · exact hd.2 i k _ o1 (dcp_bad h2)
        · exact hd.2 i k _ o1 (alarm_bad h2)
        · have hji : j ≠ i := by rintro rfl; exact hnout k' _ o2
          exact hji (hd.1 i k j k' _ o1 ((hout j k' _ hji).2 o2)).1.symm
      · rcases h2 with h2 | ⟨hy, _⟩ | ⟨j, k', o2, _⟩
        · exact dcp_alarm h2 hal
        · exact hno hy
        · exact hno ⟨j, o2.1⟩
    have hlen : (live st.map).length + L.length ≤ st.map.length := by
      have := bound hcrs' (fun j hj => (hrun' j hj).1) (live st.map ++ L) (by
        rw [List.map_append, List.nodup_append]
        refine ⟨hI.nodup, hLn, ?_⟩
        intro f h1 g h2 hfg
        subst hfg
        exact hdis f h2 h1) (by
        intro p hp
        rw [howner p.1 p.2]
        rcases List.mem_append.1 hp with h | h
        · exact Or.inr h
        · exact Or.inl h)
      rw [List.length_append] at this
      rw [hI.mapLen]
      omega
    obtain ⟨g1, g2, g3⟩ := addAll_spec L st.map hI.nodup hLn hdis hlen
    refine ⟨by rw [hars, f1, hI.arsLen], hcrs', hrun', ?_, by rw [hmap, g3, hI.mapLen], by rw [hmap]; exact g1, ?_⟩
    · rw [heps, hst]
      exact setActive_true_inv hea hns (alloc_has he)
    · intro f h
      rw [hmap, g2, howner]

/-- A connection that is not started. -/
theorem other_inv {n maxCr size : Nat} {st st' : St} (hI : Inv n maxCr size st) {crs : List Cr}
    (hc : crs.length ≤ maxCr) {i : Nat} {ars : List Ar} {keep : Bool}
    (ht : take n st crs = some (i, ars)) (hs : connectOther n st i ars keep = some st') :
    Inv n maxCr size st' ∧ (∀ j k f, OutputCr st' j k f ↔ OutputCr st j k f) := by
  obtain ⟨hi, rfl, a, ha, hau⟩ := take_spec ht
  have hil : i < st.ars.length := (List.getElem?_eq_some_iff.1 ha).1
  have hns : st.started i = false := by
    cases h : st.started i with
    | false => rfl
    | true => obtain ⟨_, b, hb, hbu⟩ := hI.run i h; rw [ha] at hb; cases hb; rw [hau] at hbu; cases hbu
  unfold connectOther at hs
  cases hf : Connect.fixFrameIds n (st.ars.set i ⟨true, crs⟩) i with
  | none => rw [hf] at hs; cases hs
  | some ars' =>
    rw [hf] at hs
    simp only [Option.map_some, Option.some.injEq] at hs
    obtain ⟨f1, f2, f3, f4, f5⟩ := fix_frame hi hil hf
    have hst : st'.started = st.started := by rw [← hs]
    have heps : st'.eps = allocEp st.eps i := by rw [← hs]
    have hmap : st'.map = st.map := by rw [← hs]
    have hars : st'.ars = if keep = true then ars' else ars'.set i ⟨false, []⟩ := by rw [← hs]
    clear hs
    have hlen : st'.ars.length = n + 1 := by
      rw [hars]; split
      · rw [f1, hI.arsLen]
      · rw [List.length_set, f1, hI.arsLen]
    have hne : ∀ j, j ≠ i → st'.ars[j]? = ars'[j]? := by
      intro j hj
      rw [hars]; split
      · rfl
      · rw [List.getElem?_set, if_neg (fun h => hj h.symm)]
    have hcrne : ∀ j k, j ≠ i → crAt st'.ars j k = crAt st.ars j k := by
      intro j k hj
      rw [← f2 j k hj]
      unfold crAt
      rw [hne j hj]
    have hout : ∀ j k f, OutputCr st' j k f ↔ OutputCr st j k f := by
      intro j k f
      unfold OutputCr
      rw [hst]
      by_cases hji : j = i
      · subst hji; rw [hns]; simp
      · rw [hcrne j k hji]
    refine ⟨⟨hlen, ?_, ?_, by rw [heps, hst]; exact alloc_inv hI.ep hns, by rw [hmap, hI.mapLen], by rw [hmap]; exact hI.nodup, ?_⟩, hout⟩
    · intro j k c h
      by_cases hji : j = i
      · subst hji
        rw [hars] at h
        split at h
        · have := f5 k c h; omega
        · unfold crAt at h
          rw [List.getElem?_set, if_pos rfl] at h
          split at h <;> simp at h
      · rw [hcrne j k hji] at h; exact hI.crs j k c h
    · intro j hj
      rw [hst] at hj
      have hji : j ≠ i := by rintro rfl; rw [hns] at hj; cases hj
      rw [hne j hji]
      exact ⟨(hI.run j hj).1, (f3 j hji).2 (hI.run j hj).2⟩
    · intro f h
      rw [hmap, hI.mem]
      unfold Owner
      rw [hst]
      simp only [hout]

theorem close_inv {n maxCr size : Nat} {st : St} (hI : Inv n maxCr size st) (i : Nat) :
    Inv n maxCr size (closeConn st i) ∧ (∀ j k f, OutputCr (closeConn st i) j k f → OutputCr st j k f) := by
  cases ha : st.ars[i]? with
  | none =>
    have : closeConn st i = st := by unfold closeConn; rw [ha]
    rw [this]; exact ⟨hI, fun _ _ _ h => h⟩
  | some a =>
    by_cases hu : a.inUse = true
    swap
    · have : closeConn st i = st := by unfold closeConn; rw [ha]; dsimp only; rw [if_neg hu]
      rw [this]; exact ⟨hI, fun _ _ _ h => h⟩
    have hne : ∀ j, j ≠ i → (st.ars.set i ⟨false, []⟩)[j]? = st.ars[j]? := by
      intro j hj
      rw [List.getElem?_set, if_neg (fun h => hj h.symm)]
    have hcr : ∀ j k, j ≠ i → crAt (st.ars.set i ⟨false, []⟩) j k = crAt st.ars j k := by
      intro j k hj; unfold crAt; rw [hne j hj]
    have hcr0 : ∀ k, crAt (st.ars.set i ⟨false, []⟩) i k = none := by
      intro k; unfold crAt
      rw [List.getElem?_set, if_pos rfl]
      split <;> simp
    have hcrs : ∀ j k c, crAt (st.ars.set i ⟨false, []⟩) j k = some c → k < maxCr := by
      intro j k c h
      by_cases hji : j = i
      · subst hji; rw [hcr0] at h; cases h
      · rw [hcr j k hji] at h; exact hI.crs j k c h
    by_cases hs : st.started i = true
    swap
    · have e : closeConn st i = { st with ars := st.ars.set i ⟨false, []⟩ } := by
        unfold closeConn; rw [ha]; dsimp only; rw [if_pos hu, if_neg hs]
      have hout : ∀ j k f, OutputCr (closeConn st i) j k f ↔ OutputCr st j k f := by
        intro j k f
        rw [e]
        unfold OutputCr
        by_cases hji : j = i
        · subst hji; simp [hs]
        · show st.started j = true ∧ (∃ c, crAt (st.ars.set i ⟨false, []⟩) j k = some c ∧ _) ↔ _
          rw [hcr j k hji]
      refine ⟨⟨by rw [e]; simp [hI.arsLen], by rw [e]; exact hcrs, ?_, by rw [e]; exact hI.ep, by rw [e]; exact hI.mapLen,
        by rw [e]; exact hI.nodup, ?_⟩, fun j k f => (hout j k f).1⟩
      · intro j hj
        rw [e] at hj ⊢
        have hji : j ≠ i := by rintro rfl; exact hs hj
        show j < n ∧ ∃ a, (st.ars.set i ⟨false, []⟩)[j]? = some a ∧ a.inUse = true
        rw [hne j hji]
        exact hI.run j hj
      · intro f h
        have : (closeConn st i).map = st.map := by rw [e]
        rw [this, hI.mem]
        unfold Owner
        have h2 : (closeConn st i).started = st.started := by rw [e]
        rw [h2]
        simp only [hout]
    · obtain ⟨st', hst'⟩ : ∃ st', closeConn st i = st' := ⟨_, rfl⟩
      have e := hst'
      unfold closeConn at e
      rw [ha] at e
      dsimp only at e
      rw [if_pos hu, if_pos hs] at e
      rw [hst']
      have hea := setActive_false_inv hI.ep hs
      have hars : st'.ars = st.ars.set i ⟨false, []⟩ := by rw [← e]
      have hstt : st'.started = fun j => if j = i then false else st.started j := by rw [← e]
      have heps : st'.eps = freeEp (setActive st.eps i false) i := by rw [← e]
      have hmap : st'.map = removeAll ((a.crs.filter fun c => c.type = 2).map Cr.frameId ++
          (if (setActive st.eps i false).any (·.2) then [] else [0xFC01, 0xFE01])) st.map := by
        rw [removeAll_append, ← closeCrs_eq, ← alarmClose_eq, ← e]
      clear e
      have hany : (setActive st.eps i false).any (·.2) = true ↔ ∃ j, st'.started j = true := by rw [hstt]; exact hea.any
      have hsne : ∀ j, j ≠ i → st'.started j = st.started j := by intro j hj; rw [hstt]; simp [hj]
      have hsi : st'.started i = false := by rw [hstt]; simp
      have hout : ∀ j k f, OutputCr st' j k f ↔ OutputCr st j k f ∧ j ≠ i := by
        intro j k f
        unfold OutputCr
        by_cases hji : j = i
        · subst hji; simp [hsi]
        · rw [hsne j hji, hars, hcr j k hji]; simp [hji]
      have houti : ∀ k f, OutputCr st i k f → f ∈ (a.crs.filter fun c => c.type = 2).map Cr.frameId := by
        rintro k f ⟨_, c, h1, h2, h3⟩
        unfold crAt at h1
        rw [ha] at h1
        exact List.mem_map.2 ⟨c, List.mem_filter.2 ⟨List.mem_of_getElem? h1, by simpa using h2⟩, h3⟩
      have houti' : ∀ f, f ∈ (a.crs.filter fun c => c.type = 2).map Cr.frameId → ∃ k, OutputCr st i k f := by
        intro f hf
        obtain ⟨c, hc, hf⟩ := List.mem_map.1 hf
        obtain ⟨hc, ht⟩ := List.mem_filter.1 hc
        obtain ⟨k, hk⟩ := List.getElem?_of_mem hc
        exact ⟨k, hs, c, by unfold crAt; rw [ha]; exact hk, by simpa using ht, hf⟩
      obtain ⟨g1, g2, g3⟩ := removeAll_spec ((a.crs.filter fun c => c.type = 2).map Cr.frameId ++
          (if (setActive st.eps i false).any (·.2) then [] else [0xFC01, 0xFE01])) st.map hI.nodup
      rw [← hmap] at g1 g2 g3
      -- the owner of a frame ID is unique
      have huniq : ∀ f h h', Owner st f h → Owner st f h' → h = h' := by
        intro f h h' h1 h2
        rw [← hI.mem] at h1 h2
        have := List.inj_on_of_nodup_map hI.nodup h1 h2 rfl
        cases this; rfl
      refine ⟨⟨by rw [hars]; simp [hI.arsLen], by rw [hars]; exact hcrs, ?_, ?_, by rw [g3, hI.mapLen], g1, ?_⟩,
        fun j k f h => ((hout j k f).1 h).1⟩
      · intro j hj
        have hji : j ≠ i := by rintro rfl; rw [hsi] at hj; cases hj
        rw [hsne j hji] at hj
        rw [hars, hne j hji]
        exact hI.run j hj
      · rw [heps, hstt]
        exact free_inv hea (by simp)
      · intro f h
        rw [g2, hI.mem, List.mem_append, not_or]
        constructor
        · rintro ⟨h1, h2, h3⟩
          rcases h1 with h1 | ⟨_, h1⟩ | ⟨j, k, h1, h4⟩
          · exact Or.inl h1
          · refine Or.inr (Or.inl ⟨?_, h1⟩)
            rw [← hany]
            apply Classical.byContradiction
            intro hb
            rw [if_neg hb] at h3
            apply h3
            simp only [alarmIds, List.mem_cons, Prod.mk.injEq, List.not_mem_nil, or_false] at h1
            rcases h1 with ⟨h1, _⟩ | ⟨h1, _⟩ <;> simp [h1]
          · have hji : j ≠ i := by rintro rfl; exact h2 (houti k f h1)
            exact Or.inr (Or.inr ⟨j, k, (hout j k f).2 ⟨h1, hji⟩, h4⟩)
        · intro h1
          have hold : Owner st f h := by
            rcases h1 with h1 | ⟨⟨j, hj⟩, h1⟩ | ⟨j, k, h1, h4⟩
            · exact Or.inl h1
            · have hji : j ≠ i := by rintro rfl; rw [hsi] at hj; cases hj
              exact Or.inr (Or.inl ⟨⟨j, by rw [← hsne j hji]; exact hj⟩, h1⟩)
            · exact Or.inr (Or.inr ⟨j, k, ((hout j k f).1 h1).1, h4⟩)
          refine ⟨hold, ?_, ?_⟩
          · intro hf
            obtain ⟨k0, hk0⟩ := houti' f hf
            have heq := huniq f h (.output i k0) hold (Or.inr (Or.inr ⟨i, k0, hk0, rfl⟩))
            subst heq
            rcases h1 with h1 | ⟨_, h1⟩ | ⟨j, k, h1, h4⟩
            · exact not_output.1 h1
            · exact not_output.2 h1
            · cases h4; exact ((hout i k0 f).1 h1).2 rfl
          · intro hf
            by_cases hb : (setActive st.eps i false).any (·.2) = true
            · rw [if_pos hb] at hf; cases hf
            · rw [if_neg hb] at hf
              rw [hany] at hb
              rcases h1 with h1 | ⟨hx, h1⟩ | ⟨j, k, h1, h4⟩
              · refine dcp_alarm (h' := .alarm) h1 ?_
                simp only [List.mem_cons, List.not_mem_nil, or_false] at hf
                rcases hf with rfl | rfl <;> simp [alarmIds]
              · exact hb hx
              · exact hb ⟨j, h1.1⟩

/-! ## Histories -/

theorem init_inv (n maxCr size : Nat) (hsize : 5 + n * maxCr ≤ size) : Inv n maxCr size (init n size) := by
  have h0 : live (Eth.init size Handler.hello) = [] := by simp [live, Eth.init]
  have hm : (init n size).map = addAll dcpIds (Eth.init size .hello) := rfl
  obtain ⟨g1, g2, g3⟩ := addAll_spec dcpIds (Eth.init size .hello) (by simp [keys, h0]) (by decide) (by simp [keys, h0])
    (by rw [h0]; simp [Eth.init, dcpIds]; omega)
  rw [← hm] at g1 g2 g3
  have hcr : ∀ i k, crAt (init n size).ars i k = none := by
    intro i k
    unfold crAt init
    dsimp only
    rw [List.getElem?_replicate]
    split <;> simp
  refine ⟨by simp [init], ?_, ?_, ⟨by simp [init], ?_, ?_, ?_⟩, by rw [g3]; simp [Eth.init], g1, ?_⟩
  · intro i k c h; rw [hcr] at h; cases h
  · intro i h; cases h
  · intro e he hb
    have := List.eq_of_mem_replicate he
    subst this; cases hb
  · intro i
    simp [init, List.count_replicate]
  · intro i h; cases h
  · intro f h
    rw [g2, h0]
    constructor
    · rintro (h | h)
      · exact Or.inl h
      · cases h
    · rintro (h | ⟨⟨i, h⟩, _⟩ | ⟨i, k, ⟨h, _⟩, _⟩)
      · exact Or.inl h
      · cases h
      · cases h

theorem step_inv {n maxCr size : Nat} (hsize : 5 + n * maxCr ≤ size) (hcap : (n + 1) * maxCr < 65536) {st : St}
    (hI : Inv n maxCr size st) (o : Op) (ho : StepOk n maxCr st o) :
    ∃ st', step n st o = some st' ∧ (Distinct st' → Inv n maxCr size st') := by
  cases o with
  | io crs =>
    obtain ⟨h1, h2⟩ := ho
    simp only [step]
    cases ht : take n st crs with
    | none => exact ⟨st, rfl, fun _ => hI⟩
    | some p =>
      obtain ⟨i, ars⟩ := p
      obtain ⟨hi, hars, a, ha, hau⟩ := take_spec ht
      obtain ⟨ars', hf⟩ := fix_some hI hcap (i := i) h1
      rw [← hars] at hf
      dsimp only
      have hx : ∃ st', connectIo n st i ars = some st' := by unfold connectIo; rw [hf]; exact ⟨_, rfl⟩
      obtain ⟨st', hx⟩ := hx
      refine ⟨st', hx, fun hd => io_inv hsize hI h1 ?_ ht hx hd⟩
      rcases h2 with h2 | h2
      · obtain ⟨b, hb, hbu⟩ := h2 i hi
        rw [ha] at hb; cases hb; rw [hau] at hbu; cases hbu
      · exact h2
  | access =>
    simp only [step]
    cases ht : take n st [] with
    | none => exact ⟨st, rfl, fun _ => hI⟩
    | some p =>
      obtain ⟨i, ars⟩ := p
      obtain ⟨hi, hars, a, ha, hau⟩ := take_spec ht
      obtain ⟨ars', hf⟩ := fix_some hI hcap (i := i) (crs := []) (by simp)
      rw [← hars] at hf
      dsimp only
      have hx : ∃ st', connectOther n st i ars true = some st' := by unfold connectOther; rw [hf]; exact ⟨_, rfl⟩
      obtain ⟨st', hx⟩ := hx
      exact ⟨st', hx, fun _ => (other_inv hI (by simp) ht hx).1⟩
  | refused crs =>
    simp only [step]
    cases ht : take n st crs with
    | none => exact ⟨st, rfl, fun _ => hI⟩
    | some p =>
      obtain ⟨i, ars⟩ := p
      obtain ⟨hi, hars, a, ha, hau⟩ := take_spec ht
      obtain ⟨ars', hf⟩ := fix_some hI hcap (i := i) (crs := crs) ho
      rw [← hars] at hf
      dsimp only
      have hx : ∃ st', connectOther n st i ars false = some st' := by unfold connectOther; rw [hf]; exact ⟨_, rfl⟩
      obtain ⟨st', hx⟩ := hx
      exact ⟨st', hx, fun _ => (other_inv hI ho ht hx).1⟩
  | failed crs k => exact ho.elim
  | close i => exact ⟨_, rfl, fun _ => (close_inv hI i).1⟩

theorem exec_inv {n maxCr size : Nat} (hsize : 5 + n * maxCr ≤ size) (hcap : (n + 1) * maxCr < 65536) (os : List Op) :
    ∀ st, Inv n maxCr size st → Good n maxCr st os → ∃ st', exec n st os = some st' ∧ Inv n maxCr size st' := by
  induction os with
  | nil => intro st h _; exact ⟨st, rfl, h⟩
  | cons o os ih =>
    intro st hI hg
    obtain ⟨h1, h2⟩ := hg
    obtain ⟨st', hs, hI'⟩ := step_inv hsize hcap hI o h1
    obtain ⟨h3, h4⟩ := h2 st' hs
    obtain ⟨st'', hx, hI''⟩ := ih st' (hI' h3) h4
    exact ⟨st'', by unfold exec; rw [hs]; exact hx, hI''⟩

end Verif.Rx
