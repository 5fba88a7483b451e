import Verif.Dcp.Ident
/-!
C40 and C75, the theorems.
-/
set_option linter.unusedVariables false
set_option linter.unusedSimpArgs false

namespace Verif.Dcp

open Cmina (Dev Ip Ev optIp optProps optDhcp optControl optInitiative optAll subIpMac subIpPar subIpSuite subVendor
  subName subId subRole subOptions subAlias subInstance subOemId subGateway errOption errSuboption)

/-! ## Specification -/

/-- A filter matches the device: it gives the value that the device reports for this option. -/
def Matches (c : Cfg) (aliases : List (List Byte)) (d : Dev) (f : FReq) : Prop :=
  (f.opt = 1 ∧ f.sub = 1 ∧ f.value = c.mac) ∨
  (f.opt = 1 ∧ f.sub = 2 ∧ f.value = be32 d.cur.ip.addr ++ be32 d.cur.ip.mask ++ be32 d.cur.ip.gw) ∨
  (f.opt = 2 ∧ f.sub = 1 ∧ f.value = c.product) ∨
  (f.opt = 2 ∧ f.sub = 2 ∧ f.value = d.cur.name) ∨
  (f.opt = 2 ∧ f.sub = 3 ∧ f.value = c.devId) ∨
  (f.opt = 2 ∧ f.sub = 4 ∧ f.value = [1, 0]) ∨
  (f.opt = 2 ∧ f.sub = 5 ∧
    f.value = [1, 2, 1, 1, 2, 1, 2, 2, 2, 3, 2, 4, 2, 5, 2, 6, 5, 1, 5, 2, 5, 3, 5, 5, 5, 6, 0xff, 0xff]) ∨
  (f.opt = 2 ∧ f.sub = 6 ∧ f.value ∈ aliases) ∨
  (f.opt = 2 ∧ f.sub = 7 ∧ f.value = [0, 0]) ∨
  (f.opt = 2 ∧ f.sub = 8 ∧ f.value = c.oemId) ∨
  (f.opt = 2 ∧ f.sub = 9 ∧ f.value = [0, 0])

/-- The request asks every device. -/
def AsksAll (fs : List FReq) : Prop :=
  ∃ f rest, fs = f :: rest ∧ f.opt = 0xff ∧ f.sub = 0xff ∧ (f.value.length = 0 ∨ f.value.length = 2)

/-- The first filter is a station name or an alias name. -/
def NameFirst (fs : List FReq) : Prop :=
  ∃ f rest, fs = f :: rest ∧ f.opt = 2 ∧ (f.sub = 2 ∨ f.sub = 6)

/-- The filters for which the code does what it should: not the vendor, the role and the options, not the address on a
little-endian machine, not names that are too long or contain zeros. -/
structure Plain (c : Cfg) (f : FReq) : Prop where
  ip : c.le = true → ¬ (f.opt = 1 ∧ f.sub = 2)
  vendor : ¬ (f.opt = 2 ∧ f.sub = 1)
  role : ¬ (f.opt = 2 ∧ f.sub = 4)
  options : ¬ (f.opt = 2 ∧ f.sub = 5)
  name : f.opt = 2 → f.sub = 2 → f.value.length ≤ 240 ∧ (0 : Byte) ∉ f.value
  ali : f.opt = 2 → f.sub = 6 → f.value.length < 256 ∧ (0 : Byte) ∉ f.value

/-! ## Kinds of filters -/

/-- The filter is compared with `v`. -/
def Compared (c : Cfg) (e : Env) (d : Dev) (f : FReq) (v : List Byte) : Prop :=
  ∀ s : Id, idStep c e d f s =
    if s.filter then { s with isMatch := s.isMatch && decide (f.value = v) } else { s with ok := false }

theorem compared_of (c : Cfg) (e : Env) (d : Dev) (f : FReq) (v mem : List Byte)
    (hg : got c d e.nameTail f.opt f.sub = .val v.length mem) (ht : mem.take v.length = v)
    (hk : (f.opt = optIp ∧ (f.sub = subIpMac ∨ f.sub = subIpPar)) ∨ f.opt = optProps)
    (hn : ¬ (f.opt = optProps ∧ f.sub = subName)) : Compared c e d f v := by
  intro s
  unfold idStep
  rw [hg]
  dsimp only
  rw [if_neg hn, if_pos hk, ht]
  split
  · congr 2
    by_cases h : f.value = v
    · simp [h]
    · simp [h]
  · rfl

theorem kinds (c : Cfg) (e : Env) (d : Dev) (f : FReq) (hs : Sane c d e.nameTail) (hp : Plain c f) :
    (f.opt = 0xff) ∨ (f.opt = 2 ∧ f.sub = 2) ∨ (f.opt = 2 ∧ f.sub = 6) ∨
    (f.opt ≠ 0xff ∧ ¬ (f.opt = 2 ∧ (f.sub = 2 ∨ f.sub = 6)) ∧
      ∃ v, Compared c e d f v ∧ (Matches c e.aliases d f ↔ f.value = v)) ∨
    (f.opt ≠ 0xff ∧ ¬ (f.opt = 2 ∧ (f.sub = 2 ∨ f.sub = 6)) ∧
      (∀ s, idStep c e d f s = { s with ok := false }) ∧ ¬ Matches c e.aliases d f) := by
  obtain ⟨opt, sub, value⟩ := f
  by_cases h1 : opt = 1
  · subst h1
    by_cases h2 : sub = 1
    · subst h2
      refine Or.inr (Or.inr (Or.inr (Or.inl ⟨by simp, by simp, c.mac, ?_, by simp [Matches]⟩)))
      have hm : c.mac.take c.mac.length = c.mac := List.take_length
      refine compared_of c e d _ _ c.mac ?_ hm (Or.inl ⟨rfl, Or.inl rfl⟩) (by simp)
      rw [hs.mac]; rfl
    · by_cases h3 : sub = 2
      · subst h3
        have hle : c.le = false := by
          cases h : c.le with
          | false => rfl
          | true => exact absurd ⟨rfl, rfl⟩ (hp.ip h)
        refine Or.inr (Or.inr (Or.inr (Or.inl ⟨by simp, by simp, _, ?_, by simp [Matches]; exact Iff.rfl⟩)))
        refine compared_of c e d _ _ (encIp (!c.le) d.cur.ip) ?_ ?_ (Or.inl ⟨rfl, Or.inr rfl⟩) (by simp)
        · rfl
        · rw [hle, Bool.not_false, encIp_be]; exact List.take_length
      · have h2' : ¬ sub = 1#8 := h2
        have h3' : ¬ sub = 2#8 := h3
        refine Or.inr (Or.inr (Or.inr (Or.inr ⟨by simp, by simp, ?_, by simp [Matches, h2', h3']⟩)))
        intro s
        unfold idStep
        have hg : got c d e.nameTail 1 sub = .val 28 (encIp (!c.le) d.cur.ip ++ encDns (!c.le) d.cur.dns) ∨
            got c d e.nameTail 1 sub = .err errSuboption := by
          unfold got
          rw [if_neg (by decide), if_pos rfl, if_neg h2, if_neg h3]
          split
          · exact Or.inl rfl
          · exact Or.inr rfl
        rcases hg with hg | hg
        · rw [hg]; dsimp only; rw [if_neg (by simp), if_neg (by simp [h2', h3'])]
        · rw [hg]; dsimp only; rw [if_neg (by simp)]
  · by_cases h2 : opt = 2
    · subst h2
      by_cases a1 : sub = 1
      · exact absurd ⟨rfl, a1⟩ hp.vendor
      by_cases a2 : sub = 2
      · exact Or.inr (Or.inl ⟨rfl, a2⟩)
      by_cases a4 : sub = 4
      · exact absurd ⟨rfl, a4⟩ hp.role
      by_cases a5 : sub = 5
      · exact absurd ⟨rfl, a5⟩ hp.options
      by_cases a6 : sub = 6
      · exact Or.inr (Or.inr (Or.inl ⟨rfl, a6⟩))
      by_cases a3 : sub = 3
      · subst a3
        refine Or.inr (Or.inr (Or.inr (Or.inl ⟨by simp, by simp, c.devId, ?_, by simp [Matches]⟩)))
        refine compared_of c e d _ _ c.devId ?_ List.take_length (Or.inr rfl) (by simp)
        rw [hs.devId]; rfl
      by_cases a7 : sub = 7
      · subst a7
        refine Or.inr (Or.inr (Or.inr (Or.inl ⟨by simp, by simp, [0, 0], ?_, by simp [Matches]⟩)))
        exact compared_of c e d _ _ [0, 0] rfl rfl (Or.inr rfl) (by simp)
      by_cases a8 : sub = 8
      · subst a8
        refine Or.inr (Or.inr (Or.inr (Or.inl ⟨by simp, by simp, c.oemId, ?_, by simp [Matches]⟩)))
        refine compared_of c e d _ _ c.oemId ?_ List.take_length (Or.inr rfl) (by simp)
        rw [hs.oemId]; rfl
      by_cases a9 : sub = 9
      · subst a9
        refine Or.inr (Or.inr (Or.inr (Or.inl ⟨by simp, by simp, [0, 0], ?_, by simp [Matches]⟩)))
        exact compared_of c e d _ _ [0, 0] rfl rfl (Or.inr rfl) (by simp)
      · have b1 : ¬ sub = 1#8 := a1
        have b2 : ¬ sub = 2#8 := a2
        have b3 : ¬ sub = 3#8 := a3
        have b4 : ¬ sub = 4#8 := a4
        have b5 : ¬ sub = 5#8 := a5
        have b6 : ¬ sub = 6#8 := a6
        have b7 : ¬ sub = 7#8 := a7
        have b8 : ¬ sub = 8#8 := a8
        have b9 : ¬ sub = 9#8 := a9
        refine Or.inr (Or.inr (Or.inr (Or.inr ⟨by simp, by simp [b2, b6], ?_,
          by simp [Matches, b1, b2, b3, b4, b5, b6, b7, b8, b9]⟩)))
        intro s
        unfold idStep
        have hg : got c d e.nameTail 2 sub = .err errSuboption := by
          unfold got
          rw [if_neg (by decide), if_neg (by decide), if_pos rfl, if_neg a1, if_neg a2, if_neg a3, if_neg a4, if_neg a7,
            if_neg a8, if_neg a9]
        rw [hg]; dsimp only; rw [if_neg (by simp [b6])]
    · by_cases h3 : opt = 0xff
      · exact Or.inl h3
      · have h1' : ¬ opt = 1#8 := h1
        have h2' : ¬ opt = 2#8 := h2
        refine Or.inr (Or.inr (Or.inr (Or.inr ⟨h3, by simp [h2'], ?_, by simp [Matches, h1', h2']⟩)))
        intro s
        unfold idStep
        have hg : (∃ n mem, got c d e.nameTail opt sub = .val n mem) ∨ ∃ x, got c d e.nameTail opt sub = .err x := by
          unfold got
          rw [if_neg h3, if_neg h1, if_neg h2]
          repeat' split
          all_goals first
            | exact Or.inl ⟨_, _, rfl⟩
            | exact Or.inr ⟨_, rfl⟩
        rcases hg with ⟨n, mem, hg⟩ | ⟨x, hg⟩
        · rw [hg]; dsimp only; rw [if_neg (by simp [h2']), if_neg (by simp [h1', h2'])]
        · rw [hg]; dsimp only; rw [if_neg (by simp [h2'])]

theorem idStep_name (c : Cfg) (e : Env) (d : Dev) (f : FReq) (s : Id) (hs : Sane c d e.nameTail) (hp : Plain c f)
    (h1 : f.opt = 2) (h2 : f.sub = 2) :
    idStep c e d f s = if f.value = d.cur.name then { s with filter := if s.first then true else s.filter }
      else { s with isMatch := false } := by
  obtain ⟨hl, h0⟩ := hp.name h1 h2
  have hmem := nameMem_eq hs
  have key : (f.value = (nameMem d e.nameTail).take f.value.length ∧ (nameMem d e.nameTail).getD f.value.length 0 = 0) ↔
      f.value = d.cur.name := by
    rw [hmem]
    constructor
    · rintro ⟨g1, g2⟩
      have hle : f.value.length ≤ d.cur.name.length := by
        apply Nat.le_of_not_lt
        intro hlt
        apply h0
        rw [g1, show f.value.length = d.cur.name.length + (f.value.length - d.cur.name.length - 1 + 1) by omega,
          List.take_length_add_append, List.take_succ_cons]
        simp
      rcases Nat.lt_or_eq_of_le hle with hlt | heq
      · exfalso
        rw [List.getD_eq_getElem?_getD, List.getElem?_append_left hlt, List.getElem?_eq_getElem hlt] at g2
        have g2 : d.cur.name[f.value.length] = 0 := g2
        exact hs.name0 (g2 ▸ List.getElem_mem hlt)
      · rw [g1, heq]; exact List.take_left' rfl
    · intro g
      rw [g]
      refine ⟨(List.take_left' rfl).symm, ?_⟩
      rw [List.getD_eq_getElem?_getD, List.getElem?_append_right (Nat.le_refl _), Nat.sub_self]
      rfl
  unfold idStep
  rw [h1, h2]
  show (if (2 : Byte) = 2 ∧ (2 : Byte) = 2 then _ else _) = _
  rw [if_pos ⟨rfl, rfl⟩]
  by_cases h : f.value = d.cur.name
  · rw [if_pos (key.mpr h), if_pos h]
  · rw [if_neg (fun g => h (key.mp g)), if_neg h]

theorem idStep_alias (c : Cfg) (e : Env) (d : Dev) (f : FReq) (s : Id) (hp : Plain c f) (h1 : f.opt = 2) (h2 : f.sub = 6) :
    idStep c e d f s = if f.value ∈ e.aliases then
        { s with ali := f.value, useAlias := s.useAlias || s.first, filter := if s.first then true else s.filter }
      else { s with ali := f.value, isMatch := false } := by
  obtain ⟨hl, h0⟩ := hp.ali h1 h2
  unfold idStep
  rw [h1, h2]
  show (if (2 : Byte) = 2 ∧ (6 : Byte) = 6 then _ else _) = _
  rw [if_pos ⟨rfl, rfl⟩, if_pos hl, takeWhile_all _ h0]

theorem matches_name {c : Cfg} {al : List (List Byte)} {d : Dev} {f : FReq} (h1 : f.opt = 2) (h2 : f.sub = 2) :
    Matches c al d f ↔ f.value = d.cur.name := by simp [Matches, h1, h2]

theorem matches_alias {c : Cfg} {al : List (List Byte)} {d : Dev} {f : FReq} (h1 : f.opt = 2) (h2 : f.sub = 6) :
    Matches c al d f ↔ f.value ∈ al := by simp [Matches, h1, h2]

/-- The alias name behind the list: that of the last filter with an alias name. -/
def lastAlias : List FReq → List Byte → List Byte
  | [], a => a
  | f :: fs, a => lastAlias fs (if f.opt = 2 ∧ f.sub = 6 then f.value else a)

/-- Behind a name: one filter. -/
theorem idStep_later (c : Cfg) (e : Env) (d : Dev) (f : FReq) (s : Id) (hs : Sane c d e.nameTail) (hp : Plain c f)
    (h1 : s.ok = true) (h2 : s.filter = true) (h3 : s.first = false) (h4 : s.isMatch = true) :
    (Matches c e.aliases d f → idStep c e d f s = { s with ali := if f.opt = 2 ∧ f.sub = 6 then f.value else s.ali }) ∧
    (¬ Matches c e.aliases d f → ¬ ((idStep c e d f s).ok = true ∧ (idStep c e d f s).isMatch = true) ∧
      (idStep c e d f s).first = false) := by
  obtain ⟨first, filter, isMatch, ok, ali, ua⟩ := s
  dsimp only at h1 h2 h3 h4
  subst h1 h2 h3 h4
  rcases kinds c e d f hs hp with h | ⟨a, b⟩ | ⟨a, b⟩ | ⟨ha, hb, v, hc, hm⟩ | ⟨ha, hb, hc, hm⟩
  · have hm : ¬ Matches c e.aliases d f := by simp [Matches, h]
    refine ⟨fun g => absurd g hm, fun _ => ?_⟩
    unfold idStep
    rw [h]
    show _ ∧ (if _ then _ else _ : Id).first = false
    simp [got]
  · rw [matches_name a b, idStep_name c e d f _ hs hp a b]
    constructor
    · intro g
      have hx : ¬ (f.opt = 2 ∧ f.sub = 6) := by rw [b]; rintro ⟨_, h⟩; exact absurd h (by decide)
      rw [if_pos g, if_neg hx]; rfl
    · intro g; rw [if_neg g]; simp
  · rw [matches_alias a b, idStep_alias c e d f _ hp a b]
    constructor
    · intro g
      have hx : f.opt = 2 ∧ f.sub = 6 := ⟨a, b⟩
      rw [if_pos g, if_pos hx]
      simp
    · intro g; rw [if_neg g]; simp
  · rw [hm, hc]
    constructor
    · intro g
      rw [if_pos rfl, if_neg (fun h => hb ⟨h.1, Or.inr h.2⟩)]
      simp [g]
    · intro g
      rw [if_pos rfl]
      simp [g]
  · rw [hc]
    exact ⟨fun g => absurd g hm, fun _ => by simp⟩

theorem idRun_stop (c : Cfg) (e : Env) (d : Dev) (fs : List FReq) (s : Id)
    (h : ¬ (s.ok = true ∧ (s.first = true ∨ (s.filter = true ∧ s.isMatch = true)))) : idRun c e d fs s = s := by
  cases fs with
  | nil => rfl
  | cons f fs => unfold idRun; rw [if_neg h]

theorem idRun_later (c : Cfg) (e : Env) (d : Dev) (hs : Sane c d e.nameTail) (fs : List FReq) (hp : ∀ f ∈ fs, Plain c f) :
    ∀ s : Id, s.ok = true → s.filter = true → s.first = false → s.isMatch = true →
      ((∀ f ∈ fs, Matches c e.aliases d f) → idRun c e d fs s = { s with ali := lastAlias fs s.ali }) ∧
      ((¬ ∀ f ∈ fs, Matches c e.aliases d f) → ¬ ((idRun c e d fs s).ok = true ∧ (idRun c e d fs s).isMatch = true)) := by
  induction fs with
  | nil => intro s _ _ _ _; exact ⟨fun _ => rfl, fun h => absurd (by simp) h⟩
  | cons f fs ih =>
    intro s h1 h2 h3 h4
    obtain ⟨k1, k2⟩ := idStep_later c e d f s hs (hp f (by simp)) h1 h2 h3 h4
    have ih := ih (fun g hg => hp g (List.mem_cons_of_mem _ hg))
    have hr : idRun c e d (f :: fs) s = idRun c e d fs { idStep c e d f s with first := false } := by
      rw [idRun, if_pos ⟨h1, Or.inr ⟨h2, h4⟩⟩]
    rw [hr]
    by_cases hm : Matches c e.aliases d f
    · rw [k1 hm]
      obtain ⟨j1, j2⟩ := ih { s with ali := if f.opt = 2 ∧ f.sub = 6 then f.value else s.ali, first := false } h1 h2 rfl h4
      constructor
      · intro g
        rw [j1 (fun x hx => g x (List.mem_cons_of_mem _ hx))]
        simp [lastAlias, h3]
      · intro g
        exact j2 (fun g' => g (by intro x hx; rcases List.mem_cons.mp hx with rfl | hx; exact hm; exact g' x hx))
    · obtain ⟨q1, q2⟩ := k2 hm
      rw [idRun_stop]
      · exact ⟨fun g => absurd (g f (by simp)) hm, fun _ => q1⟩
      · simp only [Bool.false_eq_true, false_or]
        exact fun g => q1 ⟨g.1, g.2.2⟩

/-- The alias name that is put into the response: if the first filter is an alias name, that of the last filter with an
alias name. -/
def askedAlias : List FReq → Option (List Byte)
  | [] => none
  | f :: fs => if f.opt = 2 ∧ f.sub = 6 then some (lastAlias fs f.value) else none

theorem idRun_first (c : Cfg) (e : Env) (d : Dev) (hs : Sane c d e.nameTail) (fs : List FReq) (hp : ∀ f ∈ fs, Plain c f)
    (hne : fs ≠ []) :
    let s := idRun c e d fs idStart
    let A := AsksAll fs ∨ (NameFirst fs ∧ ∀ f ∈ fs, Matches c e.aliases d f)
    (A → s.ok = true ∧ s.isMatch = true ∧ (if s.useAlias then some s.ali else none) = askedAlias fs) ∧
    (¬ A → ¬ (s.ok = true ∧ s.isMatch = true)) := by
  cases fs with
  | nil => exact absurd rfl hne
  | cons f fs =>
    intro s A
    have hpf := hp f (by simp)
    have hpr := fun g (hg : g ∈ fs) => hp g (List.mem_cons_of_mem _ hg)
    have hr : s = idRun c e d fs { idStep c e d f idStart with first := false } := by
      show idRun c e d (f :: fs) idStart = _
      rw [idRun, if_pos ⟨rfl, Or.inl rfl⟩]
    have hall : AsksAll (f :: fs) ↔ (f.opt = 0xff ∧ f.sub = 0xff ∧ (f.value.length = 0 ∨ f.value.length = 2)) := by
      constructor
      · rintro ⟨g, r, h, h2⟩; cases h; exact h2
      · intro h; exact ⟨f, fs, rfl, h⟩
    have hnf : NameFirst (f :: fs) ↔ (f.opt = 2 ∧ (f.sub = 2 ∨ f.sub = 6)) := by
      constructor
      · rintro ⟨g, r, h, h2⟩; cases h; exact h2
      · intro h; exact ⟨f, fs, rfl, h⟩
    have hA : A ↔ (f.opt = 0xff ∧ f.sub = 0xff ∧ (f.value.length = 0 ∨ f.value.length = 2)) ∨
        ((f.opt = 2 ∧ (f.sub = 2 ∨ f.sub = 6)) ∧ Matches c e.aliases d f ∧ ∀ g ∈ fs, Matches c e.aliases d g) := by
      show (AsksAll _ ∨ (NameFirst _ ∧ _)) ↔ _
      rw [hall, hnf]
      simp
    rw [hA, hr]
    clear_value s A
    clear hA hr hall hnf
    rcases kinds c e d f hs hpf with h | ⟨a, b⟩ | ⟨a, b⟩ | ⟨ha, hb, v, hc, hm⟩ | ⟨ha, hb, hc, hm⟩
    · have h2 : f.opt ≠ 2 := by rw [h]; decide
      have hst : idStep c e d f idStart = if f.sub = 0xff ∧ (f.value.length = 0 ∨ f.value.length = 2) then idStart
          else { idStart with ok := false } := by
        unfold idStep
        rw [h]
        show (if f.sub = 0xff ∧ true = true ∧ (f.value.length = 2 ∨ f.value.length = 0) then _ else _) = _
        by_cases g : f.sub = 0xff ∧ (f.value.length = 0 ∨ f.value.length = 2)
        · rw [if_pos g, if_pos ⟨g.1, rfl, g.2.symm⟩]; rfl
        · rw [if_neg g, if_neg (fun x => g ⟨x.1, x.2.2.symm⟩)]
      by_cases g : f.sub = 0xff ∧ (f.value.length = 0 ∨ f.value.length = 2)
      · rw [hst, if_pos g, idRun_stop _ _ _ _ _ (by simp [idStart])]
        refine ⟨fun _ => ⟨rfl, rfl, ?_⟩, fun k => absurd (Or.inl ⟨h, g⟩) k⟩
        have : askedAlias (f :: fs) = none := by exact if_neg (fun x : f.opt = 2 ∧ f.sub = 6 => h2 x.1)
        rw [this]; rfl
      · rw [hst, if_neg g, idRun_stop _ _ _ _ _ (by simp)]
        refine ⟨?_, fun _ => by simp⟩
        rintro (k | k)
        · exact absurd k.2 g
        · exact absurd k.1.1 h2
    · have hx : f.opt ≠ 0xff := by rw [a]; decide
      rw [matches_name a b, idStep_name c e d f _ hs hpf a b]
      by_cases g : f.value = d.cur.name
      · rw [if_pos g]
        obtain ⟨j1, j2⟩ := idRun_later c e d hs fs hpr ⟨false, true, true, true, [], false⟩ rfl rfl rfl rfl
        constructor
        · rintro (k | ⟨_, _, k⟩)
          · exact absurd k.1 hx
          · have := j1 k
            show (idRun c e d fs ⟨false, true, true, true, [], false⟩).ok = true ∧
              (idRun c e d fs ⟨false, true, true, true, [], false⟩).isMatch = true ∧
              (if (idRun c e d fs ⟨false, true, true, true, [], false⟩).useAlias then
                some (idRun c e d fs ⟨false, true, true, true, [], false⟩).ali else none) = _
            rw [this]
            refine ⟨rfl, rfl, ?_⟩
            have : askedAlias (f :: fs) = none := by
              refine if_neg (c := f.opt = 2 ∧ f.sub = 6) ?_
              rw [b]; rintro ⟨_, h⟩; exact absurd h (by decide)
            rw [this]; rfl
        · intro k
          exact j2 (fun y => k (Or.inr ⟨⟨a, Or.inl b⟩, g, y⟩))
      · rw [if_neg g, idRun_stop _ _ _ _ _ (by simp)]
        refine ⟨?_, fun _ => by simp⟩
        rintro (k | ⟨_, k, _⟩)
        · exact absurd k.1 hx
        · exact absurd k g
    · have hx : f.opt ≠ 0xff := by rw [a]; decide
      rw [matches_alias a b, idStep_alias c e d f _ hpf a b]
      by_cases g : f.value ∈ e.aliases
      · rw [if_pos g]
        obtain ⟨j1, j2⟩ := idRun_later c e d hs fs hpr ⟨false, true, true, true, f.value, true⟩ rfl rfl rfl rfl
        constructor
        · rintro (k | ⟨_, _, k⟩)
          · exact absurd k.1 hx
          · have := j1 k
            show (idRun c e d fs ⟨false, true, true, true, f.value, true⟩).ok = true ∧
              (idRun c e d fs ⟨false, true, true, true, f.value, true⟩).isMatch = true ∧
              (if (idRun c e d fs ⟨false, true, true, true, f.value, true⟩).useAlias then
                some (idRun c e d fs ⟨false, true, true, true, f.value, true⟩).ali else none) = _
            rw [this]
            refine ⟨rfl, rfl, ?_⟩
            have : askedAlias (f :: fs) = some (lastAlias fs f.value) := by exact if_pos (c := f.opt = 2 ∧ f.sub = 6) ⟨a, b⟩
            rw [this]; rfl
        · intro k
          exact j2 (fun y => k (Or.inr ⟨⟨a, Or.inr b⟩, g, y⟩))
      · rw [if_neg g, idRun_stop _ _ _ _ _ (by simp)]
        refine ⟨?_, fun _ => by simp⟩
        rintro (k | ⟨_, k, _⟩)
        · exact absurd k.1 hx
        · exact absurd k g
    · rw [hc, if_neg (by simp [idStart]), idRun_stop _ _ _ _ _ (by simp)]
      refine ⟨?_, fun _ => by simp⟩
      rintro (k | ⟨k, _⟩)
      · exact absurd k.1 ha
      · exact absurd k hb
    · rw [hc, idRun_stop _ _ _ _ _ (by simp)]
      refine ⟨?_, fun _ => by simp⟩
      rintro (k | ⟨k, _⟩)
      · exact absurd k.1 ha
      · exact absurd k hb

/-- The device is able to answer: a buffer and a timer can be had, no answer is pending. -/
def Able (e : Env) (n : Net) : Prop := e.alloc = true ∧ e.armed = true ∧ n.waiting = false

theorem nameFits {c : Cfg} {d : Dev} {tail : List Byte} (hs : Sane c d tail) {f : FReq} (hp : Plain c f) : NameFits d tail f := by
  intro h1 h2
  have := (hp.name h1 h2).1
  have := hs.tail
  rw [nameMem_eq hs]
  simp
  omega

/-- C40: a list of filters (not empty, only those that are handled as they should be) is answered if and only if it asks
every device, or starts with a name and every filter matches the device. Missing: the filters for vendor, role, options
and (on a little-endian machine) the IP address, over-long names and names with zeros (`Plain`). -/
theorem C40_answers_partial (c : Cfg) (e : Env) (n : Net) (m : Mem) (len pos : Nat) (src : List Byte) (svc : Byte)
    (xid : List Byte) (dly : Nat) (fs : List FReq) (h : IsIdent m len pos src svc xid dly (fs.flatMap FReq.enc))
    (hp : pos % 2 = 0) (hable : Able e n) (hs : Sane c n.dev e.nameTail) (hne : fs ≠ []) (hf : ∀ f ∈ fs, Plain c f) :
    ∃ n' l, identify c e n m len pos = some (n', l) ∧
      (l.isSome = true ↔ AsksAll fs ∨ (NameFirst fs ∧ ∀ f ∈ fs, Matches c e.aliases n.dev f)) := by
  rw [identify_run c e n m len pos src svc xid dly fs h hp hable.1 hable.2.2 hable.2.1 hs (fun f hf' => nameFits hs (hf f hf'))]
  obtain ⟨k1, k2⟩ := idRun_first c e n.dev hs fs hf hne
  by_cases hA : AsksAll fs ∨ (NameFirst fs ∧ ∀ f ∈ fs, Matches c e.aliases n.dev f)
  · rw [if_pos ⟨(k1 hA).1, (k1 hA).2.1⟩]
    exact ⟨_, _, rfl, fun _ => hA, fun _ => rfl⟩
  · rw [if_neg (k2 hA)]
    exact ⟨_, _, rfl, fun h => by simp at h, fun h => absurd h hA⟩

/-- C75: one answer at a time.  While an answer waits for its delay, requests are not answered; a request that is
answered makes the device wait, one that is not answered changes nothing; and when the delayed answer has been sent, the
device is able to answer again, with its settings unchanged. -/
theorem C75_one_at_a_time (c : Cfg) (e : Env) (n n' : Net) (m : Mem) (len pos : Nat) (l : Option (BitVec 32 × List Byte))
    (h : identify c e n m len pos = some (n', l)) :
    (n.waiting = true → l = none) ∧ (l = none → n' = n) ∧ (l.isSome = true → n' = { n with waiting := true }) ∧
      (e.alloc = true → e.armed = true → Able e (responder n')) ∧ (responder n').dev = n'.dev := by
  suffices (n' = n ∧ l = none) ∨ (n.waiting = false ∧ n' = { n with waiting := true } ∧ l.isSome = true) by
    refine ⟨?_, ?_, ?_, fun h1 h2 => ⟨h1, h2, rfl⟩, rfl⟩
    · intro w
      rcases this with ⟨_, h⟩ | ⟨h, _⟩
      · exact h
      · rw [w] at h; cases h
    · intro hl
      rcases this with ⟨h, _⟩ | ⟨_, _, h⟩
      · exact h
      · rw [hl] at h; cases h
    · intro hl
      rcases this with ⟨_, h⟩ | ⟨_, h, _⟩
      · rw [h] at hl; cases hl
      · exact h
  unfold identify at h
  obtain ⟨hdr, _, h⟩ := Option.bind_eq_some_iff.mp h
  obtain ⟨src, _, h⟩ := Option.bind_eq_some_iff.mp h
  dsimp only at h
  split at h
  · cases h; exact .inl ⟨rfl, rfl⟩
  · split at h
    · cases h; exact .inl ⟨rfl, rfl⟩
    · rename_i hw
      split at h
      · cases h; exact .inl ⟨rfl, rfl⟩
      · obtain ⟨s, _, h⟩ := Option.bind_eq_some_iff.mp h
        split at h
        · obtain ⟨out, _, h⟩ := Option.bind_eq_some_iff.mp h
          split at h
          · cases h; exact .inr ⟨by simpa using hw, rfl, rfl⟩
          · cases h; exact .inl ⟨rfl, rfl⟩
        · cases h; exact .inl ⟨rfl, rfl⟩

/-- C75: the answer is one frame to the sender, with the transaction number of the request and the settings of the device,
after the delay that the request asks for (C39), and it fits into a frame. Missing: as for C40. -/
theorem C75_answer_partial (c : Cfg) (e : Env) (n : Net) (m : Mem) (len pos : Nat) (src : List Byte) (svc : Byte)
    (xid : List Byte) (dly : Nat) (fs : List FReq) (h : IsIdent m len pos src svc xid dly (fs.flatMap FReq.enc))
    (hp : pos % 2 = 0) (hable : Able e n) (hs : Sane c n.dev e.nameTail) (hne : fs ≠ []) (hf : ∀ f ∈ fs, Plain c f)
    (hA : AsksAll fs ∨ (NameFirst fs ∧ ∀ f ∈ fs, Matches c e.aliases n.dev f)) :
    ∃ n' wait, identify c e n m len pos = some (n', some (wait,
        identResponse c src svc xid (identData c n.dev (askedAlias fs)))) ∧
      (1 ≤ dly ∧ dly ≤ 6400 → wait.toNat = ((c.mac.getD 4 0).toNat * 256 + (c.mac.getD 5 0).toNat) % dly * 10000) ∧
      (dly = 0 ∨ 6400 < dly → wait = 0) ∧
      (identResponse c src svc xid (identData c n.dev (askedAlias fs))).length ≤ 1500 := by
  rw [identify_run c e n m len pos src svc xid dly fs h hp hable.1 hable.2.2 hable.2.1 hs (fun f hf' => nameFits hs (hf f hf'))]
  obtain ⟨k1, k2⟩ := idRun_first c e n.dev hs fs hf hne
  obtain ⟨q1, q2, q3⟩ := k1 hA
  have hali := idRun_ali c e n.dev fs idStart (by decide)
  rw [if_pos ⟨q1, q2⟩]
  have hd := Signal.C39_delay (c.mac.getD 4 0) (c.mac.getD 5 0) (BitVec.ofNat 16 dly)
  have hdl : (BitVec.ofNat 16 dly).toNat = dly := by
    obtain ⟨_, _, _, _, _, _, h, _⟩ := h
    rw [BitVec.toNat_ofNat]; omega
  rw [hdl] at hd
  refine ⟨_, _, by rw [q3], fun h => (hd.1 h).1, hd.2, ?_⟩
  have hlen := identData_length c e n.dev (askedAlias fs) hs (by
    rw [← q3]; intro a h; split at h
    · cases h; exact hali
    · cases h)
  have h5 := hs.mac
  obtain ⟨_, _, _, _, h3, h4, _⟩ := h
  unfold identResponse toBe16
  simp only [List.length_append, List.length_cons, List.length_nil]
  omega

end Verif.Dcp
