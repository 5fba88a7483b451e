import Mathlib.Data.List.Nodup
import Verif.Wire.Records
import Verif.Wire.ConnSpec
/-! A well-formed connect request is stored as specified. -/
set_option linter.unusedSimpArgs false
set_option linter.unusedVariables false

namespace Verif.Wire

theorem toNat_widen (v : U16) : (v.setWidth 32 : U32).toNat = v.toNat := by
  have := v.isLt
  simp
  omega

theorem bitsOf_lt (v p l : Nat) : bitsOf v p l < 2 ^ l := Nat.mod_lt _ (Nat.two_pow_pos l)

theorem fieldOf_eq (v : U32) {p l : Nat} (h : p + l ≤ 32) : getBits v p l = fieldOf v.toNat p l := by
  apply getBits_eq h
  unfold fieldOf
  have h1 := bitsOf_lt v.toNat p l
  have h2 : 2 ^ l ≤ 2 ^ 32 := Nat.pow_le_pow_right (by omega) (by omega)
  rw [BitVec.toNat_ofNat, Nat.mod_eq_of_lt (by omega)]

theorem flagOf_eq (v : U32) {p : Nat} (h : p < 32) : flag v p = flagOf v.toNat p := by
  unfold flagOf
  rw [Bool.eq_iff_iff, flag_iff v h]
  simp

theorem nz_eq (v : U32) {p l : Nat} (h : p + l ≤ 32) : (getBits v p l != 0) = (bitsOf v.toNat p l != 0) := by
  have e := getBits_toNat v h
  rw [← e, Bool.eq_iff_iff]
  simp
  constructor
  · intro h1 h2; exact h1 (BitVec.eq_of_toNat_eq (by simpa using h2))
  · intro h1 h2; exact h1 (by rw [h2]; rfl)

theorem ofNat_len {n : Nat} (h : n < 65536) : (BitVec.ofNat 16 n : U16).toNat = n := by
  simp; omega

theorem parses_getArParam {be : Bool} {a : ArReq} (hw : a.Wf) : Parses be getArParam (a.enc be) a.stored := by
  obtain ⟨h1, h2, h3, h4, h5⟩ := hw
  unfold getArParam ArReq.enc
  simp only [List.append_assoc]
  refine ParsesTo.bind (parses_getU16 _ _) ?_
  refine ParsesTo.bind (parses_getUuid h2) ?_
  refine ParsesTo.bind (parses_getU16 _ _) ?_
  refine ParsesTo.bind (parses_getArr h1) ?_
  refine ParsesTo.bind (parses_getUuid h3) ?_
  refine ParsesTo.bind (parses_getU32 _ _) ?_
  refine ParsesTo.bind (parses_getU16 _ _) ?_
  refine ParsesTo.bind (parses_getU16 _ _) ?_
  refine ParsesTo.bind (parses_getU16 _ _) ?_
  have hn : a.name.length = if (BitVec.ofNat 16 a.name.length : U16).toNat > stationNameSize - 1 then stationNameSize - 1
      else (BitVec.ofNat 16 a.name.length : U16).toNat := by
    rw [ofNat_len (by omega), if_neg (by unfold stationNameSize; omega)]
  refine ParsesTo.bind_nil (parses_getArr hn) ?_
  have e : arProps a.props = a.stored.props := by
    unfold arProps ArReq.stored
    simp only
    rw [fieldOf_eq _ (by omega), fieldOf_eq _ (by omega), fieldOf_eq _ (by omega), flagOf_eq _ (by omega),
      flagOf_eq _ (by omega), flagOf_eq _ (by omega), flagOf_eq _ (by omega), flagOf_eq _ (by omega), flagOf_eq _ (by omega)]
  rw [e]
  exact ParsesTo.pure _ _

theorem parses_getFrameDesc (be : Bool) (d : FrameDesc) : Parses be getFrameDesc (encFrameDesc be d) d := by
  unfold getFrameDesc encFrameDesc
  simp only [List.append_assoc]
  refine ParsesTo.bind (parses_getU16 _ _) ?_
  refine ParsesTo.bind (parses_getU16 _ _) ?_
  refine ParsesTo.bind_nil (parses_getU16 _ _) ?_
  exact ParsesTo.pure _ _

theorem parses_getApiEntry {be : Bool} {cap : Nat} {a : ApiEntry}
    (h : a.ioData.length ≤ cap ∧ a.iocs.length ≤ cap ∧ a.ioData.length < 65536 ∧ a.iocs.length < 65536) :
    Parses be (getApiEntry cap) (encApiEntry be a) (some a) := by
  obtain ⟨h1, h2, h3, h4⟩ := h
  unfold getApiEntry encApiEntry
  simp only [List.append_assoc]
  refine ParsesTo.bind (parses_getU32 _ _) ?_
  refine ParsesTo.bind (parses_getU16 _ _) ?_
  rw [ofNat_len h3, if_neg (by omega)]
  refine ParsesTo.bind (parses_rep a.ioData fun d _ => parses_getFrameDesc be d) ?_
  refine ParsesTo.bind (parses_getU16 _ _) ?_
  rw [ofNat_len h4, if_neg (by omega)]
  refine ParsesTo.bind_nil (parses_rep a.iocs fun d _ => parses_getFrameDesc be d) ?_
  exact ParsesTo.pure _ _

theorem parses_getApis {be : Bool} {cap : Nat} (l : List ApiEntry)
    (h : ∀ a ∈ l, a.ioData.length ≤ cap ∧ a.iocs.length ≤ cap ∧ a.ioData.length < 65536 ∧ a.iocs.length < 65536) :
    Parses be (getApis cap l.length) (l.flatMap (encApiEntry be)) (some l) := by
  induction l with
  | nil => exact ParsesTo.pure _ _
  | cons a t ih =>
    rw [List.flatMap_cons]
    refine ParsesTo.bind (parses_getApiEntry (h a (by simp))) ?_
    refine ParsesTo.bind_nil (ih fun b hb => h b (by simp [hb])) ?_
    exact ParsesTo.pure _ _

theorem vlan_eq {t : U16} (h : bitsOf t.toNat 11 1 = 0) :
    getBits (t.setWidth 32) 0 11 = fieldOf t.toNat 0 12 := by
  apply getBits_eq (by omega)
  rw [toNat_widen]
  unfold fieldOf
  unfold bitsOf at *
  simp
  omega

theorem parses_getIocrParam {be : Bool} {z : ConnSizes} {i : IocrReq} (hw : i.Wf z)
    (hv : bitsOf i.tag.toNat 11 1 = 0) :
    Parses be (getIocrParam z.tab.maxApi z.ioCap) (i.enc be) (some i.stored) := by
  obtain ⟨h1, h2, h3, h4⟩ := hw
  unfold getIocrParam IocrReq.enc
  simp only [List.append_assoc]
  refine ParsesTo.bind (parses_getU16 _ _) ?_
  refine ParsesTo.bind (parses_getU16 _ _) ?_
  refine ParsesTo.bind (parses_getU16 _ _) ?_
  refine ParsesTo.bind (parses_getU32 _ _) ?_
  refine ParsesTo.bind (parses_getU16 _ _) ?_
  refine ParsesTo.bind (parses_getU16 _ _) ?_
  refine ParsesTo.bind (parses_getU16 _ _) ?_
  refine ParsesTo.bind (parses_getU16 _ _) ?_
  refine ParsesTo.bind (parses_getU16 _ _) ?_
  refine ParsesTo.bind (parses_getU16 _ _) ?_
  refine ParsesTo.bind (parses_getU32 _ _) ?_
  refine ParsesTo.bind (parses_getU16 _ _) ?_
  refine ParsesTo.bind (parses_getU16 _ _) ?_
  refine ParsesTo.bind (parses_getU16 _ _) ?_
  refine ParsesTo.bind (parses_getArr h1) ?_
  refine ParsesTo.bind (parses_getU16 _ _) ?_
  rw [ofNat_len h3, if_neg (by omega)]
  refine ParsesTo.bind_nil (parses_getApis i.apis h4) ?_
  dsimp only
  have e : (⟨i.type, i.ref, i.ltField, getBits i.props 0 4, getBits i.props 4 9 != 0, getBits i.props 13 11 != 0,
      getBits i.props 24 8 != 0, i.cSduLength, i.frameId, i.sendClock, i.ratio, i.phase, i.sequence, i.sendOffset, i.watchdog,
      i.dataHold, getBits (i.tag.setWidth 32) 0 11, getBits (i.tag.setWidth 32) 13 3, i.mac, i.apis⟩ : IocrParam) = i.stored := by
    unfold IocrReq.stored
    rw [vlan_eq hv, nz_eq i.props (p := 4) (l := 9) (by omega), nz_eq i.props (p := 13) (l := 11) (by omega),
      nz_eq i.props (p := 24) (l := 8) (by omega), fieldOf_eq _ (by omega), fieldOf_eq _ (by omega), toNat_widen]
  rw [e]
  exact ParsesTo.pure _ _

theorem parses_getAlarmCr {be : Bool} {a : AlarmReq} : Parses be getAlarmCr (a.enc be) a.stored := by
  unfold getAlarmCr AlarmReq.enc
  simp only [List.append_assoc]
  refine ParsesTo.bind (parses_getU16 _ _) ?_
  refine ParsesTo.bind (parses_getU16 _ _) ?_
  refine ParsesTo.bind (parses_getU32 _ _) ?_
  refine ParsesTo.bind (parses_getU16 _ _) ?_
  refine ParsesTo.bind (parses_getU16 _ _) ?_
  refine ParsesTo.bind (parses_getU16 _ _) ?_
  refine ParsesTo.bind (parses_getU16 _ _) ?_
  refine ParsesTo.bind (parses_getU16 _ _) ?_
  refine ParsesTo.bind_nil (parses_getU16 _ _) ?_
  have e : (⟨a.type, a.ltField, flag a.props 0, flag a.props 1, a.timeoutFactor, a.retries, a.localRef, a.maxLen,
      getBits (a.tagHigh.setWidth 32) 0 12, getBits (a.tagHigh.setWidth 32) 13 3, getBits (a.tagLow.setWidth 32) 0 12,
      getBits (a.tagLow.setWidth 32) 13 3⟩ : AlarmCr) = a.stored := by
    unfold AlarmReq.stored
    rw [flagOf_eq _ (by omega), flagOf_eq _ (by omega), fieldOf_eq _ (by omega), fieldOf_eq _ (by omega),
      fieldOf_eq _ (by omega), fieldOf_eq _ (by omega), toNat_widen, toNat_widen]
  rw [e]
  exact ParsesTo.pure _ _

theorem parses_getDataDesc (be : Bool) (d : DataDesc) : Parses be getDataDesc (encDataDesc be d) d := by
  unfold getDataDesc encDataDesc
  simp only [List.append_assoc]
  refine ParsesTo.bind (parses_getU16 _ _) ?_
  refine ParsesTo.bind (parses_getU16 _ _) ?_
  refine ParsesTo.bind (x := [_]) (y := [_]) (parses_getByte _ _) ?_
  refine ParsesTo.bind_nil (x := [_]) (parses_getByte _ _) ?_
  exact ParsesTo.pure _ _

theorem parses_getExpSub {be : Bool} {s : SubReq} (hw : s.Wf) : Parses be getExpSub (s.enc be) s.stored := by
  unfold getExpSub SubReq.enc
  simp only [List.append_assoc]
  refine ParsesTo.bind (parses_getU16 _ _) ?_
  refine ParsesTo.bind (parses_getU32 _ _) ?_
  refine ParsesTo.bind (parses_getU16 _ _) ?_
  refine ParsesTo.bind (parses_getDataDesc _ _) ?_
  have ht : getBits (s.props.setWidth 32) 0 2 = dirIo ↔ bitsOf s.props.toNat 0 2 = 3 := by
    have e := getBits_toNat (s.props.setWidth 32) (p := 0) (l := 2) (by omega)
    rw [toNat_widen] at e
    rw [← e]
    constructor
    · intro h; rw [h]; rfl
    · intro h; exact BitVec.eq_of_toNat_eq (by rw [h]; rfl)
  have hs : ∀ d, (⟨s.subslot, s.ident, getBits (s.props.setWidth 32) 0 2, flag (s.props.setWidth 32) 2,
      flag (s.props.setWidth 32) 3, flag (s.props.setWidth 32) 4, flag (s.props.setWidth 32) 5, d⟩ : ExpSub) =
      { s.stored with descs := d } := by
    intro d
    unfold SubReq.stored
    rw [fieldOf_eq _ (by omega), flagOf_eq _ (by omega), flagOf_eq _ (by omega), flagOf_eq _ (by omega),
      flagOf_eq _ (by omega), toNat_widen]
  unfold SubReq.Wf at hw
  cases hd : s.d1 with
  | none =>
    rw [hd] at hw
    rw [if_neg (by rw [ht, ← hw]; simp), hs]
    have : ({ s.stored with descs := [s.d0] } : ExpSub) = s.stored := by simp [SubReq.stored, hd]
    rw [this]
    exact ParsesTo.pure _ _
  | some d =>
    rw [hd] at hw
    rw [if_pos (by rw [ht, ← hw]; simp)]
    simp only [Option.toList_some, List.flatMap_cons, List.flatMap_nil]
    refine ParsesTo.bind (parses_getDataDesc _ _) ?_
    rw [hs]
    have : ({ s.stored with descs := [s.d0, d] } : ExpSub) = s.stored := by simp [SubReq.stored, hd]
    rw [this]
    exact ParsesTo.pure _ _

theorem parses_getSubs {be : Bool} {cap : Nat} (l : List SubReq) (hw : ∀ s ∈ l, s.Wf) :
    ∀ iy, iy + l.length ≤ cap → Parses be (getSubs cap iy l.length) (l.flatMap (SubReq.enc be)) (l.map SubReq.stored) := by
  induction l with
  | nil => intro iy _; exact ParsesTo.pure _ _
  | cons s t ih =>
    intro iy h
    rw [List.flatMap_cons]
    simp only [List.length_cons] at h ⊢
    unfold getSubs
    refine ParsesTo.bind (parses_getExpSub (hw s (by simp))) ?_
    rw [if_neg (by omega)]
    refine ParsesTo.bind_nil (ih (fun b hb => hw b (by simp [hb])) (iy + 1) (by omega)) ?_
    exact ParsesTo.pure _ _

/-! ## Expected modules -/

/-- Tables that the code builds: every API is valid and occurs once. -/
def GoodTab (t : List ExpApi) : Prop := (∀ a ∈ t, a.valid = true) ∧ (t.map (·.api)).Nodup

theorem findApi_none {t : List ExpApi} {a : U32} (h : ∀ x ∈ t, x.api ≠ a) : findApi t a = none := by
  cases hf : findApi t a with
  | none => rfl
  | some i =>
    obtain ⟨x, hx, _, he⟩ := findApi_lt hf
    exact absurd he (h x (List.mem_of_getElem? hx))

theorem findApi_some {t : List ExpApi} {a : U32} (hg : GoodTab t) (h : ∃ x ∈ t, x.api = a) :
    ∃ i x, findApi t a = some i ∧ t[i]? = some x ∧ x.api = a := by
  cases hf : findApi t a with
  | some i =>
    obtain ⟨x, hx, _, he⟩ := findApi_lt hf
    exact ⟨i, x, rfl, hx, he⟩
  | none =>
    exfalso
    have key : ∀ (k : List Nat) (acc : Option Nat), (k.foldl (fun acc i => match t[i]? with
        | some x => if x.valid = true ∧ x.api = a then some i else acc
        | none => acc) acc = none) → acc = none ∧ ∀ i ∈ k, ∀ x, t[i]? = some x → ¬ (x.valid = true ∧ x.api = a) := by
      intro k
      induction k with
      | nil => intro acc h; exact ⟨h, by simp⟩
      | cons c s ih =>
        intro acc h
        obtain ⟨h1, h2⟩ := ih _ h
        dsimp only at h1
        cases hc : t[c]? with
        | none =>
          rw [hc] at h1
          refine ⟨h1, ?_⟩
          intro i hi x hx
          rcases List.mem_cons.1 hi with rfl | hi
          · rw [hc] at hx; cases hx
          · exact h2 i hi x hx
        | some y =>
          rw [hc] at h1
          dsimp only at h1
          split at h1
          · cases h1
          · rename_i hn
            refine ⟨h1, ?_⟩
            intro i hi x hx
            rcases List.mem_cons.1 hi with rfl | hi
            · rw [hc] at hx; cases hx; exact hn
            · exact h2 i hi x hx
    obtain ⟨x, hx, he⟩ := h
    obtain ⟨i, hi, rfl⟩ := List.getElem_of_mem hx
    exact (key _ _ hf).2 i (by simpa using hi) t[i] (List.getElem?_eq_getElem hi) ⟨hg.1 _ hx, he⟩

theorem set_eq_map {t : List ExpApi} {i : Nat} {x : ExpApi} {f : ExpApi → ExpApi} (hn : (t.map (·.api)).Nodup)
    (hx : t[i]? = some x) : t.set i (f x) = t.map fun y => if y.api == x.api then f y else y := by
  apply List.ext_getElem?
  intro j
  rw [List.getElem?_set, List.getElem?_map]
  obtain ⟨hi, rfl⟩ := List.getElem?_eq_some_iff.1 hx
  by_cases hij : i = j
  · subst hij
    simp [hi]
  · rw [if_neg hij]
    cases hj : t[j]? with
    | none => rfl
    | some y =>
      obtain ⟨hjl, rfl⟩ := List.getElem?_eq_some_iff.1 hj
      have : t[j].api ≠ t[i].api := by
        intro he
        apply hij
        have := (List.Nodup.getElem_inj_iff hn (hi := by simpa using hi) (hj := by simpa using hjl)).1
          (by simpa using he.symm)
        exact this
      simp [this]

theorem place_good {t : List ExpApi} {m : ModReq} (hg : GoodTab t) : GoodTab (place t m) := by
  unfold place
  split
  · refine ⟨?_, ?_⟩
    · intro a ha
      simp only [List.mem_map] at ha
      obtain ⟨x, hx, rfl⟩ := ha
      split
      · exact hg.1 x hx
      · exact hg.1 x hx
    · have : (t.map fun x => if x.api == m.api then { x with mods := x.mods ++ [m.stored] } else x).map (·.api) =
          t.map (·.api) := by
        rw [List.map_map]
        apply List.map_congr_left
        intro x _
        simp only [Function.comp_apply]
        split <;> rfl
      rw [this]
      exact hg.2
  · rename_i hn
    refine ⟨?_, ?_⟩
    · intro a ha
      rcases List.mem_append.1 ha with ha | ha
      · exact hg.1 a ha
      · simp at ha; subst ha; rfl
    · rw [List.map_append, List.nodup_append]
      refine ⟨hg.2, by simp, ?_⟩
      intro u hu v hv
      simp at hv
      subst hv
      intro he
      apply hn
      simp only [List.mem_map] at hu
      obtain ⟨x, hx, rfl⟩ := hu
      simp only [List.any_eq_true]
      exact ⟨x, hx, by simpa using he⟩

/-- Growing only: what fits after more modules were placed fitted before. -/
theorem place_fits {z : Sizes} {t : List ExpApi} {m : ModReq} (h : TabFits z (place t m)) : TabFits z t := by
  unfold place at h
  split at h
  · refine ⟨by simpa using h.1, ?_⟩
    intro a ha
    have := h.2 (if a.api == m.api then { a with mods := a.mods ++ [m.stored] } else a)
      (List.mem_map.2 ⟨a, ha, rfl⟩)
    split at this
    · refine ⟨by have := this.1; simp at this; omega, fun x hx => this.2 x (by simp [hx])⟩
    · exact this
  · refine ⟨by have := h.1; simp at this; omega, ?_⟩
    intro a ha
    exact h.2 a (by simp [ha])

theorem foldl_place_fits {z : Sizes} {l : List ModReq} {t : List ExpApi} (h : TabFits z (l.foldl place t)) :
    TabFits z t := by
  induction l generalizing t with
  | nil => exact h
  | cons m s ih => exact place_fits (ih h)

theorem foldl_place_good {l : List ModReq} {t : List ExpApi} (h : GoodTab t) : GoodTab (l.foldl place t) := by
  induction l generalizing t with
  | nil => exact h
  | cons m s ih => exact ih (place_good h)

/-- One module. -/
theorem parses_expRound {be : Bool} {z : Sizes} {t : List ExpApi} {cur : Option Nat} {m : ModReq}
    (hg : GoodTab t) (hf : TabFits z (place t m)) (hm : m.subs.length < 65536 ∧ ∀ s ∈ m.subs, s.Wf)
    (hc : (∃ x ∈ t, x.api = m.api) ∨ cur = none) :
    ∃ i, Parses be (expRound z (t, cur)) (m.enc be) (place t m, some i) := by
  have hadd : ∀ (tab : List ExpApi) (i : Nat) (a : ExpApi), tab[i]? = some a → a.mods.length < z.maxSlots →
      m.subs.length ≤ z.maxSubslots → a.api = m.api →
      Parses be (addModule z tab i) (enc16 be m.slot ++ (enc32 be m.ident ++ (enc16 be m.props ++
        (enc16 be (BitVec.ofNat 16 m.subs.length) ++ m.subs.flatMap (SubReq.enc be)))))
        (tab.set i { a with valid := true, mods := a.mods ++ [m.stored] }) := by
    intro tab i a ha hl hs he
    unfold addModule
    refine ParsesTo.bind (parses_getU16 _ _) ?_
    rw [ha]
    dsimp only
    rw [if_pos hl]
    refine ParsesTo.bind (parses_getU32 _ _) ?_
    refine ParsesTo.bind (parses_getU16 _ _) ?_
    refine ParsesTo.bind (parses_getU16 _ _) ?_
    rw [ofNat_len hm.1]
    refine ParsesTo.bind_nil (parses_getSubs m.subs hm.2 0 (by omega)) ?_
    exact ParsesTo.pure _ _
  unfold expRound ModReq.enc
  simp only [List.append_assoc]
  by_cases hex : ∃ x ∈ t, x.api = m.api
  · obtain ⟨i, x, h1, h2, h3⟩ := findApi_some hg hex
    have hany : t.any (fun x => x.api == m.api) = true := by
      obtain ⟨y, hy, he⟩ := hex
      simp only [List.any_eq_true]
      exact ⟨y, hy, by simpa using he⟩
    have hpl : place t m = t.set i { x with valid := true, mods := x.mods ++ [m.stored] } := by
      have hxv : x.valid = true := hg.1 x (List.mem_of_getElem? h2)
      have := set_eq_map (f := fun x => { x with mods := x.mods ++ [m.stored] }) hg.2 h2
      unfold place
      rw [if_pos hany, ← h3, ← this, hxv.symm]
    have hfx := hf.2 { x with valid := true, mods := x.mods ++ [m.stored] } (by
      rw [hpl]; exact List.mem_set (List.getElem?_eq_some_iff.1 h2).1 _)
    refine ⟨i, ?_⟩
    refine ParsesTo.bind (parses_getU32 _ _) ?_
    have hsel : selectApi z t cur m.api = (t, some i) := by
      unfold selectApi
      rw [h1]
      simp
    rw [hsel]
    dsimp only
    refine ParsesTo.bind_nil (hadd t i x h2 (by have := hfx.1; simp at this; omega) ?_ h3) ?_
    · have := hfx.2 m.stored (by simp)
      simpa [ModReq.stored] using this
    · rw [← hpl]
      exact ParsesTo.pure _ _
  · have hcur : cur = none := by
      rcases hc with hc | hc
      · exact absurd hc hex
      · exact hc
    subst hcur
    have hne : ∀ x ∈ t, x.api ≠ m.api := fun x hx he => hex ⟨x, hx, he⟩
    have hpl : place t m = t ++ [⟨true, m.api, [m.stored]⟩] := by
      unfold place
      rw [if_neg]
      simp only [List.any_eq_true]
      intro ⟨x, hx, he⟩
      exact hne x hx (by simpa using he)
    have hlen : t.length < z.maxApi := by
      have := hf.1
      rw [hpl] at this
      simp at this
      omega
    have hfx := hf.2 ⟨true, m.api, [m.stored]⟩ (by rw [hpl]; simp)
    refine ⟨t.length, ?_⟩
    refine ParsesTo.bind (parses_getU32 _ _) ?_
    have hsel : selectApi z t none m.api = (t ++ [⟨false, m.api, []⟩], some t.length) := by
      unfold selectApi
      rw [findApi_none hne]
      simp [hlen]
    rw [hsel]
    dsimp only
    refine ParsesTo.bind_nil (hadd (t ++ [(⟨false, m.api, []⟩ : ExpApi)]) t.length ⟨false, m.api, []⟩ (by simp) (by have := hfx.1; simp at this ⊢; omega) ?_ rfl) ?_
    · have := hfx.2 m.stored (by simp)
      simpa [ModReq.stored] using this
    · have : (t ++ [(⟨false, m.api, []⟩ : ExpApi)]).set t.length
          { (⟨false, m.api, []⟩ : ExpApi) with valid := true, mods := [] ++ [m.stored] } = place t m := by
        rw [hpl]
        simp
      rw [this]
      exact ParsesTo.pure _ _

theorem place_has (t : List ExpApi) (m : ModReq) : ∃ x ∈ place t m, x.api = m.api := by
  unfold place
  split
  · rename_i h
    simp only [List.any_eq_true] at h
    obtain ⟨x, hx, he⟩ := h
    refine ⟨_, List.mem_map.2 ⟨x, hx, rfl⟩, ?_⟩
    rw [if_pos he]
    simpa using he
  · exact ⟨⟨true, m.api, [m.stored]⟩, by simp, rfl⟩

theorem parses_expLoop {be : Bool} {z : Sizes} (l : List ModReq) (hm : ∀ m ∈ l, m.subs.length < 65536 ∧ ∀ s ∈ m.subs, s.Wf)
    (hs : ∀ m ∈ l, ∀ m' ∈ l, m.api = m'.api) :
    ∀ (t : List ExpApi) (cur : Option Nat), GoodTab t → TabFits z (l.foldl place t) →
      ((∃ m ∈ l, ∃ x ∈ t, x.api = m.api) ∨ cur = none) →
      ∃ c, Parses be (expLoop z l.length (t, cur)) (l.flatMap (ModReq.enc be)) (l.foldl place t, c) := by
  induction l with
  | nil => intro t cur _ _ _; exact ⟨cur, ParsesTo.pure _ _⟩
  | cons m s ih =>
    intro t cur hg hf hc
    have hc' : (∃ x ∈ t, x.api = m.api) ∨ cur = none := by
      rcases hc with ⟨m', hm', x, hx, he⟩ | hc
      · exact Or.inl ⟨x, hx, by rw [he]; exact hs m' hm' m (by simp)⟩
      · exact Or.inr hc
    obtain ⟨i, h1⟩ := parses_expRound (be := be) hg (foldl_place_fits (l := s) hf) (hm m (by simp)) hc'
    rw [List.flatMap_cons]
    simp only [List.length_cons, List.foldl_cons]
    unfold expLoop
    cases s with
    | nil =>
      refine ⟨some i, ParsesTo.bind h1 ?_⟩
      exact ParsesTo.pure _ _
    | cons m2 s2 =>
      obtain ⟨c, h2⟩ := ih (fun a ha => hm a (by simp [ha])) (fun a ha b hb => hs a (by simp [ha]) b (by simp [hb]))
        (place t m) (some i) (place_good hg) hf (Or.inl ⟨m2, by simp, by
          obtain ⟨x, hx, he⟩ := place_has t m
          exact ⟨x, hx, by rw [he]; exact hs m (by simp) m2 (by simp)⟩⟩)
      exact ⟨c, ParsesTo.bind h1 h2⟩

theorem parses_getExpApiModule {be : Bool} {z : Sizes} {l : List ModReq} {t : List ExpApi} (hl : l.length < 65536)
    (hm : ∀ m ∈ l, m.subs.length < 65536 ∧ ∀ s ∈ m.subs, s.Wf) (hs : ∀ m ∈ l, ∀ m' ∈ l, m.api = m'.api)
    (hg : GoodTab t) (hf : TabFits z (l.foldl place t)) :
    Parses be (getExpApiModule z t) (enc16 be (BitVec.ofNat 16 l.length) ++ l.flatMap (ModReq.enc be)) (l.foldl place t) := by
  unfold getExpApiModule
  refine ParsesTo.bind (parses_getU16 _ _) ?_
  rw [ofNat_len hl]
  obtain ⟨c, h⟩ := parses_expLoop (be := be) l hm hs t none hg hf (Or.inr rfl)
  exact ParsesTo.bind_nil h (ParsesTo.pure _ _)

/-! ## Blocks -/

/-- Variant of `ParsesTo` whose result may be computed from the reader. -/
theorem run_bind {α β} {p : P α} {f : α → P β} {r r' : Rd} {a : α} (h : p r = some (a, r')) :
    (p >>= f) r = f a r' := by
  simp [h]

theorem checkHeader_ok {n : Nat} {t : U16} (h : n < 65536) :
    checkHeader n ⟨t, BitVec.ofNat 16 n, 1, 0⟩ = true := by
  unfold checkHeader
  simp

theorem strlen_eq {d : List Byte} (h : ∀ b ∈ d, b ≠ 0) : strlen d = d.length := by
  unfold strlen
  induction d with
  | nil => rfl
  | cons b t ih =>
    rw [List.takeWhile_cons_of_pos (by simpa using h b (by simp)), List.length_cons,
      ih fun x hx => h x (by simp [hx]), List.length_cons]

theorem ArReq.enc_length {be : Bool} {a : ArReq} (hw : a.Wf) : (a.enc be).length = 52 + a.name.length := by
  obtain ⟨h1, h2, h3, h4, h5⟩ := hw
  simp [ArReq.enc, enc16_length, enc32_length, encUuid_length h2, encUuid_length h3, h1]
  omega

theorem connBlock_ar {be : Bool} {z : ConnSizes} {a : ArReq} {c : Conn} (hw : a.Wf) (hl : (a.enc be).length + 2 < 65536) :
    Parses be (connBlock z ⟨0x0101, BitVec.ofNat 16 ((a.enc be).length + 2), 1, 0⟩ true c) (a.enc be)
      (true, { c with ar := a.stored, nbrAr := c.nbrAr + 1 }) := by
  intro r he hn hb hp hs
  unfold connBlock
  rw [run_bind (a := r) (r' := r) rfl, if_pos rfl, run_bind (parses_getArParam hw r he hn hb hp hs)]
  have hstr : strlen a.stored.name = a.name.length := strlen_eq hw.2.2.2.2
  rw [if_neg (by simp), hstr, ArReq.enc_length hw,
    show 54 + a.name.length = 52 + a.name.length + 2 by omega, checkHeader_ok (by rw [ArReq.enc_length hw] at hl; exact hl)]
  rfl

theorem connBlock_other {be : Bool} {z : ConnSizes} {b : Block} {c : Conn} (hw : b.Wf true z) (hg : GoodTab c.exp)
    (hd : c.ar.props.deviceAccess = false) (hl : (b.body be).length + 2 < 65536)
    (hi : (b.store c).iocrs.length ≤ z.maxCr) (hf : TabFits z.tab (b.store c).exp) (first : Bool) :
    Parses be (connBlock z ⟨b.type, BitVec.ofNat 16 ((b.body be).length + 2), 1, 0⟩ first c) (b.body be) (true, b.store c) := by
  intro r he hn hb hp hs
  unfold connBlock
  rw [run_bind (a := r) (r' := r) rfl]
  have hck : ∀ t, checkHeader (r.pos + (b.body be).length - r.pos + 2) ⟨t, BitVec.ofNat 16 ((b.body be).length + 2), 1, 0⟩ = true := by
    intro t
    rw [Nat.add_sub_cancel_left]
    exact checkHeader_ok hl
  cases b with
  | iocr i =>
    rw [if_neg (by simp [Block.type]), if_pos (by rfl)]
    have hlt : c.iocrs.length < z.maxCr := by simp [Block.store] at hi; omega
    rw [if_neg (by simpa using hlt), run_bind (parses_getIocrParam hw.1 (hw.2 rfl) r he hn hb hp hs)]
    dsimp only
    rw [run_bind (p := reader) (a := _) (r' := _) rfl, if_neg (by simp [hd])]
    have := hck (Block.iocr i).type
    simp only [Block.body] at this
    simp only [Block.body, this, if_true]
    rfl
  | alarm a =>
    rw [if_neg (by simp [Block.type]), if_neg (by simp [Block.type]), if_neg (by simp [Block.type]), if_pos (by rfl),
      run_bind (parses_getAlarmCr r he hn hb hp hs), run_bind (p := reader) (a := _) (r' := _) rfl, if_neg (by simp [hd])]
    have := hck (Block.alarm a).type
    simp only [Block.body] at this
    simp only [Block.body, this, if_true]
    rfl
  | expected l =>
    rw [if_neg (by simp [Block.type]), if_neg (by simp [Block.type]), if_pos (by rfl),
      run_bind (parses_getExpApiModule hw.1 hw.2.1 (hw.2.2 rfl) hg hf r he hn hb hp hs),
      run_bind (p := reader) (a := _) (r' := _) rfl, if_neg (by simp [he]), if_neg (by simp [hd])]
    have := hck (Block.expected l).type
    simp only [Block.body] at this
    simp only [Block.body, this, if_true]
    rfl
  | rpc p =>
    rw [if_neg (by simp [Block.type]), if_neg (by simp [Block.type]), if_neg (by simp [Block.type]), if_neg (by simp [Block.type]), if_pos (by rfl),
      run_bind (show getArRpc r = _ from parses_getU16 be p r he hn hb hp hs),
      run_bind (p := reader) (a := _) (r' := _) rfl, if_neg (by simp [hd])]
    have := hck (Block.rpc p).type
    simp only [Block.body] at this
    simp only [Block.body, this, if_true]
    rfl

theorem encBlock_length (be : Bool) (t : U16) (body : List Byte) : (encBlock be t body).length = body.length + 6 := by
  simp [encBlock, encBlockHeader, enc16_length]
  omega

/-- One round of the loop. -/
theorem connLoop_round {be : Bool} {z : ConnSizes} {t : U16} {body rest : List Byte} {first : Bool} {c c' : Conn} {k : Nat}
    (hl : body.length + 2 < 65536)
    (hblk : Parses be (connBlock z ⟨t, BitVec.ofNat 16 (body.length + 2), 1, 0⟩ first c) body (true, c')) (r : Rd)
    (he : r.err = .ok) (hn : r.null = false) (hb : r.be = be)
    (hp : r.pos + (encBlock be t body ++ rest).length = r.len)
    (hs : slice r.buf r.pos (encBlock be t body ++ rest).length = some (encBlock be t body ++ rest)) :
    ∃ r', r' = { r with pos := r.pos + (encBlock be t body).length } ∧
      slice r'.buf r'.pos rest.length = some rest ∧ r'.pos + rest.length = r'.len ∧
      connLoop z (k + 1) first c r = connLoop z k false c' r' := by
  refine ⟨_, rfl, (slice_append hs).2, by rw [List.length_append] at hp; simpa [Nat.add_assoc] using hp, ?_⟩
  rw [List.length_append, encBlock_length] at hp
  have h1 := (slice_append hs).1
  unfold encBlock at h1
  obtain ⟨h2, h3⟩ := slice_append h1
  have lh : (encBlockHeader be ⟨t, BitVec.ofNat 16 (body.length + 2), 1, 0⟩).length = 6 := by
    simp [encBlockHeader, enc16_length]
  have hh := parses_getBlockHeader be ⟨t, BitVec.ofNat 16 (body.length + 2), 1, 0⟩ r he hn hb (by rw [lh]; omega) h2
  have hbk := hblk { r with pos := r.pos + 6, be := be } he hn rfl (by simp; omega) (by rw [lh] at h3; exact h3)
  rw [lh] at hh
  conv => lhs; unfold connLoop
  rw [run_bind (p := reader) (a := r) (r' := r) rfl, if_pos ⟨he, by omega⟩, run_bind hh,
    run_bind (p := reader) (a := _) (r' := _) rfl,
    if_pos ⟨he, by simp only [ofNat_len hl]; omega⟩, run_bind hbk, if_pos rfl]
  have e : (encBlock be t body).length = 6 + body.length := by rw [encBlock_length]; omega
  rw [e]
  subst hb
  simp [Nat.add_assoc]

theorem flatMap_block_length (be : Bool) (l : List Block) :
    6 * l.length ≤ (l.flatMap (Block.enc be)).length := by
  induction l with
  | nil => simp
  | cons b t ih =>
    rw [List.flatMap_cons, List.length_append, Block.enc, encBlock_length, List.length_cons]
    omega

theorem store_ar (b : Block) (c : Conn) : (b.store c).ar = c.ar := by cases b <;> rfl

theorem store_good {b : Block} {c : Conn} (h : GoodTab c.exp) : GoodTab (b.store c).exp := by
  cases b with
  | expected l => exact foldl_place_good h
  | _ => exact h

theorem foldl_store_mono {z : ConnSizes} {l : List Block} {c : Conn}
    (hi : (l.foldl (fun c b => b.store c) c).iocrs.length ≤ z.maxCr)
    (hf : TabFits z.tab (l.foldl (fun c b => b.store c) c).exp) : c.iocrs.length ≤ z.maxCr ∧ TabFits z.tab c.exp := by
  induction l generalizing c with
  | nil => exact ⟨hi, hf⟩
  | cons b t ih =>
    obtain ⟨h1, h2⟩ := ih hi hf
    cases b with
    | iocr i => simp [Block.store] at h1; exact ⟨by omega, h2⟩
    | alarm a => exact ⟨h1, h2⟩
    | expected m => exact ⟨h1, foldl_place_fits h2⟩
    | rpc p => exact ⟨h1, h2⟩

theorem connLoop_blocks {be : Bool} {z : ConnSizes} (l : List Block) (hw : ∀ b ∈ l, b.Wf true z) :
    ∀ (c : Conn) (k : Nat) (r : Rd), l.length < k → GoodTab c.exp → (l ≠ [] → c.ar.props.deviceAccess = false) →
      (l.foldl (fun c b => b.store c) c).iocrs.length ≤ z.maxCr →
      TabFits z.tab (l.foldl (fun c b => b.store c) c).exp → r.len < 65536 →
      r.err = .ok → r.null = false → r.be = be → r.pos + (l.flatMap (Block.enc be)).length = r.len →
      slice r.buf r.pos (l.flatMap (Block.enc be)).length = some (l.flatMap (Block.enc be)) →
      connLoop z k false c r = some ((true, l.foldl (fun c b => b.store c) c), { r with pos := r.len }) := by
  induction l with
  | nil =>
    intro c k r hk _ _ _ _ _ he hn hb hp hs
    obtain ⟨k, rfl⟩ : ∃ j, k = j + 1 := ⟨k - 1, by simp at hk; omega⟩
    simp at hp
    unfold connLoop
    rw [run_bind (p := reader) (a := r) (r' := r) rfl, if_neg (by omega)]
    cases r
    cases hp
    rfl
  | cons b t ih =>
    intro c k r hk hg hd hi hf hlen he hn hb hp hs
    obtain ⟨k, rfl⟩ : ∃ j, k = j + 1 := ⟨k - 1, by simp at hk; omega⟩
    rw [List.flatMap_cons] at hp hs
    have hbl : (b.body be).length + 2 < 65536 := by
      rw [List.length_append, Block.enc, encBlock_length] at hp; omega
    have hm := foldl_store_mono (l := t) (c := b.store c) hi hf
    have hblk := connBlock_other (be := be) (hw b (by simp)) hg (hd (by simp)) hbl hm.1 hm.2 false
    obtain ⟨r', e', h1, h2, h3⟩ := connLoop_round (k := k) hbl hblk r he hn hb hp hs
    rw [h3, ih (fun a ha => hw a (by simp [ha])) (b.store c) k r' (by simp at hk; omega) (store_good hg)
      (by intro _; rw [store_ar]; exact hd (by simp)) hi hf (by rw [e']; exact hlen) (by rw [e']; exact he)
      (by rw [e']; exact hn) (by rw [e']; exact hb) h2 h1, e']
    rfl

theorem connectInterpret_faithful {be : Bool} {z : ConnSizes} {q : ConnReq} (hw : q.Wf true z be) (r : Rd)
    (he : r.err = .ok) (hn : r.null = false) (hb : r.be = be) (hlen : r.len < 65536)
    (hp : r.pos + (q.enc be).length = r.len) (hs : slice r.buf r.pos (q.enc be).length = some (q.enc be)) :
    connectInterpret z (q.enc be).length r = some ((true, q.stored), { r with pos := r.len }) := by
  obtain ⟨h1, h2, h3, h4, h5, h6⟩ := hw
  unfold ConnReq.enc at hp hs
  have hal : (q.ar.enc be).length + 2 < 65536 := by
    rw [List.length_append, encBlock_length] at hp; omega
  obtain ⟨r', e', s', p', l'⟩ := connLoop_round (k := r.len) hal (connBlock_ar (z := z) (c := Conn.empty) h1 hal) r he hn hb hp hs
  have hk : q.blocks.length < r.len := by
    have := flatMap_block_length be q.blocks
    rw [List.length_append, encBlock_length] at hp
    omega
  have hloop := connLoop_blocks q.blocks h2 { Conn.empty with ar := q.ar.stored, nbrAr := 1 } r.len r' hk
    ⟨by simp [Conn.empty], by simp [Conn.empty]⟩
    (by intro hne; simp [ArReq.stored, flagOf, h6 hne]) h4 h5 (by rw [e']; exact hlen) (by rw [e']; exact he)
    (by rw [e']; exact hn) (by rw [e']; exact hb) p' s'
  have hloop' : connLoop z (r.len + 1) true Conn.empty r = some ((true, q.stored), { r with pos := r.len }) := by
    rw [l']
    have : ({ r' with pos := r'.len } : Rd) = { r with pos := r.len } := by rw [e']
    rw [← this]
    exact hloop
  unfold connectInterpret
  rw [run_bind (p := reader) (a := r) (r' := r) rfl, run_bind hloop', run_bind (p := reader) (a := _) (r' := _) rfl,
    if_pos ⟨rfl, he, rfl, by unfold ConnReq.enc; simp only; omega⟩]
  rfl

end Verif.Wire
