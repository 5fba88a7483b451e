import Verif.Conc.Send
/-!
# C139: a cyclic frame shows the input data of one moment

Whatever the interleaving of the threads, every critical section reads and writes as if it had been
executed alone, in the order in which the sections end.  So a frame never carries a value of which
only a part has been copied, nor the data of one call with the IOPS of another.
-/
set_option linter.unusedVariables false
namespace Verif.Conc
open Verif.Layout (IoData Kind Covers)
open Verif.Ppm (off len)

/-! ## Specification -/

/-- The calls that the stack admits for the submodules `ds` of an IOCR with `n` bytes of payload: the
lengths are those of the descriptor (the calls are refused otherwise, see the area Ppm). -/
def Admitted (ds : List IoData) (n : Nat) : Call → Prop
  | .setData d data iops => d ∈ ds ∧ (∀ x, data = some x → x.length = d.dataLen) ∧ iops.length = d.iopsLen
  | .setIocs d iocs => d ∈ ds ∧ iocs.length = d.iocsLen
  | .getData d => d ∈ ds
  | .getIocs d => d ∈ ds
  | .send m => m ≤ n

/-- What a call says about the content of a field. -/
def told (d : IoData) (k : Kind) (c : Call) : Option (List Byte) :=
  match c, k with
  | .setData e data _, .data => if e = d then data else none
  | .setData e _ iops, .iops => if e = d then some iops else none
  | .setIocs e iocs, .iocs => if e = d then some iocs else none
  | _, _ => none

/-- The value set by the last of the calls that set it; zeros if there is none. -/
def lastValue (cs : List Call) (d : IoData) (k : Kind) : List Byte :=
  cs.foldl (fun v c => (told d k c).getD v) (List.replicate (len d k) 0)

/-- A layout without overlap, inside a payload of `n` bytes (see C04). -/
structure Layout (ds : List IoData) (n : Nat) : Prop where
  inside : ∀ d ∈ ds, ∀ k, off d k + len d k ≤ n
  disjoint : ∀ d ∈ ds, ∀ d' ∈ ds, ∀ k k' b, Covers d k b → Covers d' k' b → d = d' ∧ k = k'

/-! ## Every execution is equivalent to a serial one -/

theorem micro_length {buf out : List Byte} {m : Micro} {r} (h : micro buf out m = some r) :
    r.1.length = buf.length := by
  cases m with
  | store a b =>
    simp only [micro] at h
    split at h
    · cases h; simp
    · cases h
  | load a =>
    simp only [micro, Option.map_eq_some_iff] at h
    obtain ⟨b, _, rfl⟩ := h
    rfl

theorem solo_length {ms : List Micro} {buf out : List Byte} {r} (h : solo ms buf out = some r) :
    r.1.length = buf.length := by
  induction ms generalizing buf out with
  | nil => cases h; rfl
  | cons m ms ih =>
    simp only [solo, Option.bind_eq_some_iff] at h
    obtain ⟨q, hq, h⟩ := h
    rw [ih h, micro_length hq]

/-- The address of an access. -/
def Micro.addr : Micro → Nat
  | .store a _ => a
  | .load a => a

theorem micro_some {buf out : List Byte} {m : Micro} (h : m.addr < buf.length) :
    ∃ r, micro buf out m = some r := by
  cases m with
  | store a b => exact ⟨_, if_pos h⟩
  | load a =>
    simp only [Micro.addr] at h
    exact ⟨_, by simp only [micro, List.getElem?_eq_getElem h, Option.map_some]; rfl⟩

theorem addr_stores {m : Micro} {o : Nat} {d : List Byte} (h : m ∈ stores o d) :
    m.addr < o + d.length := by
  induction d generalizing o with
  | nil => cases h
  | cons b d ih =>
    simp only [stores, List.mem_cons] at h
    simp only [List.length_cons]
    cases h with
    | inl h => subst h; simp only [Micro.addr]; omega
    | inr h => have := ih h; omega

theorem addr_loads {m : Micro} {o n : Nat} (h : m ∈ loads o n) : m.addr < o + n := by
  induction n generalizing o with
  | zero => cases h
  | succ n ih =>
    simp only [loads, List.mem_cons] at h
    cases h with
    | inl h => subst h; simp only [Micro.addr]; omega
    | inr h => have := ih h; omega

theorem body_addr {ds : List IoData} {n : Nat} (hl : Layout ds n) {c : Call}
    (hc : Admitted ds n c) {m : Micro} (hm : m ∈ body c) : m.addr < n := by
  cases c with
  | setData d data iops =>
    obtain ⟨hd, h1, h2⟩ := hc
    simp only [body, List.mem_append] at hm
    cases hm with
    | inl hm =>
      have a := addr_stores hm
      have b := hl.inside d hd .data
      simp only [off, len] at b
      cases data with
      | none => simp only [Option.getD_none, List.length_nil] at a; cases hm
      | some x => have := h1 x rfl; simp only [Option.getD_some] at a; omega
    | inr hm =>
      have a := addr_stores hm
      have b := hl.inside d hd .iops
      simp only [off, len] at b
      omega
  | setIocs d iocs =>
    obtain ⟨hd, h1⟩ := hc
    have a := addr_stores hm
    have b := hl.inside d hd .iocs
    simp only [off, len] at b
    omega
  | getData d =>
    simp only [body, List.mem_append] at hm
    cases hm with
    | inl hm =>
      have a := addr_loads hm
      have b := hl.inside d hc .data
      simp only [off, len] at b
      omega
    | inr hm =>
      have a := addr_loads hm
      have b := hl.inside d hc .iops
      simp only [off, len] at b
      omega
  | getIocs d =>
    have a := addr_loads hm
    have b := hl.inside d hc .iocs
    simp only [off, len] at b
    omega
  | send k =>
    have a := addr_loads hm
    have b : k ≤ n := hc
    omega

theorem serial_append {cs : List Call} {c : Call} {buf b : List Byte} {outs : List (List Byte)} {r}
    (h : serial cs buf = some (b, outs)) (h2 : solo (body c) b [] = some r) :
    serial (cs ++ [c]) buf = some (r.1, outs ++ [r.2]) := by
  induction cs generalizing buf outs with
  | nil =>
    cases h
    simp [serial, h2]
  | cons c' cs ih =>
    simp only [serial, Option.bind_eq_some_iff, Option.map_eq_some_iff] at h
    obtain ⟨q, hq, s, hs, e⟩ := h
    cases e
    simp only [List.cons_append, serial, hq, Option.bind_some, ih hs, Option.map_some]

/-- What holds between any two steps. -/
structure Inv (ds : List IoData) (n : Nat) (buf0 : List Byte) (st : St) : Prop where
  admitted : ∀ t c, (st.thr t = .want c ∨ ∃ ms out, st.thr t = .inside c ms out) → Admitted ds n c
  one : ∀ t c ms out, st.thr t = .inside c ms out → st.owner = some t
  /-- the finished sections, executed serially, lead to the buffer that the present owner found -/
  serial : ∃ b, b.length = n ∧
    serial (st.log.map (·.call)) buf0 = some (b, st.log.map (·.out)) ∧
    (st.owner = none → st.buf = b) ∧
    ∀ t, st.owner = some t → ∃ c ms out pre, st.thr t = .inside c ms out ∧ body c = pre ++ ms ∧
      solo pre b [] = some (st.buf, out)

theorem thr_setThr (st : St) (t u : Nat) (x : Thr) :
    (st.setThr t x).thr u = if u = t then x else st.thr u := rfl

theorem inv_start {ds : List IoData} {n : Nat} {buf0 : List Byte} (h : buf0.length = n) :
    Inv ds n buf0 (start buf0) where
  admitted := by rintro t c (h | ⟨_, _, h⟩) <;> cases h
  one := by intro t c ms out h; cases h
  serial := ⟨buf0, h, rfl, fun _ => rfl, by intro t h; cases h⟩

theorem inv_step {ds : List IoData} {n : Nat} (hl : Layout ds n) {buf0 : List Byte} {st : St} {a : Act}
    (inv : Inv ds n buf0 st) (ha : ∀ t c, a = .call t c → Admitted ds n c) :
    ∃ st', step st a = some st' ∧ Inv ds n buf0 st' := by
  obtain ⟨b, hb, hs, hfree, hown⟩ := inv.serial
  cases a with
  | call t c =>
    simp only [step]
    cases ht : st.thr t with
    | want c' => exact ⟨st, rfl, inv⟩
    | inside c' ms out => exact ⟨st, rfl, inv⟩
    | idle =>
      refine ⟨_, rfl, ?_, ?_, b, hb, hs, hfree, ?_⟩
      · intro u c' hu
        simp only [thr_setThr] at hu
        by_cases e : u = t
        · simp only [e, if_true] at hu
          rcases hu with hu | ⟨_, _, hu⟩
          · cases hu; exact ha t c rfl
          · cases hu
        · simp only [e, if_false] at hu
          exact inv.admitted u c' hu
      · intro u c' ms out hu
        simp only [thr_setThr] at hu
        by_cases e : u = t
        · simp only [e, if_true] at hu; cases hu
        · simp only [e, if_false] at hu; exact inv.one u c' ms out hu
      · intro u hu
        obtain ⟨c', ms, out, pre, h1, h2, h3⟩ := hown u hu
        refine ⟨c', ms, out, pre, ?_, h2, h3⟩
        have : u ≠ t := by intro e; rw [e, ht] at h1; cases h1
        simp only [thr_setThr, this, if_false, h1]
  | lock t =>
    simp only [step]
    cases ht : st.thr t with
    | idle => exact ⟨st, rfl, inv⟩
    | inside c' ms out => exact ⟨st, rfl, inv⟩
    | want c =>
      dsimp only
      by_cases ho : st.owner = none
      · rw [if_pos ho]
        have nobody : ∀ u c' ms out, st.thr u ≠ .inside c' ms out := by
          intro u c' ms out hu
          have := inv.one u c' ms out hu
          rw [ho] at this; cases this
        refine ⟨_, rfl, ?_, ?_, b, hb, hs, (by intro h; cases h), ?_⟩
        · intro u c' hu
          simp only [thr_setThr] at hu
          by_cases e : u = t
          · simp only [e, if_true] at hu
            rcases hu with hu | ⟨_, _, hu⟩
            · cases hu
            · cases hu; exact inv.admitted t c (Or.inl ht)
          · simp only [e, if_false] at hu
            exact inv.admitted u c' hu
        · intro u c' ms out hu
          simp only [thr_setThr] at hu
          by_cases e : u = t
          · rw [e]
          · simp only [e, if_false] at hu
            exact absurd hu (nobody u c' ms out)
        · intro u hu
          cases hu
          refine ⟨c, body c, [], [], ?_, rfl, ?_⟩
          · simp [thr_setThr]
          · rw [← hfree ho]; rfl
      · rw [if_neg ho]; exact ⟨st, rfl, inv⟩
  | micro t =>
    simp only [step]
    cases ht : st.thr t with
    | idle => exact ⟨st, rfl, inv⟩
    | want c => exact ⟨st, rfl, inv⟩
    | inside c ms out =>
      cases ms with
      | nil => exact ⟨st, rfl, inv⟩
      | cons m ms =>
        have ho := inv.one t c _ out ht
        obtain ⟨c', ms', out', pre, h1, h2, h3⟩ := hown t ho
        rw [ht] at h1
        cases h1
        have hlen : st.buf.length = n := by rw [← hb, ← solo_length h3]
        have hm : m.addr < st.buf.length := by
          rw [hlen]
          refine body_addr hl (inv.admitted t c (Or.inr ⟨_, _, ht⟩)) ?_
          rw [h2]; simp
        obtain ⟨r, hr⟩ := micro_some (out := out) hm
        dsimp only
        rw [hr]
        refine ⟨_, rfl, ?_, ?_, b, hb, hs, ?_, ?_⟩
        · intro u c' hu
          simp only [thr_setThr] at hu
          by_cases e : u = t
          · simp only [e, if_true] at hu
            rcases hu with hu | ⟨_, _, hu⟩
            · cases hu
            · cases hu; exact inv.admitted t c (Or.inr ⟨_, _, ht⟩)
          · simp only [e, if_false] at hu
            exact inv.admitted u c' hu
        · intro u c' ms' out' hu
          simp only [thr_setThr] at hu
          by_cases e : u = t
          · rw [e]; exact ho
          · simp only [e, if_false] at hu
            exact inv.one u c' ms' out' hu
        · intro h
          have : st.owner = none := h
          rw [ho] at this; cases this
        · intro u hu
          have e : u = t := by
            have : st.owner = some u := hu
            rw [ho] at this; exact (Option.some.inj this).symm
          subst e
          refine ⟨c, ms, r.2, pre ++ [m], ?_, ?_, ?_⟩
          · simp [thr_setThr]
          · rw [h2]; simp
          · rw [solo_append, h3]
            simp only [Option.bind_some, solo, hr]
  | unlock t =>
    simp only [step]
    cases ht : st.thr t with
    | idle => exact ⟨st, rfl, inv⟩
    | want c => exact ⟨st, rfl, inv⟩
    | inside c ms out =>
      cases ms with
      | cons m ms => exact ⟨st, rfl, inv⟩
      | nil =>
        have ho := inv.one t c _ out ht
        obtain ⟨c', ms', out', pre, h1, h2, h3⟩ := hown t ho
        rw [ht] at h1
        cases h1
        rw [List.append_nil] at h2
        rw [← h2] at h3
        dsimp only
        rw [if_pos ho]
        have hl' := solo_length h3
        refine ⟨_, rfl, ?_, ?_, st.buf, ?_, ?_, fun _ => rfl, (by intro u h; cases h)⟩
        · intro u c' hu
          simp only [thr_setThr] at hu
          by_cases e : u = t
          · simp only [e, if_true] at hu
            rcases hu with hu | ⟨_, _, hu⟩ <;> cases hu
          · simp only [e, if_false] at hu
            exact inv.admitted u c' hu
        · intro u c' ms' out' hu
          simp only [thr_setThr] at hu
          by_cases e : u = t
          · simp only [e, if_true] at hu; cases hu
          · simp only [e, if_false] at hu
            have := inv.one u c' ms' out' hu
            rw [ho] at this
            exact absurd (Option.some.inj this).symm e
        · rw [← hb]; exact hl'
        · simp only [List.map_append, List.map_cons, List.map_nil]
          exact serial_append hs h3

theorem inv_run {ds : List IoData} {n : Nat} (hl : Layout ds n) {buf0 : List Byte} :
    ∀ {acts : List Act} {st : St}, Inv ds n buf0 st →
    (∀ t c, Act.call t c ∈ acts → Admitted ds n c) →
    ∃ st', run st acts = some st' ∧ Inv ds n buf0 st'
  | [], st, inv, _ => ⟨st, rfl, inv⟩
  | a :: as, st, inv, h => by
    obtain ⟨st1, h1, inv1⟩ := inv_step hl inv (a := a) (fun t c e => h t c (e ▸ List.mem_cons_self))
    obtain ⟨st2, h2, inv2⟩ := inv_run hl inv1 (fun t c e => h t c (List.mem_cons_of_mem _ e))
    exact ⟨st2, by simp only [run, h1, Option.bind_some, h2], inv2⟩

/-! ## Serial executions -/

theorem covers_iff {d : IoData} {k : Kind} {b : Nat} :
    Covers d k b ↔ off d k ≤ b ∧ b < off d k + len d k := by
  cases k <;> simp [Covers, off, len]

/-- Every field holds the last value. -/
def Holds (ds : List IoData) (cs : List Call) (b : List Byte) : Prop :=
  ∀ d ∈ ds, ∀ k, slice b (off d k) (len d k) = some (lastValue cs d k)

theorem lastValue_snoc (cs : List Call) (c : Call) (d : IoData) (k : Kind) :
    lastValue (cs ++ [c]) d k = (told d k c).getD (lastValue cs d k) := by
  simp [lastValue, List.foldl_append]

theorem slice_same {b b' : List Byte} {o : Nat} {x : List Byte} (h : writeAt b o x = some b') :
    slice b' o x.length = some x := by
  have hle : o + x.length ≤ b.length := by
    unfold writeAt at h; split at h
    · assumption
    · cases h
  have hl := writeAt_length h
  rw [slice_eq_some (by omega)]
  congr 1
  apply List.ext_getElem?
  intro i
  rw [List.getElem?_take]
  split
  · rename_i hi
    rw [List.getElem?_drop, writeAt_get h, if_pos (by omega)]
    congr 1; omega
  · rename_i hi
    rw [List.getElem?_eq_none (by omega)]

theorem apart {ds : List IoData} {n : Nat} (hl : Layout ds n) {d d' : IoData} (hd : d ∈ ds)
    (hd' : d' ∈ ds) {k k' : Kind} (h : ¬ (d' = d ∧ k' = k)) :
    off d' k' + len d' k' ≤ off d k ∨ off d k + len d k ≤ off d' k' ∨ len d' k' = 0 ∨ len d k = 0 := by
  by_cases c : off d' k' + len d' k' ≤ off d k ∨ off d k + len d k ≤ off d' k' ∨ len d' k' = 0 ∨ len d k = 0
  · exact c
  · refine absurd (hl.disjoint d' hd' d hd k' k (max (off d' k') (off d k)) ?_ ?_) h
    · rw [covers_iff]; omega
    · rw [covers_iff]; omega

/-- Writing one field changes that field and no other. -/
theorem write_field {ds : List IoData} {n : Nat} (hl : Layout ds n) {d : IoData} (hd : d ∈ ds)
    {k : Kind} {x b b' : List Byte} (hx : x.length = len d k) (h : writeAt b (off d k) x = some b')
    {d' : IoData} (hd' : d' ∈ ds) (k' : Kind) :
    slice b' (off d' k') (len d' k') =
      if d' = d ∧ k' = k then some x else slice b (off d' k') (len d' k') := by
  by_cases c : d' = d ∧ k' = k
  · rw [if_pos c]
    obtain ⟨rfl, rfl⟩ := c
    rw [← hx]
    exact slice_same h
  · rw [if_neg c]
    rcases apart hl hd hd' c with a | a | a | a
    · exact slice_writeAt_disjoint h (Or.inl a)
    · exact slice_writeAt_disjoint h (Or.inr (Or.inl (by omega)))
    · exact slice_writeAt_disjoint h (Or.inr (Or.inr a))
    · rw [a] at hx
      have : x = [] := List.length_eq_zero_iff.mp hx
      subst this
      have e : b' = b := by
        unfold writeAt at h; split at h
        · cases h; simp
        · cases h
      rw [e]

/-- What a section must have read, if the calls before it were `cs`. -/
def Reads (cs : List Call) : Call → List Byte → Prop
  | .setData .., out => out = []
  | .setIocs .., out => out = []
  | .getData d, out => out = lastValue cs d .data ++ lastValue cs d .iops
  | .getIocs d, out => out = lastValue cs d .iocs
  | .send n, out => out.length = n

theorem slice_take {l x : List Byte} {o m : Nat} (h : slice l o m = some x) :
    (l.drop o).take m = x := by
  unfold slice at h; split at h
  · exact Option.some.inj h
  · cases h

theorem slice_of_take {l : List Byte} {o m n : Nat} (h : o + m ≤ n) (hn : n ≤ l.length) :
    slice (l.take n) o m = slice l o m := by
  rw [slice_eq_some (by simp; omega), slice_eq_some (by omega)]
  congr 1
  apply List.ext_getElem?
  intro i
  rw [List.getElem?_take, List.getElem?_take]
  split
  · rw [List.getElem?_drop, List.getElem?_drop, List.getElem?_take, if_pos (by omega)]
  · rfl

theorem holds_none {ds : List IoData} {cs : List Call} {b : List Byte} {c : Call}
    (h : Holds ds cs b) (hc : ∀ d ∈ ds, ∀ k, told d k c = none) : Holds ds (cs ++ [c]) b := by
  intro d hd k
  rw [lastValue_snoc, hc d hd k]
  exact h d hd k

theorem solo_call {ds : List IoData} {n : Nat} (hl : Layout ds n) {cs : List Call} {c : Call}
    (hc : Admitted ds n c) {b : List Byte} (hb : b.length = n) (h : Holds ds cs b) :
    ∃ b' out, solo (body c) b [] = some (b', out) ∧ Holds ds (cs ++ [c]) b' ∧ Reads cs c out ∧
      ∀ m, c = .send m → out = b.take m := by
  cases c with
  | setData d data iops =>
    obtain ⟨hd, h1, h2⟩ := hc
    have i2 := hl.inside d hd .iops
    simp only [off, len] at i2
    cases data with
    | none =>
      obtain ⟨b', hb'⟩ : ∃ b', writeAt b d.iopsOff iops = some b' := ⟨_, writeAt_eq_some (by omega)⟩
      refine ⟨b', [], ?_, ?_, rfl, by intro m e; cases e⟩
      · simp only [body, Option.getD_none, stores, List.nil_append]
        rw [solo_stores _ _ _ _ (by omega), hb']; rfl
      · intro d' hd' k'
        rw [write_field (k := .iops) hl hd h2 hb' hd' k', lastValue_snoc, h d' hd' k']
        cases k' with
        | iops =>
          by_cases e : d' = d
          · simp [told, e]
          · simp [told, e, Ne.symm e]
        | data => simp [told]
        | iocs => simp [told]
    | some x =>
      have i1 := hl.inside d hd .data
      simp only [off, len] at i1
      have hx := h1 x rfl
      obtain ⟨b1, hb1⟩ : ∃ b', writeAt b d.dataOff x = some b' := ⟨_, writeAt_eq_some (by omega)⟩
      have l1 := writeAt_length hb1
      obtain ⟨b', hb'⟩ : ∃ b', writeAt b1 d.iopsOff iops = some b' := ⟨_, writeAt_eq_some (by omega)⟩
      refine ⟨b', [], ?_, ?_, rfl, by intro m e; cases e⟩
      · simp only [body, Option.getD_some]
        rw [solo_append, solo_stores _ _ _ _ (by omega), hb1]
        simp only [Option.map_some, Option.bind_some]
        rw [solo_stores _ _ _ _ (by omega), hb']; rfl
      · intro d' hd' k'
        rw [write_field (k := .iops) hl hd h2 hb' hd' k', write_field (k := .data) hl hd hx hb1 hd' k',
          lastValue_snoc, h d' hd' k']
        cases k' with
        | iops =>
          by_cases e : d' = d
          · simp [told, e]
          · simp [told, e, Ne.symm e]
        | data =>
          by_cases e : d' = d
          · simp [told, e]
          · simp [told, e, Ne.symm e]
        | iocs => simp [told]
  | setIocs d iocs =>
    obtain ⟨hd, h2⟩ := hc
    have i2 := hl.inside d hd .iocs
    simp only [off, len] at i2
    obtain ⟨b', hb'⟩ : ∃ b', writeAt b d.iocsOff iocs = some b' := ⟨_, writeAt_eq_some (by omega)⟩
    refine ⟨b', [], ?_, ?_, rfl, by intro m e; cases e⟩
    · simp only [body]
      rw [solo_stores _ _ _ _ (by omega), hb']; rfl
    · intro d' hd' k'
      rw [write_field (k := .iocs) hl hd h2 hb' hd' k', lastValue_snoc, h d' hd' k']
      cases k' with
      | iocs =>
        by_cases e : d' = d
        · simp [told, e]
        · simp [told, e, Ne.symm e]
      | data => simp [told]
      | iops => simp [told]
  | getData d =>
    have hd : d ∈ ds := hc
    have i1 := hl.inside d hd .data
    have i2 := hl.inside d hd .iops
    have s1 := slice_take (h d hd .data)
    have s2 := slice_take (h d hd .iops)
    simp only [off, len] at i1 i2 s1 s2
    refine ⟨b, lastValue cs d .data ++ lastValue cs d .iops, ?_, holds_none h (by intro d _ k; cases k <;> rfl), ?_, by intro m e; cases e⟩
    · simp only [body]
      rw [solo_append, solo_loads _ _ _ _ (by omega)]
      simp only [Option.bind_some]
      rw [solo_loads _ _ _ _ (by omega), s1, s2, List.nil_append]
    · rfl
  | getIocs d =>
    have hd : d ∈ ds := hc
    have i1 := hl.inside d hd .iocs
    have s1 := slice_take (h d hd .iocs)
    simp only [off, len] at i1 s1
    refine ⟨b, lastValue cs d .iocs, ?_, holds_none h (by intro d _ k; cases k <;> rfl), ?_, by intro m e; cases e⟩
    · simp only [body]
      rw [solo_loads _ _ _ _ (by omega), s1, List.nil_append]
    · rfl
  | send m =>
    have hm : m ≤ n := hc
    refine ⟨b, b.take m, ?_, holds_none h (by intro d _ k; cases k <;> rfl), ?_, ?_⟩
    · simp only [body]
      rw [solo_loads _ _ _ _ (by omega)]
      simp
    · show (b.take m).length = m
      simp; omega
    · intro m' e; cases e; rfl

/-- What the sections of a serial execution read. -/
def ReadsAll (ds : List IoData) : List Call → List (Call × List Byte) → Prop
  | _, [] => True
  | cs, (c, out) :: rest => Reads cs c out ∧
      (∀ m, c = .send m → ∀ d ∈ ds, ∀ k, off d k + len d k ≤ m →
        slice out (off d k) (len d k) = some (lastValue cs d k)) ∧
      ReadsAll ds (cs ++ [c]) rest

theorem readsAll_split {ds : List IoData} {cs : List Call} {pre post : List (Call × List Byte)} {c out}
    (h : ReadsAll ds cs (pre ++ (c, out) :: post)) :
    Reads (cs ++ pre.map (·.1)) c out ∧
      ∀ m, c = .send m → ∀ d ∈ ds, ∀ k, off d k + len d k ≤ m →
        slice out (off d k) (len d k) = some (lastValue (cs ++ pre.map (·.1)) d k) := by
  induction pre generalizing cs with
  | nil => simpa using ⟨h.1, h.2.1⟩
  | cons e pre ih =>
    have := ih h.2.2
    simpa using this

theorem serial_reads {ds : List IoData} {n : Nat} (hl : Layout ds n) {b b' : List Byte} {cs : List Call}
    {todo : List Call} {outs : List (List Byte)} (hb : b.length = n) (h : Holds ds cs b)
    (hc : ∀ c ∈ todo, Admitted ds n c) (hs : serial todo b = some (b', outs)) :
    ReadsAll ds cs (todo.zip outs) := by
  induction todo generalizing b cs outs with
  | nil => cases hs; trivial
  | cons c todo ih =>
    obtain ⟨b1, out, e1, h1, r1, s1⟩ := solo_call hl (hc c List.mem_cons_self) hb h
    simp only [serial, e1, Option.bind_some, Option.map_eq_some_iff] at hs
    obtain ⟨q, hq, e⟩ := hs
    cases e
    have l1 : b1.length = n := by rw [← hb]; exact solo_length e1
    simp only [List.zip_cons_cons]
    refine ⟨r1, ?_, ih l1 h1 (fun c hc' => hc c (List.mem_cons_of_mem _ hc')) hq⟩
    intro m e d hd k hk
    rw [s1 m e, slice_of_take hk, h d hd k]
    have : Admitted ds n (.send m) := e ▸ hc c List.mem_cons_self
    simp only [Admitted] at this
    omega

theorem holds_zero {ds : List IoData} {n : Nat} (hl : Layout ds n) :
    Holds ds [] (List.replicate n 0) := by
  intro d hd k
  have := hl.inside d hd k
  rw [slice_eq_some (by simp; omega)]
  congr 1
  simp only [lastValue, List.foldl_nil, List.drop_replicate, List.take_replicate]
  congr 1
  omega

/-- The calls in the log were made. -/
theorem log_calls {acts : List Act} : ∀ {st st' : St}, run st acts = some st' →
    ∀ P : Call → Prop, (∀ t c, Act.call t c ∈ acts → P c) →
    (∀ t c, (st.thr t = .want c ∨ ∃ ms out, st.thr t = .inside c ms out) → P c) →
    (∀ e ∈ st.log, P e.call) → ∀ e ∈ st'.log, P e.call := by
  induction acts with
  | nil => intro st st' h P _ _ h3; cases h; exact h3
  | cons a as ih =>
    intro st st' h P h1 h2 h3
    simp only [run, Option.bind_eq_some_iff] at h
    obtain ⟨st1, e1, h⟩ := h
    have key : (∀ t c, (st1.thr t = .want c ∨ ∃ ms out, st1.thr t = .inside c ms out) → P c) ∧
        (∀ e ∈ st1.log, P e.call) := by
      cases a with
      | call t c =>
        simp only [step] at e1
        cases ht : st.thr t with
        | want c' => rw [ht] at e1; cases e1; exact ⟨h2, h3⟩
        | inside c' ms out => rw [ht] at e1; cases e1; exact ⟨h2, h3⟩
        | idle =>
          rw [ht] at e1; cases e1
          refine ⟨?_, h3⟩
          intro u c' hu
          simp only [thr_setThr] at hu
          by_cases e : u = t
          · simp only [e, if_true] at hu
            rcases hu with hu | ⟨_, _, hu⟩
            · cases hu; exact h1 t c List.mem_cons_self
            · cases hu
          · simp only [e, if_false] at hu; exact h2 u c' hu
      | lock t =>
        simp only [step] at e1
        cases ht : st.thr t with
        | idle => rw [ht] at e1; cases e1; exact ⟨h2, h3⟩
        | inside c' ms out => rw [ht] at e1; cases e1; exact ⟨h2, h3⟩
        | want c =>
          rw [ht] at e1
          dsimp only at e1
          split at e1
          · cases e1
            refine ⟨?_, h3⟩
            intro u c' hu
            simp only [thr_setThr] at hu
            by_cases e : u = t
            · simp only [e, if_true] at hu
              rcases hu with hu | ⟨_, _, hu⟩
              · cases hu
              · cases hu; exact h2 t c (Or.inl ht)
            · simp only [e, if_false] at hu; exact h2 u c' hu
          · cases e1; exact ⟨h2, h3⟩
      | micro t =>
        simp only [step] at e1
        cases ht : st.thr t with
        | idle => rw [ht] at e1; cases e1; exact ⟨h2, h3⟩
        | want c => rw [ht] at e1; cases e1; exact ⟨h2, h3⟩
        | inside c ms out =>
          rw [ht] at e1
          cases ms with
          | nil => cases e1; exact ⟨h2, h3⟩
          | cons m ms =>
            dsimp only at e1
            rw [Option.map_eq_some_iff] at e1
            obtain ⟨r, _, e1⟩ := e1
            cases e1
            refine ⟨?_, h3⟩
            intro u c' hu
            simp only [thr_setThr] at hu
            by_cases e : u = t
            · simp only [e, if_true] at hu
              rcases hu with hu | ⟨_, _, hu⟩
              · cases hu
              · cases hu; exact h2 t c (Or.inr ⟨_, _, ht⟩)
            · simp only [e, if_false] at hu; exact h2 u c' hu
      | unlock t =>
        simp only [step] at e1
        cases ht : st.thr t with
        | idle => rw [ht] at e1; cases e1; exact ⟨h2, h3⟩
        | want c => rw [ht] at e1; cases e1; exact ⟨h2, h3⟩
        | inside c ms out =>
          rw [ht] at e1
          cases ms with
          | cons m ms => cases e1; exact ⟨h2, h3⟩
          | nil =>
            dsimp only at e1
            split at e1
            · cases e1
              constructor
              · intro u c' hu
                simp only [thr_setThr] at hu
                by_cases e : u = t
                · simp only [e, if_true] at hu
                  rcases hu with hu | ⟨_, _, hu⟩ <;> cases hu
                · simp only [e, if_false] at hu; exact h2 u c' hu
              · intro e he
                simp only [List.mem_append, List.mem_singleton] at he
                rcases he with he | he
                · exact h3 e he
                · subst he; exact h2 t c (Or.inr ⟨_, _, ht⟩)
            · cases e1
    exact ih h P (fun t c e => h1 t c (List.mem_cons_of_mem _ e)) key.1 key.2

/-! ## The property -/

/-- **C139.**  Whatever the threads do and however their steps interleave: nothing outside the buffer
is touched and the lock is used correctly; and when thread `t` builds a frame, the frame carries for
every field of every submodule the value set by the last call finished before - the whole value, and
data and IOPS of the same call. -/
theorem C139_frame {ds : List IoData} {n : Nat} (hl : Layout ds n) {acts : List Act}
    (hc : ∀ t c, Act.call t c ∈ acts → Admitted ds n c) :
    ∃ st, run (start (List.replicate n 0)) acts = some st ∧
    ∀ pre post t m out, st.log = pre ++ ⟨t, .send m, out⟩ :: post →
      out.length = m ∧
      ∀ d ∈ ds, ∀ k, off d k + len d k ≤ m →
        slice out (off d k) (len d k) = some (lastValue (pre.map (·.call)) d k) := by
  obtain ⟨st, h, inv⟩ := inv_run hl (inv_start (ds := ds) (List.length_replicate (n := n) (a := (0 : Byte)))) hc
  refine ⟨st, h, ?_⟩
  intro pre post t m out e
  obtain ⟨b, hb, hs, -, -⟩ := inv.serial
  have ha : ∀ c ∈ st.log.map (·.call), Admitted ds n c := by
    intro c hc'
    obtain ⟨e, he, rfl⟩ := List.mem_map.mp hc'
    exact log_calls h (Admitted ds n) hc (by rintro t c (h | ⟨_, _, h⟩) <;> cases h)
      (by intro e he; cases he) e he
  have r := serial_reads hl (cs := []) List.length_replicate (holds_zero hl) ha hs
  have z : (st.log.map (·.call)).zip (st.log.map (·.out)) = st.log.map (fun e => (e.call, e.out)) := by
    rw [List.zip_map']
  rw [z, e] at r
  simp only [List.map_append, List.map_cons] at r
  have r2 := readsAll_split r
  simp only [List.nil_append, List.map_map] at r2
  exact ⟨r2.1, r2.2 m rfl⟩

/-- **C139.**  The calls that read give the last value as a whole, too. -/
theorem C139_read {ds : List IoData} {n : Nat} (hl : Layout ds n) {acts : List Act}
    (hc : ∀ t c, Act.call t c ∈ acts → Admitted ds n c) :
    ∃ st, run (start (List.replicate n 0)) acts = some st ∧
    (∀ pre post t d out, st.log = pre ++ ⟨t, .getData d, out⟩ :: post →
      out = lastValue (pre.map (·.call)) d .data ++ lastValue (pre.map (·.call)) d .iops) ∧
    (∀ pre post t d out, st.log = pre ++ ⟨t, .getIocs d, out⟩ :: post →
      out = lastValue (pre.map (·.call)) d .iocs) := by
  obtain ⟨st, h, inv⟩ := inv_run hl (inv_start (ds := ds) (List.length_replicate (n := n) (a := (0 : Byte)))) hc
  obtain ⟨b, hb, hs, -, -⟩ := inv.serial
  have ha : ∀ c ∈ st.log.map (·.call), Admitted ds n c := by
    intro c hc'
    obtain ⟨e, he, rfl⟩ := List.mem_map.mp hc'
    exact log_calls h (Admitted ds n) hc (by rintro t c (h | ⟨_, _, h⟩) <;> cases h)
      (by intro e he; cases he) e he
  have r := serial_reads hl (cs := []) List.length_replicate (holds_zero hl) ha hs
  have z : (st.log.map (·.call)).zip (st.log.map (·.out)) = st.log.map (fun e => (e.call, e.out)) := by
    rw [List.zip_map']
  rw [z] at r
  refine ⟨st, h, ?_, ?_⟩
  · intro pre post t d out e
    rw [e] at r
    simp only [List.map_append, List.map_cons] at r
    have r2 := (readsAll_split r).1
    simp only [List.nil_append, List.map_map] at r2
    exact r2
  · intro pre post t d out e
    rw [e] at r
    simp only [List.map_append, List.map_cons] at r
    have r2 := (readsAll_split r).1
    simp only [List.nil_append, List.map_map] at r2
    exact r2

theorem log_grows : ∀ {acts : List Act} {st st' : St}, run st acts = some st' →
    ∃ more, st'.log = st.log ++ more
  | [], st, st', h => by cases h; exact ⟨[], by simp⟩
  | a :: as, st, st', h => by
    simp only [run, Option.bind_eq_some_iff] at h
    obtain ⟨st1, e1, h⟩ := h
    obtain ⟨more, hm⟩ := log_grows h
    have : ∃ m1, st1.log = st.log ++ m1 := by
      cases a with
      | call t c =>
        simp only [step] at e1
        split at e1 <;> cases e1 <;> exact ⟨[], by simp [St.setThr]⟩
      | lock t =>
        simp only [step] at e1
        split at e1
        · split at e1 <;> cases e1 <;> exact ⟨[], by simp [St.setThr]⟩
        · cases e1; exact ⟨[], by simp⟩
      | micro t =>
        simp only [step] at e1
        split at e1
        · rw [Option.map_eq_some_iff] at e1
          obtain ⟨r, _, e1⟩ := e1
          cases e1; exact ⟨[], by simp [St.setThr]⟩
        · cases e1; exact ⟨[], by simp⟩
      | unlock t =>
        simp only [step] at e1
        split at e1
        · split at e1
          · cases e1; exact ⟨_, rfl⟩
          · cases e1
        · cases e1; exact ⟨[], by simp⟩
    obtain ⟨m1, h1⟩ := this
    exact ⟨m1 ++ more, by rw [hm, h1, List.append_assoc]⟩

/-- **C139.**  The order in which the calls count is the order in which they end: a call that has
returned before another is begun comes before it. -/
theorem C139_order {acts : List Act} {st st' : St} (h : run st acts = some st') :
    ∃ more, st'.log = st.log ++ more := log_grows h

/-- **C139.**  The sections do what the area Ppm takes as one step: setting data and IOPS. -/
theorem C139_setData {cs : List Verif.Ppm.Cfg} {st st' : Verif.Ppm.St} {key : Verif.Layout.Key}
    {owned : Bool} {data iops : List Byte} {i : Nat} {d : IoData}
    (hf : Verif.Ppm.find cs key owned = some (i, d)) (hd : data.length = d.dataLen)
    (hi : iops.length = d.iopsLen)
    (h : Verif.Ppm.setData cs st key owned data false iops = some (st', .ret 0)) :
    solo (body (.setData d (some data) iops)) (st i).buf [] = some ((st' i).buf, []) := by
  simp only [Verif.Ppm.setData, hf, hd, hi, and_self, if_true, Bool.false_eq_true, if_false,
    Option.bind_eq_some_iff] at h
  obtain ⟨b1, h1, b2, h2, e⟩ := h
  cases e
  have l1 : d.dataOff + data.length ≤ (st i).buf.length := by
    unfold writeAt at h1; split at h1
    · assumption
    · cases h1
  have l2 : d.iopsOff + iops.length ≤ b1.length := by
    unfold writeAt at h2; split at h2
    · assumption
    · cases h2
  simp only [body, Option.getD_some]
  rw [solo_append, solo_stores _ _ _ _ l1, h1]
  simp only [Option.map_some, Option.bind_some]
  rw [solo_stores _ _ _ _ l2, h2]
  simp [Verif.Ppm.upd]

/-- **C139.**  The sections do what the area Ppm takes as one step: copying the payload into the
frame. -/
theorem C139_copy {buf x : List Byte} {n : Nat} (h : slice buf 0 n = some x) :
    solo (body (.send n)) buf [] = some (buf, x) := by
  have l : 0 + n ≤ buf.length := by
    unfold slice at h; split at h
    · assumption
    · cases h
  simp only [body]
  rw [solo_loads _ _ _ _ l, slice_take h]; rfl

theorem run_append {a b : List Act} {st : St} : run st (a ++ b) = (run st a).bind (run · b) := by
  induction a generalizing st with
  | nil => rfl
  | cons x a ih =>
    simp only [List.cons_append, run]
    cases step st x with
    | none => rfl
    | some s => simp [ih]

/-- The owner can always finish. -/
theorem finish_owner {ds : List IoData} {n : Nat} (hl : Layout ds n) {buf0 : List Byte} {t : Nat}
    {c : Call} : ∀ {ms : List Micro} {out : List Byte} {st : St}, Inv ds n buf0 st →
    st.thr t = .inside c ms out →
    ∃ acts st', run st acts = some st' ∧ Inv ds n buf0 st' ∧ st'.owner = none ∧ st'.thr t = .idle ∧
      (∀ u, u ≠ t → st'.thr u = st.thr u) ∧ ∃ out', st'.log = st.log ++ [⟨t, c, out'⟩]
  | [], out, st, inv, h => by
    obtain ⟨st', e, inv'⟩ := inv_step hl inv (a := .unlock t) (by intro t c e; cases e)
    refine ⟨[.unlock t], st', by simp [run, e], inv', ?_⟩
    simp only [step, h, inv.one t c _ out h, if_true] at e
    cases e
    refine ⟨rfl, by simp [thr_setThr], ?_, out, rfl⟩
    intro u hu
    simp [thr_setThr, hu]
  | m :: ms, out, st, inv, h => by
    obtain ⟨st1, e, inv1⟩ := inv_step hl inv (a := .micro t) (by intro t c e; cases e)
    have hh : ∃ out1, st1.thr t = .inside c ms out1 ∧ (∀ u, u ≠ t → st1.thr u = st.thr u) ∧
        st1.log = st.log := by
      simp only [step, h, Option.map_eq_some_iff] at e
      obtain ⟨r, _, e⟩ := e
      cases e
      refine ⟨r.2, by simp [thr_setThr], ?_, rfl⟩
      intro u hu
      simp [thr_setThr, hu]
    obtain ⟨out1, h1, h2, h3⟩ := hh
    obtain ⟨acts, st', r, i, o, a, b, out', l⟩ := finish_owner hl inv1 h1
    refine ⟨.micro t :: acts, st', by simp [run, e, r], i, o, a, ?_, out', by rw [l, h3]⟩
    intro u hu
    rw [b u hu, h2 u hu]

/-- **C139.**  Nobody waits for ever: in any situation that can arise, a call that has begun can be
brought to its end (by steps of that thread and of the thread that holds the lock). -/
theorem C139_no_deadlock {ds : List IoData} {n : Nat} (hl : Layout ds n) {acts : List Act}
    (hc : ∀ t c, Act.call t c ∈ acts → Admitted ds n c) {st : St}
    (h : run (start (List.replicate n 0)) acts = some st) {t : Nat} (ht : st.thr t ≠ .idle) :
    ∃ more st', run st more = some st' ∧ st'.thr t = .idle ∧
      ∃ e ∈ st'.log.drop st.log.length, e.thread = t := by
  obtain ⟨st0, h0, inv⟩ := inv_run hl (inv_start (ds := ds) (List.length_replicate (n := n) (a := (0 : Byte)))) hc
  rw [h] at h0
  cases h0
  have main : ∀ {s : St} {c : Call}, Inv ds n (List.replicate n 0) s → s.owner = none →
      s.thr t = .want c → ∃ more st' out, run s more = some st' ∧ st'.thr t = .idle ∧
        st'.log = s.log ++ [⟨t, c, out⟩] := by
    intro s c i ho hw
    obtain ⟨s1, e, i1⟩ := inv_step hl i (a := .lock t) (by intro t c e; cases e)
    have hs : s1.thr t = .inside c (body c) [] ∧ s1.log = s.log := by
      simp only [step, hw, ho, if_true] at e
      cases e
      exact ⟨by simp [thr_setThr], rfl⟩
    obtain ⟨more, s2, r, _, _, a, _, out, l⟩ := finish_owner hl i1 hs.1
    exact ⟨.lock t :: more, s2, out, by simp [run, e, r], a, by rw [l, hs.2]⟩
  cases hh : st.thr t with
  | idle => exact absurd hh ht
  | inside c ms out =>
    obtain ⟨more, s2, r, _, _, a, _, out', l⟩ := finish_owner hl inv hh
    exact ⟨more, s2, r, a, ⟨t, c, out'⟩, by rw [l]; simp, rfl⟩
  | want c =>
    cases ho : st.owner with
    | none =>
      obtain ⟨more, s2, out, r, a, l⟩ := main inv ho hh
      exact ⟨more, s2, r, a, ⟨t, c, out⟩, by rw [l]; simp, rfl⟩
    | some u =>
      obtain ⟨b, _, _, _, hown⟩ := inv.serial
      obtain ⟨c', ms, out, _, hu, _, _⟩ := hown u ho
      obtain ⟨more, s1, r, i1, o1, _, k1, out1, l1⟩ := finish_owner hl inv hu
      have e : t ≠ u := by intro e; rw [e, hu] at hh; cases hh
      obtain ⟨more2, s2, out2, r2, a2, l2⟩ := main i1 o1 ((k1 t e).trans hh)
      refine ⟨more ++ more2, s2, ?_, a2, ⟨t, c, out2⟩, by rw [l2, l1]; simp, rfl⟩
      rw [run_append, r]; exact r2

/-! ## Not vacuous -/

def exampleObj : IoData := ⟨⟨0, 1, 1⟩, 0, 2, 2, 1, 3, 1⟩

theorem C139_example_layout : Layout [exampleObj] 4 where
  inside := by
    intro d hd k
    rw [List.mem_singleton] at hd; subst hd
    cases k <;> decide
  disjoint := by
    intro d hd d' hd' k k' b h h'
    rw [List.mem_singleton] at hd hd'; subst hd; subst hd'
    rw [covers_iff] at h h'
    cases k <;> cases k' <;> first | exact ⟨rfl, rfl⟩ | (simp [exampleObj, off, len] at h h'; omega)

/-- Two threads: the sender tries to take the lock while the other has written half of the data. -/
example : (run (start (List.replicate 4 0))
    [.call 0 (.setData exampleObj (some [1, 2]) [0x80]), .lock 0, .micro 0,
     .call 1 (.send 4), .lock 1, .micro 1, .micro 0, .micro 0, .unlock 0,
     .lock 1, .micro 1, .micro 1, .micro 1, .micro 1, .unlock 1]).map (·.log) =
    some [⟨0, .setData exampleObj (some [1, 2]) [0x80], []⟩, ⟨1, .send 4, [1, 2, 0x80, 0]⟩] := by
  decide +kernel

end Verif.Conc
