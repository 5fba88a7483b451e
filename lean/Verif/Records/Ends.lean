import Verif.Records.Ars
import Verif.Wire.Props

/-! Responses that are too small: which reads end. -/
set_option linter.unusedVariables false
set_option linter.unusedSimpArgs false

namespace Verif.Records
open Verif.Wire hiding ExpApi ExpMod ExpSub bit
open Verif.DiagRead (n16 n32 each skip Holds)
open Verif.Read (Rec Ready Appends Within)
open Verif.Pdport (align4 padTo4)

/-! ## Positions -/

/-- `p` fills the response byte by byte: the position advances by `n`, but not past the end. -/
def Fills (n : Nat) (p : W) : Prop :=
  ∀ w, Ready w → ∃ w', p w = some w' ∧ Within w w' ∧ w'.pos = min (w.pos + n) w.cap

theorem fills_byte (v : Byte) : Fills 1 (putByte v) := by
  intro w hw
  obtain ⟨w', e, h, _⟩ := Read.within_of_emits (DiagRead.emits_of (writes_putByte v) (wsafe_putByte v)) hw
  refine ⟨w', e, h, ?_⟩
  have := putByte_pos e
  have h2 := this.2
  have := hw.2.2
  split at h2 <;> omega

theorem Fills.seq {m n : Nat} {p q : W} (hp : Fills m p) (hq : Fills n q) : Fills (m + n) (p ;; q) := by
  intro w hw
  obtain ⟨w1, e1, h1, p1⟩ := hp w hw
  obtain ⟨w2, e2, h2, p2⟩ := hq w1 (h1.ready hw)
  refine ⟨w2, by simp only [W.seq, e1, Option.bind_some, e2], h1.trans h2, ?_⟩
  have := h1.1
  omega

theorem fills_u16 (v : U16) : Fills 2 (putU16 true v) := by
  unfold putU16
  rw [if_pos rfl]
  exact (fills_byte _).seq (fills_byte _)

theorem fills_n16 (n : Nat) : Fills 2 (n16 n) := fills_u16 _

theorem fills_u32 (v : U32) : Fills 4 (putU32 true v) := by
  unfold putU32
  rw [if_pos rfl]
  exact (((fills_byte _).seq (fills_byte _)).seq (fills_byte _)).seq (fills_byte _)

theorem fills_header (t : U16) (vh vl : Byte) : Fills 6 (putBlockHeader true t 0 vh vl) := by
  unfold putBlockHeader
  exact (((fills_u16 _).seq (fills_u16 _)).seq (fills_byte _)).seq (fills_byte _)

theorem mem_pos (d : List Byte) {w : Wr} (hw : Ready w) :
    ∃ w', putMem d w = some w' ∧ Within w w' ∧ w'.pos = if w.pos + d.length ≤ w.cap then w.pos + d.length else w.pos := by
  obtain ⟨w', e, h, _⟩ := Read.within_of_emits (DiagRead.emits_of (writes_putMem d) (wsafe_putMem d)) hw
  refine ⟨w', e, h, ?_⟩
  unfold putMem at e
  split at e
  · cases e
    rw [if_neg (by omega)]
  · obtain ⟨b, _, rfl⟩ := Option.map_eq_some_iff.1 e
    rw [if_pos (by omega)]

/-- A string that is left out if it does not fit, followed by at least as many single bytes. -/
theorem fills_mem_then {d : List Byte} {n : Nat} {q : W} (hq : Fills n q) (hd : d.length ≤ n) :
    Fills (d.length + n) (putMem d ;; q) := by
  intro w hw
  obtain ⟨w1, e1, h1, p1⟩ := mem_pos d hw
  obtain ⟨w2, e2, h2, p2⟩ := hq w1 (h1.ready hw)
  refine ⟨w2, by simp only [W.seq, e1, Option.bind_some, e2], h1.trans h2, ?_⟩
  have := h1.1
  split at p1 <;> omega

/-! ## Alignment -/

/-- The next multiple of four. -/
def up4 (n : Nat) : Nat := (n + 3) / 4 * 4

theorem go_stuck (start : Nat) : ∀ (k fuel : Nat) (w : Wr), w.cap ≤ w.buf.length → start ≤ w.pos → w.pos + k = w.cap →
    w.cap < start + up4 (w.pos - start) → putPaddingAlign.go start 4 fuel w = none := by
  intro k
  induction k with
  | zero =>
    intro fuel w hb hs hk h
    unfold up4 at h
    exact go_none start 4 fuel w (by omega) (by omega)
  | succ k ih =>
    intro fuel w hb hs hk h
    cases fuel with
    | zero => rfl
    | succ fuel =>
      unfold putPaddingAlign.go
      unfold up4 at h
      rw [if_neg (by omega)]
      obtain ⟨b, hb1, hb2⟩ := writes_putByte 0 w hb (by simp; omega)
      rw [hb2, Option.bind_some]
      have := writeAt_length hb1
      refine ih fuel _ (by simp only; omega) (by simp only; omega) (by simp; omega) ?_
      simp only [List.length_cons, List.length_nil]
      unfold up4
      omega

/-- The padding never ends exactly if its end lies behind the end of the response. -/
theorem align_none_iff {start : Nat} {w : Wr} (hw : Ready w) (hs : start ≤ w.pos) :
    putPaddingAlign start 4 w = none ↔ w.cap < start + up4 (w.pos - start) := by
  constructor
  · intro h
    by_cases c : w.cap < start + up4 (w.pos - start)
    · exact c
    · exfalso
      have e : w.pos + padTo4 (w.pos - start) = start + up4 (w.pos - start) := by unfold padTo4 up4; omega
      rw [align4 start w hs (by omega) hw.1] at h
      obtain ⟨w', e', _⟩ := wsafe_putPadding (padTo4 (w.pos - start)) w hw.1
      rw [e'] at h
      cases h
  · intro h
    exact go_stuck start (w.cap - w.pos) 4 w hw.1 hs (by have := hw.2.2; omega) h

/-- If the alignment ends, it stays within the response. -/
theorem align_some {start : Nat} {w : Wr} (hw : Ready w) (hs : start ≤ w.pos) (h : start + up4 (w.pos - start) ≤ w.cap) :
    ∃ w', putPaddingAlign start 4 w = some w' ∧ Within w w' := by
  have e : w.pos + padTo4 (w.pos - start) = start + up4 (w.pos - start) := by unfold padTo4 up4; omega
  rw [align4 start w hs (by omega) hw.1]
  obtain ⟨w', e', h', _⟩ := Read.within_of_emits (DiagRead.emits_of (writes_putPadding (padTo4 (w.pos - start))) (wsafe_putPadding _)) hw
  exact ⟨w', e', h'⟩

/-! ## Writers that end -/

/-- `p` ends within the response if that ends at a multiple of four bytes from `s`. -/
def Ends (s : Nat) (p : W) : Prop :=
  ∀ w, Ready w → s ≤ w.pos → (w.cap - s) % 4 = 0 → ∃ w', p w = some w' ∧ Within w w'

theorem ends_of {s : Nat} {p : W} (h : WSafe p) : Ends s p := by
  intro w hw _ _
  obtain ⟨w', e, c, l, m, n, k⟩ := h w hw.1
  have := hw.2.2
  exact ⟨w', e, c, l, m, by omega, fun i hi => k i (by omega)⟩

theorem Ends.seq {s : Nat} {p q : W} (hp : Ends s p) (hq : Ends s q) : Ends s (p ;; q) := by
  intro w hw hs h4
  obtain ⟨w1, e1, h1⟩ := hp w hw hs h4
  obtain ⟨w2, e2, h2⟩ := hq w1 (h1.ready hw) (by have := h1.2.2.1; omega) (by rw [h1.1]; exact h4)
  exact ⟨w2, by simp only [W.seq, e1, Option.bind_some, e2], h1.trans h2⟩

theorem ends_align (s : Nat) : Ends s (putPaddingAlign s 4) := by
  intro w hw hs h4
  refine align_some hw hs ?_
  have := hw.2.2
  unfold up4
  omega

theorem ends_each {α : Type} {s : Nat} {f : α → W} (l : List α) (h : ∀ a ∈ l, Ends s (f a)) : Ends s (each f l) := by
  induction l with
  | nil => exact ends_of (fun w _ => ⟨w, rfl, rfl, rfl, Nat.le_refl _, Or.inr rfl, fun _ _ => rfl⟩)
  | cons a l ih => exact Ends.seq (h a (by simp)) (ih fun b hb => h b (by simp [hb]))

/-- What is put afterwards at an earlier position. -/
theorem patch_within {w0 w : Wr} (hw : Ready w0) (h : Within w0 w) {k : Nat} (hk : w0.pos ≤ k) (v : U16) :
    ∃ w', putU16 true v { w with pos := k } = some w' ∧ Within w0 { w' with pos := w.pos } := by
  obtain ⟨w', e, h1, _⟩ := Read.patch (pre := []) (old := enc16 true v) (post := []) (writes_putU16 true v) (wsafe_putU16 true v) rfl hw h hk
  exact ⟨w', e, h1⟩

theorem ends_block {t : U16} {body : Nat → W} (hb : ∀ s, Ends s (body s)) {w : Wr} (hw : Ready w) (h4 : (w.cap - w.pos) % 4 = 0) :
    ∃ w', putBlock true t (body w.pos) w = some w' ∧ Within w w' := by
  obtain ⟨w1, e1, h1⟩ := Ends.seq (s := w.pos) (ends_of (wsafe_putBlockHeader true t 0 1 0)) (hb w.pos) w hw (Nat.le_refl _) h4
  obtain ⟨w2, e2, h2⟩ := patch_within hw h1 (k := w.pos + 2) (by omega) (BitVec.ofNat 16 w1.pos - BitVec.ofNat 16 (w.pos + 4))
  refine ⟨{ w2 with pos := w1.pos }, ?_, h2⟩
  unfold putBlock
  rw [e1]
  simp only [Option.bind_some, e2, Option.map_some]

theorem wsafe_num8 (n : Nat) : WSafe (putByte (BitVec.ofNat 8 n)) := wsafe_putByte _

/-- Safety of a sequence of primitives. -/
macro "safe" : tactic => `(tactic| repeat first
  | with_reducible exact wsafe_n16 _
  | with_reducible exact wsafe_n32 _
  | with_reducible exact wsafe_putU16 _ _
  | with_reducible exact wsafe_putU32 _ _
  | with_reducible exact wsafe_putUuid _ _
  | with_reducible exact wsafe_putPadding _
  | with_reducible exact wsafe_putByte _
  | with_reducible exact wsafe_putMem _
  | with_reducible refine WSafe.seq ?_ ?_)

attribute [local irreducible] putU16 putU32 enc16 enc32 encUuid putUuid n16 n32 num8 num16 num32 putByte putMem putPadding putBlock encBlock propsWord props

theorem wsafe_portHead (ss : U16) (p : Port) : WSafe (putPortHead ss p) := by unfold putPortHead; safe
theorem wsafe_portTail (p : Port) : WSafe (putPortTail p) := by unfold putPortTail; safe
theorem wsafe_stats (s : Stats) : WSafe (putStats s) := by unfold putStats; refine wsafe_putBlock ?_; safe
theorem wsafe_skip : WSafe skip := fun w _ => ⟨w, rfl, rfl, rfl, Nat.le_refl _, Or.inr rfl, fun _ _ => rfl⟩

theorem ends_iface (i : Iface) {w : Wr} (hw : Ready w) (h4 : (w.cap - w.pos) % 4 = 0) :
    ∃ w', putIfaceReal i w = some w' ∧ Within w w' := by
  unfold putIfaceReal alignedBlock
  refine ends_block (body := fun s => (putByte (BitVec.ofNat 8 i.name.length) ;; putMem i.name) ;; putPaddingAlign s 4 ;;
    (putMem i.mac ;; putPadding 2 ;; putU32 true i.ip ;; putU32 true i.mask ;; putU32 true i.gateway)) ?_ hw h4
  intro s
  refine Ends.seq (Ends.seq (ends_of ?_) (ends_align s)) (ends_of ?_)
  · safe
  · safe

theorem ends_port (ss : U16) (p : Port) {w : Wr} (hw : Ready w) (h4 : (w.cap - w.pos) % 4 = 0) :
    ∃ w', putPortReal ss p w = some w' ∧ Within w w' := by
  unfold putPortReal
  cases p.peer with
  | none =>
    simp only
    exact ends_of (s := w.pos) (wsafe_putBlock (WSafe.seq (wsafe_portHead ss p) (wsafe_portTail p))) w hw (Nat.le_refl _) h4
  | some q =>
    simp only
    unfold alignedBlock
    refine ends_block (body := fun s => (putPortHead ss p ;; putByte (BitVec.ofNat 8 q.portName.length) ;; putMem q.portName ;;
        putByte (BitVec.ofNat 8 q.stationName.length) ;; putMem q.stationName) ;; putPaddingAlign s 4 ;;
      (putU32 true q.delay ;; putMem q.mac ;; putPadding 2 ;; putPortTail p)) ?_ hw h4
    intro s
    refine Ends.seq (Ends.seq (ends_of ?_) (ends_align s)) (ends_of ?_)
    · refine WSafe.seq (WSafe.seq (WSafe.seq (WSafe.seq (wsafe_portHead ss p) ?_) ?_) ?_) ?_
      all_goals safe
    · refine WSafe.seq ?_ (wsafe_portTail p)
      safe

theorem wsafe_iocr (c : Iocr) : WSafe (putIocr c) := by
  unfold putIocr
  safe

theorem ends_oneAr (a : Ar) (api : Option U32) : Ends 0 (putOneAr a api) := by
  intro w hw hs h4
  have hfix : Ends 0 (putArFixed a) := by
    unfold putArFixed
    exact ends_of (by safe)
  have hal : Ends 0 align := ends_align 0
  have hn : ∀ n, Ends 0 (n16 n) := fun n => ends_of (wsafe_n16 n)
  have hm : ∀ d, Ends 0 (putMem d) := fun d => ends_of (wsafe_putMem d)
  have hvar : Ends 0 (putArVar a api) := by
    unfold putArVar
    refine (((((((((((hm _).seq hal).seq (hn _)).seq (hm _)).seq hal).seq (hn _)).seq hal).seq ?_).seq (hn _)).seq hal)).seq ?_
    · exact ends_each _ fun c _ => ends_of (wsafe_iocr c)
    · refine ends_each _ fun c _ => ends_of ?_
      split
      · exact wsafe_putU32 _ _
      · exact wsafe_skip
  obtain ⟨w1, e1, h1⟩ := (hfix.seq hvar) w hw hs h4
  obtain ⟨w2, e2, h2⟩ := ((hn 0).seq hal) w1 (h1.ready hw) (Nat.zero_le _) (by rw [h1.1]; exact h4)
  unfold putOneAr
  rw [e1, Option.bind_some, e2, Option.bind_some]
  obtain ⟨w3, e3, h3⟩ := patch_within hw (h1.trans h2) (k := w1.pos) h1.2.2.1 (BitVec.ofNat 16 a.info)
  have e3' : n16 a.info { w2 with pos := w1.pos } = some w3 := by unfold n16; exact e3
  rw [e3']
  exact ⟨_, rfl, h3⟩

/-- The list of the connections ends if the response ends at a multiple of four bytes. -/
theorem ends_arData (ars : List Ar) (own : Option Ar) (api : U32) {w : Wr} (hw : Ready w) (h4 : w.cap % 4 = 0) :
    ∃ w', putArData ars own api w = some w' ∧ Within w w' := by
  obtain ⟨w1, e1, h1⟩ := ends_of (s := 0) (wsafe_putBlockHeader true 0x0018 0 1 1) w hw (Nat.zero_le _) h4
  have hl : Ends 0 ((if (entries ars own api).length > 0 then n16 (entries ars own api).length else skip) ;;
      each (fun x => putOneAr x.1 x.2) (entries ars own api)) := by
    refine Ends.seq ?_ (ends_each _ fun x _ => ends_oneAr _ _)
    split
    · exact ends_of (wsafe_n16 _)
    · exact ends_of wsafe_skip
  obtain ⟨w2, e2, h2⟩ := hl w1 (h1.ready hw) (Nat.zero_le _) (by rw [h1.1]; exact h4)
  unfold putArData
  rw [e1, Option.bind_some]
  simp only [e2, Option.bind_some]
  have h02 := h1.trans h2
  split
  · obtain ⟨w3, e3, h3⟩ := patch_within hw h02 (k := w.pos + 2) (by omega) (BitVec.ofNat 16 w2.pos - BitVec.ofNat 16 (w.pos + 4))
    rw [e3]
    exact ⟨_, rfl, h3⟩
  · exact ⟨_, rfl, h02.1, h02.2.1, Nat.le_refl _, hw.2.2, h02.2.2.2.2⟩

/-! ## Writers that never end -/

theorem none_seq {p q : W} {w : Wr} (h : p w = none) : (p ;; q) w = none := by
  simp only [W.seq, h, Option.bind_none]

theorem seq_none {p q : W} {w w1 : Wr} (h : p w = some w1) (h2 : q w1 = none) : (p ;; q) w = none := by
  simp only [W.seq, h, Option.bind_some, h2]

/-- Sequences of writers that stay within the response if they end. -/
def Stays (p : W) : Prop := ∀ w w', Ready w → p w = some w' → Within w w'

theorem stays_of {p : W} (h : WSafe p) : Stays p := by
  intro w w' hw e
  obtain ⟨w1, e1, c, l, m, n, k⟩ := h w hw.1
  rw [e1] at e
  cases e
  have := hw.2.2
  exact ⟨c, l, m, by omega, fun i hi => k i (by omega)⟩

theorem Stays.seq {p q : W} (hp : Stays p) (hq : Stays q) : Stays (p ;; q) := by
  intro w w' hw e
  simp only [W.seq] at e
  obtain ⟨w1, e1, e2⟩ := Option.bind_eq_some_iff.1 e
  have h1 := hp w w1 hw e1
  exact h1.trans (hq w1 w' (h1.ready hw) e2)

theorem stays_block {t : U16} {body : W} (hb : Stays body) : Stays (putBlock true t body) := by
  intro w w' hw e
  unfold putBlock at e
  obtain ⟨w1, e1, e2⟩ := Option.bind_eq_some_iff.1 e
  have h1 := (Stays.seq (stays_of (wsafe_putBlockHeader true t 0 1 0)) hb) w w1 hw e1
  obtain ⟨w2, e3, h2⟩ := patch_within hw h1 (k := w.pos + 2) (by omega) (BitVec.ofNat 16 w1.pos - BitVec.ofNat 16 (w.pos + 4))
  rw [e3] at e2
  cases e2
  exact h2

theorem stays_alignedBlock {t : U16} {a b : W} (ha : Stays a) (hb : Stays b) : Stays (alignedBlock t a b) := by
  intro w w' hw e
  unfold alignedBlock putBlock at e
  obtain ⟨w1, e1, e2⟩ := Option.bind_eq_some_iff.1 e
  have h1 : Within w w1 := by
    simp only [W.seq] at e1
    obtain ⟨x1, f1, e1⟩ := Option.bind_eq_some_iff.1 e1
    obtain ⟨x3, f3, e1⟩ := Option.bind_eq_some_iff.1 e1
    obtain ⟨x2, f2, f3⟩ := Option.bind_eq_some_iff.1 f3
    have g1 := stays_of (wsafe_putBlockHeader true t 0 1 0) w x1 hw f1
    have g2 := ha x1 x2 (g1.ready hw) f2
    have g02 := g1.trans g2
    have hn : ¬ x2.cap < w.pos + up4 (x2.pos - w.pos) := fun hh => by
      rw [(align_none_iff (g02.ready hw) g02.2.2.1).2 hh] at f3
      cases f3
    obtain ⟨x3', f3', g3⟩ := align_some (g02.ready hw) g02.2.2.1 (by omega)
    rw [f3'] at f3
    cases f3
    have g03 := g02.trans g3
    exact g03.trans (hb x3 w1 (g03.ready hw) e1)
  obtain ⟨w2, e3, h2⟩ := patch_within hw h1 (k := w.pos + 2) (by omega) (BitVec.ofNat 16 w1.pos - BitVec.ofNat 16 (w.pos + 4))
  rw [e3] at e2
  cases e2
  exact h2

theorem iface_within (i : Iface) {w w' : Wr} (hw : Ready w) (e : putIfaceReal i w = some w') : Within w w' := by
  unfold putIfaceReal at e
  refine stays_alignedBlock (stays_of ?_) (stays_of ?_) w w' hw e
  · safe
  · safe

/-- The interface: the header and the length of the name take seven bytes, the name is left out if it does not fit. -/
theorem iface_none_iff (i : Iface) {w : Wr} (hw : Ready w) :
    putIfaceReal i w = none ↔
      w.cap - w.pos < up4 (if 7 + i.name.length ≤ w.cap - w.pos then 7 + i.name.length else min (w.cap - w.pos) 7) := by
  obtain ⟨w1, e1, h1, p1⟩ := (fills_header 0x0240 1 0) w hw
  obtain ⟨w2, e2, h2, p2⟩ := (fills_byte (BitVec.ofNat 8 i.name.length)) w1 (h1.ready hw)
  have h02 := h1.trans h2
  obtain ⟨w3, e3, h3, p3⟩ := mem_pos i.name (h02.ready hw)
  have h03 := h02.trans h3
  have e123 : (putBlockHeader true 0x0240 0 1 0 ;; (putByte (BitVec.ofNat 8 i.name.length) ;; putMem i.name)) w = some w3 := by
    simp only [W.seq, e1, Option.bind_some, e2, e3]
  have c1 := h1.1
  have c2 := h02.1
  have c3 := h03.1
  have hp : w3.pos - w.pos = if 7 + i.name.length ≤ w.cap - w.pos then 7 + i.name.length else min (w.cap - w.pos) 7 := by
    have := hw.2.2
    split at p3 <;> split <;> omega
  rw [← hp]
  have key : putIfaceReal i w = none ↔ putPaddingAlign w.pos 4 w3 = none := by
    constructor
    · intro h
      cases c : putPaddingAlign w.pos 4 w3 with
      | none => rfl
      | some w4 =>
        exfalso
        have hr3 := h03.ready hw
        have hs := h03.2.2.1
        have hn : ¬ w3.cap < w.pos + up4 (w3.pos - w.pos) := fun hh => by
          rw [(align_none_iff hr3 hs).2 hh] at c
          cases c
        obtain ⟨w4', e4, h4⟩ := align_some hr3 hs (by omega)
        have hsafe : WSafe (putMem i.mac ;; putPadding 2 ;; putU32 true i.ip ;; putU32 true i.mask ;; putU32 true i.gateway) := by safe
        obtain ⟨w5, e5, g1, g2, g3, g4, g5⟩ := hsafe w4' (h4.ready hr3).1
        have h45 : Within w4' w5 := ⟨g1, g2, g3, by have := (h4.ready hr3).2.2; omega, fun k hk => g5 k (by have := (h4.ready hr3).2.2; omega)⟩
        obtain ⟨w6, e6, h6⟩ := patch_within hw ((h03.trans h4).trans h45) (k := w.pos + 2) (by omega)
          (BitVec.ofNat 16 w5.pos - BitVec.ofNat 16 (w.pos + 4))
        have : putIfaceReal i w = some { w6 with pos := w5.pos } := by
          unfold putIfaceReal alignedBlock putBlock
          have : (putBlockHeader true 0x0240 0 1 0 ;; ((putByte (BitVec.ofNat 8 i.name.length) ;; putMem i.name) ;; putPaddingAlign w.pos 4 ;;
            (putMem i.mac ;; putPadding 2 ;; putU32 true i.ip ;; putU32 true i.mask ;; putU32 true i.gateway))) w = some w5 := by
            simp only [W.seq] at e123 e5 ⊢
            simp only [e1, e2, e3, Option.bind_some, e4]
            exact e5
          rw [this]
          simp only [Option.bind_some, e6, Option.map_some]
        rw [this] at h
        cases h
    · intro h
      unfold putIfaceReal alignedBlock putBlock
      have : (putBlockHeader true 0x0240 0 1 0 ;; ((putByte (BitVec.ofNat 8 i.name.length) ;; putMem i.name) ;; putPaddingAlign w.pos 4 ;;
        (putMem i.mac ;; putPadding 2 ;; putU32 true i.ip ;; putU32 true i.mask ;; putU32 true i.gateway))) w = none := by
        simp only [W.seq] at e123 ⊢
        simp only [e1, e2, e3, Option.bind_some, h, Option.bind_none]
      rw [this, Option.bind_none]
  rw [key, align_none_iff (h03.ready hw) h03.2.2.1]
  have := h03.2.2.1
  have := hw.2.2
  omega

/-- The fixed part of a connection fills the response. -/
theorem fills_arFixed {a : Ar} (h1 : a.uuid.d4.length = 8) (h2 : a.objUuid.d4.length = 8) (h3 : a.prmUuid.d4.length = 8) :
    Fills 66 (putArFixed a) := by
  have head : ∀ u : Uuid, Fills 8 (putU32 true u.d1 ;; putU16 true u.d2 ;; putU16 true u.d3) := fun u =>
    ((fills_u32 _).seq (fills_u16 _)).seq (fills_u16 _)
  have tail : Fills 18 (putU32 true (propsWord a.props) ;;
      putU16 true a.arType ;; putU16 true a.alarmType ;; putU16 true a.localRef ;; putU16 true a.remoteRef ;;
      putU16 true a.initPort ;; putU16 true a.respPort ;; n16 a.name.length) :=
    (((((((fills_u32 _).seq (fills_u16 _)).seq (fills_u16 _)).seq (fills_u16 _)).seq (fills_u16 _)).seq (fills_u16 _)).seq
      (fills_u16 _)).seq (fills_n16 _)
  have m1 := fills_mem_then (d := a.uuid.d4) (head a.objUuid) (by omega)
  have m2 := fills_mem_then (d := a.objUuid.d4) (head a.prmUuid) (by omega)
  have m3 := fills_mem_then (d := a.prmUuid.d4) tail (by omega)
  have all := (((head a.uuid).seq m1).seq m2).seq m3
  rw [h1, h2, h3] at all
  intro w hw
  obtain ⟨w', e, r⟩ := all w hw
  refine ⟨w', ?_, r⟩
  rw [← e]
  unfold putArFixed putUuid
  simp only [W.seq, Option.bind_assoc]

/-- A connection that is cut off within its fixed part, or right behind it: the padding behind the station name never ends if the
response does not end at a multiple of four bytes. -/
theorem oneAr_none {a : Ar} (h1 : a.uuid.d4.length = 8) (h2 : a.objUuid.d4.length = 8) (h3 : a.prmUuid.d4.length = 8) (api : Option U32)
    {w : Wr} (hw : Ready w) (hc : w.cap ≤ w.pos + 66) (h4 : w.cap % 4 ≠ 0) : putOneAr a api w = none := by
  obtain ⟨w1, e1, k1, p1⟩ := fills_arFixed h1 h2 h3 w hw
  obtain ⟨w2, e2, k2, p2⟩ := mem_pos a.name (k1.ready hw)
  have c1 := k1.1
  have c2 := k2.1
  have hal : align w2 = none := by
    unfold align putPaddingAlign
    refine go_none _ _ _ _ ?_ ?_ <;> split at p2 <;> omega
  unfold putOneAr
  have : (putArFixed a ;; putArVar a api) w = none := by
    refine seq_none e1 ?_
    unfold putArVar
    refine none_seq (none_seq (none_seq (none_seq (none_seq (none_seq (none_seq (none_seq (none_seq ?_))))))))
    exact seq_none e2 hal
  rw [this, Option.bind_none]

/-- The list of the connections never ends if the response ends within the fixed part of the first connection, and not at a multiple
of four bytes. -/
theorem arData_none {ars : List Ar} {own : Option Ar} {api : U32} (hne : entries ars own api ≠ [])
    (hs : ∀ x ∈ entries ars own api, Sound x.1) {w : Wr} (hw : Ready w) (hc : w.cap ≤ w.pos + 74) (h4 : w.cap % 4 ≠ 0) :
    putArData ars own api w = none := by
  obtain ⟨w1, e1, k1, p1⟩ := fills_header 0x0018 1 1 w hw
  obtain ⟨w2, e2, k2, p2⟩ := fills_n16 (entries ars own api).length w1 (k1.ready hw)
  have c1 := k1.1
  have c2 := k2.1
  unfold putArData
  rw [e1, Option.bind_some]
  simp only
  cases hl : entries ars own api with
  | nil => exact absurd hl hne
  | cons x l =>
    have hsx := hs x (by rw [hl]; simp)
    rw [hl] at e2
    have : ((if (x :: l).length > 0 then n16 (x :: l).length else skip) ;; each (fun x => putOneAr x.1 x.2) (x :: l)) w1 = none := by
      rw [if_pos (by simp)]
      refine seq_none e2 ?_
      unfold each
      refine none_seq ?_
      refine oneAr_none hsx.uuid hsx.objUuid hsx.prmUuid _ (k2.ready (k1.ready hw)) ?_ ?_
      · omega
      · omega
    rw [this, Option.bind_none]

/-! ## Through the read service -/

theorem fills_zero {p : W} (h : ∀ w, p w = some w) : Fills 0 p := by
  intro w hw
  exact ⟨w, h w, Read.within_refl hw, by have := hw.2.2; omega⟩

theorem fills_padding (n : Nat) : Fills n (putPadding n) := by
  induction n with
  | zero => exact fills_zero fun w => by unfold putPadding; rfl
  | succ n ih =>
    have := (fills_byte 0).seq ih
    intro w hw
    obtain ⟨w', e, h⟩ := this w hw
    rw [Nat.add_comm 1 n] at h
    exact ⟨w', by unfold putPadding; exact e, h⟩

theorem fills_names {q : ReadReq} (hq : q.uuid.d4.length = 8) : Fills 30 (Read.putNames q) := by
  have t : Fills 12 (putU32 true q.api ;; putU16 true q.slot ;; putU16 true q.subslot ;; putByte 0 ;; putByte 0 ;; putU16 true q.index ) :=
    (((((fills_u32 _).seq (fills_u16 _)).seq (fills_u16 _)).seq (fills_byte _)).seq (fills_byte _)).seq (fills_u16 _)
  have m := fills_mem_then (d := q.uuid.d4) t (by omega)
  have all := ((((fills_u16 q.seqNmb).seq (fills_u32 q.uuid.d1)).seq (fills_u16 q.uuid.d2)).seq (fills_u16 q.uuid.d3)).seq m
  rw [hq] at all
  intro w hw
  obtain ⟨w', e, r⟩ := all w hw
  refine ⟨w', ?_, by simpa [Nat.add_assoc] using r⟩
  rw [← e]
  unfold Read.putNames putUuid
  simp only [W.seq, Option.bind_assoc]

theorem fills_rest (a b : U16) : Fills 28 (Read.putRest a b) :=
  (((fills_u32 _).seq (fills_u16 _)).seq (fills_u16 _)).seq (fills_padding 20)

theorem fills_status (s : Status) : Fills 4 (putStatus true s) := by
  unfold putStatus
  exact fills_u32 _

theorem fills_ndr (n : Ndr) : Fills 16 (Read.putNdr true n) :=
  (((fills_u32 _).seq (fills_u32 _)).seq (fills_u32 _)).seq (fills_u32 _)

theorem readResult_pos {q : ReadReq} (hq : q.uuid.d4.length = 8) (a b : U16) {w : Wr} (hw : Ready w) :
    ∃ w1 lp, Read.putReadResult q a b w = some (w1, lp) ∧ Within w w1 ∧ w.pos ≤ lp ∧ w1.pos = min (w.pos + 64) w.cap := by
  obtain ⟨w1, lp, e, h, hl, _⟩ := Read.readResult_spec hq a b hw
  refine ⟨w1, lp, e, h, hl, ?_⟩
  obtain ⟨x1, e1, h1, p1⟩ := fills_header 0x8009 1 0 w hw
  obtain ⟨x2, e2, h2, p2⟩ := fills_names hq x1 (h1.ready hw)
  obtain ⟨x3, e3, h3, p3⟩ := fills_rest a b x2 (h2.ready (h1.ready hw))
  unfold Read.putReadResult Read.posBlock at e
  rw [e1, Option.bind_some, e2, Option.bind_some, e3, Option.bind_some] at e
  obtain ⟨x4, _, e4⟩ := Option.map_eq_some_iff.1 e
  have : w1.pos = x3.pos := by
    have := congrArg (fun x => x.1.pos) e4
    exact this.symm
  have := h1.1
  have := h2.1
  omega

/-- A read of a record of the stack: the record is built behind the 84 bytes that precede it, or at the end of the response if
that is shorter; the read ends exactly if that does. -/
theorem readInd_at {A : Type} {e : Read.Env A} {implicit : Bool} {ndr : Ndr} {res : Read.Result} {r : Rd} {w : Wr} {q : ReadReq}
    {ar : Option A} {rec : Rec} (hr : Read.Fit r) (hw : Ready w) (hq : Read.Requests ndr r q)
    (hs : res.status.code = 0) (hc : Read.CarriedOut e implicit q ar) (hi : 0x7FFF < q.index.toNat)
    (hrec : e.stock ar q = some rec) :
    ∃ x, Ready x ∧ x.cap = w.cap ∧ x.pos = min (w.pos + 84) w.cap ∧
      (rec x = none → Read.readInd e implicit ndr res r w = none) ∧
      (∀ ok x', rec x = some (ok, x') → Within x x' →
        ∃ w' res', Read.readInd e implicit ndr res r w = some (w', res', []) ∧ Within w w') := by
  have hu : q.uuid.d4.length = 8 := by obtain ⟨_, _, _, _, _, h, _⟩ := hq; exact h
  rw [Read.readInd_carried hr hq hs hc]
  obtain ⟨w1, e1, h1, p1⟩ := fills_status res.status w hw
  obtain ⟨w2, e2, h2, p2⟩ := fills_ndr ndr w1 (h1.ready hw)
  have h02 := h1.trans h2
  have c1 := h1.1
  have c2 := h02.1
  obtain ⟨w3, lp, e3, h3, hl, p3⟩ := readResult_pos (q := q) hu res.add1 res.add2 (h02.ready hw)
  have hfs : Read.fspmRead e ar q (w2.cap - w2.pos) res = some ([], res, []) := by
    unfold Read.fspmRead
    rw [if_neg (by omega)]
  have hput : ∀ y, Read.putRecord e ar q [] y = rec y := by
    intro y
    unfold Read.putRecord
    rw [if_neg (by omega), hrec]
  have h03 := h02.trans h3
  refine ⟨w3, h03.ready hw, h03.1, by omega, ?_, ?_⟩
  · intro hn
    unfold Read.carryOut
    rw [e1, Option.bind_some, e2, Option.bind_some]
    have : Read.cmrdr e ar q res w2 = none := by
      unfold Read.cmrdr
      rw [hfs, Option.bind_some]
      simp only [e3, Option.bind_some, hput, hn, Option.bind_none]
    rw [this, Option.bind_none]
  · intro ok x' hx hwi
    have h0x := h03.trans hwi
    have hxx := h0x
    obtain ⟨w4, e4, h4, _⟩ := Read.patch (pre := []) (old := enc32 true 0) (post := [])
      (writes_putU32 true (BitVec.ofNat 32 (x'.pos - w3.pos))) (wsafe_putU32 true _) (by simp [enc32_length]) hw h0x (k := lp)
      (by have := h02.2.2.1; omega)
    have hcm : Read.cmrdr e ar q res w2 = some ({ w4 with pos := x'.pos }, if ok then res else Read.setError Read.invalidIndex res, []) := by
      unfold Read.cmrdr
      rw [hfs, Option.bind_some]
      simp only [e3, Option.bind_some, hput, hx, e4, Option.map_some]
    unfold Read.carryOut
    rw [e1, Option.bind_some, e2, Option.bind_some, hcm, Option.bind_some]
    simp only
    generalize (if ok then res else Read.setError Read.invalidIndex res) = res'
    obtain ⟨w5, e5, h5, _⟩ := Read.patch (pre := []) (old := Read.encStatus res.status) (post := [])
      (Read.writes_putStatus res'.status) (Read.wsafe_putStatus _) rfl hw h4 (k := w.pos) (Nat.le_refl _)
    simp only at e5
    rw [e5, Option.bind_some]
    obtain ⟨w6, e6, h6, _⟩ := Read.patch (pre := [])
      (old := enc32 true ndr.argsLen ++ enc32 true ndr.maxCount ++ enc32 true ndr.offset ++ enc32 true ndr.actual) (post := [])
      (Read.writes_putNdr { ndr with argsLen := BitVec.ofNat 32 (x'.pos - w2.pos), actual := BitVec.ofNat 32 (x'.pos - w2.pos) })
      (Read.wsafe_putNdr _) (by simp [enc32_length]) hw h5 (k := w1.pos) h1.2.2.1
    simp only at e6
    rw [e6]
    exact ⟨_, _, rfl, h6⟩

end Verif.Records
