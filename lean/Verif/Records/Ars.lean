import Verif.Records.Lemmas

/-! The list of connections. -/
set_option linter.unusedVariables false
set_option linter.unusedSimpArgs false

namespace Verif.Records
open Verif.Wire hiding ExpApi ExpMod ExpSub bit
open Verif.DiagRead (n16 n32 each skip Holds)
open Verif.Read (Rec Ready Appends Within)

/-! ## Writing -/

theorem props_all : ∀ (a : Fin 8) (b : Fin 2) (c : Fin 4) (t d k m s u : Bool),
    propsWord ⟨BitVec.ofNat 32 a, t, BitVec.ofNat 32 b, d, BitVec.ofNat 32 c, k, m, s, u⟩ =
      props ⟨BitVec.ofNat 32 a, t, BitVec.ofNat 32 b, d, BitVec.ofNat 32 c, k, m, s, u⟩ := by
  decide +kernel

theorem ofNat_toNat (x : U32) (n : Nat) (h : x.toNat = n) : x = BitVec.ofNat 32 n := by
  subst h; apply BitVec.eq_of_toNat_eq; simp

theorem propsWord_eq {p : ArProps} (h1 : p.state.toNat < 8) (h2 : p.prmServer.toNat < 2) (h3 : p.companion.toNat < 4) :
    propsWord p = props p := by
  have := props_all ⟨_, h1⟩ ⟨_, h2⟩ ⟨_, h3⟩ p.takeover p.deviceAccess p.ackCompanion p.combined p.startupMode p.pullModule
  simpa only [← ofNat_toNat _ _ rfl] using this

theorem rtBits (c : U32) (h : c.toNat < 16) : putBits c 4 0 0 = c := by
  have : ∀ a : Fin 16, putBits (BitVec.ofNat 32 a) 4 0 0 = BitVec.ofNat 32 a := by decide +kernel
  have := this ⟨_, h⟩
  simpa only [← ofNat_toNat _ _ rfl] using this

attribute [local irreducible] putU16 putU32 enc16 enc32 encUuid putUuid n16 n32 num8 num16 num32 putByte putMem putPadding putBlock encBlock propsWord props

theorem puts_iocr (c : Iocr) (h : c.rtClass.toNat < 16) : Puts (putIocr c) (encIocr c) := by
  unfold putIocr encIocr
  rw [rtBits _ h]
  have : ∀ x : Byte, ([x, 0] : List Byte) = [x] ++ [0] := fun _ => rfl
  rw [this, ← List.append_assoc]
  puts

theorem pad4_eq (bs : List Byte) (m : Nat) (h : m % 4 = bs.length % 4) : pad4 bs = bs ++ List.replicate ((4 - m % 4) % 4) 0 := by
  unfold pad4; rw [h]

theorem pad4_length (bs : List Byte) : (pad4 bs).length % 4 = 0 := by
  unfold pad4; simp; omega

theorem wat_pad4 {p : W} {bs : List Byte} (h : WAt 0 p bs) : WAt 0 (p ;; align) (pad4 bs) := by
  unfold pad4
  refine WAt.seq h ?_
  rw [Nat.zero_add]
  exact wat_align _

theorem wat_then {p q : W} {x y : List Byte} (hp : WAt 0 p x) (h4 : x.length % 4 = 0) (hq : WAt 0 q y) : WAt 0 (p ;; q) (x ++ y) :=
  WAt.seq hp (wat_mod hq (by omega))

theorem encIocr_length (c : Iocr) : (encIocr c).length = 12 := by
  simp [encIocr, enc16_length, enc32_length, num16_length]

theorem flatMap_length4 {α : Type} (l : List α) (g : α → List Byte) (h : ∀ a, (g a).length % 4 = 0) : (l.flatMap g).length % 4 = 0 := by
  induction l with
  | nil => rfl
  | cons a l ih => rw [List.flatMap_cons, List.length_append]; have := h a; omega

theorem encAr_length4 (a : Ar) (n : Nat) (apis : List U32) : (encAr a n apis).length % 4 = 0 := by
  unfold encAr
  simp only [List.length_append]
  have h1 := pad4_length (num16 a.iocrs.length)
  have h2 := pad4_length (num16 n)
  have h3 := pad4_length (num16 a.info)
  have h4 := flatMap_length4 a.iocrs encIocr (fun c => by rw [encIocr_length])
  have h5 := flatMap_length4 apis (enc32 true) (fun c => by rw [enc32_length])
  have h6 := pad4_length (pad4 (encUuid true a.uuid ++ encUuid true a.objUuid ++ encUuid true a.prmUuid ++ enc32 true (props a.props) ++
      enc16 true a.arType ++ enc16 true a.alarmType ++ enc16 true a.localRef ++ enc16 true a.remoteRef ++
      enc16 true a.initPort ++ enc16 true a.respPort ++ num16 a.name.length ++ a.name) ++
    num16 a.prmName.length ++ a.prmName)
  omega

/-- The APIs that are listed. -/
def shown (a : Ar) (api : Option U32) : List U32 := match api with
  | none => a.apis
  | some x => a.apis.filter (· = x)

theorem puts_apis (l : List U32) (api : Option U32) :
    Puts (each (fun x => if api = none ∨ api = some x then putU32 true x else skip) l)
      ((match api with | none => l | some x => l.filter (· = x)).flatMap (enc32 true)) := by
  induction l with
  | nil => cases api <;> exact puts_skip
  | cons a l ih =>
    unfold each
    cases api with
    | none =>
      rw [if_pos (Or.inl rfl), List.flatMap_cons]
      exact Puts.seq (puts_u32 a) ih
    | some x =>
      by_cases c : a = x
      · simp only at ih ⊢
        rw [if_pos (Or.inr (by rw [c])), List.filter_cons, if_pos (by simpa using c), List.flatMap_cons]
        exact Puts.seq (puts_u32 a) ih
      · simp only at ih ⊢
        rw [if_neg (by rintro (h | h) <;> [cases h; exact c (Option.some.inj h).symm]), List.filter_cons, if_neg (by simpa using c)]
        exact Puts.seq puts_skip ih

theorem seq_assoc' (a b c : W) : (a ;; (b ;; c)) = ((a ;; b) ;; c) := funext fun x => Pdport.seq_assoc a b c x

theorem wat_oneAr {a : Ar} (hs : Sound a) (api : Option U32) : WAt 0 (putOneAr a api) (encAr a a.apis.length (shown a api)) := by
  obtain ⟨N, hN⟩ : ∃ N, N = pad4 (pad4 (encUuid true a.uuid ++ encUuid true a.objUuid ++ encUuid true a.prmUuid ++ enc32 true (props a.props) ++
      enc16 true a.arType ++ enc16 true a.alarmType ++ enc16 true a.localRef ++ enc16 true a.remoteRef ++
      enc16 true a.initPort ++ enc16 true a.respPort ++ num16 a.name.length ++ a.name) ++
    num16 a.prmName.length ++ a.prmName) ++
    pad4 (num16 a.iocrs.length) ++ a.iocrs.flatMap encIocr ++ pad4 (num16 a.apis.length) ++ (shown a api).flatMap (enc32 true) := ⟨_, rfl⟩
  have key : WAt 0 (putArFixed a ;; putArVar a api) N := by
    rw [hN]
    unfold putArVar
    simp only [seq_assoc']
    -- the fixed part and the name
    have f1 : WAt 0 (putArFixed a ;; putMem a.name) (encUuid true a.uuid ++ encUuid true a.objUuid ++ encUuid true a.prmUuid ++
        enc32 true (props a.props) ++ enc16 true a.arType ++ enc16 true a.alarmType ++ enc16 true a.localRef ++
        enc16 true a.remoteRef ++ enc16 true a.initPort ++ enc16 true a.respPort ++ num16 a.name.length ++ a.name) := by
      unfold putArFixed
      rw [propsWord_eq hs.state hs.prm hs.companion]
      refine Puts.seq ?_ (puts_mem _) 0
      puts
    have f2 := wat_pad4 f1
    have f3 := wat_pad4 (WAt.seq (WAt.seq f2 (puts_n16 a.prmName.length _)) (puts_mem a.prmName _))
    have g1 : WAt 0 (n16 a.iocrs.length ;; align) (pad4 (num16 a.iocrs.length)) := wat_pad4 (puts_n16 _ 0)
    have g2 : WAt 0 (n16 a.apis.length ;; align) (pad4 (num16 a.apis.length)) := wat_pad4 (puts_n16 _ 0)
    have g3 : WAt 0 (each putIocr a.iocrs) (a.iocrs.flatMap encIocr) :=
      wat_each _ (fun c hc => puts_iocr c (hs.cls c hc) 0) (fun c _ => by rw [encIocr_length])
    have g4 : WAt 0 (each (fun x => if api = none ∨ api = some x then putU32 true x else skip) a.apis)
        ((shown a api).flatMap (enc32 true)) := puts_apis a.apis api 0
    have h1 := wat_then f3 (pad4_length _) g1
    have h2 := wat_then h1 (by
      rw [List.length_append, Nat.add_mod, pad4_length, pad4_length]) g3
    have h3 := wat_then h2 (by
      rw [List.length_append, List.length_append, Nat.add_mod, Nat.add_mod (pad4 _).length, pad4_length, pad4_length,
        flatMap_length4 _ _ (fun c => by rw [encIocr_length])]) g2
    have h4 := wat_then h3 (by
      rw [List.length_append, List.length_append, List.length_append, Nat.add_mod, Nat.add_mod (_ + _),
        Nat.add_mod (pad4 _).length, pad4_length, pad4_length, pad4_length,
        flatMap_length4 _ _ (fun c => by rw [encIocr_length])]) g4
    simp only [seq_assoc'] at h4
    exact h4
  have h4 : N.length % 4 = 0 := by
    have := encAr_length4 a a.apis.length (shown a api)
    have h3 := pad4_length (num16 a.info)
    unfold encAr at this
    rw [← hN, List.length_append] at this
    omega
  have hE : encAr a a.apis.length (shown a api) = N ++ pad4 (num16 a.info) := by
    rw [hN]; rfl
  rw [hE]
  have hz : ∀ n, pad4 (num16 n) = num16 n ++ [0, 0] := by
    intro n; unfold pad4; rw [num16_length]; rfl
  intro x hc h6 hm hp
  rw [hz, List.length_append, List.length_append, num16_length] at hp
  simp only [List.length_cons, List.length_nil] at hp
  obtain ⟨b1, w1, e1⟩ := key x hc h6 hm (by omega)
  have l1 := writeAt_length w1
  obtain ⟨b2, w2, e2⟩ := wat_pad4 (puts_n16 0 0) { x with buf := b1, pos := x.pos + N.length } (by simp only; omega) h6
    (by simp only; omega) (by rw [hz, List.length_append, num16_length]; simp only [List.length_cons, List.length_nil]; omega)
  have l2 := writeAt_length w2
  simp only at w2 l2
  have w12 : writeAt x.buf x.pos (N ++ num16 0 ++ [0, 0]) = some b2 := by
    rw [List.append_assoc, ← hz, ← writeAt_append w1 (by rw [hz, List.length_append, num16_length]; simp only [List.length_cons, List.length_nil]; omega)]
    exact w2
  obtain ⟨b3, w3, e3⟩ := writes_n16 a.info ⟨b2, x.cap, x.pos + N.length⟩ (by simp only; omega) (by rw [num16_length]; simp only; omega)
  refine ⟨b3, ?_, ?_⟩
  · rw [hz, ← List.append_assoc, ← writeAt_patch w12 (by simp only [num16_length])]
    exact w3
  · unfold putOneAr
    rw [e1]
    simp only [Option.bind_some]
    rw [e2]
    simp only [Option.bind_some]
    rw [e3]
    simp only [Option.map_some, hz, List.length_append, num16_length, List.length_cons, List.length_nil]
    congr 2

/-- The list of connections. -/
theorem arData_spec {ars : List Ar} {own : Option Ar} {api : U32} {l : List (Ar × Option U32)}
    (hl : entries ars own api = l)
    (hs : ∀ x ∈ l, Sound x.1) {w : Wr} (hw : Ready w) (hm : w.pos % 4 = 0)
    (hr : w.pos + (encArs (l.map fun x => encAr x.1 x.1.apis.length (shown x.1 x.2))).length ≤ w.cap) :
    ∃ w', putArData ars own api w = some w' ∧ Appends w w' (encArs (l.map fun x => encAr x.1 x.1.apis.length (shown x.1 x.2))) := by
  unfold putArData
  simp only [hl]
  by_cases c : l = []
  · have he : encArs (l.map fun x => encAr x.1 x.1.apis.length (shown x.1 x.2)) = [] := by
      unfold encArs; rw [if_pos (by simp [c])]
    rw [he] at hr ⊢
    obtain ⟨w1, e1, h1, _⟩ := Read.within_of_emits (Ident.emits_header 0x0018 1 1) hw
    rw [e1, Option.bind_some, if_neg (by simp [c]), c]
    have : (skip ;; each (fun x : Ar × Option U32 => putOneAr x.1 x.2) []) w1 = some w1 := rfl
    rw [this]
    simp only [Option.bind_some, Nat.lt_irrefl, if_false]
    exact ⟨_, rfl, h1.1, h1.2.1, rfl, fun i hi => absurd hi (by simp), h1.2.2.2.2⟩
  · have hlen : 0 < l.length := List.length_pos_iff.2 c
    have he : encArs (l.map fun x => encAr x.1 x.1.apis.length (shown x.1 x.2)) =
        encBlock 0x0018 1 (num16 l.length ++ l.flatMap (fun x => encAr x.1 x.1.apis.length (shown x.1 x.2))) := by
      unfold encArs; rw [if_neg (by simpa using c), List.length_map, ← List.flatMap_def]
    rw [he] at hr ⊢
    rw [if_pos hlen]
    obtain ⟨E, hE⟩ : ∃ E, E = num16 l.length ++ l.flatMap (fun x => encAr x.1 x.1.apis.length (shown x.1 x.2)) := ⟨_, rfl⟩
    rw [← hE] at hr ⊢
    rw [encBlock_length] at hr
    have hEl : 2 ≤ E.length := by rw [hE, List.length_append, num16_length]; omega
    have hb : WAt 2 (n16 l.length ;; each (fun x => putOneAr x.1 x.2) l) E := by
      rw [hE]
      refine WAt.seq (puts_n16 _ _) ?_
      rw [num16_length]
      exact wat_mod (wat_each l (fun x hx => wat_oneAr (hs x hx) x.2) (fun x _ => encAr_length4 _ _ _)) rfl
    obtain ⟨hw1, hw2, hw3⟩ := hw
    obtain ⟨b1, w1, e1⟩ := writes_putBlockHeader true 0x0018 0 1 1 w hw1 (by rw [lh]; omega)
    rw [lh] at e1
    have l1 := writeAt_length w1
    obtain ⟨b2, w2, e2⟩ := hb { w with buf := b1, pos := w.pos + 6 } (by simp only; omega) hw2 (by simp only; omega) (by simp only; omega)
    simp only at w2
    have w12 : writeAt w.buf w.pos (encBlockHeader true ⟨0x0018, 0 + 2, 1, 1⟩ ++ E) = some b2 := by
      rw [← writeAt_append w1 (by rw [lh]; omega), lh]; exact w2
    have l2 := writeAt_length w12
    have hv : (BitVec.ofNat 16 (w.pos + 6 + E.length) - BitVec.ofNat 16 (w.pos + 4) : U16) = BitVec.ofNat 16 (E.length + 2) := by
      apply BitVec.eq_of_toNat_eq
      simp [BitVec.toNat_sub]
      omega
    obtain ⟨b3, w3, e3⟩ := writes_putU16 true (BitVec.ofNat 16 (E.length + 2)) ⟨b2, w.cap, w.pos + 2⟩ (by simp only; omega)
      (by rw [enc16_length]; simp only; omega)
    have w4 : writeAt w.buf w.pos (encBlock 0x0018 1 E) = some b3 := by
      have := writeAt_patch (a := enc16 true 0x0018) (o := enc16 true (0 + 2)) (n := enc16 true (BitVec.ofNat 16 (E.length + 2)))
        (c := [1, 1] ++ E) (l := w.buf) (x := b2) (off := w.pos) (by
          rw [← w12]; simp [encBlockHeader]) (by simp [enc16_length])
      rw [enc16_length] at this
      rw [← w3, this, encBlock_eq]
      simp [encBlockHeader]
    rw [e1]
    simp only [Option.bind_some]
    rw [e2]
    simp only [Option.bind_some]
    rw [if_pos (by omega), hv, e3]
    refine ⟨_, rfl, ?_⟩
    have := appends_of_writeAt (w := w) (by rw [encBlock_length]; omega) w4
    rw [encBlock_length] at this
    have e : w.pos + (E.length + 6) = w.pos + 6 + E.length := by omega
    rw [e] at this
    exact this

/-! ## Reading -/

theorem enc16_inj {a b : U16} (h : enc16 true a = enc16 true b) : a = b := by
  have ha := a.isLt
  have hb := b.isLt
  simp only [enc16, if_true, List.cons.injEq, and_true] at h
  have h1 := congrArg BitVec.toNat h.1
  have h2 := congrArg BitVec.toNat h.2
  simp only [BitVec.toNat_ofNat] at h1 h2
  apply BitVec.eq_of_toNat_eq
  omega

theorem enc32_inj {a b : U32} (h : enc32 true a = enc32 true b) : a = b := by
  have ha := a.isLt
  have hb := b.isLt
  simp only [enc32, if_true, List.cons.injEq, and_true] at h
  obtain ⟨h1, h2, h3, h4⟩ := h
  have h1 := congrArg BitVec.toNat h1
  have h2 := congrArg BitVec.toNat h2
  have h3 := congrArg BitVec.toNat h3
  have h4 := congrArg BitVec.toNat h4
  simp only [BitVec.toNat_ofNat] at h1 h2 h3 h4
  apply BitVec.eq_of_toNat_eq
  omega

theorem peel16 {a b : U16} {x y : List Byte} (h : enc16 true a ++ x = enc16 true b ++ y) : a = b ∧ x = y := by
  have := List.append_inj h (by simp [enc16_length])
  exact ⟨enc16_inj this.1, this.2⟩

theorem peel32 {a b : U32} {x y : List Byte} (h : enc32 true a ++ x = enc32 true b ++ y) : a = b ∧ x = y := by
  have := List.append_inj h (by simp [enc32_length])
  exact ⟨enc32_inj this.1, this.2⟩

theorem peelUuid {a b : Uuid} {x y : List Byte} (ha : a.d4.length = 8) (hb : b.d4.length = 8)
    (h : encUuid true a ++ x = encUuid true b ++ y) : a = b ∧ x = y := by
  unfold encUuid at h
  simp only [List.append_assoc] at h
  obtain ⟨h1, h⟩ := peel32 h
  obtain ⟨h2, h⟩ := peel16 h
  obtain ⟨h3, h⟩ := peel16 h
  obtain ⟨h4, h⟩ := List.append_inj h (by rw [ha, hb])
  refine ⟨?_, h⟩
  cases a; cases b
  simp_all

theorem peelNum {m n : Nat} (hm : m < 65536) (hn : n < 65536) {x y : List Byte} (h : num16 m ++ x = num16 n ++ y) : m = n ∧ x = y := by
  unfold num16 at h
  obtain ⟨h1, h2⟩ := peel16 h
  have := congrArg BitVec.toNat h1
  simp only [BitVec.toNat_ofNat] at this
  exact ⟨by omega, h2⟩

theorem props_inj {p q : ArProps} (p1 : p.state.toNat < 8) (p2 : p.prmServer.toNat < 2) (p3 : p.companion.toNat < 4)
    (q1 : q.state.toNat < 8) (q2 : q.prmServer.toNat < 2) (q3 : q.companion.toNat < 4) (h : props p = props q) : p = q := by
  unfold props at h
  have h := congrArg BitVec.toNat h
  simp only [BitVec.toNat_ofNat] at h
  have hb : ∀ b : Bool, b.toNat < 2 := by decide
  have hi : ∀ a b : Bool, a.toNat = b.toNat → a = b := by decide
  have a1 := hb p.takeover; have a2 := hb p.deviceAccess; have a3 := hb p.ackCompanion; have a4 := hb p.combined
  have a5 := hb p.startupMode; have a6 := hb p.pullModule
  have b1 := hb q.takeover; have b2 := hb q.deviceAccess; have b3 := hb q.ackCompanion; have b4 := hb q.combined
  have b5 := hb q.startupMode; have b6 := hb q.pullModule
  have k1 : p.state = q.state := BitVec.eq_of_toNat_eq (by omega)
  have k2 : p.prmServer = q.prmServer := BitVec.eq_of_toNat_eq (by omega)
  have k3 : p.companion = q.companion := BitVec.eq_of_toNat_eq (by omega)
  have k4 := hi p.takeover q.takeover (by omega)
  have k5 := hi p.deviceAccess q.deviceAccess (by omega)
  have k6 := hi p.ackCompanion q.ackCompanion (by omega)
  have k7 := hi p.combined q.combined (by omega)
  have k8 := hi p.startupMode q.startupMode (by omega)
  have k9 := hi p.pullModule q.pullModule (by omega)
  cases p; cases q
  simp_all

theorem peelIocr {c d : Iocr} {x y : List Byte}
    (k1 : if c.type = 1 ∨ c.type = 3 then c.cpmStatus = 0 else c.ppmStatus = 0)
    (k2 : if d.type = 1 ∨ d.type = 3 then d.cpmStatus = 0 else d.ppmStatus = 0)
    (h : encIocr c ++ x = encIocr d ++ y) : c = d ∧ x = y := by
  unfold encIocr at h
  simp only [List.append_assoc] at h
  obtain ⟨e1, h⟩ := peel32 h
  obtain ⟨e2, h⟩ := peel16 h
  obtain ⟨e3, h⟩ := peel16 h
  obtain ⟨_, h⟩ := peelNum (by omega) (by omega) h
  simp only [List.cons_append, List.nil_append, List.cons.injEq, true_and] at h
  obtain ⟨e4, h⟩ := h
  refine ⟨?_, h⟩
  cases c; cases d
  simp only at e1 e2 e3 e4 k1 k2
  subst e1 e2 e3
  split at e4 <;> simp_all

theorem peelIocrs : ∀ {l m : List Iocr} {x y : List Byte}, l.length = m.length →
    (∀ c ∈ l, if c.type = 1 ∨ c.type = 3 then c.cpmStatus = 0 else c.ppmStatus = 0) →
    (∀ c ∈ m, if c.type = 1 ∨ c.type = 3 then c.cpmStatus = 0 else c.ppmStatus = 0) →
    l.flatMap encIocr ++ x = m.flatMap encIocr ++ y → l = m ∧ x = y := by
  intro l
  induction l with
  | nil =>
    intro m x y hl _ _ h
    cases m with
    | nil => exact ⟨rfl, h⟩
    | cons _ _ => simp at hl
  | cons c l ih =>
    intro m x y hl h1 h2 h
    cases m with
    | nil => simp at hl
    | cons d m =>
      rw [List.flatMap_cons, List.flatMap_cons] at h
      rw [List.append_assoc, List.append_assoc] at h
      obtain ⟨e1, h⟩ := peelIocr (h1 c (by simp)) (h2 d (by simp)) h
      obtain ⟨e5, e6⟩ := ih (by simpa using hl) (fun c hc => h1 c (by simp [hc])) (fun c hc => h2 c (by simp [hc])) h
      exact ⟨by rw [e1, e5], e6⟩

theorem peelApis : ∀ {l m : List U32} {x y : List Byte}, l.length = m.length →
    l.flatMap (enc32 true) ++ x = m.flatMap (enc32 true) ++ y → l = m ∧ x = y := by
  intro l
  induction l with
  | nil =>
    intro m x y hl h
    cases m with
    | nil => exact ⟨rfl, h⟩
    | cons _ _ => simp at hl
  | cons c l ih =>
    intro m x y hl h
    cases m with
    | nil => simp at hl
    | cons d m =>
      rw [List.flatMap_cons, List.flatMap_cons] at h
      simp only [List.append_assoc] at h
      obtain ⟨e1, h⟩ := peel32 h
      obtain ⟨e5, e6⟩ := ih (by simpa using hl) h
      exact ⟨by rw [e1, e5], e6⟩

theorem peelAr {a b : Ar} (ha : Sound a) (hb : Sound b) {x y : List Byte}
    (h : encAr a a.apis.length a.apis ++ x = encAr b b.apis.length b.apis ++ y) : a = b ∧ x = y := by
  unfold encAr pad4 at h
  simp only [List.append_assoc] at h
  obtain ⟨e1, h⟩ := peelUuid ha.uuid hb.uuid h
  obtain ⟨e2, h⟩ := peelUuid ha.objUuid hb.objUuid h
  obtain ⟨e3, h⟩ := peelUuid ha.prmUuid hb.prmUuid h
  obtain ⟨e4, h⟩ := peel32 h
  obtain ⟨e5, h⟩ := peel16 h
  obtain ⟨e6, h⟩ := peel16 h
  obtain ⟨e7, h⟩ := peel16 h
  obtain ⟨e8, h⟩ := peel16 h
  obtain ⟨e9, h⟩ := peel16 h
  obtain ⟨e10, h⟩ := peel16 h
  obtain ⟨e11, h⟩ := peelNum ha.name hb.name h
  obtain ⟨e12, h⟩ := List.append_inj h e11
  have e4 := props_inj ha.state ha.prm ha.companion hb.state hb.prm hb.companion e4
  rw [e1, e2, e3, e4, e5, e6, e7, e8, e9, e10, e12] at h
  have h := List.append_cancel_left h
  obtain ⟨e13, h⟩ := peelNum ha.prmName hb.prmName h
  obtain ⟨e14, h⟩ := List.append_inj h e13
  rw [e14] at h
  have h := List.append_cancel_left h
  obtain ⟨e15, h⟩ := peelNum ha.iocrs hb.iocrs h
  rw [e15] at h
  have h := List.append_cancel_left h
  obtain ⟨e16, h⟩ := peelIocrs e15 ha.unused hb.unused h
  obtain ⟨e17, h⟩ := peelNum ha.apis hb.apis h
  rw [e17] at h
  have h := List.append_cancel_left h
  obtain ⟨e18, h⟩ := peelApis e17 h
  obtain ⟨e19, h⟩ := peelNum ha.info hb.info h
  rw [e19] at h
  have h := List.append_cancel_left h
  refine ⟨?_, h⟩
  cases a; cases b
  simp_all

theorem peelArs : ∀ {l m : List Ar}, (∀ a ∈ l, Sound a) → (∀ a ∈ m, Sound a) → l.length = m.length →
    (l.map fun a => encAr a a.apis.length a.apis).flatten = (m.map fun a => encAr a a.apis.length a.apis).flatten → l = m := by
  intro l
  induction l with
  | nil =>
    intro m _ _ hl h
    cases m with
    | nil => rfl
    | cons _ _ => simp at hl
  | cons c l ih =>
    intro m h1 h2 hl h
    cases m with
    | nil => simp at hl
    | cons d m =>
      rw [List.map_cons, List.map_cons, List.flatten_cons, List.flatten_cons] at h
      obtain ⟨e, h⟩ := peelAr (h1 c (by simp)) (h2 d (by simp)) h
      rw [e, ih (fun a ha => h1 a (by simp [ha])) (fun a ha => h2 a (by simp [ha])) (by simpa using hl) h]

end Verif.Records
