import Verif.Startup.Told
import Verif.Pdport.Ports
/-!
C162: at the end of parameterisation the device checks that it has a port that is fast enough.
Source: src/device/pf_cmdev.c (pf_cmdev_check_pdev), src/device/pf_pdport.c (status of the links).  The result of this check is `pdevOk` in `Verif.Startup`.
Not modelled: mutexes (each call is one step), log output.
-/
set_option linter.unusedVariables false
namespace Verif.Startup

open Verif.Pdport (Iter)
open Verif.Read (Result noResult)

/-! ## Model -/

/-- `pnal_eth_status_t` (src/pnal.h): the members in use, the type of the link (MAU type) as number. -/
structure Eth where
  running : Bool
  mau : Nat
deriving DecidableEq

/-- `eth_status` of each port by its number (from 1). -/
abbrev Links := Nat → Eth

/-- After `memset`. -/
def noLink : Eth := ⟨false, 0⟩

/-- A loop over the ports with pf_port_init_iterator_over_ports (src/device/pf_port.c:103-110) and pf_port_get_next (src/device/pf_port.c:112-133), as in
pf_pdport_update_eth_status (src/device/pf_pdport.c:1440-1474) and pf_pdport_is_a_fast_port_in_use (src/device/pf_pdport.c:244-286). `none`: the loop does not end within the given number of rounds. -/
def overPorts {σ : Type} (f : σ → Nat → σ) : Nat → Iter → σ → Option σ
  | 0, _, _ => none
  | k + 1, it, s => if it.getNext.1 = 0 then some s else overPorts f k it.getNext.2 (f s it.getNext.1)

/-- pf_pdport_update_eth_status (src/device/pf_pdport.c:1440-1474), called by the background worker. `hw`: what `pnal_eth_get_status` tells about a port, `none` if it fails. -/
def updateLinks (n : Nat) (hw : Nat → Option Eth) (l : Links) : Option Links :=
  overPorts (fun l p => fun q => if q = p then (hw p).getD noLink else l q) (n + 1) (Iter.init n) l

/-- pf_pdport_is_a_fast_port_in_use (src/device/pf_pdport.c:244-286) with pf_pdport_get_eth_status (src/device/pf_pdport.c:1500-1510); PNAL_ETH_MAU_COPPER_100BaseTX_FULL_DUPLEX is 16 (src/pnal.h:85-95).
pf_cmdev_check_pdev (src/device/pf_cmdev.c:1587-1590) returns 0 for `true`. -/
def fastPort (n : Nat) (l : Links) : Option Bool :=
  overPorts (fun b p => if 16 ≤ (l p).mau ∧ (l p).running = true then true else b) (n + 1) (Iter.init n) false

/-! ## Specification -/

/-- The kinds of links a port can have; `full`: full duplex. -/
inductive Link where
  | radio
  | copper10
  | copper100 (full : Bool)
  | copper1000 (full : Bool)
  | fiber100 (full : Bool)
  | fiber1000 (full : Bool)
deriving DecidableEq

/-- The numbers of the kinds (MAU types of IEEE 802.3, src/pnal.h:85-95). -/
def Link.code : Link → Nat
  | .radio => 0
  | .copper10 => 5
  | .copper100 false => 0x0F
  | .copper100 true => 0x10
  | .copper1000 false => 0x1D
  | .copper1000 true => 0x1E
  | .fiber100 false => 0x11
  | .fiber100 true => 0x12
  | .fiber1000 false => 0x15
  | .fiber1000 true => 0x16

/-- At least 100 Mbit/s, full duplex. -/
def Link.enough : Link → Bool
  | .radio => false
  | .copper10 => false
  | .copper100 full => full
  | .copper1000 full => full
  | .fiber100 full => full
  | .fiber1000 full => full

/-- A half duplex link of a kind other than copper with 100 Mbit/s. -/
def Link.oddHalf : Link → Bool
  | .copper1000 full => !full
  | .fiber100 full => !full
  | .fiber1000 full => !full
  | _ => false

/-- What the hardware tells about each port: nothing, or whether the link is up and its kind. -/
abbrev Hw := Nat → Option (Bool × Link)

def Hw.eth (hw : Hw) (p : Nat) : Option Eth := (hw p).map fun x => ⟨x.1, x.2.code⟩

/-- The state of the links after the background worker has looked at the hardware at the given times. -/
def afterPolls (n : Nat) (hs : List Hw) : Option Links :=
  hs.foldl (fun l hw => l.bind (updateLinks n hw.eth)) (some fun _ => noLink)

/-- Some port (of `n`) is up and fast enough. -/
def HasFast (n : Nat) (hw : Hw) : Prop := ∃ p link, 1 ≤ p ∧ p ≤ n ∧ hw p = some (true, link) ∧ link.enough = true

/-- The circumstances: an orderly run has brought connection `i` up, the controller ends the parameterisation with request `q`, and the application agrees. -/
structure Ending (app : App) (fc fr : Nat → Result → Bool × Result) (fd : Nat → Nat → Result → Bool × Result) (c : Cfg) (ops : List Op) (st : St) (i : Nat) (q : DcReq) : Prop where
  full : Full app fc fr fd
  run : exec c init ops = some st
  orderly : Run c (Orderly c) init ops
  new : New st i 1 q
  sess : (st.sess q.s).ar = some i
  access : (st.ars i).access = false
  started : phase i st.log = .started
  up : upOf i st.log = true
  agrees : (fd i 1 noResult).1 = true

/-- **C162** as the comment at pf_cmdev_check_pdev has it: the connection is kept exactly if a port is up now with at least 100 Mbit/s, full duplex. -/
def C162_statement : Prop :=
  ∀ app fc fr fd c ops st i q, Ending app fc fr fd c ops st i q → ∀ (n : Nat) (hs : List Hw) (l : Links) (now : Hw), 0 < n → hs ≠ [] →
    afterPolls n hs = some l → fastPort n l = some q.pdevOk →
    (upOf i (askDcontrol app c st q).1.log = true ↔ HasFast n now)

/-! ## The loops -/

theorem overPorts_calls {σ : Type} (f : σ → Nat → σ) : ∀ (l : List Nat) (k : Nat) (it : Iter) (s : σ) (rest : List Nat),
    Iter.calls k it = l ++ 0 :: rest → (∀ x ∈ l, x ≠ 0) → overPorts f k it s = some (l.foldl f s)
  | [], k, it, s, rest, h, _ => by
    cases k with
    | zero => simp [Iter.calls] at h
    | succ k =>
      simp only [Iter.calls, List.nil_append, List.cons.injEq] at h
      simp only [overPorts, if_pos h.1, List.foldl_nil]
  | x :: l, k, it, s, rest, h, hx => by
    cases k with
    | zero => simp [Iter.calls] at h
    | succ k =>
      simp only [Iter.calls, List.cons_append, List.cons.injEq] at h
      have h0 : it.getNext.1 ≠ 0 := by rw [h.1]; exact hx x (by simp)
      rw [overPorts, if_neg h0, overPorts_calls f l k _ _ rest h.2 (fun y hy => hx y (by simp [hy])), h.1]
      rfl

/-- Every port is visited once, in order, and the loop ends. -/
theorem overPorts_eq {σ : Type} (f : σ → Nat → σ) (n : Nat) (hn : 0 < n) (s : σ) :
    overPorts f (n + 1) (Iter.init n) s = some ((List.range' 1 n).foldl f s) := by
  refine overPorts_calls f _ _ _ _ [] ?_ ?_
  · have := Verif.Pdport.C86_each_once n 1 hn
    rw [this]; rfl
  · intro x hx
    simp [List.mem_range'_1] at hx
    omega

theorem foldl_set (g : Nat → Eth) : ∀ (ps : List Nat) (l : Links) (q : Nat),
    (ps.foldl (fun l p => fun q => if q = p then g p else l q) l) q = if q ∈ ps then g q else l q
  | [], l, q => by simp
  | p :: ps, l, q => by
    rw [List.foldl_cons, foldl_set g ps]
    by_cases h : q ∈ ps
    · simp [h]
    · by_cases e : q = p
      · subst e; simp [h]
      · simp [h, e]

theorem foldl_any (P : Nat → Prop) [DecidablePred P] : ∀ (ps : List Nat) (b : Bool),
    ps.foldl (fun b p => if P p then true else b) b = (b || ps.any fun p => decide (P p))
  | [], b => by simp
  | p :: ps, b => by
    rw [List.foldl_cons, foldl_any P ps, List.any_cons]
    by_cases h : P p <;> simp [h]

theorem mem_ports {n p : Nat} : p ∈ List.range' 1 n ↔ 1 ≤ p ∧ p ≤ n := by
  simp only [List.mem_range'_1]; omega

/-- The loops end, for any number of ports. -/
theorem C162_ends (n : Nat) (hn : 0 < n) (hs : List Hw) : ∃ l, afterPolls n hs = some l ∧ ∃ b, fastPort n l = some b := by
  have h : ∀ (hs : List Hw) (l : Links), ∃ l', hs.foldl (fun l hw => l.bind (updateLinks n hw.eth)) (some l) = some l' := by
    intro hs
    induction hs with
    | nil => intro l; exact ⟨l, rfl⟩
    | cons hw hs ih =>
      intro l
      rw [List.foldl_cons, Option.bind_some, updateLinks, overPorts_eq _ n hn]
      exact ih _
  obtain ⟨l, hl⟩ := h hs (fun _ => noLink)
  exact ⟨l, hl, _, overPorts_eq _ n hn _⟩

/-- After a look at the hardware, the state of each port is what the hardware told then (no link if it told nothing), whatever came before. -/
theorem afterPolls_last {n : Nat} (hn : 0 < n) {hs : List Hw} {hw : Hw} {l : Links} (h : afterPolls n (hs ++ [hw]) = some l) (p : Nat)
    (h1 : 1 ≤ p) (h2 : p ≤ n) : l p = (hw.eth p).getD noLink := by
  unfold afterPolls at h
  rw [List.foldl_append, List.foldl_cons, List.foldl_nil, Option.bind_eq_some_iff] at h
  obtain ⟨l0, _, h⟩ := h
  rw [updateLinks, overPorts_eq _ n hn, Option.some.injEq] at h
  rw [← h, foldl_set (fun p => (hw.eth p).getD noLink), if_pos (mem_ports.2 ⟨h1, h2⟩)]

/-- The check, exactly: at the last look at the hardware a port was up with a number of at least 16. -/
theorem fastPort_iff {n : Nat} (hn : 0 < n) {hs : List Hw} {hw : Hw} {l : Links} {b : Bool} (h : afterPolls n (hs ++ [hw]) = some l) (hb : fastPort n l = some b) :
    b = true ↔ ∃ p link, 1 ≤ p ∧ p ≤ n ∧ hw p = some (true, link) ∧ 16 ≤ link.code := by
  rw [fastPort, overPorts_eq _ n hn, foldl_any (fun p => 16 ≤ (l p).mau ∧ (l p).running = true), Bool.false_or, Option.some.injEq] at hb
  rw [← hb, List.any_eq_true]
  constructor
  · rintro ⟨p, hp, hd⟩
    obtain ⟨h1, h2⟩ := mem_ports.1 hp
    rw [decide_eq_true_eq, afterPolls_last hn h p h1 h2] at hd
    unfold Hw.eth at hd
    cases e : hw p with
    | none => rw [e] at hd; simp [noLink] at hd
    | some x =>
      obtain ⟨r, link⟩ := x
      rw [e] at hd
      simp only [Option.map_some, Option.getD_some] at hd
      obtain ⟨d1, rfl⟩ := hd
      exact ⟨p, link, h1, h2, e, d1⟩
  · rintro ⟨p, link, h1, h2, e, hc⟩
    refine ⟨p, mem_ports.2 ⟨h1, h2⟩, ?_⟩
    rw [decide_eq_true_eq, afterPolls_last hn h p h1 h2]
    unfold Hw.eth
    rw [e]
    exact ⟨hc, rfl⟩

theorem code_iff (link : Link) : 16 ≤ link.code ↔ link.enough = true ∨ link.oddHalf = true := by
  cases link with
  | radio => simp [Link.code, Link.enough, Link.oddHalf]
  | copper10 => simp [Link.code, Link.enough, Link.oddHalf]
  | copper100 f => cases f <;> simp [Link.code, Link.enough, Link.oddHalf]
  | copper1000 f => cases f <;> simp [Link.code, Link.enough, Link.oddHalf]
  | fiber100 f => cases f <;> simp [Link.code, Link.enough, Link.oddHalf]
  | fiber1000 f => cases f <;> simp [Link.code, Link.enough, Link.oddHalf]

/-! ## Theorems -/

/-- **C162**, exactly: for every orderly run and every history of the links, the connection is kept exactly if, when the background worker last looked, a port was up that has at
least 100 Mbit/s with full duplex or one of the half duplex links other than copper with 100 Mbit/s. -/
theorem C162_exact {app : App} {fc fr fd} {c : Cfg} {ops : List Op} {st : St} {i : Nat} {q : DcReq} (he : Ending app fc fr fd c ops st i q) {n : Nat} (hn : 0 < n)
    {hs : List Hw} {last : Hw} {l : Links} (hl : afterPolls n (hs ++ [last]) = some l) (hq : fastPort n l = some q.pdevOk) :
    upOf i (askDcontrol app c st q).1.log = true ↔
      ∃ p link, 1 ≤ p ∧ p ≤ n ∧ last p = some (true, link) ∧ (link.enough = true ∨ link.oddHalf = true) := by
  rw [(C161_dcontrol_partial he.full c ops st i q he.run he.orderly he.new he.sess he.access he.started he.up).2]
  simp only [he.agrees, true_and, fastPort_iff hn hl hq, code_iff]

/-- **C162**, the part that holds: if the links are as they were when the background worker last looked, and none of the half duplex links in question is up, the connection is kept exactly if a
port is up with at least 100 Mbit/s, full duplex. -/
theorem C162_partial {app : App} {fc fr fd} {c : Cfg} {ops : List Op} {st : St} {i : Nat} {q : DcReq} (he : Ending app fc fr fd c ops st i q) {n : Nat} (hn : 0 < n)
    {hs : List Hw} {now : Hw} {l : Links} (hl : afterPolls n (hs ++ [now]) = some l) (hq : fastPort n l = some q.pdevOk)
    (hodd : ∀ p link, now p = some (true, link) → link.oddHalf = false) :
    upOf i (askDcontrol app c st q).1.log = true ↔ HasFast n now := by
  rw [C162_exact he hn hl hq]
  unfold HasFast
  constructor
  · rintro ⟨p, link, h1, h2, h3, h4 | h4⟩
    · exact ⟨p, link, h1, h2, h3, h4⟩
    · rw [hodd p link h3] at h4; cases h4
  · rintro ⟨p, link, h1, h2, h3, h4⟩
    exact ⟨p, link, h1, h2, h3, .inl h4⟩

/-- Before the background worker has looked at the links, no connection is kept. -/
theorem C162_not_polled {app : App} {fc fr fd} {c : Cfg} {ops : List Op} {st : St} {i : Nat} {q : DcReq} (he : Ending app fc fr fd c ops st i q) {n : Nat} (hn : 0 < n)
    {l : Links} (hl : afterPolls n [] = some l) (hq : fastPort n l = some q.pdevOk) : upOf i (askDcontrol app c st q).1.log = false := by
  have e : q.pdevOk = false := by
    cases hl
    rw [fastPort, overPorts_eq _ n hn, foldl_any (fun p => 16 ≤ noLink.mau ∧ noLink.running = true), Bool.false_or, Option.some.injEq] at hq
    rw [← hq]
    simp [noLink]
  have := (C161_dcontrol_partial he.full c ops st i q he.run he.orderly he.new he.sess he.access he.started he.up).2
  cases h : upOf i (askDcontrol app c st q).1.log with
  | false => rfl
  | true => have := (this.1 h).2; rw [e] at this; cases this

/-- **C162** fails for half duplex links, every run: the connection is kept if one of these kinds is up on a port, even if every other port is slower or down. -/
theorem C162_fails_half {app : App} {fc fr fd} {c : Cfg} {ops : List Op} {st : St} {i : Nat} {q : DcReq} (he : Ending app fc fr fd c ops st i q) {n : Nat} (hn : 0 < n)
    {hs : List Hw} {l : Links} {link : Link} (hodd : link.oddHalf = true) {p : Nat} (h1 : 1 ≤ p) (h2 : p ≤ n) {last : Hw} (hp : last p = some (true, link))
    (hl : afterPolls n (hs ++ [last]) = some l) (hq : fastPort n l = some q.pdevOk) : upOf i (askDcontrol app c st q).1.log = true :=
  (C162_exact he hn hl hq).2 ⟨p, link, h1, h2, hp, .inr hodd⟩

/-- **C162** fails for links that have changed since the background worker last looked, every run: what the links are now makes no difference. -/
theorem C162_fails_old {app : App} {fc fr fd} {c : Cfg} {ops : List Op} {st : St} {i : Nat} {q : DcReq} (he : Ending app fc fr fd c ops st i q) {n : Nat} (hn : 0 < n)
    {hs : List Hw} {last : Hw} {l : Links} (hl : afterPolls n (hs ++ [last]) = some l) (hq : fastPort n l = some q.pdevOk) (hf : HasFast n last) :
    (upOf i (askDcontrol app c st q).1.log = true ∧ ¬ HasFast n (fun _ => none)) := by
  obtain ⟨p, link, h1, h2, h3, h4⟩ := hf
  refine ⟨(C162_exact he hn hl hq).2 ⟨p, link, h1, h2, h3, .inl h4⟩, ?_⟩
  rintro ⟨_, _, _, _, h, _⟩
  cases h

/-! ## Example -/

theorem take3_orderly : Run cfg1 (Orderly cfg1) init (goodOps.take 3) := by
  obtain ⟨_, _, h, _⟩ := C27_new_example
  exact h

/-- A run that meets the hypotheses. -/
theorem C162_ending : ∃ st, Ending demoApp (fun _ r => (true, r)) (fun _ r => (false, { r with status := ⟨0xDC, 0x81, 0xFF, 7⟩ })) (fun _ _ r => (true, r))
    cfg1 (goodOps.take 3) st 0 demoEnd := by
  obtain ⟨hf, _, ⟨st, h1, h2, h3, h4, h5, h6⟩, _⟩ := C161_example
  exact ⟨st, hf, h1, take3_orderly, h2, h3, h4, h5, h6, rfl⟩

/-- Two ports, the second with 1000 Mbit/s: accepted with full duplex, as `pdevOk` of `demoEnd`, and with half duplex; refused with 10 Mbit/s. -/
theorem C162_example :
    (∀ f, (afterPolls 2 [fun _ => none, fun p => if p = 2 then some (true, .copper1000 f) else none]).bind (fastPort 2) = some true) ∧
    (afterPolls 2 [fun _ => some (true, .copper1000 true), fun _ => some (true, .copper10)]).bind (fastPort 2) = some false := by
  refine ⟨fun f => ?_, rfl⟩
  cases f <;> rfl

/-- **C162** fails: the only link is one with 1000 Mbit/s, half duplex. -/
theorem C162_fails : ¬ C162_statement := fun hc => by
  obtain ⟨st, he⟩ := C162_ending
  obtain ⟨l, hl, b, hb⟩ := C162_ends 1 (by decide) ([] ++ [fun _ => some (true, .copper1000 false)])
  have hbt : b = true := (fastPort_iff (by decide) hl hb).2 ⟨1, .copper1000 false, by decide, by decide, rfl, by decide⟩
  subst hbt
  have h := (hc _ _ _ _ _ _ _ _ _ he 1 _ l (fun _ => some (true, .copper1000 false)) (by decide) (by simp) hl hb).1
    (C162_fails_half he (by decide) (link := .copper1000 false) rfl (p := 1) (by decide) (by decide) rfl hl hb)
  obtain ⟨p, link, _, _, h3, h4⟩ := h
  cases h3
  cases h4

end Verif.Startup
