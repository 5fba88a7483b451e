import Verif.Dcp.Ident
import Verif.Dcp.GetSet
import Verif.Cmina.Props
import Verif.Dcp.Props
/-! C126, C127: Hello messages. -/
set_option linter.unusedVariables false
set_option linter.unusedSimpArgs false

namespace Verif.Dcp
open Verif.Cmina (Dev Ip Defaults)

/-! ## Model -/

/-- The blocks in pf_dcp_hello_req (src/common/pf_dcp.c:1210-1386).  The five calls of pf_cmina_dcp_get_req succeed; `htonl` and `htons`
are applied.  Of `device_initiative` only the first byte is read. -/
def helloBlks (c : Cfg) (d : Dev) (tail : List Byte) : List Blk :=
  [⟨2, 2, some 0, (nameMem d tail).takeWhile (· ≠ 0)⟩, ⟨1, 2, some 0, encIp true d.cur.ip⟩, ⟨2, 3, some 0, c.devId.take 4⟩,
    ⟨2, 8, some 0, c.oemId.take 4⟩,
    ⟨6, 1, some 0, Wire.enc16 true (((Wire.enc16 (!c.le) (initiative c)).getD 0 0).setWidth 16)⟩]

/-- pf_dcp_hello_req (src/common/pf_dcp.c:1210-1386): the frame that is sent.  `alloc`: a buffer can be had. -/
def helloReq (c : Cfg) (alloc : Bool) (d : Dev) (tail : List Byte) : Option (Option (List Byte)) :=
  if alloc then
    (putAll [] (helloBlks c d tail)).map fun out =>
      some ([0x01, 0x0e, 0xcf, 0x00, 0x00, 0x01] ++ c.mac ++ [0x88, 0x92, 0xfe, 0xfc] ++ [6, 0] ++ [0, 0, 0, 1] ++ [0, 0] ++
        [BitVec.ofNat 8 (out.length / 256), BitVec.ofNat 8 out.length] ++ out)
  else some none

/-- `PF_CMINA_FS_HELLO_RETRY`, `PF_CMINA_FS_HELLO_INTERVAL` in microseconds (src/pf_types.h:1063-1065). -/
def helloRetry : Nat := 3
def helloInterval : BitVec 32 := 3000000

/-- The device with `cmina_hello_count` and the time at which the timer of the Hello messages is due (if `dev.hello`: it runs). -/
structure Greeter where
  dev : Dev
  count : Nat
  due : Nat

/-- What happens: something that the area Cmina knows, with the time and whether a timer can be started; or a run of
the timers. -/
inductive HOp where
  | cm (o : Cmina.Op) (now : Nat) (armed : Bool)
  | tick (now : Nat) (alloc armed : Bool) (tail : List Byte)

/-- pf_cmina_send_hello (src/device/pf_cmina.c:59-81), when its timer is due. -/
def sendHello (c : Cfg) (tick : BitVec 32) (g : Greeter) (now : Nat) (alloc armed : Bool) (tail : List Byte) :
    Option (Greeter × Option (List Byte)) :=
  if g.dev.st = .wConnect ∧ g.count > 0 then
    (helloReq c alloc g.dev tail).map fun f =>
      (⟨{ g.dev with hello := armed }, g.count - 1, now + (Scheduler.sanitizeDelay helloInterval tick).toNat⟩, f)
  else some (⟨{ g.dev with hello := false }, 0, g.due⟩, none)

/-- One step.  At start (pf_cmina_init, src/device/pf_cmina.c:451-578) the first message is due after the shortest delay. -/
def hstep (c : Cfg) (tick : BitVec 32) (g : Greeter) : HOp → Option (Greeter × Option (List Byte))
  | .cm o now armed =>
    let d := (Cmina.step c.defaults c.hello g.dev o).1
    if o = .power then
      some (⟨{ d with hello := d.hello && armed }, if d.st = .wConnect ∧ c.hello = true then helloRetry else 0,
        now + (Scheduler.sanitizeDelay 0 tick).toNat⟩, none)
    else some (⟨d, g.count, g.due⟩, none)
  | .tick now alloc armed tail =>
    if g.dev.hello = true ∧ g.due ≤ now then sendHello c tick g now alloc armed tail else some (g, none)

/-- The frames that are sent, with their times. -/
def hrun (c : Cfg) (tick : BitVec 32) : Greeter → List HOp → Option (Greeter × List (Nat × List Byte))
  | g, [] => some (g, [])
  | g, o :: os =>
    (hstep c tick g o).bind fun (g1, f) => (hrun c tick g1 os).map fun (g2, fs) =>
      (g2, (match o, f with | .tick now _ _ _, some x => [(now, x)] | _, _ => []) ++ fs)

/-! ## C126: contents -/

/-- The blocks of a Hello frame: station name, address, identity, OEM identity, initiative. -/
def helloData (c : Cfg) (d : Dev) : List Byte :=
  block 2 2 0 d.cur.name ++ block 1 2 0 (be32 d.cur.ip.addr ++ be32 d.cur.ip.mask ++ be32 d.cur.ip.gw) ++
    block 2 3 0 c.devId ++ block 2 8 0 c.oemId ++ block 6 1 0 [0, if c.le && c.hello then 1 else 0]

/-- The frame: to the multicast address for Hello, from the address of the device, frame id 0xFEFC, service Hello, request. -/
def helloFrame (c : Cfg) (data : List Byte) : List Byte :=
  [0x01, 0x0e, 0xcf, 0x00, 0x00, 0x01] ++ c.mac ++ [0x88, 0x92, 0xfe, 0xfc, 6, 0, 0, 0, 0, 1, 0, 0] ++ toBe16 data.length ++ data

theorem helloBlks_eq (c : Cfg) (d : Dev) (tail : List Byte) (h : Sane c d tail) :
    (helloBlks c d tail).flatMap encBlk = helloData c d := by
  have h2 : (nameMem d tail).takeWhile (· ≠ 0) = d.cur.name := by
    rw [nameMem_eq h]; exact takeWhile_zero _ _ h.name0
  have h3 : Wire.enc16 true (((Wire.enc16 (!c.le) (initiative c)).getD 0 0).setWidth 16) = [0, if c.le && c.hello then 1 else 0] := by
    unfold initiative Wire.enc16
    cases c.le <;> cases c.hello <;> rfl
  unfold helloBlks helloData
  rw [h2, h3, List.take_of_length_le (by rw [h.devId]), List.take_of_length_le (by rw [h.oemId])]
  simp only [List.flatMap_cons, List.flatMap_nil, encBlk_block, encIp_be, List.append_nil, List.append_assoc]
  rfl

theorem helloData_length (c : Cfg) (d : Dev) (tail : List Byte) (h : Sane c d tail) : (helloData c d).length ≤ 300 := by
  have := h.name
  have := h.devId
  have := h.oemId
  have hb : ∀ v, (be32 v).length = 4 := fun _ => rfl
  unfold helloData
  simp only [List.length_append, block_length, hb, List.length_cons, List.length_nil]
  omega

/-- C126, with what is missing: the frame says name, address, identity, OEM identity and (on a little-endian machine) the initiative.
Missing: that an address is set (C126_fails_info), and the role (C126_fails_role). -/
theorem C126_hello_partial (c : Cfg) (d : Dev) (tail : List Byte) (h : Sane c d tail) :
    helloReq c true d tail = some (some (helloFrame c (helloData c d))) := by
  have hl := helloData_length c d tail h
  unfold helloReq
  rw [if_pos rfl, putAll_fits _ [] rfl (by rw [helloBlks_eq c d tail h]; simp; omega), helloBlks_eq c d tail h]
  simp only [List.nil_append, Option.map_some, helloFrame, toBe16, List.append_assoc, List.cons_append]

/-- The answer to an Identify request says that the address is set (block info 1); the Hello frame of the same
device says that it is not (block info 0). -/
theorem C126_fails_info (c : Cfg) (d : Dev) (tail : List Byte) (h : Sane c d tail) (hip : d.cur.ip ≠ ⟨0, 0, 0⟩) (ali : Option (List Byte)) :
    (∃ r, identData c d ali = block 1 2 1 (be32 d.cur.ip.addr ++ be32 d.cur.ip.mask ++ be32 d.cur.ip.gw) ++ r) ∧
      ∃ pre post, helloReq c true d tail = some (some (pre ++
        block 1 2 0 (be32 d.cur.ip.addr ++ be32 d.cur.ip.mask ++ be32 d.cur.ip.gw) ++ post)) := by
  constructor
  · unfold identData
    rw [if_neg hip]
    simp only [List.append_assoc]
    exact ⟨_, rfl⟩
  · rw [C126_hello_partial c d tail h]
    unfold helloFrame helloData
    refine ⟨[0x01, 0x0e, 0xcf, 0x00, 0x00, 0x01] ++ c.mac ++ [0x88, 0x92, 0xfe, 0xfc, 6, 0, 0, 0, 0, 1, 0, 0] ++
      toBe16 (helloData c d).length ++ block 2 2 0 d.cur.name, block 2 3 0 c.devId ++ block 2 8 0 c.oemId ++
      block 6 1 0 [0, if c.le && c.hello then 1 else 0], ?_⟩
    simp only [List.append_assoc, helloData]

/-- No Hello frame has a block with the role of the device, whatever the settings are. -/
theorem C126_fails_role (c : Cfg) (d : Dev) (tail : List Byte) : (2, 4) ∉ (helloBlks c d tail).map fun b => (b.opt, b.sub) := by
  unfold helloBlks
  simp only [List.map_cons, List.map_nil]
  decide

/-- On a big-endian machine the frame says that no Hello messages are sent. -/
theorem C126_fails_endian (c : Cfg) (d : Dev) (tail : List Byte) (h : Sane c d tail) (hb : c.le = false) :
    ∃ pre, helloReq c true d tail = some (some (pre ++ block 6 1 0 [0, 0])) := by
  rw [C126_hello_partial c d tail h]
  unfold helloFrame helloData
  rw [hb]
  refine ⟨[0x01, 0x0e, 0xcf, 0x00, 0x00, 0x01] ++ c.mac ++ [0x88, 0x92, 0xfe, 0xfc, 6, 0, 0, 0, 0, 1, 0, 0] ++
      toBe16 (helloData c d).length ++ (block 2 2 0 d.cur.name ++ block 1 2 0 (be32 d.cur.ip.addr ++ be32 d.cur.ip.mask ++ be32 d.cur.ip.gw) ++
    block 2 3 0 c.devId ++ block 2 8 0 c.oemId), ?_⟩
  simp only [List.append_assoc, helloData, hb]
  rfl

/-! ## C127: when Hello messages are sent -/

/-- A block of a Set request that sets the station name or the address, or asks for a reset. -/
def Sets : HOp → Prop
  | .cm (.block opt sub _ len _) _ _ =>
    (opt = 2 ∧ sub = 2) ∨ (opt = 1 ∧ (sub = 2 ∨ sub = 3) ∧ len = 12) ∨ (opt = 5 ∧ (sub = 5 ∨ sub = 6))
  | _ => False

/-- The power is switched off and on. -/
def Power : HOp → Prop
  | .cm .power _ _ => True
  | _ => False

/-- Buffers and timers can be had. -/
def Works : HOp → Prop
  | .cm _ _ armed => armed = true
  | .tick _ alloc armed _ => alloc = true ∧ armed = true

theorem evaluate_hello (p : Cmina.Parsed) : (Cmina.evaluate p).1.hello = p.dev.hello := by
  unfold Cmina.evaluate
  dsimp only
  repeat' split
  all_goals rfl

theorem doCheck_hello (d : Dev) : (Cmina.doCheck d).hello = d.hello := by
  unfold Cmina.doCheck
  split <;> rfl

theorem finish_hello (c : Defaults) (p : Cmina.Parsed) : (Cmina.finish c p).1.hello = p.dev.hello := by
  unfold Cmina.finish
  split
  · dsimp only
    split
    · show (Cmina.doCheck (Cmina.evaluate p).1).hello = _
      rw [doCheck_hello, evaluate_hello]
    · show (Cmina.doCheck (Cmina.evaluate p).1).hello = _
      rw [doCheck_hello, evaluate_hello]
  · rfl

theorem parseIpPar_hello (d : Dev) (t : Bool) (v : Ip) : (Cmina.parseIpPar d t v).dev.hello = d.hello := by
  unfold Cmina.parseIpPar Cmina.refuse
  repeat' split
  all_goals rfl

theorem parseIpSuite_hello (d : Dev) (t : Bool) (v : Ip) : (Cmina.parseIpSuite d t v).dev.hello = d.hello := by
  unfold Cmina.parseIpSuite Cmina.refuse
  repeat' split
  all_goals rfl

theorem parseName_hello (d : Dev) (t : Bool) (n : Nat) (v : List Byte) : (Cmina.parseName d t n v).dev.hello = d.hello := by
  unfold Cmina.parseName Cmina.refuse
  repeat' split
  all_goals rfl

theorem setReq_hello (c : Defaults) (d : Dev) (gq : BitVec 16) (opt sub : Byte) (qual : BitVec 16) (len : Nat) (v : List Byte)
    (now : Nat) (armed : Bool) :
    (¬Sets (.cm (.block opt sub qual len v) now armed) ∧ (Cmina.setReq c d gq opt sub qual len v).dev = d) ∨
      (Sets (.cm (.block opt sub qual len v) now armed) ∧ (Cmina.setReq c d gq opt sub qual len v).dev.hello = false) := by
  unfold Cmina.setReq Sets
  dsimp only
  by_cases h1 : opt = 1
  · subst h1
    rw [if_pos rfl]
    by_cases h2 : sub = 2
    · subst h2
      rw [if_pos rfl]
      by_cases h3 : len = 12
      · rw [if_pos h3]
        exact .inr ⟨.inr (.inl ⟨rfl, .inl rfl, h3⟩), by
          show (Cmina.finish _ _).1.hello = false
          rw [finish_hello, parseIpPar_hello]; rfl⟩
      · rw [if_neg h3]
        exact .inl ⟨by simp [h3], rfl⟩
    · rw [if_neg h2]
      by_cases h4 : sub = 3
      · subst h4
        rw [if_pos rfl]
        by_cases h3 : len = 12
        · rw [if_pos h3]
          exact .inr ⟨.inr (.inl ⟨rfl, .inr rfl, h3⟩), by
            show (Cmina.finish _ _).1.hello = false
            rw [finish_hello, parseIpSuite_hello]; rfl⟩
        · rw [if_neg h3]
          exact .inl ⟨by simp [h3], rfl⟩
      · rw [if_neg h4]
        exact .inl ⟨by rintro (⟨a, b⟩ | ⟨a, b | b, l⟩ | ⟨a, b | b⟩) <;> first | contradiction | exact absurd a (by decide), rfl⟩
  · rw [if_neg h1]
    by_cases h2 : opt = 2
    · subst h2
      rw [if_pos rfl]
      by_cases h3 : sub = 2
      · subst h3
        rw [if_pos rfl]
        exact .inr ⟨.inl ⟨rfl, rfl⟩, by
          show (Cmina.finish _ _).1.hello = false
          rw [finish_hello, parseName_hello]; rfl⟩
      · rw [if_neg h3]
        exact .inl ⟨by rintro (⟨a, b⟩ | ⟨a, b | b, l⟩ | ⟨a, b | b⟩) <;> first | contradiction | exact absurd a (by decide), rfl⟩
    · rw [if_neg h2]
      by_cases h3 : opt = 3
      · subst h3
        rw [if_pos rfl]
        exact .inl ⟨by simp, rfl⟩
      · rw [if_neg h3]
        by_cases h4 : opt = 5
        · subst h4
          rw [if_pos rfl]
          by_cases k1 : sub = 1
          · rw [if_pos k1]
            exact .inl ⟨by simp [k1], rfl⟩
          · rw [if_neg k1]
            by_cases k2 : sub = 2
            · rw [if_pos k2]
              exact .inl ⟨by simp [k2], rfl⟩
            · rw [if_neg k2]
              by_cases k3 : sub = 3
              · rw [if_pos k3]
                exact .inl ⟨by simp [k3], rfl⟩
              · rw [if_neg k3]
                by_cases k4 : sub = 5
                · rw [if_pos k4]
                  exact .inr ⟨.inr (.inr ⟨rfl, .inl k4⟩), by
                    show (Cmina.finish _ _).1.hello = false
                    rw [finish_hello]; rfl⟩
                · rw [if_neg k4]
                  by_cases k5 : sub = 6
                  · rw [if_pos k5]
                    exact .inr ⟨.inr (.inr ⟨rfl, .inr k5⟩), by
                      show (Cmina.finish _ _).1.hello = false
                      rw [finish_hello]; rfl⟩
                  · rw [if_neg k5]
                    exact .inl ⟨by rintro (⟨a, b⟩ | ⟨a, b | b, l⟩ | ⟨a, b | b⟩) <;> first | contradiction | exact absurd a (by decide), rfl⟩
        · rw [if_neg h4]
          exact .inl ⟨by rintro (⟨a, b⟩ | ⟨a, b | b, l⟩ | ⟨a, b | b⟩) <;> first | contradiction | exact absurd a (by decide), rfl⟩

/-- The device has a name and an address, and Hello messages are wanted. -/
def Settled (c : Cfg) (d : Dev) : Prop := c.hello = true ∧ d.st = .wConnect ∧ d.cur.name ≠ [] ∧ d.cur.ip ≠ ⟨0, 0, 0⟩

theorem power_settled (c : Cfg) (d : Dev) : ((Cmina.step c.defaults c.hello d .power).1.hello = true →
      Settled c (Cmina.step c.defaults c.hello d .power).1) ∧
    ((Cmina.step c.defaults c.hello d .power).1.hello = true ↔ (Cmina.step c.defaults c.hello d .power).1.st = .wConnect ∧ c.hello = true) := by
  show ((Cmina.restart c.defaults c.hello d.file).1.hello = true → Settled c (Cmina.restart c.defaults c.hello d.file).1) ∧
    ((Cmina.restart c.defaults c.hello d.file).1.hello = true ↔ (Cmina.restart c.defaults c.hello d.file).1.st = .wConnect ∧ c.hello = true)
  unfold Cmina.restart Cmina.setCommit
  dsimp only
  generalize (Cmina.setDefault c.defaults ⟨.zero, .zero, .setup, false, d.file, false, 0, false⟩ 0).1 = d1
  unfold Cmina.startState Settled
  by_cases h1 : d1.cur.name = []
  · simp [h1]
    split <;> simp
  · by_cases h2 : d1.cur.ip = .zero
    · simp [h1, h2]
      split <;> simp
    · rw [if_neg h1, if_neg h2, if_neg (by decide)]
      exact ⟨fun h => ⟨by simpa using h, rfl, h1, h2⟩, by simp⟩

theorem step_hello (c : Cfg) (d : Dev) (o : Cmina.Op) (ho : o ≠ .power) (now : Nat) (armed : Bool) :
    (¬Sets (.cm o now armed) ∧ (Cmina.step c.defaults c.hello d o).1.hello = d.hello ∧ (Cmina.step c.defaults c.hello d o).1.st = d.st ∧
        (Cmina.step c.defaults c.hello d o).1.cur = d.cur) ∨
      (Sets (.cm o now armed) ∧ (Cmina.step c.defaults c.hello d o).1.hello = false) := by
  cases o with
  | block opt sub qual len v =>
    rcases setReq_hello c.defaults d 0 opt sub qual len v now armed with ⟨h, e⟩ | h
    · refine .inl ⟨h, ?_⟩
      show (Cmina.setReq _ _ _ _ _ _ _ _).dev.hello = _ ∧ (Cmina.setReq _ _ _ _ _ _ _ _).dev.st = _ ∧ (Cmina.setReq _ _ _ _ _ _ _ _).dev.cur = _
      rw [e]
      exact ⟨rfl, rfl, rfl⟩
    · exact .inr h
  | commit =>
    refine .inl ⟨fun h => h, ?_⟩
    show (Cmina.setCommit d).1.hello = _ ∧ (Cmina.setCommit d).1.st = _ ∧ (Cmina.setCommit d).1.cur = _
    unfold Cmina.setCommit
    split <;> exact ⟨rfl, rfl, rfl⟩
  | save =>
    refine .inl ⟨fun h => h, ?_⟩
    unfold Cmina.step
    dsimp only
    split <;> exact ⟨rfl, rfl, rfl⟩
  | «open» => exact .inl ⟨fun h => h, rfl, rfl, rfl⟩
  | close => exact .inl ⟨fun h => h, rfl, rfl, rfl⟩
  | power => exact absurd rfl ho

theorem helloReq_total (c : Cfg) (alloc : Bool) (d : Dev) (tail : List Byte) : ∃ f, helloReq c alloc d tail = some f ∧ (alloc = true → f.isSome = true) := by
  unfold helloReq
  cases alloc
  · exact ⟨none, rfl, fun h => nomatch h⟩
  · have : ∀ (bs : List Blk) (out : List Byte), OutOk out → ∃ o, putAll out bs = some o := by
      intro bs
      induction bs with
      | nil => intro out _; exact ⟨out, rfl⟩
      | cons b bs ih =>
        intro out ho
        obtain ⟨o, e, h⟩ := putBlk_total b ho.1 ho.2
        rw [putAll, e]
        exact ih o h
    obtain ⟨o, ho⟩ := this (helloBlks c d tail) [] ⟨by decide, rfl⟩
    rw [if_pos rfl, ho]
    exact ⟨_, rfl, fun _ => rfl⟩

/-- The time from one Hello message to the next. -/
def gap (tick : BitVec 32) : Nat := (Scheduler.sanitizeDelay helloInterval tick).toNat

/-- What holds after each step, with the frames sent since the start. -/
structure GInv (c : Cfg) (tick : BitVec 32) (g : Greeter) (fs : List (Nat × List Byte)) : Prop where
  settled : g.dev.hello = true → Settled c g.dev
  count : fs.length + g.count ≤ 3
  due : g.dev.hello = true → ∀ p ∈ fs, p.1 + gap tick ≤ g.due
  apart : fs.Pairwise fun p q => p.1 + gap tick ≤ q.1

/-- The frames of one step. -/
def shot (o : HOp) (f : Option (List Byte)) : List (Nat × List Byte) :=
  match o, f with
  | .tick now _ _ _, some x => [(now, x)]
  | _, _ => []

theorem hstep_inv (c : Cfg) (tick : BitVec 32) {g : Greeter} {fs : List (Nat × List Byte)} (h : GInv c tick g fs) (o : HOp) (ho : ¬Power o) :
    ∃ g1 f, hstep c tick g o = some (g1, f) ∧ GInv c tick g1 (fs ++ shot o f) := by
  cases o with
  | cm o now armed =>
    have hp : o ≠ .power := fun e => ho (by subst e; trivial)
    unfold hstep
    dsimp only
    rw [if_neg hp]
    refine ⟨_, _, rfl, ?_⟩
    show GInv c tick _ (fs ++ [])
    rw [List.append_nil]
    rcases step_hello c g.dev o hp now armed with ⟨-, e1, e2, e3⟩ | ⟨-, e⟩
    · refine ⟨?_, h.count, ?_, h.apart⟩
      · intro hh
        have := h.settled (e1.symm.trans hh)
        unfold Settled at this ⊢
        dsimp only
        rw [e2, e3]
        exact this
      · intro hh
        exact h.due (e1.symm.trans hh)
    · exact ⟨fun hh => absurd (e.symm.trans hh) (by decide), h.count, fun hh => absurd (e.symm.trans hh) (by decide), h.apart⟩
  | tick now alloc armed tail =>
    unfold hstep
    dsimp only
    by_cases c1 : g.dev.hello = true ∧ g.due ≤ now
    · rw [if_pos c1]
      unfold sendHello
      by_cases c2 : g.dev.st = .wConnect ∧ g.count > 0
      · rw [if_pos c2]
        obtain ⟨f, ef, -⟩ := helloReq_total c alloc g.dev tail
        rw [ef]
        refine ⟨_, _, rfl, ?_⟩
        have hs := h.settled c1.1
        have hc := h.count
        have key : ∀ p ∈ fs ++ shot (.tick now alloc armed tail) f, p.1 + gap tick ≤ now + gap tick := by
          intro p hp
          rcases List.mem_append.mp hp with hp | hp
          · have := h.due c1.1 p hp
            omega
          · cases f with
            | none => cases hp
            | some x =>
              simp only [shot, List.mem_cons, List.not_mem_nil, or_false] at hp
              rw [hp]
        refine ⟨fun _ => hs, ?_, fun _ => key, ?_⟩
        · cases f with
          | none => show (fs ++ []).length + (g.count - 1) ≤ 3; rw [List.append_nil]; omega
          | some x => show (fs ++ [(now, x)]).length + (g.count - 1) ≤ 3; rw [List.length_append, List.length_singleton]; omega
        · cases f with
          | none => show (fs ++ []).Pairwise _; rw [List.append_nil]; exact h.apart
          | some x =>
            show (fs ++ [(now, x)]).Pairwise _
            rw [List.pairwise_append]
            refine ⟨h.apart, List.pairwise_singleton _ _, ?_⟩
            intro p hp q hq
            simp only [List.mem_cons, List.not_mem_nil, or_false] at hq
            rw [hq]
            have := h.due c1.1 p hp
            show p.1 + gap tick ≤ now
            omega
      · rw [if_neg c2]
        refine ⟨_, _, rfl, ?_⟩
        show GInv c tick _ (fs ++ [])
        rw [List.append_nil]
        exact ⟨(nomatch ·), by have := h.count; show fs.length + 0 ≤ 3; omega, (nomatch ·), h.apart⟩
    · rw [if_neg c1]
      refine ⟨_, _, rfl, ?_⟩
      show GInv c tick _ (fs ++ [])
      rw [List.append_nil]
      exact h

theorem hrun_inv (c : Cfg) (tick : BitVec 32) (os : List HOp) : ∀ {g : Greeter} {fs : List (Nat × List Byte)}, GInv c tick g fs →
    (∀ o ∈ os, ¬Power o) → ∃ g1 fs1, hrun c tick g os = some (g1, fs1) ∧ GInv c tick g1 (fs ++ fs1) := by
  induction os with
  | nil => intro g fs h _; exact ⟨g, [], rfl, by rw [List.append_nil]; exact h⟩
  | cons o os ih =>
    intro g fs h ho
    obtain ⟨g1, f, e, h1⟩ := hstep_inv c tick h o (ho o (by simp))
    obtain ⟨g2, fs2, e2, h2⟩ := ih h1 fun x hx => ho x (by simp [hx])
    refine ⟨g2, shot o f ++ fs2, ?_, by rw [← List.append_assoc]; exact h2⟩
    rw [hrun, e, Option.bind_some]
    dsimp only
    rw [e2, Option.map_some]
    cases o <;> cases f <;> rfl

/-- The device after the power was switched on at `now`. -/
def booted (c : Cfg) (tick : BitVec 32) (g : Greeter) (now : Nat) (armed : Bool) : Greeter :=
  let d := (Cmina.step c.defaults c.hello g.dev .power).1
  ⟨{ d with hello := d.hello && armed }, if d.st = .wConnect ∧ c.hello = true then helloRetry else 0,
    now + (Scheduler.sanitizeDelay 0 tick).toNat⟩

theorem booted_inv (c : Cfg) (tick : BitVec 32) (g : Greeter) (now : Nat) (armed : Bool) : GInv c tick (booted c tick g now armed) [] := by
  refine ⟨?_, ?_, fun _ p h => absurd h List.not_mem_nil, List.Pairwise.nil⟩
  · intro h
    have h' : ((Cmina.step c.defaults c.hello g.dev .power).1.hello && armed) = true := h
    rw [Bool.and_eq_true] at h'
    exact (power_settled c g.dev).1 h'.1
  · show 0 + (if _ then helloRetry else 0) ≤ 3
    split
    · decide
    · decide

theorem hrun_boot (c : Cfg) (tick : BitVec 32) (g : Greeter) (now : Nat) (armed : Bool) (os : List HOp) :
    hrun c tick g (.cm .power now armed :: os) = hrun c tick (booted c tick g now armed) os := by
  rw [hrun]
  show (some (booted c tick g now armed, none)).bind _ = _
  rw [Option.bind_some]
  dsimp only
  cases hrun c tick (booted c tick g now armed) os with
  | none => rfl
  | some x => rfl

/-- C127 (number and distance): from one start to the next, at most three Hello messages are sent, with at least the interval in
between. -/
theorem C127_at_most (c : Cfg) (tick : BitVec 32) (g : Greeter) (now : Nat) (armed : Bool) (os : List HOp) (ho : ∀ o ∈ os, ¬Power o) :
    ∃ g1 fs, hrun c tick g (.cm .power now armed :: os) = some (g1, fs) ∧ fs.length ≤ 3 ∧
      fs.Pairwise fun p q => p.1 + gap tick ≤ q.1 := by
  rw [hrun_boot]
  obtain ⟨g1, fs, e, h⟩ := hrun_inv c tick os (booted_inv c tick g now armed) ho
  rw [List.nil_append] at h
  exact ⟨g1, fs, e, by have := h.count; omega, h.apart⟩

/-- C127 (what is said): if a run of the timers sends a frame, then the configuration asks for Hello messages, the device has a name and an
address, and the frame says what they are at that time. -/
theorem C127_says (c : Cfg) (tick : BitVec 32) (g : Greeter) (now : Nat) (armed : Bool) (os : List HOp) (ho : ∀ o ∈ os, ¬Power o)
    {t : Nat} {alloc armed' : Bool} {tail : List Byte} :
    ∃ g1 fs g2 f, hrun c tick g (.cm .power now armed :: os) = some (g1, fs) ∧ hstep c tick g1 (.tick t alloc armed' tail) = some (g2, f) ∧
      ∀ x, f = some x → c.hello = true ∧ g1.dev.cur.name ≠ [] ∧ g1.dev.cur.ip ≠ ⟨0, 0, 0⟩ ∧
        (Sane c g1.dev tail → x = helloFrame c (helloData c g1.dev)) := by
  rw [hrun_boot]
  obtain ⟨g1, fs, e, h⟩ := hrun_inv c tick os (booted_inv c tick g now armed) ho
  obtain ⟨g2, f, e2, -⟩ := hstep_inv c tick h (.tick t alloc armed' tail) (fun h => h)
  refine ⟨g1, fs, g2, f, e, e2, ?_⟩
  intro x hx
  subst hx
  unfold hstep at e2
  dsimp only at e2
  split at e2
  · rename_i c1
    have hs := h.settled c1.1
    refine ⟨hs.1, hs.2.2.1, hs.2.2.2, fun hsane => ?_⟩
    unfold sendHello at e2
    split at e2
    · cases alloc with
      | false => simp [helloReq] at e2
      | true =>
        rw [C126_hello_partial c g1.dev tail hsane, Option.map_some] at e2
        simp only [Option.some.injEq, Prod.mk.injEq] at e2
        exact e2.2.symm
    · simp at e2
  · simp at e2

theorem hrun_quiet (c : Cfg) (tick : BitVec 32) (os : List HOp) : ∀ {g : Greeter}, g.dev.hello = false → (∀ o ∈ os, ¬Power o) →
    ∃ g1, hrun c tick g os = some (g1, []) := by
  induction os with
  | nil => intro g _ _; exact ⟨g, rfl⟩
  | cons o os ih =>
    intro g h ho
    have key : ∃ g1, hstep c tick g o = some (g1, none) ∧ g1.dev.hello = false := by
      cases o with
      | cm o now armed =>
        have hp : o ≠ .power := fun e => ho (.cm o now armed) (by simp) (by subst e; trivial)
        unfold hstep
        dsimp only
        rw [if_neg hp]
        refine ⟨_, rfl, ?_⟩
        rcases step_hello c g.dev o hp now armed with ⟨-, e1, -⟩ | ⟨-, e⟩
        · exact e1.trans h
        · exact e
      | tick now alloc armed tail =>
        unfold hstep
        dsimp only
        rw [if_neg (by rw [h]; exact fun x => nomatch x.1)]
        exact ⟨g, rfl, h⟩
    obtain ⟨g1, e1, h1⟩ := key
    obtain ⟨g2, e2⟩ := ih h1 fun x hx => ho x (by simp [hx])
    refine ⟨g2, ?_⟩
    rw [hrun, e1, Option.bind_some]
    dsimp only
    rw [e2, Option.map_some]
    cases o <;> rfl

/-- C127 (end): after a request to set the name or the address, or to reset, no Hello message is sent until the next start. -/
theorem C127_stops (c : Cfg) (tick : BitVec 32) (g : Greeter) (o : HOp) (hs : Sets o) (os : List HOp) (ho : ∀ o ∈ os, ¬Power o) :
    ∃ g1, hrun c tick g (o :: os) = some (g1, []) := by
  cases o with
  | tick => cases hs
  | cm o now armed =>
    have hp : o ≠ .power := by rintro rfl; cases hs
    rw [hrun]
    unfold hstep
    dsimp only
    rw [if_neg hp, Option.bind_some]
    dsimp only
    rcases step_hello c g.dev o hp now armed with ⟨hn, -⟩ | ⟨-, e⟩
    · exact absurd hs hn
    · obtain ⟨g1, e1⟩ := hrun_quiet c tick os (g := ⟨(Cmina.step c.defaults c.hello g.dev o).1, g.count, g.due⟩) e ho
      rw [e1]
      exact ⟨g1, rfl⟩

/-- Messages go on: with `n` of them sent the count is what is left, and the next is due when it should be. -/
structure Goes (tick : BitVec 32) (start : Nat) (g : Greeter) (fs : List (Nat × List Byte)) : Prop where
  st : g.dev.st = .wConnect
  count : fs.length + g.count = 3
  hello : fs.length < 3 → g.dev.hello = true
  due : g.due = match fs.getLast? with | none => start | some p => p.1 + gap tick

theorem hstep_goes (c : Cfg) (tick : BitVec 32) {start : Nat} {g : Greeter} {fs : List (Nat × List Byte)} (h : Goes tick start g fs) (o : HOp)
    (ho : ¬Power o) (hs : ¬Sets o) (hw : Works o) :
    ∃ g1 f, hstep c tick g o = some (g1, f) ∧ (f = none → Goes tick start g1 fs) ∧
      ∀ x, f = some x → Goes tick start g1 (fs ++ shot o f) := by
  cases o with
  | cm o now armed =>
    have hp : o ≠ .power := fun e => ho (by subst e; trivial)
    unfold hstep
    dsimp only
    rw [if_neg hp]
    refine ⟨_, _, rfl, fun _ => ?_, fun x hx => nomatch hx⟩
    rcases step_hello c g.dev o hp now armed with ⟨-, e1, e2, e3⟩ | ⟨e, -⟩
    · exact ⟨e2.trans h.st, h.count, fun hl => e1.trans (h.hello hl), h.due⟩
    · exact absurd e hs
  | tick now alloc armed tail =>
    obtain ⟨ha, hr⟩ := hw
    subst ha hr
    unfold hstep
    dsimp only
    by_cases c1 : g.dev.hello = true ∧ g.due ≤ now
    · rw [if_pos c1]
      unfold sendHello
      by_cases c2 : g.dev.st = .wConnect ∧ g.count > 0
      · rw [if_pos c2]
        obtain ⟨f, ef, hf⟩ := helloReq_total c true g.dev tail
        rw [ef]
        refine ⟨_, _, rfl, ?_, ?_⟩
        · intro e
          have := hf rfl
          rw [e] at this
          cases this
        · intro x e
          subst e
          have hc := h.count
          refine ⟨h.st, ?_, fun _ => rfl, ?_⟩
          · show (fs ++ [(now, x)]).length + (g.count - 1) = 3
            rw [List.length_append, List.length_singleton]
            omega
          · show now + gap tick = match (fs ++ [(now, x)]).getLast? with | none => start | some p => p.1 + gap tick
            rw [List.getLast?_append]
            rfl
      · rw [if_neg c2]
        refine ⟨_, _, rfl, fun _ => ?_, fun x hx => nomatch hx⟩
        have hc := h.count
        have h0 : g.count = 0 := by
          rcases Nat.eq_zero_or_pos g.count with h0 | h0
          · exact h0
          · exact absurd ⟨h.st, h0⟩ c2
        exact ⟨h.st, by show fs.length + 0 = 3; omega, fun hl => by omega, h.due⟩
    · rw [if_neg c1]
      exact ⟨_, _, rfl, fun _ => h, fun x hx => nomatch hx⟩

theorem hrun_goes (c : Cfg) (tick : BitVec 32) {start : Nat} (os : List HOp) : ∀ {g : Greeter} {fs : List (Nat × List Byte)}, Goes tick start g fs →
    (∀ o ∈ os, ¬Power o ∧ ¬Sets o ∧ Works o) → ∃ g1 fs1, hrun c tick g os = some (g1, fs1) ∧ Goes tick start g1 (fs ++ fs1) := by
  induction os with
  | nil => intro g fs h _; exact ⟨g, [], rfl, by rw [List.append_nil]; exact h⟩
  | cons o os ih =>
    intro g fs h ho
    obtain ⟨k1, k2, k3⟩ := ho o (by simp)
    obtain ⟨g1, f, e, h1, h1'⟩ := hstep_goes c tick h o k1 k2 k3
    have hg : Goes tick start g1 (fs ++ shot o f) := by
      cases f with
      | none =>
        have : shot o none = [] := by cases o <;> rfl
        rw [this, List.append_nil]
        exact h1 rfl
      | some x => exact h1' x rfl
    obtain ⟨g2, fs2, e2, h2⟩ := ih hg fun x hx => ho x (by simp [hx])
    refine ⟨g2, shot o f ++ fs2, ?_, by rw [← List.append_assoc]; exact h2⟩
    rw [hrun, e, Option.bind_some]
    dsimp only
    rw [e2, Option.map_some]
    cases o <;> cases f <;> rfl

/-- C127 (three messages): a device that starts with a name, an address and Hello messages wanted goes on sending until there have been
three, if nothing is set by DCP and buffers and timers can be had: with fewer than three, every run of the timers sends one if it comes
when the next is due, which is the shortest delay after the start or the interval after the last one. -/
theorem C127_goes_on (c : Cfg) (tick : BitVec 32) (g : Greeter) (now : Nat) (os : List HOp)
    (hs : Settled c (Cmina.step c.defaults c.hello g.dev .power).1) (ho : ∀ o ∈ os, ¬Power o ∧ ¬Sets o ∧ Works o) {t : Nat} {tail : List Byte} :
    ∃ g1 fs, hrun c tick g (.cm .power now true :: os) = some (g1, fs) ∧
      (fs.length < 3 → (match fs.getLast? with | none => now + (Scheduler.sanitizeDelay 0 tick).toNat | some p => p.1 + gap tick) ≤ t →
        ∃ g2 x, hstep c tick g1 (.tick t true true tail) = some (g2, some x)) := by
  rw [hrun_boot]
  have hb : Goes tick (now + (Scheduler.sanitizeDelay 0 tick).toNat) (booted c tick g now true) [] := by
    refine ⟨hs.2.1, ?_, fun _ => ?_, rfl⟩
    · show 0 + (if _ then helloRetry else 0) = 3
      rw [if_pos ⟨hs.2.1, hs.1⟩]
      rfl
    · show ((Cmina.step c.defaults c.hello g.dev .power).1.hello && true) = true
      rw [Bool.and_true]
      exact (power_settled c g.dev).2.mpr ⟨hs.2.1, hs.1⟩
  obtain ⟨g1, fs, e, h⟩ := hrun_goes c tick os hb ho
  rw [List.nil_append] at h
  refine ⟨g1, fs, e, fun hl ht => ?_⟩
  rw [← h.due] at ht
  obtain ⟨f, ef, hf⟩ := helloReq_total c true g1.dev tail
  obtain ⟨x, hx⟩ := Option.isSome_iff_exists.mp (hf rfl)
  subst hx
  unfold hstep
  dsimp only
  rw [if_pos ⟨h.hello hl, ht⟩]
  unfold sendHello
  rw [if_pos ⟨h.st, by have := h.count; omega⟩, ef]
  exact ⟨_, x, rfl⟩

/-! ## Examples -/

def exHello : Cfg := { exCfg with hello := true }
def exTail : List Byte := List.replicate 238 0
def exOff : Greeter := ⟨Cmina.exDev, 0, 0⟩

/-- C126 and C127 in a concrete case: the hypotheses hold for the example device; four runs of the timers after a start give three
messages; a name set after the first ends them. -/
theorem C127_example :
    Settled exHello (Cmina.step exHello.defaults exHello.hello exOff.dev .power).1 ∧
    Sane exHello (booted exHello 1000 exOff 0 true).dev exTail ∧
    (hrun exHello 1000 exOff [.cm .power 0 true, .tick 5000000 true true exTail, .tick 5001000 true true exTail,
      .tick 9000000 true true exTail, .tick 13000000 true true exTail, .tick 17000000 true true exTail]).map (·.2.map (·.1)) =
      some [5000000, 9000000, 13000000] ∧
    (hrun exHello 1000 exOff [.cm .power 0 true, .tick 5000000 true true exTail, .cm (.block 2 2 1 2 [0x64, 0x32]) 6000000 true,
      .tick 9000000 true true exTail]).map (·.2.map (·.1)) = some [5000000] ∧
    gap 1000 = 2999500 := by
  refine ⟨⟨rfl, by decide +kernel, by decide +kernel, by decide +kernel⟩, ?_, by decide +kernel, by decide +kernel, by decide +kernel⟩
  constructor <;> decide +kernel

end Verif.Dcp
