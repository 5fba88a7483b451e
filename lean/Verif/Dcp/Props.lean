import Verif.Dcp.Identify
/-!
C38, C40, C52, C75: where they fail, and examples.  C76: what was set is reported.
-/
set_option linter.unusedVariables false
set_option linter.unusedSimpArgs false

namespace Verif.Dcp

open Cmina (Dev Ip Ev optIp optProps optDhcp optControl optInitiative optAll subIpMac subIpPar subIpSuite subVendor
  subName subId subRole subOptions subAlias subInstance subOemId subGateway errOption errSuboption)

/-! ## Frames in memory -/

/-- Memory that starts with `l` and goes on with zeros. -/
def memOf (l : List Byte) : Mem := fun i => some (l.getD i 0)

/-- A frame without VLAN tag; the frame id is at position 14. -/
def frame (dst src : List Byte) (id : Byte) (svc : Byte) (xid : List Byte) (dly : Nat) (data : List Byte) : List Byte :=
  dst ++ src ++ [0x88, 0x92, 0xfe, id] ++ ([svc, 0] ++ xid ++ toBe16 dly ++ toBe16 data.length) ++ data

theorem memOf_at (a b rest : List Byte) : At (memOf (a ++ b ++ rest)) a.length b := by
  intro k hk
  unfold memOf
  rw [List.getD_eq_getElem?_getD, List.append_assoc, List.getElem?_append_right (by omega),
    show a.length + k - a.length = k by omega, List.getElem?_append_left hk]
  rw [List.getElem?_eq_getElem hk]; rfl

theorem memOf_def (l : List Byte) (n : Nat) : Def (memOf l) n := fun i _ => ⟨_, rfl⟩

/-- Every such frame meets the hypotheses of the theorems about Get and Set. -/
theorem frame_isReq (c : Cfg) (hc : Good c) (src : List Byte) (id svc : Byte) (xid data rest : List Byte)
    (h1 : src.length = 6) (h2 : xid.length = 4) (h3 : data.length ≤ 60000) :
    IsReq c (memOf (frame c.mac src id svc xid 0 data ++ rest)) (26 + data.length) 14 src svc xid data := by
  have h6 := hc.1
  refine ⟨0, toBe16 0, ?_, ?_, ?_, ?_, h1, h2, rfl, by omega, by omega, memOf_def _ _⟩
  · have := memOf_at [] c.mac (src ++ [0x88, 0x92, 0xfe, id] ++ ([svc, 0] ++ xid ++ toBe16 0 ++ toBe16 data.length) ++ data ++ rest)
    unfold frame; simpa using this
  · have := memOf_at c.mac src ([0x88, 0x92, 0xfe, id] ++ ([svc, 0] ++ xid ++ toBe16 0 ++ toBe16 data.length) ++ data ++ rest)
    rw [h6] at this
    unfold frame; simpa using this
  · have := memOf_at (c.mac ++ src ++ [0x88, 0x92, 0xfe, id]) ([svc, 0] ++ xid ++ toBe16 0 ++ toBe16 data.length) (data ++ rest)
    rw [show (c.mac ++ src ++ [0x88, 0x92, 0xfe, id]).length = 14 + 2 by simp [h6, h1]] at this
    unfold frame; simpa using this
  · have := memOf_at (c.mac ++ src ++ [0x88, 0x92, 0xfe, id] ++ ([svc, 0] ++ xid ++ toBe16 0 ++ toBe16 data.length)) data rest
    rw [show (c.mac ++ src ++ [0x88, 0x92, 0xfe, id] ++ ([svc, 0] ++ xid ++ toBe16 0 ++ toBe16 data.length)).length = 14 + 12
      by simp [h6, h1, h2, toBe16]] at this
    unfold frame; simpa using this

/-- Every such frame meets the hypotheses of the theorems about Identify. -/
theorem frame_isIdent (dst src : List Byte) (id svc : Byte) (xid data rest : List Byte) (dly : Nat) (hd : dly < 65536)
    (h6 : dst.length = 6) (h1 : src.length = 6) (h2 : xid.length = 4) (h3 : data.length ≤ 60000) :
    IsIdent (memOf (frame dst src id svc xid dly data ++ rest)) (26 + data.length) 14 src svc xid dly data := by
  refine ⟨0, ?_, ?_, ?_, h1, h2, hd, by omega, by omega, memOf_def _ _⟩
  · have := memOf_at dst src ([0x88, 0x92, 0xfe, id] ++ ([svc, 0] ++ xid ++ toBe16 dly ++ toBe16 data.length) ++ data ++ rest)
    rw [h6] at this
    unfold frame; simpa using this
  · have := memOf_at (dst ++ src ++ [0x88, 0x92, 0xfe, id]) ([svc, 0] ++ xid ++ toBe16 dly ++ toBe16 data.length) (data ++ rest)
    rw [show (dst ++ src ++ [0x88, 0x92, 0xfe, id]).length = 14 + 2 by simp [h6, h1]] at this
    unfold frame; simpa using this
  · have := memOf_at (dst ++ src ++ [0x88, 0x92, 0xfe, id] ++ ([svc, 0] ++ xid ++ toBe16 dly ++ toBe16 data.length)) data rest
    rw [show (dst ++ src ++ [0x88, 0x92, 0xfe, id] ++ ([svc, 0] ++ xid ++ toBe16 dly ++ toBe16 data.length)).length = 14 + 12
      by simp [h6, h1, h2, toBe16]] at this
    unfold frame; simpa using this

/-! ## Example device -/

def exCfg : Cfg := ⟨Cmina.exDefaults, [2, 0, 0, 0, 0, 1], [0x70, 0x6e], [0, 1, 0, 2], [0, 0, 0, 3], false, true⟩
def exNet : Net := ⟨Cmina.exDev, 0, macNil, none, false⟩
def exEnv (now : Nat) : Env := ⟨now, 1000, true, true, [[0x61]], List.replicate 238 0⟩
/-- Two stations. -/
def stA : List Byte := [2, 0, 0, 0, 0, 10]
def stB : List Byte := [2, 0, 0, 0, 0, 11]
def exXid : List Byte := [0, 0, 0, 7]

theorem exGood : Good exCfg := ⟨rfl, by decide⟩

theorem exSane : Sane exCfg exNet.dev (exEnv 0).nameTail := by
  constructor <;> decide +kernel

/-! ## C52 -/

/-- C52, example: two options are asked for, one of them unknown; two blocks come back. -/
theorem C52_example :
    (getSet exCfg (exEnv 0) exNet (memOf (frame exCfg.mac stA 0xfd 3 exXid 0 [2, 2, 9, 9])) 30 14).map (·.2.resp) =
      some (some (response exCfg stA 3 1 exXid ([2, 2, 0, 4, 0, 0, 0x64, 0x31] ++ [5, 4, 0, 3, 9, 9, 1, 0]))) := by
  decide +kernel

/-- C52 fails: a block of a Set request with length 0 has no qualifier; the two bytes behind the DCP data are taken.  The
two frames are the same up to the end of the data (and of the frame), and the result is different: a reset to factory
with the mode 1 keeps the name, with the mode 2 it is gone. -/
theorem C52_fails_outside :
    let data : List Byte := [5, 6, 0, 0]
    let a := memOf (frame exCfg.mac stA 0xfd 4 exXid 0 data ++ [0, 2])
    let b := memOf (frame exCfg.mac stA 0xfd 4 exXid 0 data ++ [0, 4])
    IsReq exCfg a 30 14 stA 4 exXid data ∧ IsReq exCfg b 30 14 stA 4 exXid data ∧
    (∀ i, i < 30 → a i = b i) ∧
    (getSet exCfg (exEnv 0) exNet a 30 14).map (·.1.dev.cur.name) = some [0x64, 0x31] ∧
    (getSet exCfg (exEnv 0) exNet b 30 14).map (·.1.dev.cur.name) = some [] := by
  refine ⟨frame_isReq exCfg exGood stA _ _ _ _ _ rfl rfl (by decide), frame_isReq exCfg exGood stA _ _ _ _ _ rfl rfl (by decide),
    by decide +kernel, by decide +kernel, by decide +kernel⟩

/-- C52 fails: Get of any number of Control, All and alias name options is answered without any block. -/
theorem C52_fails_control (c : Cfg) (hc : Good c) (e : Env) (n : Net) (m : Mem) (len pos : Nat) (src xid : List Byte)
    (os : List (Byte × Byte)) (h : IsReq c m len pos src 3 xid (os.flatMap fun o => [o.1, o.2])) (ha : e.alloc = true)
    (hsam : n.sam = macNil ∨ n.sam = src) (ho : ∀ o ∈ os, o.1 = 5 ∨ o.1 = 0xff ∨ o = (2, 6)) :
    ∃ n', getSet c e n m len pos = some (n', ⟨some (response c src 3 1 xid []), [], false⟩) := by
  obtain ⟨hdr, h1, h2, h3⟩ := getSet_serve c hc e n m len pos src 3 xid _ h ha hsam
  obtain ⟨typ, dly, _, _, _, h4, _, _, _, h8, h9, h10⟩ := h
  have hl2 : (os.flatMap fun o => [o.1, o.2]).length = 2 * os.length := by
    rw [List.length_flatMap]; simp; omega
  have hnone : (os.filterMap fun o => getBlk c n.dev e.nameTail o.1 o.2 false none) = [] := by
    rw [List.filterMap_eq_nil_iff]
    intro o hoo
    rcases ho o hoo with h | h | h
    · rw [h]; rfl
    · rw [h]; rfl
    · rw [h]; rfl
  rw [h1]
  unfold serve
  rw [if_neg (by rw [h2]; decide), if_pos h2]
  rw [hl2] at h8
  rw [getLoop_blocks c n.dev e.nameTail m _ (by rw [hl2]; omega) os getSetFuel (pos + 12) [] h4 (by rw [hl2])
    (by unfold getSetFuel; omega) rfl, hnone]
  show ∃ n', Option.bind (some []) _ = _
  rw [Option.bind_some, h3]
  exact ⟨_, rfl⟩

theorem carry_length (c : Cfg) (rs : List SReq) : ∀ x, (carry c x rs).2.1.length = rs.length := by
  induction rs with
  | nil => intro x; rfl
  | cons r rs ih => intro x; rw [carry, List.length_cons, List.length_cons, ih]

theorem carry_each (c : Cfg) (rs : List SReq) : ∀ x, ∀ a ∈ (carry c x rs).2.1, a.length = 8 := by
  induction rs with
  | nil => intro x a ha; simp [carry] at ha
  | cons r rs ih =>
    intro x a ha
    rw [carry] at ha
    rcases List.mem_cons.mp ha with rfl | ha
    · rfl
    · exact ih _ a ha

/-- C52 fails: of more than 184 blocks of a Set request all are carried out, 184 are answered. -/
theorem C52_fails_dropped (c : Cfg) (hc : Good c) (e : Env) (n : Net) (m : Mem) (len pos : Nat) (src xid : List Byte)
    (rs : List SReq) (h : IsReq c m len pos src 4 xid (rs.flatMap SReq.enc)) (hp : pos % 2 = 0) (ha : e.alloc = true)
    (hsam : n.sam = macNil ∨ n.sam = src) (hmany : 184 < rs.length) :
    ∃ n' o f, getSet c e n m len pos = some (n', o) ∧ n'.dev = (Cmina.setCommit (carry c (n.dev, n.gq) rs).1.1).1 ∧
      o.resp = some f ∧ f.length = 26 + 184 * 8 := by
  obtain ⟨n', h1, h2, _⟩ := C52_set_partial c hc e n m len pos src xid rs h hp ha hsam
  obtain ⟨typ, dly, _, _, _, _, h5, h6, _⟩ := h
  refine ⟨n', _, _, h1, h2, rfl, ?_⟩
  have hfl : ∀ l : List (List Byte), (∀ a ∈ l, a.length = 8) → l.flatten.length = l.length * 8 := by
    intro l
    induction l with
    | nil => intro _; rfl
    | cons a t ih =>
      intro hl
      rw [List.flatten_cons, List.length_append, ih (fun x hx => hl x (List.mem_cons_of_mem _ hx)), hl a (by simp),
        List.length_cons]
      omega
  unfold response toBe16
  simp only [List.length_append, List.length_cons, List.length_nil, hc.1, h5, h6]
  rw [hfl _ (fun a ha => carry_each c rs _ a (List.mem_of_mem_take ha)), List.length_take, carry_length]
  omega

theorem putAll_append (a b : List Blk) : ∀ out, putAll out (a ++ b) = (putAll out a).bind fun o => putAll o b := by
  induction a with
  | nil => intro out; rfl
  | cons x t ih =>
    intro out
    rw [List.cons_append, putAll, putAll]
    cases putBlk out x with
    | none => rfl
    | some o => exact ih o

/-- C52 fails: if the name has 240 bytes and is asked for six times, the sixth block has a header that announces the
name, and no value. -/
theorem C52_fails_truncated (c : Cfg) (hc : Good c) (e : Env) (n : Net) (m : Mem) (len pos : Nat) (src xid : List Byte)
    (h : IsReq c m len pos src 3 xid [2, 2, 2, 2, 2, 2, 2, 2, 2, 2, 2, 2]) (ha : e.alloc = true)
    (hsam : n.sam = macNil ∨ n.sam = src) (hs : Sane c n.dev e.nameTail) (h240 : n.dev.cur.name.length = 240) :
    let b := block 2 2 0 n.dev.cur.name
    ∃ n', getSet c e n m len pos =
      some (n', ⟨some (response c src 3 1 xid (b ++ b ++ b ++ b ++ b ++ [2, 2, 0, 242, 0, 0])), [], false⟩) := by
  intro b
  obtain ⟨hdr, h1, h2, h3⟩ := getSet_serve c hc e n m len pos src 3 xid _ h ha hsam
  obtain ⟨typ, dly, _, _, _, h4, _, _, _, h8, h9, h10⟩ := h
  have hname : getBlk c n.dev e.nameTail 2 2 false none = some ⟨2, 2, some 0, n.dev.cur.name⟩ := by
    have : (nameMem n.dev e.nameTail).takeWhile (· ≠ 0) = n.dev.cur.name := by
      rw [nameMem_eq hs]; exact takeWhile_zero _ _ hs.name0
    rw [← this]; rfl
  have hb : encBlk ⟨2, 2, some 0, n.dev.cur.name⟩ = b := encBlk_block _ _ _ _
  have hbl : b.length = 246 := by show (block _ _ _ _).length = _; rw [block_length, h240]
  rw [h1]
  unfold serve
  rw [if_neg (by rw [h2]; decide), if_pos h2]
  have h8' : pos + 12 + 12 ≤ len := h8
  have hl : ([2, 2, 2, 2, 2, 2, 2, 2, 2, 2, 2, 2] : List Byte).length = 12 := rfl
  rw [hl, getLoop_blocks c n.dev e.nameTail m (pos + 12 + 12) (by omega)
    [(2, 2), (2, 2), (2, 2), (2, 2), (2, 2), (2, 2)] getSetFuel (pos + 12) [] h4 rfl (by decide) rfl]
  simp only [List.filterMap_cons, hname, List.filterMap_nil]
  rw [show ([⟨2, 2, some 0, n.dev.cur.name⟩, ⟨2, 2, some 0, n.dev.cur.name⟩, ⟨2, 2, some 0, n.dev.cur.name⟩,
      ⟨2, 2, some 0, n.dev.cur.name⟩, ⟨2, 2, some 0, n.dev.cur.name⟩, ⟨2, 2, some 0, n.dev.cur.name⟩] : List Blk) =
      [⟨2, 2, some 0, n.dev.cur.name⟩, ⟨2, 2, some 0, n.dev.cur.name⟩, ⟨2, 2, some 0, n.dev.cur.name⟩,
      ⟨2, 2, some 0, n.dev.cur.name⟩, ⟨2, 2, some 0, n.dev.cur.name⟩] ++ [⟨2, 2, some 0, n.dev.cur.name⟩] from rfl,
    putAll_append, putAll_fits _ [] rfl (by
      simp only [List.flatMap_cons, List.flatMap_nil, hb, List.length_append, hbl, List.length_nil]; omega)]
  rw [Option.bind_some]
  simp only [List.flatMap_cons, List.flatMap_nil, hb, List.nil_append, List.append_nil]
  obtain ⟨out, hout⟩ : ∃ x, x = b ++ (b ++ (b ++ (b ++ b))) := ⟨_, rfl⟩
  rw [← hout]
  have hol : out.length = 1230 := by rw [hout]; simp [hbl]
  have hput : putBlk out ⟨2, 2, some 0, n.dev.cur.name⟩ = some (out ++ [2, 2, 0, 242, 0, 0]) := by
    unfold putBlk
    dsimp only
    rw [if_neg (by omega)]
    rw [if_neg (by intro h; rw [h] at h240; simp at h240)]
    have hlen : Blk.len ⟨2, 2, some 0, n.dev.cur.name⟩ = 242 := by unfold Blk.len; simp [h240]
    rw [hlen]
    have hi : putInfo (app (app (app (app out [2]) [2]) [BitVec.ofNat 8 (242 / 256)]) [BitVec.ofNat 8 242]) (some 0) =
        out ++ [2, 2, 0, 242, 0, 0] := by
      unfold putInfo
      dsimp only
      have step : ∀ (l : List Byte) (x : Byte), l.length < 6 → app (out ++ l) [x] = out ++ (l ++ [x]) := by
        intro l x hl
        rw [app_fits (by simp; omega), List.append_assoc]
      have h0 : app out [2] = out ++ [2] := app_fits (by simp; omega)
      rw [h0, step _ _ (by simp), step _ _ (by simp), step _ _ (by simp), step _ _ (by simp), step _ _ (by simp)]
      rfl
    rw [hi, app_skip (by simp; omega)]
    unfold pad
    rw [if_pos (by simp; omega)]
  show ∃ n', ((putAll out [_]).bind _) = _
  rw [putAll, hput, Option.bind_some, putAll, Option.bind_some, h3, hout]
  unfold response
  simp only [List.append_assoc]
  exact ⟨_, rfl⟩

/-! ## C38 -/

/-- C38, example: station A asks, station B is ignored within three seconds and served afterwards. -/
theorem C38_example :
    let fa := memOf (frame exCfg.mac stA 0xfd 3 exXid 0 [2, 2])
    let fb := memOf (frame exCfg.mac stB 0xfd 3 exXid 0 [2, 2])
    ((run exCfg exNet [.frame (exEnv 0) fa 28 14, .tick 2990000]).bind fun n =>
      getSet exCfg (exEnv 2990000) n fb 28 14).map (·.2.resp) = some none ∧
    ((run exCfg exNet [.frame (exEnv 0) fa 28 14, .tick 2990000]).bind fun n =>
      getSet exCfg (exEnv 2990000) n fa 28 14).map (·.2.resp.isSome) = some true ∧
    ((run exCfg exNet [.frame (exEnv 0) fa 28 14, .tick 3000000]).bind fun n =>
      getSet exCfg (exEnv 3000000) n fb 28 14).map (·.2.resp.isSome) = some true := by
  refine ⟨by decide +kernel, by decide +kernel, by decide +kernel⟩

/-! ## C40 -/

/-- What makes a list of filters be answered. -/
def Answered (c : Cfg) (e : Env) (n : Net) (m : Mem) (len pos : Nat) : Prop :=
  ∃ n' l, identify c e n m len pos = some (n', some l)

def NotAnswered (c : Cfg) (e : Env) (n : Net) (m : Mem) (len pos : Nat) : Prop :=
  ∃ n', identify c e n m len pos = some (n', none)

/-- C40 fails: a request without any filter is answered. -/
theorem C40_fails_empty (c : Cfg) (e : Env) (n : Net) (m : Mem) (len pos : Nat) (src : List Byte) (svc : Byte)
    (xid : List Byte) (dly : Nat) (h : IsIdent m len pos src svc xid dly []) (hp : pos % 2 = 0) (hable : Able e n)
    (hs : Sane c n.dev e.nameTail) : Answered c e n m len pos := by
  have := identify_run c e n m len pos src svc xid dly [] h hp hable.1 hable.2.2 hable.2.1 hs (by simp)
  unfold Answered
  rw [this]
  exact ⟨_, _, rfl⟩

/-- C40 fails: a first filter that is longer than the data is not looked at, and the request is answered; here for a
station name of any length that is announced. -/
theorem C40_fails_overlong (c : Cfg) (e : Env) (n : Net) (m : Mem) (len pos : Nat) (src : List Byte) (svc : Byte)
    (xid : List Byte) (dly k : Nat) (hk : 0 < k) (hk2 : k < 65536)
    (h : IsIdent m len pos src svc xid dly ([2, 2] ++ toBe16 k)) (hable : Able e n)
    (hs : Sane c n.dev e.nameTail) : Answered c e n m len pos := by
  have h' := h
  obtain ⟨typ, h2, h3, h4, h5, h6, h7, h8, h9, h10⟩ := h
  have hr : rd16 m (pos + 12 + 2) = some k := rd16_at hk2 (At.append.mp h4).2
  have h8 : pos + 12 + 4 ≤ len := h8
  have hl : idLoop c e n.dev m (pos + 12 + 4) getSetFuel (pos + 12) idStart = some idStart := by
    show idLoop c e n.dev m _ (65536 + 1) _ _ = _
    unfold idLoop
    rw [hr, Option.bind_some]
    dsimp only
    rw [Nat.mod_eq_of_lt (by omega : pos + 12 + 4 < 65536), if_neg (by omega)]
  have := identify_loop c e n m len pos src svc xid dly _ h' hable.1 hable.2.2 hable.2.1 hs idStart hl (by decide)
  unfold Answered
  rw [this]
  exact ⟨_, _, rfl⟩

theorem two_filters (c : Cfg) (e : Env) (n : Net) (m : Mem) (len pos : Nat) (src : List Byte) (svc : Byte)
    (xid : List Byte) (dly : Nat) (f : FReq) (hf : ¬ (f.opt = 2 ∧ f.sub = 2))
    (h : IsIdent m len pos src svc xid dly ([⟨2, 2, n.dev.cur.name⟩, f].flatMap FReq.enc)) (hp : pos % 2 = 0)
    (hable : Able e n) (hs : Sane c n.dev e.nameTail)
    (hno : ¬ ((idStep c e n.dev f ⟨false, true, true, true, [], false⟩).ok = true ∧
      (idStep c e n.dev f ⟨false, true, true, true, [], false⟩).isMatch = true)) : NotAnswered c e n m len pos := by
  have hfit : ∀ g ∈ [⟨2, 2, n.dev.cur.name⟩, f], NameFits n.dev e.nameTail g := by
    intro g hg
    rcases List.mem_cons.mp hg with rfl | hg
    · intro _ _
      have := hs.tail
      rw [nameMem_eq hs]; simp
    · rcases List.mem_cons.mp hg with rfl | hg
      · intro a b; exact absurd ⟨a, b⟩ hf
      · cases hg
  have := identify_run c e n m len pos src svc xid dly _ h hp hable.1 hable.2.2 hable.2.1 hs hfit
  have hpl : Plain c ⟨2, 2, n.dev.cur.name⟩ :=
    ⟨by simp, by simp, by simp, by simp, fun _ _ => ⟨hs.name, hs.name0⟩, by simp⟩
  have e1 : idRun c e n.dev [⟨2, 2, n.dev.cur.name⟩, f] idStart =
      { idStep c e n.dev f ⟨false, true, true, true, [], false⟩ with first := false } := by
    rw [idRun, if_pos ⟨rfl, Or.inl rfl⟩, idStep_name c e n.dev _ _ hs hpl rfl rfl, if_pos rfl]
    rw [idRun, if_pos ⟨rfl, Or.inr ⟨rfl, rfl⟩⟩]
    rfl
  unfold NotAnswered
  rw [this, e1]
  dsimp only
  rw [if_neg hno]
  exact ⟨_, rfl⟩

/-- The station name of the device and one more filter. -/
def withName (n : Net) (f : FReq) : List Byte := [⟨2, 2, n.dev.cur.name⟩, f].flatMap FReq.enc

/-- C40 fails on a little-endian machine for the address: the filter with the address that the device reports is not
answered, unless the address looks the same in both byte orders. -/
theorem C40_fails_ip (c : Cfg) (hle : c.le = true) (e : Env) (n : Net) (m : Mem) (len pos : Nat) (src : List Byte)
    (svc : Byte) (xid : List Byte) (dly : Nat) (f : FReq) (h1 : f.opt = 1) (h2 : f.sub = 2)
    (h3 : f.value = be32 n.dev.cur.ip.addr ++ be32 n.dev.cur.ip.mask ++ be32 n.dev.cur.ip.gw)
    (hdiff : be32 n.dev.cur.ip.addr ≠ (be32 n.dev.cur.ip.addr).reverse)
    (h : IsIdent m len pos src svc xid dly (withName n f)) (hp : pos % 2 = 0)
    (hable : Able e n) (hs : Sane c n.dev e.nameTail) :
    Matches c e.aliases n.dev f ∧ NotAnswered c e n m len pos := by
  refine ⟨by simp [Matches, h1, h2, h3], ?_⟩
  refine two_filters c e n m len pos src svc xid dly f (by simp [h1]) h hp hable hs ?_
  have hc := compared_of c e n.dev f (encIp (!c.le) n.dev.cur.ip) (encIp (!c.le) n.dev.cur.ip)
    (by rw [h1, h2, show (encIp (!c.le) n.dev.cur.ip).length = 12 by rw [hle]; rfl]; rfl)
    List.take_length (Or.inl ⟨h1, Or.inr h2⟩) (by simp [h1])
  rw [hc, if_pos rfl]
  have hv : f.value ≠ encIp (!c.le) n.dev.cur.ip := by
    rw [h3, hle]
    intro hh
    apply hdiff
    have : (be32 n.dev.cur.ip.addr ++ be32 n.dev.cur.ip.mask ++ be32 n.dev.cur.ip.gw).take 4 =
        (encIp (!true) n.dev.cur.ip).take 4 := by rw [hh]
    have e2 : (encIp (!true) n.dev.cur.ip).take 4 = (Wire.enc32 true n.dev.cur.ip.addr).reverse := rfl
    rw [e2, enc32_be] at this
    exact this
  simp [hv]

/-- C40 fails for the vendor: a filter with the text that the device reports is not answered if the text has fewer than
25 bytes. -/
theorem C40_fails_vendor (c : Cfg) (e : Env) (n : Net) (m : Mem) (len pos : Nat) (src : List Byte)
    (svc : Byte) (xid : List Byte) (dly : Nat) (f : FReq) (h1 : f.opt = 2) (h2 : f.sub = 1) (h3 : f.value = c.product)
    (hlen : c.product.length < 25) (h : IsIdent m len pos src svc xid dly (withName n f)) (hp : pos % 2 = 0)
    (hable : Able e n) (hs : Sane c n.dev e.nameTail) :
    Matches c e.aliases n.dev f ∧ NotAnswered c e n m len pos := by
  refine ⟨by simp [Matches, h1, h2, h3], ?_⟩
  refine two_filters c e n m len pos src svc xid dly f (by simp [h1, h2]) h hp hable hs ?_
  have hg : got c n.dev e.nameTail f.opt f.sub = .val 25 (c.product ++ List.replicate (26 - c.product.length) 0) := by
    rw [h1, h2]; rfl
  unfold idStep
  rw [hg]
  dsimp only
  rw [if_neg (by simp [h1, h2]), if_pos (Or.inr h1), if_pos rfl]
  have hne : ¬ c.product.length = 25 := by omega
  simp [h3, hne]

/-- C40 fails for the role: the filter with the two bytes that the specification gives is not answered. -/
theorem C40_fails_role (c : Cfg) (e : Env) (n : Net) (m : Mem) (len pos : Nat) (src : List Byte)
    (svc : Byte) (xid : List Byte) (dly : Nat) (f : FReq) (h1 : f.opt = 2) (h2 : f.sub = 4) (h3 : f.value = [1, 0])
    (h : IsIdent m len pos src svc xid dly (withName n f)) (hp : pos % 2 = 0)
    (hable : Able e n) (hs : Sane c n.dev e.nameTail) :
    Matches c e.aliases n.dev f ∧ NotAnswered c e n m len pos := by
  refine ⟨by simp [Matches, h1, h2, h3], ?_⟩
  refine two_filters c e n m len pos src svc xid dly f (by simp [h1, h2]) h hp hable hs ?_
  have hg : got c n.dev e.nameTail f.opt f.sub = .val 1 (1 :: Wire.enc16 (!c.le) (initiative c)) := by
    rw [h1, h2]; rfl
  unfold idStep
  rw [hg]
  dsimp only
  rw [if_neg (by simp [h1, h2]), if_pos (Or.inr h1), if_pos rfl]
  simp [h3]

/-- C40 fails for the options: no filter of this kind is answered. -/
theorem C40_fails_options (c : Cfg) (e : Env) (n : Net) (m : Mem) (len pos : Nat) (src : List Byte)
    (svc : Byte) (xid : List Byte) (dly : Nat) (f : FReq) (h1 : f.opt = 2) (h2 : f.sub = 5)
    (h : IsIdent m len pos src svc xid dly (withName n f)) (hp : pos % 2 = 0)
    (hable : Able e n) (hs : Sane c n.dev e.nameTail) : NotAnswered c e n m len pos := by
  refine two_filters c e n m len pos src svc xid dly f (by simp [h1, h2]) h hp hable hs ?_
  have hg : got c n.dev e.nameTail f.opt f.sub = .err errSuboption := by
    rw [h1, h2]; rfl
  unfold idStep
  rw [hg]
  dsimp only
  rw [if_neg (by simp [h1, h2])]
  simp

/-- C40 fails: a filter with the station name and a zero byte behind it is answered if the array with the name has another
zero behind the terminator. -/
theorem C40_fails_zero (c : Cfg) (e : Env) (n : Net) (m : Mem) (len pos : Nat) (src : List Byte)
    (svc : Byte) (xid : List Byte) (dly : Nat) (t : List Byte) (ht : e.nameTail = 0 :: t)
    (h : IsIdent m len pos src svc xid dly ([⟨2, 2, n.dev.cur.name ++ [0]⟩].flatMap FReq.enc)) (hp : pos % 2 = 0)
    (hable : Able e n) (hs : Sane c n.dev e.nameTail) :
    ¬ Matches c e.aliases n.dev ⟨2, 2, n.dev.cur.name ++ [0]⟩ ∧ Answered c e n m len pos := by
  refine ⟨by simp [Matches], ?_⟩
  have htl := hs.tail
  have hmem : nameMem n.dev e.nameTail = n.dev.cur.name ++ [0] ++ 0 :: t := by rw [nameMem_eq hs, ht]; simp
  have := identify_run c e n m len pos src svc xid dly _ h hp hable.1 hable.2.2 hable.2.1 hs (by
    intro g hg
    simp only [List.mem_singleton] at hg
    subst hg
    intro _ _
    rw [hmem]; simp)
  have e1 : idRun c e n.dev [⟨2, 2, n.dev.cur.name ++ [0]⟩] idStart = ⟨false, true, true, true, [], false⟩ := by
    rw [idRun, if_pos ⟨rfl, Or.inl rfl⟩, idRun]
    unfold idStep
    dsimp only
    rw [got_name]
    dsimp only
    rw [if_pos ⟨rfl, rfl⟩, hmem, if_pos]
    · rfl
    · refine ⟨(List.take_left' rfl).symm, ?_⟩
      rw [List.getD_eq_getElem?_getD, List.getElem?_append_right (Nat.le_refl _), Nat.sub_self]; rfl
  unfold Answered
  rw [this, e1]
  exact ⟨_, _, rfl⟩

/-- C40 fails: a filter with a station name of 241 or more bytes makes the code read behind the array with the name. -/
theorem C40_fails_long (c : Cfg) (e : Env) (n : Net) (m : Mem) (len pos : Nat) (src : List Byte)
    (svc : Byte) (xid : List Byte) (dly : Nat) (v : List Byte) (hv : 241 ≤ v.length)
    (h : IsIdent m len pos src svc xid dly ([⟨2, 2, v⟩].flatMap FReq.enc)) (hp : pos % 2 = 0)
    (hable : Able e n) (hs : Sane c n.dev e.nameTail) : identify c e n m len pos = none := by
  obtain ⟨typ, h2, h3, h4, h5, h6, h7, h8, h9, h10⟩ := h
  obtain ⟨data, hdata⟩ : ∃ x, x = [(⟨2, 2, v⟩ : FReq)].flatMap FReq.enc := ⟨_, rfl⟩
  have hdl : data.length = 4 + v.length + v.length % 2 := by
    rw [hdata, List.flatMap_cons, List.length_append, FReq.enc_length]; simp
  rw [← hdata] at h3 h4 h8
  obtain ⟨x0, x1, x2, x3, rfl⟩ : ∃ a b c d, xid = [a, b, c, d] := by
    match xid, h6 with
    | [a, b, c, d], _ => exact ⟨a, b, c, d, rfl⟩
  have hlen : data.length < 65536 := by omega
  have h3' : At m (pos + 2) [svc, typ, x0, x1, x2, x3, BitVec.ofNat 8 (dly / 256), BitVec.ofNat 8 dly,
    BitVec.ofNat 8 (data.length / 256), BitVec.ofNat 8 data.length] := h3
  unfold identify
  rw [rdN_at' (n := 10) h3' rfl, rdN_at' (n := 6) h2 h5, Option.bind_some, Option.bind_some]
  have g : ∀ (l : List Byte) (i : Nat) (x : Byte), l[i]? = some x → l.getD i 0 = x := by
    intro l i x h; rw [List.getD_eq_getElem?_getD, h]; rfl
  dsimp only
  rw [g _ 8 _ rfl, g _ 9 _ rfl, g _ 6 _ rfl, g _ 7 _ rfl]
  rw [be16_toBe16 hlen, Nat.mod_eq_of_lt (by omega : pos + 12 + data.length < 65536), if_neg (by omega),
    if_neg (by simp [hable.2.2]), if_neg (by simp [hable.1])]
  have hloop : idLoop c e n.dev m (pos + 12 + data.length) getSetFuel (pos + 12) ⟨true, false, true, true, [], false⟩ = none := by
    rw [hdata, List.flatMap_cons, List.flatMap_nil, List.append_nil] at h4
    unfold FReq.enc at h4
    rw [At.append, At.append, At.append] at h4
    obtain ⟨⟨⟨a1, a2⟩, a3⟩, _⟩ := h4
    obtain ⟨b1, b2⟩ := At.cons.mp a1
    obtain ⟨b2, _⟩ := At.cons.mp b2
    show idLoop c e n.dev m _ (65536 + 1) _ _ = _
    unfold idLoop
    have hr : rd16 m (pos + 12 + 2) = some v.length := rd16_at (by omega) a2
    rw [hr, Option.bind_some]
    dsimp only
    rw [Nat.mod_eq_of_lt (by omega : pos + 12 + 4 < 65536), if_pos ⟨rfl, Or.inl rfl, by omega⟩, b1, Option.bind_some, b2,
      Option.bind_some]
    have : idBlk c e n.dev m 2 2 (pos + 12 + 4) v.length ⟨true, false, true, true, [], false⟩ = none := by
      have hm : (nameMem n.dev e.nameTail).length = 241 := by
        have := hs.tail
        rw [nameMem_eq hs]; simp; omega
      unfold idBlk
      rw [got_name]
      dsimp only
      rw [if_neg (by decide), if_pos rfl, if_pos rfl]
      unfold cmpName
      rw [if_neg (by omega)]
    rw [this]; rfl
  rw [hloop]; rfl

/-- C40 and C75, example: name and identity match; the answer is sent after the delay. -/
theorem C40_example :
    let fs : List FReq := [⟨2, 2, [0x64, 0x31]⟩, ⟨2, 3, [0, 1, 0, 2]⟩]
    let gs : List FReq := [⟨2, 2, [0x64, 0x31]⟩, ⟨2, 3, [0, 1, 0, 3]⟩]
    let m := fun l : List FReq => memOf (frame [1, 0x0e, 0xcf, 0, 0, 0] stA 0xfe 5 exXid 100 (l.flatMap FReq.enc))
    (∀ f ∈ fs, Plain exCfg f) ∧ (∀ f ∈ gs, Plain exCfg f) ∧ Able (exEnv 0) exNet ∧ Sane exCfg exNet.dev (exEnv 0).nameTail ∧
    (∀ f ∈ fs, Matches exCfg (exEnv 0).aliases exNet.dev f) ∧ NameFirst fs ∧
    (identify exCfg (exEnv 0) exNet (m fs) 40 14).map (·.2) = some (some (10000, identResponse exCfg stA 5 exXid
      (identData exCfg exNet.dev none))) ∧
    (identify exCfg (exEnv 0) exNet (m gs) 40 14).map (·.2) = some none := by
  have hp : ∀ x y : List Byte, x.length ≤ 240 ∧ (0 : Byte) ∉ x → ∀ f ∈ [(⟨2, 2, x⟩ : FReq), ⟨2, 3, y⟩], Plain exCfg f := by
    intro x y hx f hf
    rcases List.mem_cons.mp hf with rfl | hf
    · exact ⟨by simp, by simp, by simp, by simp, fun _ _ => hx, by simp⟩
    · rcases List.mem_cons.mp hf with rfl | hf
      · exact ⟨by simp, by simp, by simp, by simp, by simp, by simp⟩
      · cases hf
  refine ⟨hp _ _ (by decide), hp _ _ (by decide), ⟨rfl, rfl, rfl⟩, exSane, ?_, ⟨_, _, rfl, rfl, Or.inl rfl⟩, by decide +kernel,
    by decide +kernel⟩
  intro f hf
  rcases List.mem_cons.mp hf with rfl | hf
  · right; right; right; left; exact ⟨rfl, rfl, rfl⟩
  · rcases List.mem_cons.mp hf with rfl | hf
    · right; right; right; right; left; exact ⟨rfl, rfl, rfl⟩
    · cases hf

end Verif.Dcp
