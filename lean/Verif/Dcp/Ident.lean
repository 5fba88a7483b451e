import Verif.Dcp.Sam
/-!
C40: which Identify requests are answered.  C75: the answer.
-/
set_option linter.unusedVariables false
set_option linter.unusedSimpArgs false

namespace Verif.Dcp

open Cmina (Dev Ip Ev optIp optProps optDhcp optControl optInitiative optAll subIpMac subIpPar subIpSuite subVendor
  subName subId subRole subOptions subAlias subInstance subOemId subGateway errOption errSuboption)

/-! ## Specification: requests -/

/-- A block of an Identify request. -/
structure FReq where
  opt : Byte
  sub : Byte
  value : List Byte

/-- Its bytes. -/
def FReq.enc (r : FReq) : List Byte :=
  [r.opt, r.sub] ++ toBe16 r.value.length ++ r.value ++ (if r.value.length % 2 = 0 then [] else [0])

/-- An Identify request: `dly` is the response delay factor, `data` the blocks. -/
def IsIdent (m : Mem) (len pos : Nat) (src : List Byte) (svc : Byte) (xid : List Byte) (dly : Nat) (data : List Byte) : Prop :=
  ∃ typ, At m 6 src ∧ At m (pos + 2) ([svc, typ] ++ xid ++ toBe16 dly ++ toBe16 data.length) ∧
    At m (pos + 12) data ∧ src.length = 6 ∧ xid.length = 4 ∧ dly < 65536 ∧ pos + 12 + data.length ≤ len ∧
    len ≤ 65000 ∧ Def m (len + 32)

/-! ## The loop without memory -/

/-- What a block does. -/
def idStep (c : Cfg) (e : Env) (d : Dev) (f : FReq) (s : Id) : Id :=
  match got c d e.nameTail f.opt f.sub with
  | .nothing =>
    if f.sub = 0xff ∧ s.first = true ∧ (f.value.length = 2 ∨ f.value.length = 0) then { s with filter := false }
    else { s with ok := false }
  | .val len mem =>
    if f.opt = optProps ∧ f.sub = subName then
      if f.value = mem.take f.value.length ∧ mem.getD f.value.length 0 = 0 then
        { s with filter := if s.first then true else s.filter }
      else { s with isMatch := false }
    else if (f.opt = optIp ∧ (f.sub = subIpMac ∨ f.sub = subIpPar)) ∨ f.opt = optProps then
      if s.filter then
        { s with isMatch := s.isMatch && (decide (f.value = mem.take len) && decide (f.value.length = len)) }
      else { s with ok := false }
    else { s with ok := false }
  | .err _ =>
    if f.opt = optProps ∧ f.sub = subAlias then
      let a := f.value.takeWhile (· ≠ 0)
      if f.value.length < 256 then
        if a ∈ e.aliases then
          { s with ali := a, useAlias := s.useAlias || s.first, filter := if s.first then true else s.filter }
        else { s with ali := a, isMatch := false }
      else { s with isMatch := false }
    else { s with ok := false }

def idRun (c : Cfg) (e : Env) (d : Dev) : List FReq → Id → Id
  | [], s => s
  | f :: fs, s =>
    if s.ok = true ∧ (s.first = true ∨ (s.filter = true ∧ s.isMatch = true)) then
      idRun c e d fs { idStep c e d f s with first := false }
    else s

theorem FReq.enc_length (r : FReq) : r.enc.length = 4 + r.value.length + r.value.length % 2 := by
  unfold FReq.enc
  by_cases h : r.value.length % 2 = 0
  · rw [if_pos h]; simp [toBe16]; omega
  · rw [if_neg h]; simp [toBe16]; omega

/-- A filter with a name is shorter than the array with the name. -/
def NameFits (d : Dev) (tail : List Byte) (f : FReq) : Prop :=
  f.opt = optProps → f.sub = subName → f.value.length < (nameMem d tail).length

theorem got_len {c : Cfg} {d : Dev} {tail : List Byte} {opt sub : Byte} {len : Nat} {mem : List Byte}
    (h : got c d tail opt sub = .val len mem) (hn : ¬ (opt = optProps ∧ sub = subName)) : len ≤ 28 := by
  unfold got at h
  repeat' split at h
  all_goals first
    | contradiction
    | (injection h with h1 h2; omega)
    | (exfalso; apply hn; constructor <;> assumption)

theorem got_name (c : Cfg) (d : Dev) (tail : List Byte) : got c d tail optProps subName = .val 241 (nameMem d tail) := rfl

theorem cmpBlk_step (m : Mem) (k p : Nat) (hm : Def m k) (s : Id) (len : Nat) (mem value : List Byte) (hl : p + len ≤ k)
    (hv : At m p value) :
    cmpBlk m p value.length s len mem = some (if s.filter then
        { s with isMatch := s.isMatch && (decide (value = mem.take len) && decide (value.length = len)) }
      else { s with ok := false }) := by
  unfold cmpBlk
  by_cases hf : s.filter
  · rw [if_pos hf, if_pos hf]
    obtain ⟨v, e1, _⟩ := rdN_def hm len p hl
    rw [e1, Option.bind_some]
    by_cases h : value.length = len
    · have : v = value := by
        have := rdN_at' hv h
        rw [this] at e1; exact (Option.some.inj e1).symm
      rw [this]
    · simp [h]
  · rw [if_neg hf, if_neg hf]

theorem idBlk_step (c : Cfg) (e : Env) (d : Dev) (m : Mem) (k p : Nat) (hm : Def m k) (f : FReq) (s : Id)
    (hk : p + 28 ≤ k) (hv : At m p f.value) (hn : NameFits d e.nameTail f) :
    idBlk c e d m f.opt f.sub p f.value.length s = some (idStep c e d f s) := by
  unfold idBlk idStep
  by_cases hname : f.opt = optProps ∧ f.sub = subName
  · obtain ⟨h1, h2⟩ := hname
    have hn := hn h1 h2
    rw [h1, h2, got_name]
    dsimp only
    rw [if_neg (by decide), if_pos rfl, if_pos rfl, if_pos ⟨rfl, rfl⟩]
    unfold cmpName
    rw [if_pos hn, rdN_at hv, Option.bind_some]
    split <;> rfl
  · cases hg : got c d e.nameTail f.opt f.sub with
    | nothing => dsimp only; split <;> rfl
    | val len mem =>
      have hl := got_len hg hname
      dsimp only
      rw [if_neg hname]
      have hc := cmpBlk_step m k p hm s len mem f.value (by omega) hv
      by_cases h1 : f.opt = optIp
      · rw [if_pos h1]
        by_cases h2 : f.sub = subIpMac ∨ f.sub = subIpPar
        · rw [if_pos h2, if_pos (Or.inl ⟨h1, h2⟩), hc]
        · rw [if_neg h2, if_neg]
          rintro (⟨_, h⟩ | h)
          · exact h2 h
          · rw [h1] at h; exact absurd h (by decide)
      · rw [if_neg h1]
        by_cases h2 : f.opt = optProps
        · rw [if_pos h2, if_neg (fun h => hname ⟨h2, h⟩), if_pos (Or.inr h2), hc]
        · rw [if_neg h2, if_neg]
          rintro (⟨h, _⟩ | h)
          · exact h1 h
          · exact h2 h
    | err x =>
      dsimp only
      by_cases h : f.opt = optProps ∧ f.sub = subAlias
      · rw [if_pos h, if_pos h]
        unfold cmpAlias
        by_cases hl : f.value.length < 256
        · rw [if_pos hl, if_pos hl, rdN_at hv, Option.bind_some]
          dsimp only
          split <;> rfl
        · rw [if_neg hl, if_neg hl]
      · rw [if_neg h, if_neg h]

theorem idLoop_run (c : Cfg) (e : Env) (d : Dev) (m : Mem) (k : Nat) (hm : Def m k) (dcplen : Nat) (hk : dcplen + 32 ≤ k)
    (hs : dcplen < 65400) :
    ∀ (fs : List FReq) (fuel hp : Nat) (s : Id), At m hp (fs.flatMap FReq.enc) → dcplen = hp + (fs.flatMap FReq.enc).length →
      (∀ f ∈ fs, NameFits d e.nameTail f) → fs.length < fuel → hp % 2 = 0 →
      idLoop c e d m dcplen fuel hp s = some (idRun c e d fs s) := by
  intro fs
  induction fs with
  | nil =>
    intro fuel hp s _ hd _ hf _
    cases fuel with
    | zero => simp at hf
    | succ fuel =>
      simp only [List.flatMap_nil, List.length_nil] at hd
      unfold idLoop
      obtain ⟨bl, hbl, _⟩ := rd16_def hm (hp + 2) (by omega)
      rw [hbl, Option.bind_some]
      dsimp only
      rw [Nat.mod_eq_of_lt (by omega : hp + 4 < 65536), if_neg (by omega)]
      rfl
  | cons f fs ih =>
    intro fuel hp s hat hd hn hf hev
    cases fuel with
    | zero => simp at hf
    | succ fuel =>
      rw [List.flatMap_cons, List.length_append, FReq.enc_length] at hd
      rw [List.flatMap_cons, At.append] at hat
      obtain ⟨h1, h2⟩ := hat
      rw [FReq.enc_length] at h2
      unfold FReq.enc at h1
      rw [At.append, At.append, At.append] at h1
      obtain ⟨⟨⟨a1, a2⟩, a3⟩, _⟩ := h1
      obtain ⟨b1, b2⟩ := At.cons.mp a1
      obtain ⟨b2, _⟩ := At.cons.mp b2
      have a3 : At m (hp + 4) f.value := a3
      unfold idLoop
      have hr : rd16 m (hp + 2) = some f.value.length := rd16_at (by omega) a2
      rw [hr, Option.bind_some]
      dsimp only
      rw [Nat.mod_eq_of_lt (by omega : hp + 4 < 65536)]
      unfold idRun
      by_cases hc : s.ok = true ∧ (s.first = true ∨ (s.filter = true ∧ s.isMatch = true))
      · rw [if_pos hc, if_pos ⟨hc.1, hc.2, by omega⟩, b1, Option.bind_some, b2, Option.bind_some,
          idBlk_step c e d m k (hp + 4) hm f s (by omega) a3 (hn f (by simp)), Option.bind_some]
        rw [Nat.mod_eq_of_lt (by omega : hp + 4 + f.value.length < 65536)]
        have hev2 : even (hp + 4 + f.value.length) = hp + (4 + f.value.length + f.value.length % 2) := by
          unfold even
          split
          · omega
          · rw [Nat.mod_eq_of_lt (by omega)]; omega
        rw [hev2]
        exact ih fuel _ _ h2 (by omega) (fun g hg => hn g (List.mem_cons_of_mem _ hg)) (by simpa using hf) (by omega)
      · rw [if_neg hc, if_neg (fun h => hc ⟨h.1, h.2.1⟩)]

/-! ## Specification: the response -/

/-- A block of the response with block info. -/
def block (opt sub : Byte) (info : Nat) (value : List Byte) : List Byte :=
  [opt, sub] ++ toBe16 (value.length + 2) ++ toBe16 info ++ value ++ (if value.length % 2 = 0 then [] else [0])

/-- Four bytes, the most significant one first. -/
def be32 (v : BitVec 32) : List Byte :=
  [BitVec.ofNat 8 (v.toNat / 16777216), BitVec.ofNat 8 (v.toNat / 65536), BitVec.ofNat 8 (v.toNat / 256), BitVec.ofNat 8 v.toNat]

/-- The data of the response to an Identify request: address, vendor, station name, identity, role, options, and the alias
name if one was asked for.  The second byte of the role should be zero; it is `initiative` on a little-endian machine. -/
def identData (c : Cfg) (d : Dev) (ali : Option (List Byte)) : List Byte :=
  block 1 2 (if d.cur.ip = ⟨0, 0, 0⟩ then 0 else 1) (be32 d.cur.ip.addr ++ be32 d.cur.ip.mask ++ be32 d.cur.ip.gw) ++
  block 2 1 0 c.product ++ block 2 2 0 d.cur.name ++ block 2 3 0 c.devId ++
  block 2 4 0 [1, if c.le && c.hello then 1 else 0] ++
  block 2 5 0 [1, 2, 1, 1, 2, 1, 2, 2, 2, 3, 2, 4, 2, 5, 2, 6, 5, 1, 5, 2, 5, 3, 5, 5, 5, 6, 0xff, 0xff] ++
  (match ali with | none => [] | some a => block 2 6 0 a)

/-- The frame. -/
def identResponse (c : Cfg) (src : List Byte) (svc : Byte) (xid data : List Byte) : List Byte :=
  src ++ c.mac ++ [0x88, 0x92, 0xfe, 0xff, svc, 1] ++ xid ++ [0, 0] ++ toBe16 data.length ++ data

/-- The settings are as they can be: texts of at most 25 and 240 bytes without zeros, an identity of four bytes. -/
structure Sane (c : Cfg) (d : Dev) (tail : List Byte) : Prop where
  product : c.product.length ≤ 25
  product0 : (0 : Byte) ∉ c.product
  devId : c.devId.length = 4
  oemId : c.oemId.length = 4
  mac : c.mac.length = 6
  name : d.cur.name.length ≤ 240
  name0 : (0 : Byte) ∉ d.cur.name
  /-- the array with the name has 241 bytes -/
  tail : d.cur.name.length + 1 + tail.length = 241

theorem takeWhile_zero (l r : List Byte) (h : (0 : Byte) ∉ l) : (l ++ 0 :: r).takeWhile (· ≠ 0) = l := by
  induction l with
  | nil => simp
  | cons x t ih =>
    have hx : x ≠ 0 := by rintro rfl; simp at h
    have : (0 : Byte) ∉ t := fun g => h (List.mem_cons_of_mem _ g)
    rw [List.cons_append, List.takeWhile_cons_of_pos (by simpa using hx), ih this]

theorem takeWhile_all (l : List Byte) (h : (0 : Byte) ∉ l) : l.takeWhile (· ≠ 0) = l := by
  induction l with
  | nil => rfl
  | cons x t ih =>
    have hx : x ≠ 0 := by rintro rfl; simp at h
    have : (0 : Byte) ∉ t := fun g => h (List.mem_cons_of_mem _ g)
    rw [List.takeWhile_cons_of_pos (by simpa using hx), ih this]

theorem nameMem_eq {c : Cfg} {d : Dev} {tail : List Byte} (h : Sane c d tail) : nameMem d tail = d.cur.name ++ 0 :: tail := by
  unfold nameMem
  rw [List.take_of_length_le]
  have := h.tail
  simp; omega

theorem enc32_be (v : BitVec 32) : Wire.enc32 true v = be32 v := by
  unfold Wire.enc32 be32
  have : ∀ n : Nat, BitVec.ofNat 8 (n % 256) = BitVec.ofNat 8 n := by
    intro n; apply BitVec.eq_of_toNat_eq; simp
  simp [this]

theorem encIp_be (a : Ip) : encIp true a = be32 a.addr ++ be32 a.mask ++ be32 a.gw := by
  unfold encIp; rw [enc32_be, enc32_be, enc32_be]

theorem encBlk_block (opt sub : Byte) (i : BitVec 16) (v : List Byte) : encBlk ⟨opt, sub, some i, v⟩ = block opt sub i.toNat v := by
  unfold encBlk block Blk.len infoBytes
  rfl

theorem block_length (opt sub : Byte) (i : Nat) (v : List Byte) : (block opt sub i v).length = 6 + v.length + v.length % 2 := by
  unfold block
  by_cases h : v.length % 2 = 0
  · rw [if_pos h]; simp [toBe16]; omega
  · rw [if_neg h]; simp [toBe16]; omega

theorem idBlks_eq (c : Cfg) (e : Env) (d : Dev) (ali : Option (List Byte)) (h : Sane c d e.nameTail) :
    (idBlks c e d ali).flatMap encBlk = identData c d ali := by
  have h1 : (c.product ++ List.replicate (26 - c.product.length) (0 : Byte)).takeWhile (· ≠ 0) = c.product := by
    have := h.product
    rw [show 26 - c.product.length = (25 - c.product.length) + 1 by omega, List.replicate_succ]
    exact takeWhile_zero _ _ h.product0
  have h2 : (nameMem d e.nameTail).takeWhile (· ≠ 0) = d.cur.name := by
    rw [nameMem_eq h]; exact takeWhile_zero _ _ h.name0
  have h3 : (1 :: Wire.enc16 (!c.le) (initiative c)).take 2 = [1, if c.le && c.hello then 1 else 0] := by
    unfold initiative Wire.enc16
    cases c.le <;> cases c.hello <;> rfl
  have e1 : getBlk c d e.nameTail 1 2 true ali = some ⟨1, 2, some (ipInfo d.cur.ip), encIp true d.cur.ip⟩ := rfl
  have e2 : getBlk c d e.nameTail 1 1 true ali = none := rfl
  have e3 : getBlk c d e.nameTail 2 1 true ali = some ⟨2, 1, some 0, c.product⟩ := by
    rw [← h1]; rfl
  have e4 : getBlk c d e.nameTail 2 2 true ali = some ⟨2, 2, some 0, d.cur.name⟩ := by
    rw [← h2]; rfl
  have e5 : getBlk c d e.nameTail 2 3 true ali = some ⟨2, 3, some 0, c.devId⟩ := by
    have : getBlk c d e.nameTail 2 3 true ali = some ⟨2, 3, some 0, c.devId.take 4⟩ := rfl
    rw [this, List.take_of_length_le (by rw [h.devId])]
  have e6 : getBlk c d e.nameTail 2 4 true ali = some ⟨2, 4, some 0, [1, if c.le && c.hello then 1 else 0]⟩ := by
    rw [← h3]; rfl
  have e7 : getBlk c d e.nameTail 2 5 true ali = some ⟨2, 5, some 0,
    [1, 2, 1, 1, 2, 1, 2, 2, 2, 3, 2, 4, 2, 5, 2, 6, 5, 1, 5, 2, 5, 3, 5, 5, 5, 6, 0xff, 0xff]⟩ := rfl
  have e8 : getBlk c d e.nameTail 2 6 true ali = ali.map fun a => ⟨2, 6, some 0, a⟩ := rfl
  have e9 : ∀ s, getBlk c d e.nameTail 5 s true ali = none := fun _ => rfl
  have e10 : getBlk c d e.nameTail 0xff 0xff true ali = none := rfl
  have hip : (ipInfo d.cur.ip).toNat = if d.cur.ip = ⟨0, 0, 0⟩ then 0 else 1 := by
    unfold ipInfo
    have : (Ip.zero : Ip) = ⟨0, 0, 0⟩ := rfl
    rw [this]; split <;> rfl
  unfold idBlks deviceOptions identData
  simp only [List.filterMap_cons, e1, e2, e3, e4, e5, e6, e7, e8, e9, e10, List.filterMap_nil]
  cases ali with
  | none =>
    simp only [Option.map_none, List.flatMap_cons, List.flatMap_nil, encBlk_block, hip, encIp_be, List.append_nil,
      List.append_assoc]
    rfl
  | some a =>
    simp only [Option.map_some, List.flatMap_cons, List.flatMap_nil, encBlk_block, hip, encIp_be, List.append_nil,
      List.append_assoc]
    rfl

theorem identData_length (c : Cfg) (e : Env) (d : Dev) (ali : Option (List Byte)) (h : Sane c d e.nameTail)
    (ha : ∀ a, ali = some a → a.length < 256) : (identData c d ali).length ≤ 700 := by
  have := h.product
  have := h.name
  have := h.devId
  unfold identData
  simp only [List.length_append, block_length]
  have hb : ∀ v, (be32 v).length = 4 := fun _ => rfl
  simp only [hb, List.length_cons, List.length_nil]
  cases ali with
  | none => simp only [List.length_nil]; omega
  | some a => have := ha a rfl; simp only [block_length]; omega

/-! ## The request as a whole -/

theorem fenc_count (rs : List FReq) : 4 * rs.length ≤ (rs.flatMap FReq.enc).length := by
  induction rs with
  | nil => simp
  | cons r rs ih => rw [List.flatMap_cons, List.length_append, FReq.enc_length, List.length_cons]; omega

/-- The start of the loop. -/
def idStart : Id := ⟨true, false, true, true, [], false⟩

theorem idStep_ali (c : Cfg) (e : Env) (d : Dev) (f : FReq) (s : Id) (h : s.ali.length < 256) :
    (idStep c e d f s).ali.length < 256 := by
  have ht : ∀ l : List Byte, (l.takeWhile (· ≠ 0)).length ≤ l.length := fun l => (List.takeWhile_prefix _).length_le
  have := ht f.value
  unfold idStep
  dsimp only
  repeat' split
  all_goals first | exact h | (dsimp only; omega)

theorem idRun_ali (c : Cfg) (e : Env) (d : Dev) (fs : List FReq) :
    ∀ s : Id, s.ali.length < 256 → (idRun c e d fs s).ali.length < 256 := by
  induction fs with
  | nil => intro s h; exact h
  | cons f fs ih =>
    intro s h
    unfold idRun
    split
    · exact ih _ (idStep_ali c e d f s h)
    · exact h

theorem identify_loop (c : Cfg) (e : Env) (n : Net) (m : Mem) (len pos : Nat) (src : List Byte) (svc : Byte)
    (xid : List Byte) (dly : Nat) (data : List Byte) (h : IsIdent m len pos src svc xid dly data)
    (ha : e.alloc = true) (hw : n.waiting = false) (hr : e.armed = true)
    (hs : Sane c n.dev e.nameTail) (s : Id)
    (hl : idLoop c e n.dev m (pos + 12 + data.length) getSetFuel (pos + 12) idStart = some s) (hali : s.ali.length < 256) :
    identify c e n m len pos =
      if s.ok = true ∧ s.isMatch = true then
        some ({ n with waiting := true }, some (Signal.responseDelay (c.mac.getD 4 0) (c.mac.getD 5 0) (BitVec.ofNat 16 dly),
          identResponse c src svc xid (identData c n.dev (if s.useAlias then some s.ali else none))))
      else some (n, none) := by
  obtain ⟨typ, h2, h3, h4, h5, h6, h7, h8, h9, h10⟩ := h
  obtain ⟨x0, x1, x2, x3, rfl⟩ : ∃ a b c d, xid = [a, b, c, d] := by
    match xid, h6 with
    | [a, b, c, d], _ => exact ⟨a, b, c, d, rfl⟩
  have hlen : data.length < 65536 := by omega
  have h3' : At m (pos + 2) [svc, typ, x0, x1, x2, x3, BitVec.ofNat 8 (dly / 256), BitVec.ofNat 8 dly,
    BitVec.ofNat 8 (data.length / 256), BitVec.ofNat 8 data.length] := h3
  unfold identify
  rw [rdN_at' (n := 10) h3' rfl, rdN_at' (n := 6) h2 h5, Option.bind_some, Option.bind_some]
  have g : ∀ (l : List Byte) (i : Nat) (x : Byte), l[i]? = some x → l.getD i 0 = x := by
    intro l i x h; rw [List.getD_eq_getElem?_getD, h]; rfl
  dsimp only
  rw [g _ 8 _ rfl, g _ 9 _ rfl, g _ 6 _ rfl, g _ 7 _ rfl]
  rw [be16_toBe16 hlen, be16_toBe16 h7, Nat.mod_eq_of_lt (by omega : pos + 12 + data.length < 65536), if_neg (by omega),
    if_neg (by simp [hw]), if_neg (by simp [ha])]
  rw [show (⟨true, false, true, true, [], false⟩ : Id) = idStart from rfl, hl, Option.bind_some]
  by_cases hc : s.ok = true ∧ s.isMatch = true
  · rw [if_pos hc, if_pos hc]
    have hd := idBlks_eq c e n.dev (if s.useAlias then some s.ali else none) hs
    have hdl := identData_length c e n.dev (if s.useAlias then some s.ali else none) hs (by
      intro a h; split at h
      · cases h; exact hali
      · cases h)
    rw [putAll_fits _ [] rfl (by rw [hd, List.length_nil]; omega), Option.bind_some, hd, if_pos hr, List.nil_append]
    unfold identResponse frameHead toBe16
    simp
  · rw [if_neg hc, if_neg hc]

theorem identify_run (c : Cfg) (e : Env) (n : Net) (m : Mem) (len pos : Nat) (src : List Byte) (svc : Byte)
    (xid : List Byte) (dly : Nat) (fs : List FReq) (h : IsIdent m len pos src svc xid dly (fs.flatMap FReq.enc))
    (hp : pos % 2 = 0) (ha : e.alloc = true) (hw : n.waiting = false) (hr : e.armed = true)
    (hs : Sane c n.dev e.nameTail) (hn : ∀ f ∈ fs, NameFits n.dev e.nameTail f) :
    let s := idRun c e n.dev fs idStart
    identify c e n m len pos =
      if s.ok = true ∧ s.isMatch = true then
        some ({ n with waiting := true }, some (Signal.responseDelay (c.mac.getD 4 0) (c.mac.getD 5 0) (BitVec.ofNat 16 dly),
          identResponse c src svc xid (identData c n.dev (if s.useAlias then some s.ali else none))))
      else some (n, none) := by
  intro s
  have h' := h
  obtain ⟨typ, h2, h3, h4, h5, h6, h7, h8, h9, h10⟩ := h
  have hcnt := fenc_count fs
  exact identify_loop c e n m len pos src svc xid dly _ h' ha hw hr hs s
    (idLoop_run c e n.dev m _ h10 _ (by omega) (by omega) fs getSetFuel (pos + 12) idStart h4 rfl hn
      (by unfold getSetFuel; omega) (by omega)) (idRun_ali c e n.dev fs idStart (by decide))

end Verif.Dcp
