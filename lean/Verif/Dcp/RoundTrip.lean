import Verif.Dcp.Props
/-!
C76: what was set is what Get reports.
-/
set_option linter.unusedVariables false
set_option linter.unusedSimpArgs false

namespace Verif.Dcp

open Cmina (Dev Ip Ev optIp optProps optDhcp optControl optInitiative optAll subIpMac subIpPar subIpSuite subVendor
  subName subId subRole subOptions subAlias subInstance subOemId subGateway errOption errSuboption)

theorem scan_chars : ∀ (l : List Byte) (off : Nat) (prev : Byte) (nl nd : Nat) (r : Byte × Nat × Nat),
    Validate.scan l off prev nl nd = some r → (0 : Byte) ∉ l := by
  intro l
  induction l with
  | nil => intro off prev nl nd r _; simp
  | cons x t ih =>
    intro off prev nl nd r h
    have hx : x ≠ 0 := by
      rintro rfl
      have : Validate.scan (0 :: t) off prev nl nd = none := by
        unfold Validate.scan
        rw [if_neg (by decide), if_pos (by decide)]
      rw [this] at h; cases h
    have ht : (0 : Byte) ∉ t := by
      unfold Validate.scan at h
      split at h
      · split at h
        · cases h
        · exact ih _ _ _ _ _ h
      · split at h
        · cases h
        split at h
        · cases h
        split at h
        · cases h
        · exact ih _ _ _ _ _ h
    intro hm
    rcases List.mem_cons.mp hm with h0 | h0
    · exact hx h0.symm
    · exact ht h0

/-- Names that are accepted contain no zero and have at most 240 bytes. -/
theorem valid_plain {v : List Byte} (h : Validate.stationnameValid v = true) : (0 : Byte) ∉ v ∧ v.length ≤ 240 := by
  unfold Validate.stationnameValid at h
  by_cases h0 : v.length = 0
  · have : v = [] := List.length_eq_zero_iff.mp h0
    subst this; simp
  rw [if_neg h0] at h
  by_cases h1 : v.head? = some Validate.hyphen ∨ 241 ≤ v.length
  · rw [if_pos h1] at h; cases h
  rw [if_neg h1] at h
  split at h
  · cases h
  refine ⟨?_, by omega⟩
  cases hs : Validate.scan v 0 97 1 0 with
  | none => rw [hs] at h; cases h
  | some r => exact scan_chars _ _ _ _ _ _ hs

/-! ## One block -/

/-- A block with a name: it is accepted exactly if the name is a valid one, and then that is the name in use. -/
theorem set_name (c : Cmina.Defaults) (d : Dev) (hst : d.st ≠ .setup) (gq q : BitVec 16) (v : List Byte) :
    ((Cmina.setReq c d gq 2 2 q v.length v).err = 0 ↔ Validate.stationnameValid v = true) ∧
    (Cmina.setReq c d gq 2 2 q v.length v).dev.cur = { d.cur with
      name := if Validate.stationnameValid v then v else d.cur.name } := by
  have hk : Cmina.kind 2 2 q v.length v = .name := by unfold Cmina.kind; rfl
  rw [Cmina.C36_answer, Cmina.setReq_kind, hk]
  obtain ⟨e1, e2, e3, e4, e5, e6, e7, e8, _⟩ := Cmina.parseName_dev (Cmina.noHello d) (Cmina.isTemp q) v.length v
  obtain ⟨a, _⟩ := Cmina.finish_keeps c (Cmina.parseName (Cmina.noHello d) (Cmina.isTemp q) v.length v) e5
  simp only [Cmina.setKind, Cmina.answer]
  rw [a]
  by_cases hv : Validate.stationnameValid v = true
  · have hl := (valid_plain hv).2
    have hp : (Cmina.parseName (Cmina.noHello d) (Cmina.isTemp q) v.length v).ok = true ∧
        (Cmina.parseName (Cmina.noHello d) (Cmina.isTemp q) v.length v).dev.cur = { d.cur with name := v } := by
      unfold Cmina.parseName
      rw [if_pos (by omega), if_pos hv]; exact ⟨rfl, rfl⟩
    rw [hp.2, if_pos hv]
    refine ⟨⟨fun _ => hv, fun _ => ?_⟩, rfl⟩
    rw [Cmina.finish_set c _ hp.1 e5]
    dsimp only
    cases hr : (Cmina.evaluate (Cmina.parseName (Cmina.noHello d) (Cmina.isTemp q) v.length v)).2.1 with
    | true => rfl
    | false =>
      rcases (Cmina.evaluate_refused _ e5).mp hr with h | h
      · rw [e1] at h; exact absurd h hst
      · rw [e6] at h; exact absurd h.2.1 (by simp)
  · have hp : Cmina.parseName (Cmina.noHello d) (Cmina.isTemp q) v.length v =
        Cmina.refuse (Cmina.noHello d) (some Cmina.errNotSet) := by
      unfold Cmina.parseName
      rw [if_neg hv]; split <;> rfl
    rw [hp, if_neg hv]
    refine ⟨⟨fun h => ?_, fun h => absurd h hv⟩, rfl⟩
    rw [Cmina.finish_refused c _ rfl] at h
    exact absurd h (by simp)

theorem set_ip (c : Cmina.Defaults) (d : Dev) (hst : d.st ≠ .setup) (gq q : BitVec 16) (v : List Byte) (hl : v.length = 12) :
    let ok := Validate.ipsuiteValid (Cmina.ipOf v).addr (Cmina.ipOf v).mask (Cmina.ipOf v).gw
    ((Cmina.setReq c d gq 1 2 q v.length v).err = 0 → ok = true) ∧
    (d.ars = 0 → ok = true → (Cmina.setReq c d gq 1 2 q v.length v).err = 0) ∧
    (Cmina.setReq c d gq 1 2 q v.length v).dev.cur = { d.cur with ip := if ok then Cmina.ipOf v else d.cur.ip } := by
  intro ok
  have hk : Cmina.kind 1 2 q v.length v = .ipPar (Cmina.ipOf v) := by
    unfold Cmina.kind; rw [if_pos rfl, if_pos rfl, if_pos hl]
  rw [Cmina.C36_answer, Cmina.setReq_kind, hk]
  obtain ⟨e1, e2, e3, e4, e5, e6, e7, e8, _⟩ := Cmina.parseIpPar_dev (Cmina.noHello d) (Cmina.isTemp q) (Cmina.ipOf v)
  obtain ⟨a, _⟩ := Cmina.finish_keeps c (Cmina.parseIpPar (Cmina.noHello d) (Cmina.isTemp q) (Cmina.ipOf v)) e5
  simp only [Cmina.setKind, Cmina.answer]
  rw [a]
  by_cases hv : ok = true
  · have hp : (Cmina.parseIpPar (Cmina.noHello d) (Cmina.isTemp q) (Cmina.ipOf v)).ok = true ∧
        (Cmina.parseIpPar (Cmina.noHello d) (Cmina.isTemp q) (Cmina.ipOf v)).dev.cur = { d.cur with ip := Cmina.ipOf v } := by
      unfold Cmina.parseIpPar
      rw [if_pos hv]; exact ⟨rfl, rfl⟩
    rw [hp.2, if_pos hv]
    refine ⟨fun _ => hv, fun h0 _ => ?_, rfl⟩
    rw [Cmina.finish_set c _ hp.1 e5]
    dsimp only
    cases hr : (Cmina.evaluate (Cmina.parseIpPar (Cmina.noHello d) (Cmina.isTemp q) (Cmina.ipOf v))).2.1 with
    | true => rfl
    | false =>
      rcases (Cmina.evaluate_refused _ e5).mp hr with h | h
      · rw [e1] at h; exact absurd h hst
      · rw [e4] at h; exact absurd h0 h.2.2.2.2.2
  · have hp : Cmina.parseIpPar (Cmina.noHello d) (Cmina.isTemp q) (Cmina.ipOf v) =
        Cmina.refuse (Cmina.noHello d) (some Cmina.errNotSet) := by
      unfold Cmina.parseIpPar
      rw [if_neg hv]
    rw [hp, if_neg hv]
    refine ⟨fun h => ?_, fun _ h => absurd h hv, rfl⟩
    rw [Cmina.finish_refused c _ rfl] at h
    exact absurd h (by simp)

/-- Twelve bytes and the three numbers in them. -/
theorem ip_bytes (v : List Byte) (hl : v.length = 12) :
    be32 (Cmina.ipOf v).addr ++ be32 (Cmina.ipOf v).mask ++ be32 (Cmina.ipOf v).gw = v := by
  obtain ⟨a, b, c, d, e, f, g, h, i, j, k, l, rfl⟩ : ∃ a b c d e f g h i j k l, v = [a, b, c, d, e, f, g, h, i, j, k, l] := by
    match v, hl with
    | [a, b, c, d, e, f, g, h, i, j, k, l], _ => exact ⟨a, b, c, d, e, f, g, h, i, j, k, l, rfl⟩
  have key : ∀ w x y z : Byte, be32 ((w ++ x) ++ (y ++ z) : BitVec 32) = [w, x, y, z] := by
    intro w x y z
    have hw := w.isLt
    have hx := x.isLt
    have hy := y.isLt
    have hz := z.isLt
    have hn : ((w ++ x) ++ (y ++ z) : BitVec 32).toNat = ((w.toNat * 256 + x.toNat) * 256 + y.toNat) * 256 + z.toNat := by
      rw [BitVec.toNat_append, BitVec.toNat_append, BitVec.toNat_append]
      have h1 : ∀ p q : Nat, q < 2 ^ 8 → p <<< 8 ||| q = p * 256 + q := by
        intro p q hq
        rw [← Nat.shiftLeft_add_eq_or_of_lt hq, Nat.shiftLeft_eq]
      have h2 : ∀ p q : Nat, q < 2 ^ 16 → p <<< 16 ||| q = p * 65536 + q := by
        intro p q hq
        rw [← Nat.shiftLeft_add_eq_or_of_lt hq, Nat.shiftLeft_eq]
      show (w.toNat <<< 8 ||| x.toNat) <<< 16 ||| (y.toNat <<< 8 ||| z.toNat) = _
      rw [h1 _ _ hx, h1 _ _ hz, h2 _ _ (by omega)]
      omega
    unfold be32
    rw [hn]
    have f : ∀ (n : Nat) (t : Byte), n % 256 = t.toNat → BitVec.ofNat 8 n = t := by
      intro n t h
      apply BitVec.eq_of_toNat_eq
      rw [BitVec.toNat_ofNat]; exact h
    rw [f _ w (by omega), f _ x (by omega), f _ y (by omega), f _ z (by omega)]
  show be32 ((a ++ b) ++ (c ++ d)) ++ be32 ((e ++ f) ++ (g ++ h)) ++ be32 ((i ++ j) ++ (k ++ l)) = _
  rw [key, key, key]; rfl

theorem ip_zero (v : List Byte) (hl : v.length = 12) : Cmina.ipOf v = ⟨0, 0, 0⟩ ↔ v = List.replicate 12 0 := by
  constructor
  · intro h
    rw [← ip_bytes v hl, h]; rfl
  · intro h; rw [h]; decide

/-! ## C76 -/

theorem get_one (c : Cfg) (hc : Good c) (e : Env) (n : Net) (m : Mem) (len pos : Nat) (src xid : List Byte) (b : Blk)
    (o : Byte × Byte) (ho : o.1 ≠ 5 ∧ o.1 ≠ 0xff ∧ o ≠ (2, 6))
    (h : IsReq c m len pos src 3 xid [o.1, o.2]) (ha : e.alloc = true) (hsam : n.sam = macNil ∨ n.sam = src)
    (hb : getBlk c n.dev e.nameTail o.1 o.2 false none = some b) (hl : (encBlk b).length ≤ 1474) :
    ∃ n', getSet c e n m len pos = some (n', ⟨some (response c src 3 1 xid (encBlk b)), [], false⟩) ∧ n'.dev = n.dev := by
  obtain ⟨bs, h1, h2, h3⟩ := C52_get_partial c hc e n m len pos src xid [o] (by simpa using h) ha hsam (by simpa using ho)
  obtain ⟨b', g1, g2, g3⟩ := h2 0 o rfl
  have : b' = b := by rw [hb] at g3; exact (Option.some.inj g3).symm
  subst this
  have hbs : bs = [b'] := by
    match bs, h1 with
    | [x], _ => simpa using g1
  subst hbs
  have e1 : [b'].flatMap encBlk = encBlk b' := by simp
  rw [e1] at h3
  obtain ⟨n', k1, k2, _⟩ := h3 hl
  exact ⟨n', k1, k2⟩

theorem set_one (c : Cfg) (hc : Good c) (e : Env) (n : Net) (m : Mem) (len pos : Nat) (src xid : List Byte) (r : SReq)
    (h : IsReq c m len pos src 4 xid r.enc) (hp : pos % 2 = 0) (ha : e.alloc = true) (hsam : n.sam = macNil ∨ n.sam = src) :
    ∃ n' o, getSet c e n m len pos = some (n', o) ∧
      o.resp = some (response c src 4 1 xid [5, 4, 0, 3, r.opt, r.sub,
        (Cmina.setReq c.defaults n.dev n.gq r.opt r.sub r.qual r.value.length r.value).err, 0]) ∧
      n'.dev.cur = (Cmina.setReq c.defaults n.dev n.gq r.opt r.sub r.qual r.value.length r.value).dev.cur ∧ n'.sam = src := by
  obtain ⟨n', h1, h2, _, h4, _⟩ := C52_set_partial c hc e n m len pos src xid [r] (by simpa using h) hp ha hsam
  refine ⟨n', _, h1, ?_, ?_, h4⟩
  · simp [carry, ans]
  · rw [h2, (Cmina.setCommit_keeps _).1]
    rfl

/-- C76, station name.  A Set request with any text as station name, and a Get request of the same station: the Set is
answered with success exactly if the text is a valid name; Get reports that text if so, and otherwise the name that
was there before. -/
theorem C76_name (c : Cfg) (hc : Good c) (n : Net) (hst : n.dev.st ≠ .setup) (e e' : Env) (m m' : Mem)
    (len pos len' pos' : Nat) (src xid xid' v : List Byte) (q : BitVec 16) (hp : pos % 2 = 0)
    (h : IsReq c m len pos src 4 xid (SReq.enc ⟨2, 2, q, v⟩)) (h' : IsReq c m' len' pos' src 3 xid' [2, 2])
    (ha : e.alloc = true) (ha' : e'.alloc = true) (hsam : n.sam = macNil ∨ n.sam = src)
    (h0 : (0 : Byte) ∉ n.dev.cur.name ∧ n.dev.cur.name.length ≤ 240) :
    let new := if Validate.stationnameValid v then v else n.dev.cur.name
    ∃ n1 o1 err, getSet c e n m len pos = some (n1, o1) ∧ o1.resp = some (response c src 4 1 xid [5, 4, 0, 3, 2, 2, err, 0]) ∧
      (err = 0 ↔ Validate.stationnameValid v = true) ∧
      ∃ n2 o2, getSet c e' n1 m' len' pos' = some (n2, o2) ∧
        o2.resp = some (response c src 3 1 xid' (block 2 2 0 new)) := by
  intro new
  obtain ⟨n1, o1, k1, k2, k3, k4⟩ := set_one c hc e n m len pos src xid ⟨2, 2, q, v⟩ h hp ha hsam
  obtain ⟨s1, s2⟩ := set_name c.defaults n.dev hst n.gq q v
  dsimp only at k2 k3
  rw [s2] at k3
  refine ⟨n1, o1, _, k1, k2, s1, ?_⟩
  have hnew : (0 : Byte) ∉ new ∧ new.length ≤ 240 := by
    by_cases hv : Validate.stationnameValid v = true
    · show _ ∉ (if _ then _ else _) ∧ _
      rw [if_pos hv]
      have := valid_plain hv
      refine ⟨this.1, ?_⟩
      show (if _ then _ else _ : List Byte).length ≤ _
      rw [if_pos hv]; exact this.2
    · show _ ∉ (if _ then _ else _) ∧ _
      rw [if_neg hv]
      refine ⟨h0.1, ?_⟩
      show (if _ then _ else _ : List Byte).length ≤ _
      rw [if_neg hv]; exact h0.2
  have hname : n1.dev.cur.name = new := by rw [k3]
  have hb : getBlk c n1.dev e'.nameTail 2 2 false none = some ⟨2, 2, some 0, new⟩ := by
    have : (nameMem n1.dev e'.nameTail).takeWhile (· ≠ 0) = new := by
      unfold nameMem
      rw [hname, List.take_append, List.take_of_length_le (by omega),
        show 241 - new.length = (240 - new.length) + 1 by omega, List.take_succ_cons]
      exact takeWhile_zero _ _ hnew.1
    rw [← this]; rfl
  obtain ⟨n2, g1, g2⟩ := get_one c hc e' n1 m' len' pos' src xid' _ (2, 2) (by decide) h' ha' (Or.inr k4) hb
    (by rw [encBlk_block, block_length]; omega)
  refine ⟨n2, _, g1, ?_⟩
  rw [encBlk_block]; rfl

/-- C76, address: the Set request with any twelve bytes as address is answered with success only if they are a valid
address, and always so if there is no connection; Get reports exactly these bytes if they are a valid address, and
otherwise the address that was there before.  (`C76_fails`: a refused address is reported if there is a connection.) -/
theorem C76_ip_partial (c : Cfg) (hc : Good c) (n : Net) (hst : n.dev.st ≠ .setup) (e e' : Env) (m m' : Mem)
    (len pos len' pos' : Nat) (src xid xid' v : List Byte) (q : BitVec 16) (hp : pos % 2 = 0) (hl : v.length = 12)
    (h : IsReq c m len pos src 4 xid (SReq.enc ⟨1, 2, q, v⟩)) (h' : IsReq c m' len' pos' src 3 xid' [1, 2])
    (ha : e.alloc = true) (ha' : e'.alloc = true) (hsam : n.sam = macNil ∨ n.sam = src) :
    let ok := Validate.ipsuiteValid (Cmina.ipOf v).addr (Cmina.ipOf v).mask (Cmina.ipOf v).gw
    let old := be32 n.dev.cur.ip.addr ++ be32 n.dev.cur.ip.mask ++ be32 n.dev.cur.ip.gw
    let new := if ok then v else old
    ∃ n1 o1 err, getSet c e n m len pos = some (n1, o1) ∧ o1.resp = some (response c src 4 1 xid [5, 4, 0, 3, 1, 2, err, 0]) ∧
      (err = 0 → ok = true) ∧ (n.dev.ars = 0 → ok = true → err = 0) ∧
      ∃ n2 o2, getSet c e' n1 m' len' pos' = some (n2, o2) ∧
        o2.resp = some (response c src 3 1 xid' (block 1 2 (if new = List.replicate 12 0 then 0 else 1) new)) := by
  intro ok old new
  obtain ⟨n1, o1, k1, k2, k3, k4⟩ := set_one c hc e n m len pos src xid ⟨1, 2, q, v⟩ h hp ha hsam
  obtain ⟨s1, s2, s3⟩ := set_ip c.defaults n.dev hst n.gq q v hl
  dsimp only at k2 k3
  rw [s3] at k3
  refine ⟨n1, o1, _, k1, k2, s1, s2, ?_⟩
  have hip : n1.dev.cur.ip = if ok then Cmina.ipOf v else n.dev.cur.ip := by rw [k3]
  have hb : getBlk c n1.dev e'.nameTail 1 2 false none = some ⟨1, 2, some (ipInfo n1.dev.cur.ip), encIp true n1.dev.cur.ip⟩ := rfl
  have henc : encIp true n1.dev.cur.ip = new := by
    rw [encIp_be, hip]
    by_cases hv : ok = true
    · rw [if_pos hv]; show _ = if _ then _ else _; rw [if_pos hv, ip_bytes v hl]
    · rw [if_neg hv]; show _ = if _ then _ else _; rw [if_neg hv]
  have hz : n1.dev.cur.ip = ⟨0, 0, 0⟩ ↔ new = List.replicate 12 0 := by
    rw [← henc, encIp_be]
    constructor
    · intro h; rw [h]; rfl
    · intro h
      have f : ∀ x : BitVec 32, be32 x = [0, 0, 0, 0] → x = 0 := by
        intro x hx
        have hlt := x.isLt
        unfold be32 at hx
        have g : ∀ k : Nat, BitVec.ofNat 8 k = (0 : Byte) → k % 256 = 0 := by
          intro k hk
          have := congrArg BitVec.toNat hk
          rw [BitVec.toNat_ofNat] at this; exact this
        simp only [List.cons.injEq, and_true] at hx
        obtain ⟨h1, h2, h3, h4⟩ := hx
        have := g _ h1
        have := g _ h2
        have := g _ h3
        have := g _ h4
        apply BitVec.eq_of_toNat_eq
        show x.toNat = 0
        omega
      generalize n1.dev.cur.ip = i at h
      obtain ⟨x, y, z⟩ := i
      have h : be32 x ++ be32 y ++ be32 z = [0, 0, 0, 0] ++ [0, 0, 0, 0] ++ [0, 0, 0, 0] := h
      have i1 := List.append_inj h rfl
      have i2 := List.append_inj i1.1 rfl
      rw [f x i2.1, f y i2.2, f z i1.2]
  obtain ⟨n2, g1, g2⟩ := get_one c hc e' n1 m' len' pos' src xid' _ (1, 2) (by decide) h' ha' (Or.inr k4) hb
    (by rw [encBlk_block, block_length, encIp_be]; simp [be32])
  refine ⟨n2, _, g1, ?_⟩
  rw [encBlk_block, henc]
  have : (ipInfo n1.dev.cur.ip).toNat = if new = List.replicate 12 0 then 0 else 1 := by
    unfold ipInfo
    by_cases hh : n1.dev.cur.ip = ⟨0, 0, 0⟩
    · rw [if_pos (show n1.dev.cur.ip = .zero from hh), if_pos (hz.mp hh)]; rfl
    · rw [if_neg (show ¬ n1.dev.cur.ip = .zero from hh), if_neg (fun x => hh (hz.mpr x))]; rfl
  rw [this]

/-- C76 fails: if there is a connection, a new address is refused, and reported afterwards. -/
theorem C76_fails (c : Cfg) (hc : Good c) (n : Net) (hst : n.dev.st = .wConnect) (e e' : Env) (m m' : Mem)
    (len pos len' pos' : Nat) (src xid xid' v : List Byte) (hp : pos % 2 = 0) (hl : v.length = 12)
    (h : IsReq c m len pos src 4 xid (SReq.enc ⟨1, 2, 1, v⟩)) (h' : IsReq c m' len' pos' src 3 xid' [1, 2])
    (ha : e.alloc = true) (ha' : e'.alloc = true) (hsam : n.sam = macNil ∨ n.sam = src)
    (hn : n.dev.cur.name ≠ []) (hars : n.dev.ars ≠ 0)
    (hv : Validate.ipsuiteValid (Cmina.ipOf v).addr (Cmina.ipOf v).mask (Cmina.ipOf v).gw = true)
    (hz : Cmina.ipOf v ≠ .zero) (hch : Cmina.ipOf v ≠ n.dev.cur.ip) :
    ∃ n1 o1 err, getSet c e n m len pos = some (n1, o1) ∧ o1.resp = some (response c src 4 1 xid [5, 4, 0, 3, 1, 2, err, 0]) ∧
      err ≠ 0 ∧
      ∃ n2 o2, getSet c e' n1 m' len' pos' = some (n2, o2) ∧ o2.resp = some (response c src 3 1 xid' (block 1 2 1 v)) := by
  obtain ⟨n1, o1, k1, k2, k3, k4⟩ := set_one c hc e n m len pos src xid ⟨1, 2, 1, v⟩ h hp ha hsam
  obtain ⟨f1, f2, _⟩ := Cmina.C36_fails c.defaults n.dev n.gq v hst hn hars hv hz hch
  dsimp only at k2 k3
  rw [hl] at k2 k3
  refine ⟨n1, o1, _, k1, k2, f1, ?_⟩
  have hip : n1.dev.cur.ip = Cmina.ipOf v := by rw [k3, f2]
  obtain ⟨n2, g1, g2⟩ := get_one c hc e' n1 m' len' pos' src xid'
    ⟨1, 2, some (ipInfo n1.dev.cur.ip), encIp true n1.dev.cur.ip⟩ (1, 2) (by decide) h' ha' (Or.inr k4) rfl
    (by rw [encBlk_block, block_length, encIp_be]; simp [be32])
  refine ⟨n2, _, g1, ?_⟩
  rw [encBlk_block, encIp_be, hip, ip_bytes v hl]
  unfold ipInfo
  rw [if_neg hz]; rfl

/-- C76, example: a valid name, an invalid one, an address. -/
theorem C76_example :
    let put := fun (n : Net) (opt sub : Byte) (v : List Byte) =>
      (getSet exCfg (exEnv 0) n (memOf (frame exCfg.mac stA 0xfd 4 exXid 0 (SReq.enc ⟨opt, sub, 1, v⟩)))
        (26 + (SReq.enc ⟨opt, sub, 1, v⟩).length) 14)
    let ask := fun (n : Net) (opt sub : Byte) =>
      (getSet exCfg (exEnv 5) n (memOf (frame exCfg.mac stA 0xfd 3 exXid 0 [opt, sub])) 28 14).map (·.2.resp)
    ((put exNet 2 2 [0x61, 0x62]).bind fun r => ask r.1 2 2) = some (some (response exCfg stA 3 1 exXid [2, 2, 0, 4, 0, 0, 0x61, 0x62])) ∧
    ((put exNet 2 2 [0x41]).bind fun r => ask r.1 2 2) = some (some (response exCfg stA 3 1 exXid [2, 2, 0, 4, 0, 0, 0x64, 0x31])) ∧
    ((put exNet 1 2 Cmina.exIp).bind fun r => ask r.1 1 2) =
      some (some (response exCfg stA 3 1 exXid ([1, 2, 0, 14, 0, 1] ++ Cmina.exIp))) := by
  refine ⟨by decide +kernel, by decide +kernel, by decide +kernel⟩

end Verif.Dcp
