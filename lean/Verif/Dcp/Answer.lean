import Verif.Dcp.GetSet
import Verif.Cmina.Props
/-!
C52, continued: the answers to Get and Set requests, block by block.
-/
set_option linter.unusedVariables false
set_option linter.unusedSimpArgs false

namespace Verif.Dcp

open Cmina (Dev Ip Ev optIp optProps optDhcp optControl optInitiative optAll subIpMac subIpPar subIpSuite subVendor
  subName subId subRole subOptions subAlias subInstance subOemId subGateway errOption errSuboption)

/-! ## Specification: requests and responses as bytes -/

/-- A Get or Set request to the device: `data` is the DCP data, `svc` the service id, `xid` the transaction number. -/
def IsReq (c : Cfg) (m : Mem) (len pos : Nat) (src : List Byte) (svc : Byte) (xid data : List Byte) : Prop :=
  ∃ typ dly, At m 0 c.mac ∧ At m 6 src ∧ At m (pos + 2) ([svc, typ] ++ xid ++ dly ++ toBe16 data.length) ∧
    At m (pos + 12) data ∧ src.length = 6 ∧ xid.length = 4 ∧ dly.length = 2 ∧ pos + 12 + data.length ≤ len ∧
    len ≤ 65000 ∧ Def m (len + 20)

/-- The response to it. -/
def response (c : Cfg) (src : List Byte) (svc : Byte) (typ : Byte) (xid data : List Byte) : List Byte :=
  src ++ c.mac ++ [0x88, 0x92, 0xfe, 0xfd, svc, typ] ++ xid ++ [0, 0] ++ toBe16 data.length ++ data

/-- The address of the device is one of a single station. -/
def Good (c : Cfg) : Prop := c.mac.length = 6 ∧ (c.mac.getD 0 0).toNat % 2 = 0

/-- A block of a Set request. -/
structure SReq where
  opt : Byte
  sub : Byte
  qual : BitVec 16
  value : List Byte

/-- Its bytes. -/
def SReq.enc (r : SReq) : List Byte :=
  [r.opt, r.sub] ++ toBe16 (r.value.length + 2) ++ toBe16 r.qual.toNat ++ r.value ++
    (if r.value.length % 2 = 0 then [] else [0])

/-- The answer to a block. -/
def ans (opt sub err : Byte) : List Byte := [5, 4, 0, 3, opt, sub, err, 0]

/-- The blocks are carried out one after the other; the results: the device, the answers, the events, the LED. -/
def carry (c : Cfg) : Dev × BitVec 16 → List SReq → (Dev × BitVec 16) × List (List Byte) × List Ev × Bool
  | x, [] => (x, [], [], false)
  | x, r :: rs =>
    let s := Cmina.setReq c.defaults x.1 x.2 r.opt r.sub r.qual r.value.length r.value
    let t := carry c (s.dev, s.qual) rs
    (t.1, ans r.opt r.sub s.err :: t.2.1, s.evs ++ t.2.2.1, s.led || t.2.2.2)

/-! ## Set -/

theorem SReq.enc_length (r : SReq) : r.enc.length = 6 + r.value.length + r.value.length % 2 := by
  unfold SReq.enc
  by_cases h : r.value.length % 2 = 0
  · rw [if_pos h]; simp [toBe16]; omega
  · rw [if_neg h]; simp [toBe16]; omega

theorem encBlk_res (o s e : Byte) : encBlk (resBlk o s e) = ans o s e := by
  unfold encBlk resBlk ans Blk.len infoBytes toBe16
  simp

/-- A block that is neither a name nor an address of the right length is handled without its value. -/
theorem kind_other (opt sub : Byte) (q : BitVec 16) (n : Nat)
    (h1 : ¬ (opt = optIp ∧ (sub = subIpPar ∨ sub = subIpSuite) ∧ n = 12)) (h2 : ¬ (opt = optProps ∧ sub = subName)) :
    ∃ k, (∀ w, Cmina.kind opt sub q n w = k) ∧
      ∀ {c d gq v w}, Cmina.setKind c d gq q n v k = Cmina.setKind c d gq q n w k := by
  by_cases ho : opt = optIp
  · subst ho
    refine ⟨.bad errSuboption, ?_, rfl⟩
    intro w
    unfold Cmina.kind
    rw [if_pos rfl]
    by_cases hp : sub = subIpPar
    · rw [if_pos hp, if_neg (fun h => h1 ⟨rfl, Or.inl hp, h⟩)]
    · rw [if_neg hp]
      by_cases hq : sub = subIpSuite
      · rw [if_pos hq, if_neg (fun h => h1 ⟨rfl, Or.inr hq, h⟩)]
      · rw [if_neg hq]
  · by_cases hp : opt = optProps
    · subst hp
      refine ⟨.bad errSuboption, ?_, rfl⟩
      intro w
      unfold Cmina.kind
      rw [if_neg ho, if_pos rfl, if_neg (fun h => h2 ⟨rfl, h⟩)]
    · refine ⟨Cmina.kind opt sub q n [], ?_, ?_⟩
      · intro w
        unfold Cmina.kind
        rw [if_neg ho, if_neg hp, if_neg ho]
      · intro c d gq v w
        unfold Cmina.kind
        rw [if_neg ho, if_neg hp]
        repeat' split
        all_goals rfl

/-- Only the bytes that are read matter. -/
theorem setReq_needed (c : Cmina.Defaults) (d : Dev) (gq : BitVec 16) (opt sub : Byte) (q : BitVec 16) (value v rest : List Byte)
    (hv : v = (value ++ rest).take (needed opt sub value.length)) (hl : needed opt sub value.length ≤ (value ++ rest).length) :
    Cmina.setReq c d gq opt sub q value.length v = Cmina.setReq c d gq opt sub q value.length value := by
  have hip : value.length = 12 → 12 ≤ needed opt sub value.length → Cmina.ipOf v = Cmina.ipOf value := by
    intro h1 h2
    apply ipOf_congr
    rw [hv, List.take_take, Nat.min_eq_left h2, List.take_append_of_le_length (by omega)]
  rw [Cmina.setReq_kind, Cmina.setReq_kind]
  by_cases h1 : opt = optIp ∧ (sub = subIpPar ∨ sub = subIpSuite) ∧ value.length = 12
  · obtain ⟨rfl, h2, h3⟩ := h1
    have hn : 12 ≤ needed optIp sub value.length := by
      rw [h3]; rcases h2 with rfl | rfl <;> decide
    have hi := hip h3 hn
    rcases h2 with rfl | rfl
    · have e : ∀ w, Cmina.kind optIp subIpPar q value.length w = .ipPar (Cmina.ipOf w) := by
        intro w; unfold Cmina.kind; rw [h3]; rfl
      rw [e, e, hi]; rfl
    · have e : ∀ w, Cmina.kind optIp subIpSuite q value.length w = .ipSuite (Cmina.ipOf w) := by
        intro w; unfold Cmina.kind; rw [h3]; rfl
      rw [e, e, hi]; rfl
  · by_cases h2 : opt = optProps ∧ sub = subName
    · obtain ⟨rfl, rfl⟩ := h2
      have e : ∀ w, Cmina.kind optProps subName q value.length w = .name := by intro w; unfold Cmina.kind; rfl
      rw [e, e]
      by_cases h3 : value.length < 241
      · have hn : needed optProps subName value.length = value.length := by
          unfold needed
          rw [if_neg (by rintro ⟨h, _⟩; exact absurd h (by decide)),
            if_neg (by rintro ⟨h, _⟩; exact absurd h (by decide)), if_pos ⟨rfl, rfl, h3⟩]
        have : v = value := by rw [hv, hn, List.take_left']; rfl
        rw [this]
      · have ep : ∀ w, Cmina.parseName (Cmina.noHello d) (Cmina.isTemp q) value.length w =
            Cmina.refuse (Cmina.noHello d) (some Cmina.errNotSet) := by
          intro w; unfold Cmina.parseName; rw [if_neg h3]
        unfold Cmina.setKind
        dsimp only
        rw [ep, ep]
    · obtain ⟨k, hk, hs⟩ := kind_other opt sub q value.length h1 h2
      rw [hk, hk, hs]

/-- The data end behind the last block: nothing but at most three bytes follows, or the padding of the last block is
missing. -/
def Ends : List SReq → Nat → Nat → Prop
  | [], hp, dcplen => dcplen < hp + 4
  | r :: rs, hp, dcplen => hp + 6 + r.value.length ≤ dcplen ∧ Ends rs (hp + r.enc.length) dcplen

theorem setBlk_fits (c : Cfg) (a : Acc) (opt sub : Byte) (qual len : Nat) (v : List Byte) (k : Nat)
    (hk : a.out.length = 8 * k) (hk2 : k ≤ 184) :
    setBlk c a opt sub qual len v =
      some ⟨{ a.net with dev := (Cmina.setReq c.defaults a.net.dev a.net.gq opt sub (BitVec.ofNat 16 qual) len v).dev,
                         gq := (Cmina.setReq c.defaults a.net.dev a.net.gq opt sub (BitVec.ofNat 16 qual) len v).qual },
        a.out ++ (if k < 184 then
          ans opt sub (Cmina.setReq c.defaults a.net.dev a.net.gq opt sub (BitVec.ofNat 16 qual) len v).err else []),
        a.evs ++ (Cmina.setReq c.defaults a.net.dev a.net.gq opt sub (BitVec.ofNat 16 qual) len v).evs,
        a.led || (Cmina.setReq c.defaults a.net.dev a.net.gq opt sub (BitVec.ofNat 16 qual) len v).led⟩ := by
  unfold setBlk
  dsimp only
  generalize Cmina.setReq c.defaults a.net.dev a.net.gq opt sub (BitVec.ofNat 16 qual) len v = r
  by_cases h : k < 184
  · rw [if_pos h, putBlk_fits _ (by omega) (by rw [encBlk_res]; simp [ans]; omega), encBlk_res]
    rfl
  · rw [if_neg h, putBlk_skip _ (by simp [resBlk]; omega)]
    simp

theorem setLoop_blocks (c : Cfg) (m : Mem) (n : Nat) (hm : Def m n) (dcplen : Nat) (hk : dcplen + 20 ≤ n) (hs : dcplen < 65400) :
    ∀ (rs : List SReq) (fuel hp : Nat) (a : Acc) (k : Nat), At m hp (rs.flatMap SReq.enc) → Ends rs hp dcplen →
      a.out.length = 8 * k → k ≤ 184 → rs.length < fuel → hp % 2 = 0 → hp + 4 ≤ n → hp < 65500 →
      setLoop c m dcplen fuel hp a =
        some ⟨{ a.net with dev := (carry c (a.net.dev, a.net.gq) rs).1.1, gq := (carry c (a.net.dev, a.net.gq) rs).1.2 },
          a.out ++ ((carry c (a.net.dev, a.net.gq) rs).2.1.take (184 - k)).flatten,
          a.evs ++ (carry c (a.net.dev, a.net.gq) rs).2.2.1, a.led || (carry c (a.net.dev, a.net.gq) rs).2.2.2⟩ := by
  intro rs
  induction rs with
  | nil =>
    intro fuel hp a k _ he _ _ hf _ hn h65
    cases fuel with
    | zero => simp at hf
    | succ fuel =>
      unfold setLoop
      obtain ⟨bl, hbl, _⟩ := rd16_def hm (hp + 2) (by omega)
      have hlt : dcplen < hp + 4 := he
      rw [hbl, Option.bind_some]
      dsimp only
      rw [Nat.mod_eq_of_lt (by omega : hp + 4 < 65536), if_neg (by omega)]
      simp [carry]
  | cons r rs ih =>
    intro fuel hp a k hat he hk1 hk2 hf hev hn h65
    cases fuel with
    | zero => simp at hf
    | succ fuel =>
      obtain ⟨he1, he2⟩ := he
      rw [List.flatMap_cons, At.append] at hat
      obtain ⟨hr, hrest⟩ := hat
      unfold SReq.enc at hr
      rw [At.append, At.append, At.append, At.append] at hr
      obtain ⟨⟨⟨⟨h1, h2⟩, h3⟩, h4⟩, h5⟩ := hr
      obtain ⟨ho, h1⟩ := At.cons.mp h1
      obtain ⟨hsu, _⟩ := At.cons.mp h1
      simp only [List.length_cons, List.length_nil, List.length_append] at h2 h3 h4
      have hlen2 : ∀ x, (toBe16 x).length = 2 := fun _ => rfl
      rw [hlen2] at h3
      rw [hlen2, hlen2] at h4
      unfold setLoop
      rw [rd16_at (by omega) h2, Option.bind_some]
      dsimp only
      rw [Nat.mod_eq_of_lt (by omega : hp + 4 < 65536), if_pos (by omega)]
      rw [rd16_at (i := hp + 4) r.qual.isLt h3, Option.bind_some, ho, Option.bind_some, hsu, Option.bind_some]
      have e1 : (r.value.length + 2 + 65534) % 65536 = r.value.length := by omega
      rw [e1, Nat.mod_eq_of_lt (by omega : hp + 4 + 2 < 65536)]
      obtain ⟨v, hv, lv⟩ := rdN_def hm (needed r.opt r.sub r.value.length) (hp + 4 + 2) (by
        have := needed_le r.opt r.sub (r.value.length + 2) (by omega)
        rw [e1] at this
        omega)
      rw [hv, Option.bind_some, setBlk_fits c a _ _ _ _ _ k hk1 hk2, Option.bind_some]
      -- only the bytes that are read matter
      have hq : BitVec.ofNat 16 r.qual.toNat = r.qual := by simp
      obtain ⟨rest, hrest', lrest⟩ := rdN_def hm 16 (hp + 4 + 2 + r.value.length) (by omega)
      have hvv : v = (r.value ++ rest).take (needed r.opt r.sub r.value.length) := by
        have hle : needed r.opt r.sub r.value.length ≤ r.value.length + 16 := by
          have := needed_le r.opt r.sub (r.value.length + 2) (by omega)
          rw [e1] at this
          omega
        have hat2 : At m (hp + 4 + 2) (r.value ++ rest) := At.append.mpr ⟨h4, rdN_get hrest'⟩
        have hat3 : At m (hp + 4 + 2) ((r.value ++ rest).take (needed r.opt r.sub r.value.length)) := by
          rw [← List.take_append_drop (needed r.opt r.sub r.value.length) (r.value ++ rest)] at hat2
          exact (At.append.mp hat2).1
        have := rdN_at' hat3 (n := needed r.opt r.sub r.value.length) (by
          rw [List.length_take, List.length_append, lrest]; omega)
        rw [hv] at this
        exact Option.some.inj this
      have hle : needed r.opt r.sub r.value.length ≤ (r.value ++ rest).length := by
        have := congrArg List.length hvv
        rw [lv, List.length_take] at this
        omega
      rw [hq, setReq_needed c.defaults a.net.dev a.net.gq r.opt r.sub r.qual r.value v rest hvv hle]
      have e2 : (hp + 4 + 2 + r.value.length) % 65536 = hp + 4 + 2 + r.value.length := by omega
      have e3 : hp + 4 + 2 + r.value.length + (hp + 4 + 2 + r.value.length) % 2 = hp + r.enc.length := by
        rw [SReq.enc_length]; omega
      rw [e2, even_eq (by omega), e3]
      have hel := SReq.enc_length r
      rw [ih fuel (hp + r.enc.length) _ (if k < 184 then k + 1 else k) hrest he2 (by
          dsimp only
          rw [List.length_append, hk1]
          split
          · simp [ans]; omega
          · simp) (by split <;> omega) (by simp at hf; omega) (by rw [hel]; omega) (by rw [hel]; omega)
          (by rw [hel]; omega)]
      dsimp only
      have hc : carry c (a.net.dev, a.net.gq) (r :: rs) =
          ((carry c ((Cmina.setReq c.defaults a.net.dev a.net.gq r.opt r.sub r.qual r.value.length r.value).dev,
            (Cmina.setReq c.defaults a.net.dev a.net.gq r.opt r.sub r.qual r.value.length r.value).qual) rs).1,
            ans r.opt r.sub (Cmina.setReq c.defaults a.net.dev a.net.gq r.opt r.sub r.qual r.value.length r.value).err ::
              (carry c ((Cmina.setReq c.defaults a.net.dev a.net.gq r.opt r.sub r.qual r.value.length r.value).dev,
            (Cmina.setReq c.defaults a.net.dev a.net.gq r.opt r.sub r.qual r.value.length r.value).qual) rs).2.1,
            (Cmina.setReq c.defaults a.net.dev a.net.gq r.opt r.sub r.qual r.value.length r.value).evs ++
              (carry c ((Cmina.setReq c.defaults a.net.dev a.net.gq r.opt r.sub r.qual r.value.length r.value).dev,
            (Cmina.setReq c.defaults a.net.dev a.net.gq r.opt r.sub r.qual r.value.length r.value).qual) rs).2.2.1,
            (Cmina.setReq c.defaults a.net.dev a.net.gq r.opt r.sub r.qual r.value.length r.value).led ||
              (carry c ((Cmina.setReq c.defaults a.net.dev a.net.gq r.opt r.sub r.qual r.value.length r.value).dev,
            (Cmina.setReq c.defaults a.net.dev a.net.gq r.opt r.sub r.qual r.value.length r.value).qual) rs).2.2.2) := rfl
      rw [hc]
      generalize Cmina.setReq c.defaults a.net.dev a.net.gq r.opt r.sub r.qual r.value.length r.value = s
      generalize carry c (s.dev, s.qual) rs = t
      dsimp only
      by_cases h184 : k < 184
      · rw [if_pos h184, if_pos h184]
        obtain ⟨j, hj⟩ : ∃ j, 184 - k = j + 1 := ⟨183 - k, by omega⟩
        rw [hj, show 184 - (k + 1) = j by omega, List.take_succ_cons, List.flatten_cons]
        simp [List.append_assoc, Bool.or_assoc]
      · rw [if_neg h184, if_neg h184, show 184 - k = 0 by omega]
        simp [List.append_assoc, Bool.or_assoc]

theorem ends_of (rs : List SReq) : ∀ (hp : Nat), Ends rs hp (hp + (rs.flatMap SReq.enc).length) := by
  induction rs with
  | nil => intro hp; show _ < _; simp
  | cons r rs ih =>
    intro hp
    refine ⟨?_, ?_⟩
    · rw [List.flatMap_cons, List.length_append, SReq.enc_length]; omega
    · have := ih (hp + r.enc.length)
      rw [List.flatMap_cons, List.length_append]
      rw [show hp + (r.enc.length + (rs.flatMap SReq.enc).length) = hp + r.enc.length + (rs.flatMap SReq.enc).length by
        omega]
      exact this

theorem enc_count (rs : List SReq) : 6 * rs.length ≤ (rs.flatMap SReq.enc).length := by
  induction rs with
  | nil => simp
  | cons r rs ih => rw [List.flatMap_cons, List.length_append, SReq.enc_length, List.length_cons]; omega

/-- The common start of Get and Set. -/
theorem getSet_serve (c : Cfg) (hc : Good c) (e : Env) (n : Net) (m : Mem) (len pos : Nat) (src : List Byte) (svc : Byte)
    (xid data : List Byte) (h : IsReq c m len pos src svc xid data) (ha : e.alloc = true)
    (hsam : n.sam = macNil ∨ n.sam = src) :
    ∃ hdr, getSet c e n m len pos = serve c e n m src hdr (pos + 12) (pos + 12 + data.length) ∧ hdr.getD 0 0 = svc ∧
      ∀ t out, frameHead c src 0xfe 0xfd hdr t out = src ++ c.mac ++ [0x88, 0x92, 0xfe, 0xfd, svc, t] ++ xid ++ [0, 0] ++
        toBe16 out := by
  obtain ⟨typ, dly, h1, h2, h3, h4, h5, h6, h7, h8, h9, h10⟩ := h
  refine ⟨[svc, typ] ++ xid ++ dly ++ toBe16 data.length, ?_, rfl, ?_⟩
  · unfold getSet
    rw [rdN_at' (n := 10) h3 (by simp [toBe16, h6, h7]), rdN_at' (n := 6) h1 hc.1, rdN_at' (n := 6) h2 h5]
    rw [Option.bind_some, Option.bind_some, Option.bind_some]
    dsimp only
    have e8 : ([svc, typ] ++ xid ++ dly ++ toBe16 data.length).getD 8 0 = BitVec.ofNat 8 (data.length / 256) := by
      rw [List.getD_eq_getElem?_getD, List.getElem?_append_right (by simp [h6, h7])]
      simp [h6, h7, toBe16]
    have e9 : ([svc, typ] ++ xid ++ dly ++ toBe16 data.length).getD 9 0 = BitVec.ofNat 8 data.length := by
      rw [List.getD_eq_getElem?_getD, List.getElem?_append_right (by simp [h6, h7])]
      simp [h6, h7, toBe16]
    rw [e8, e9, be16_toBe16 (by omega), Nat.mod_eq_of_lt (by omega), if_neg (by omega), if_neg (by simp [ha])]
    have hs : samOk n src = true := by unfold samOk; rcases hsam with h | h <;> simp [h]
    have hd : destOk c c.mac = true := by unfold destOk; simp only [decide_true, Bool.and_true]; exact decide_eq_true hc.2
    rw [if_neg (by simp [hs]), if_neg (by simp [hd])]
  · intro t out
    unfold frameHead
    have : (([svc, typ] ++ xid ++ dly ++ toBe16 data.length).drop 2).take 4 = xid := by
      simp only [List.cons_append, List.nil_append, List.drop_succ_cons, List.drop_zero]
      rw [List.append_assoc, List.take_append_of_le_length (by omega), List.take_of_length_le (by omega)]
    rw [this]
    simp [toBe16]

/-- C52, Set: every block of the request is carried out, in order, and answered by exactly one block that tells the
option and the result, for the first 184 blocks; the answer goes to the station that asked, with its transaction
number. -/
theorem C52_set_partial (c : Cfg) (hc : Good c) (e : Env) (n : Net) (m : Mem) (len pos : Nat) (src xid : List Byte)
    (rs : List SReq) (h : IsReq c m len pos src 4 xid (rs.flatMap SReq.enc)) (hp : pos % 2 = 0) (ha : e.alloc = true)
    (hsam : n.sam = macNil ∨ n.sam = src) :
    let r := carry c (n.dev, n.gq) rs
    ∃ n', getSet c e n m len pos = some (n', ⟨some (response c src 4 1 xid ((r.2.1.take 184).flatten)),
        r.2.2.1 ++ (Cmina.setCommit r.1.1).2, r.2.2.2⟩) ∧
      n'.dev = (Cmina.setCommit r.1.1).1 ∧ n'.gq = r.1.2 ∧ n'.sam = src ∧ n'.waiting = n.waiting ∧
      n'.samAt = if e.armed then some (e.now + hold e.tick) else none := by
  intro r
  obtain ⟨hdr, h1, h2, h3⟩ := getSet_serve c hc e n m len pos src 4 xid _ h ha hsam
  obtain ⟨typ, dly, _, _, _, h4, _, _, _, h8, h9, h10⟩ := h
  rw [h1]
  unfold serve
  rw [if_pos h2]
  have := enc_count rs
  rw [setLoop_blocks c m _ h10 (pos + 12 + (rs.flatMap SReq.enc).length) (by omega) (by omega) rs getSetFuel (pos + 12)
    ⟨n, [], [], false⟩ 0 h4 (ends_of rs _) rfl (by omega) (by unfold getSetFuel; omega) (by omega) (by omega) (by omega)]
  rw [Option.bind_some]
  dsimp only
  rw [h3]
  refine ⟨_, rfl, rfl, rfl, rfl, rfl, rfl⟩

/-! ## Get -/

/-- The block answers the question for the option: with a value, or with an error. -/
def About (opt sub : Byte) (b : Blk) : Prop :=
  (b.opt = opt ∧ b.sub = sub ∧ b.info.isSome = true) ∨ ∃ err, err ≠ 0 ∧ b = ⟨5, 4, none, [opt, sub, err]⟩

theorem got_err {c : Cfg} {d : Dev} {tail : List Byte} {opt sub e : Byte} (h : got c d tail opt sub = .err e) : e ≠ 0 := by
  unfold got at h
  repeat' split at h
  all_goals first | contradiction | (injection h with h; subst h; decide)

/-- Every option gets a block except Control, All and the alias name. -/
theorem getBlk_about (c : Cfg) (d : Dev) (tail : List Byte) (opt sub : Byte) (h1 : opt ≠ optControl) (h2 : opt ≠ optAll)
    (h3 : ¬ (opt = optProps ∧ sub = subAlias)) :
    ∃ b, getBlk c d tail opt sub false none = some b ∧ About opt sub b := by
  have hg : ∃ b, (match got c d tail opt sub with
      | .val n mem => some (⟨opt, sub, some 0, mem.take n⟩ : Blk)
      | .nothing => some ⟨opt, sub, some 0, []⟩
      | .err e => some (resBlk opt sub e)) = some b ∧ About opt sub b := by
    cases hg : got c d tail opt sub with
    | val n mem => exact ⟨_, rfl, Or.inl ⟨rfl, rfl, rfl⟩⟩
    | nothing => exact ⟨_, rfl, Or.inl ⟨rfl, rfl, rfl⟩⟩
    | err e => exact ⟨_, rfl, Or.inr ⟨e, got_err hg, rfl⟩⟩
  unfold getBlk
  split
  · split
    · exact ⟨_, rfl, Or.inl ⟨rfl, rfl, rfl⟩⟩
    split
    · exact ⟨_, rfl, Or.inl ⟨rfl, rfl, rfl⟩⟩
    split
    · exact ⟨_, rfl, Or.inl ⟨rfl, rfl, rfl⟩⟩
    · exact ⟨_, rfl, Or.inr ⟨errSuboption, by decide, rfl⟩⟩
  split
  · rename_i hp
    split
    · exact ⟨_, rfl, Or.inl ⟨rfl, rfl, rfl⟩⟩
    split
    · exact ⟨_, rfl, Or.inl ⟨rfl, rfl, rfl⟩⟩
    split
    · exact ⟨_, rfl, Or.inl ⟨rfl, rfl, rfl⟩⟩
    split
    · rename_i ha; exact absurd ⟨hp, ha⟩ h3
    split
    · exact ⟨_, rfl, Or.inl ⟨rfl, rfl, rfl⟩⟩
    split
    · exact ⟨_, rfl, Or.inl ⟨rfl, rfl, rfl⟩⟩
    · exact hg
  split
  · split
    · exact ⟨_, rfl, Or.inl ⟨rfl, rfl, rfl⟩⟩
    · exact ⟨_, rfl, Or.inr ⟨errSuboption, by decide, rfl⟩⟩
  exact hg

theorem getLoop_blocks (c : Cfg) (d : Dev) (tail : List Byte) (m : Mem) (dcplen : Nat) (hs : dcplen < 65400) :
    ∀ (os : List (Byte × Byte)) (fuel p : Nat) (out : List Byte), At m p (os.flatMap fun o => [o.1, o.2]) →
      dcplen = p + 2 * os.length → os.length < fuel → out.length % 2 = 0 →
      getLoop c d tail m dcplen fuel p out =
        putAll out (os.filterMap fun o => getBlk c d tail o.1 o.2 false none) := by
  intro os
  induction os with
  | nil =>
    intro fuel p out _ hd hf he
    cases fuel with
    | zero => simp at hf
    | succ fuel => simp only [List.length_nil] at hd; unfold getLoop; rw [if_neg (by omega)]; rfl
  | cons o os ih =>
    intro fuel p out hat hd hf he
    cases fuel with
    | zero => simp at hf
    | succ fuel =>
      simp only [List.length_cons] at hd hf
      rw [List.flatMap_cons, At.append] at hat
      obtain ⟨h1, h2⟩ := hat
      obtain ⟨ha, hb⟩ := At.cons.mp h1
      obtain ⟨hb, _⟩ := At.cons.mp hb
      unfold getLoop
      rw [if_pos (by omega), ha, Option.bind_some, hb, Option.bind_some, Nat.mod_eq_of_lt (by omega : p + 2 < 65536)]
      cases hg : getBlk c d tail o.1 o.2 false none with
      | none =>
        rw [List.filterMap_cons_none (by exact hg)]
        exact ih fuel (p + 2) out h2 (by omega) (by omega) he
      | some b =>
        rw [List.filterMap_cons_some (by exact hg), putAll]
        show (putBlk out b).bind _ = _
        cases hp : putBlk out b with
        | none => rfl
        | some o' =>
          rw [Option.bind_some, Option.bind_some]
          refine ih fuel (p + 2) o' h2 (by omega) (by omega) ?_
          by_cases hle : dstStart + out.length ≤ dstMax
          · obtain ⟨x, hx, _, h3⟩ := putBlk_total b hle he
            rw [hp] at hx; cases hx; exact h3
          · rw [putBlk_skip b (by omega)] at hp; cases hp; exact he

/-- C52, Get: if the values fit into a frame, and the options do not include Control, All and the alias name, there is
exactly one block for each option, in order, with the value or an error; the device is not changed. -/
theorem C52_get_partial (c : Cfg) (hc : Good c) (e : Env) (n : Net) (m : Mem) (len pos : Nat) (src xid : List Byte)
    (os : List (Byte × Byte)) (h : IsReq c m len pos src 3 xid (os.flatMap fun o => [o.1, o.2])) (ha : e.alloc = true)
    (hsam : n.sam = macNil ∨ n.sam = src)
    (ho : ∀ o ∈ os, o.1 ≠ 5 ∧ o.1 ≠ 0xff ∧ o ≠ (2, 6)) :
    ∃ bs : List Blk, bs.length = os.length ∧
      (∀ (i : Nat) (o : Byte × Byte), os[i]? = some o → ∃ b, bs[i]? = some b ∧ About o.1 o.2 b ∧
        getBlk c n.dev e.nameTail o.1 o.2 false none = some b) ∧
      ((bs.flatMap encBlk).length ≤ 1474 →
        ∃ n', getSet c e n m len pos = some (n', ⟨some (response c src 3 1 xid (bs.flatMap encBlk)), [], false⟩) ∧
          n'.dev = n.dev ∧ n'.sam = src) := by
  have hall : ∀ o ∈ os, ∃ b, getBlk c n.dev e.nameTail o.1 o.2 false none = some b ∧ About o.1 o.2 b := by
    intro o hoo
    obtain ⟨h1, h2, h3⟩ := ho o hoo
    exact getBlk_about c n.dev e.nameTail o.1 o.2 h1 h2 (fun hh => h3 (by cases o; exact Prod.ext hh.1 hh.2))
  have hlist : ∀ l : List (Byte × Byte), (∀ o ∈ l, ∃ b, getBlk c n.dev e.nameTail o.1 o.2 false none = some b ∧ About o.1 o.2 b) →
      (l.filterMap fun o => getBlk c n.dev e.nameTail o.1 o.2 false none).length = l.length ∧
      ∀ (i : Nat) (o : Byte × Byte), l[i]? = some o →
        ∃ b, (l.filterMap fun o => getBlk c n.dev e.nameTail o.1 o.2 false none)[i]? = some b ∧ About o.1 o.2 b ∧
          getBlk c n.dev e.nameTail o.1 o.2 false none = some b := by
    intro l
    induction l with
    | nil => intro _; exact ⟨rfl, fun i o h => by simp at h⟩
    | cons x t ih =>
      intro hl
      obtain ⟨b, hb, hab⟩ := hl x (by simp)
      obtain ⟨i1, i2⟩ := ih (fun o ho => hl o (by simp [ho]))
      rw [List.filterMap_cons_some (by exact hb)]
      refine ⟨by simp [i1], ?_⟩
      intro i o hi
      cases i with
      | zero => simp at hi; subst hi; exact ⟨b, by simp, hab, hb⟩
      | succ i => simpa using i2 i o (by simpa using hi)
  obtain ⟨l1, l2⟩ := hlist os hall
  refine ⟨_, l1, l2, ?_⟩
  intro hfit
  obtain ⟨hdr, h1, h2, h3⟩ := getSet_serve c hc e n m len pos src 3 xid _ h ha hsam
  obtain ⟨typ, dly, _, _, _, h4, _, _, _, h8, h9, h10⟩ := h
  have hl2 : (os.flatMap fun o => [o.1, o.2]).length = 2 * os.length := by
    rw [List.length_flatMap]; simp; omega
  rw [h1]
  unfold serve
  rw [if_neg (by rw [h2]; decide), if_pos h2]
  rw [hl2] at h8
  rw [getLoop_blocks c n.dev e.nameTail m _ (by rw [hl2]; omega) os getSetFuel (pos + 12) [] h4 (by rw [hl2])
    (by unfold getSetFuel; omega) rfl, putAll_fits _ [] rfl (by rw [List.length_nil]; omega), Option.bind_some, h3]
  refine ⟨_, rfl, rfl, rfl⟩

end Verif.Dcp
