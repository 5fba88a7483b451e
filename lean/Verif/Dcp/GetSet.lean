import Verif.Dcp.Lemmas
import Verif.Cmina.Lemmas
/-!
C52: Get and Set requests.
-/
set_option linter.unusedVariables false
set_option linter.unusedSimpArgs false

namespace Verif.Dcp

open Cmina (Dev Ip Ev optIp optProps optDhcp optControl optInitiative optAll subIpMac subIpPar subIpSuite subVendor
  subName subId subRole subOptions subAlias subInstance subOemId subGateway errOption errSuboption)

/-! ## Termination and memory safety for every frame -/

/-- What has been written so far is inside the buffer and ends at an even position. -/
def OutOk (out : List Byte) : Prop := dstStart + out.length ≤ dstMax ∧ out.length % 2 = 0

theorem setBlk_total (c : Cfg) (a : Acc) (h : OutOk a.out) (opt sub : Byte) (qual len : Nat) (v : List Byte) :
    ∃ a', setBlk c a opt sub qual len v = some a' ∧ OutOk a'.out := by
  unfold setBlk
  dsimp only
  obtain ⟨o, h1, h2, h3⟩ := putBlk_total (resBlk opt sub
    (Cmina.setReq c.defaults a.net.dev a.net.gq opt sub (BitVec.ofNat 16 qual) len v).err) h.1 h.2
  rw [h1]
  exact ⟨_, rfl, h2, h3⟩

theorem even_eq {p : Nat} (h : p + 1 < 65536) : even p = p + p % 2 := by
  unfold even; split <;> omega

/-- The bytes of a value that are read are, except for an IP suite, those of the block. -/
theorem needed_le (opt sub : Byte) (bl : Nat) (h : bl < 65536) :
    needed opt sub ((bl + 65534) % 65536) = 0 ∨ 2 ≤ bl ∧ needed opt sub ((bl + 65534) % 65536) ≤ bl + 14 := by
  unfold needed
  repeat' split
  · right; omega
  · right; omega
  · right; omega
  · left; rfl

theorem setLoop_total (c : Cfg) (m : Mem) (k : Nat) (hm : Def m k) (dcplen : Nat) (hk : dcplen + 20 ≤ k)
    (hs : dcplen < 65400) : ∀ (fuel hp : Nat) (a : Acc), OutOk a.out → hp + 4 ≤ k → hp < 65500 → 1 ≤ fuel →
    dcplen + 1 ≤ hp + fuel → ∃ a', setLoop c m dcplen fuel hp a = some a' ∧ OutOk a'.out := by
  intro fuel
  induction fuel with
  | zero => intro hp a ha hb hc h1; omega
  | succ fuel ih =>
    intro hp a ha hb hc _ hf
    unfold setLoop
    obtain ⟨bl, hbl, hlt⟩ := rd16_def hm (hp + 2) (by omega)
    rw [hbl, Option.bind_some]
    dsimp only
    rw [Nat.mod_eq_of_lt (by omega : hp + 4 < 65536)]
    split
    · rename_i hc2
      obtain ⟨qual, hq, _⟩ := rd16_def hm (hp + 4) (by omega)
      rw [hq, Option.bind_some]
      obtain ⟨opt, ho⟩ := hm hp (by omega)
      obtain ⟨sub, hsu⟩ := hm (hp + 1) (by omega)
      rw [ho, Option.bind_some, hsu, Option.bind_some]
      rw [Nat.mod_eq_of_lt (by omega : hp + 4 + 2 < 65536)]
      obtain ⟨v, hv, _⟩ := rdN_def hm (needed opt sub ((bl + 65534) % 65536)) (hp + 4 + 2) (by
        rcases needed_le opt sub bl hlt with h | h <;> omega)
      rw [hv, Option.bind_some]
      obtain ⟨a', ha', ho'⟩ := setBlk_total c a ha opt sub qual ((bl + 65534) % 65536) v
      rw [ha', Option.bind_some]
      have hn : (hp + 4 + 2 + (bl + 65534) % 65536) % 65536 = hp + 4 + bl := by omega
      rw [hn, even_eq (by omega)]
      exact ih _ a' ho' (by omega) (by omega) (by omega) (by omega)
    · exact ⟨a, rfl, ha⟩

theorem putOpt_total {out : List Byte} (b : Option Blk) (h : OutOk out) : ∃ o, putOpt out b = some o ∧ OutOk o := by
  cases b with
  | none => exact ⟨out, rfl, h⟩
  | some b => obtain ⟨o, h1, h2, h3⟩ := putBlk_total b h.1 h.2; exact ⟨o, h1, h2, h3⟩

theorem getLoop_total (c : Cfg) (d : Dev) (tail : List Byte) (m : Mem) (k : Nat) (hm : Def m k) (dcplen : Nat)
    (hk : dcplen ≤ k) (hs : dcplen < 65400) : ∀ (fuel p : Nat) (out : List Byte), OutOk out → p < 65500 → 1 ≤ fuel →
    dcplen + 1 ≤ p + fuel → ∃ o, getLoop c d tail m dcplen fuel p out = some o ∧ OutOk o := by
  intro fuel
  induction fuel with
  | zero => intro p out ha hb hc; omega
  | succ fuel ih =>
    intro p out ha hb _ hf
    unfold getLoop
    split
    · rename_i hc
      obtain ⟨opt, ho⟩ := hm p (by omega)
      obtain ⟨sub, hsu⟩ := hm (p + 1) (by omega)
      rw [ho, Option.bind_some, hsu, Option.bind_some]
      obtain ⟨o, h1, h2⟩ := putOpt_total (getBlk c d tail opt sub false none) ha
      rw [h1, Option.bind_some, Nat.mod_eq_of_lt (by omega : p + 2 < 65536)]
      exact ih _ o h2 (by omega) (by omega) (by omega)
    · exact ⟨out, rfl, ha⟩

theorem outOk_nil : OutOk [] := ⟨by simp, by simp⟩

theorem frameHead_length (c : Cfg) (src : List Byte) (a b : Byte) (hdr : List Byte) (t : Byte) (n : Nat)
    (hs : src.length = 6) (hc : c.mac.length = 6) (hh : hdr.length = 10) :
    (frameHead c src a b hdr t n).length = 26 := by
  unfold frameHead
  simp [hs, hc, hh]

/-- C52, first part: for every frame, whatever its contents, of at most 65000 bytes that is long enough for a DCP header,
processing terminates and reads nothing further than 20 bytes behind the end of the frame; the
response is not longer than the buffer. -/
theorem C52_terminates_partial (c : Cfg) (hc : c.mac.length = 6) (e : Env) (n : Net) (m : Mem) (len pos : Nat)
    (hl : pos + 12 ≤ len) (hs : len ≤ 65000) (hm : Def m (len + 20)) :
    ∃ r, getSet c e n m len pos = some r ∧ ∀ f, r.2.resp = some f → 26 ≤ f.length ∧ f.length ≤ 1500 := by
  unfold getSet
  obtain ⟨hdr, h1, hh⟩ := rdN_def hm 10 (pos + 2) (by omega)
  obtain ⟨dest, h2, _⟩ := rdN_def hm 6 0 (by omega)
  obtain ⟨src, h3, hsrc⟩ := rdN_def hm 6 6 (by omega)
  rw [h1, Option.bind_some, h2, Option.bind_some, h3, Option.bind_some]
  dsimp only
  split
  · exact ⟨_, rfl, by simp [Out.nil]⟩
  rename_i hlen
  split
  · exact ⟨_, rfl, by simp [Out.nil]⟩
  split
  · exact ⟨_, rfl, by simp [Out.nil]⟩
  split
  · exact ⟨_, rfl, by simp [Out.nil]⟩
  generalize (pos + 12 + be16 (hdr.getD 8 0) (hdr.getD 9 0)) % 65536 = dcplen at hlen ⊢
  unfold serve
  split
  · obtain ⟨a, ha, ho⟩ := setLoop_total c m _ hm dcplen (by omega) (by omega) getSetFuel (pos + 12) ⟨n, [], [], false⟩
      outOk_nil (by omega) (by omega) (by decide) (by unfold getSetFuel; omega)
    rw [ha]
    refine ⟨_, rfl, ?_⟩
    intro f hf
    cases hf
    rw [List.length_append, frameHead_length c src _ _ hdr _ _ hsrc hc hh]
    have := ho.1
    omega
  · split
    · obtain ⟨o, ha, ho⟩ := getLoop_total c n.dev e.nameTail m _ hm dcplen (by omega) (by omega) getSetFuel (pos + 12) []
        outOk_nil (by omega) (by decide) (by unfold getSetFuel; omega)
      rw [ha]
      refine ⟨_, rfl, ?_⟩
      intro f hf
      cases hf
      rw [List.length_append, frameHead_length c src _ _ hdr _ _ hsrc hc hh]
      have := ho.1
      omega
    · refine ⟨_, rfl, ?_⟩
      intro f hf
      cases hf
      rw [frameHead_length c src _ _ hdr _ _ hsrc hc hh]
      omega

/-! ## What the result depends on -/

theorem ipOf_congr {v w : List Byte} (h : v.take 12 = w.take 12) : Cmina.ipOf v = Cmina.ipOf w := by
  have g : ∀ i, i < 12 → v.getD i 0 = w.getD i 0 := by
    intro i hi
    have : (v.take 12)[i]? = (w.take 12)[i]? := by rw [h]
    rw [List.getElem?_take, List.getElem?_take, if_pos hi, if_pos hi] at this
    rw [List.getD_eq_getElem?_getD, List.getD_eq_getElem?_getD, this]
  simp only [Cmina.ipOf, Cmina.be32]
  rw [g 0 (by omega), g 1 (by omega), g 2 (by omega), g 3 (by omega), g (4 + 1) (by omega), g (4 + 2) (by omega),
    g (4 + 3) (by omega), g 4 (by omega), g (8 + 1) (by omega), g (8 + 2) (by omega), g (8 + 3) (by omega),
    g 8 (by omega)]

theorem setBlk_suite (c : Cfg) (a : Acc) (qual : Nat) (v w : List Byte) (h : v.take 12 = w.take 12) :
    setBlk c a optIp subIpSuite qual 12 v = setBlk c a optIp subIpSuite qual 12 w := by
  have : Cmina.setReq c.defaults a.net.dev a.net.gq optIp subIpSuite (BitVec.ofNat 16 qual) 12 v =
      Cmina.setReq c.defaults a.net.dev a.net.gq optIp subIpSuite (BitVec.ofNat 16 qual) 12 w := by
    have e : ∀ w, Cmina.kind optIp subIpSuite (BitVec.ofNat 16 qual) 12 w = .ipSuite (Cmina.ipOf w) := by
      intro w; unfold Cmina.kind; rfl
    rw [Cmina.setReq_kind, Cmina.setReq_kind, e, e, ipOf_congr h]; rfl
  unfold setBlk
  rw [this]

theorem rdN_split {m : Mem} : ∀ (i a b : Nat), rdN m i (a + b) =
    (rdN m i a).bind fun x => (rdN m (i + a) b).bind fun y => some (x ++ y)
  | i, 0, b => by
    show rdN m i (0 + b) = _
    rw [Nat.zero_add]
    show _ = (rdN m (i + 0) b).bind fun y => some ([] ++ y)
    simp
  | i, a + 1, b => by
    rw [show a + 1 + b = (a + b) + 1 by omega, rdN, rdN]
    cases hm : m i with
    | none => rfl
    | some x =>
      rw [Option.bind_some, Option.bind_some, rdN_split (i + 1) a b, show i + 1 + a = i + (a + 1) by omega]
      cases rdN m (i + 1) a with
      | none => rfl
      | some y =>
        rw [Option.bind_some, Option.bind_some, Option.bind_some]
        cases rdN m (i + (a + 1)) b with
        | none => rfl
        | some z => rfl

theorem setLoop_same (c : Cfg) (m m' : Mem) (k : Nat) (hm : Def m k) (hm' : Def m' k) (dcplen : Nat) (hk : dcplen + 20 ≤ k)
    (hs : dcplen < 65400) (he : Same m m' (dcplen + 2)) :
    ∀ (fuel hp : Nat) (a : Acc), hp + 4 ≤ k → hp < 65500 →
      setLoop c m dcplen fuel hp a = setLoop c m' dcplen fuel hp a := by
  intro fuel
  induction fuel with
  | zero => intro hp a _ _; rfl
  | succ fuel ih =>
    intro hp a hb hc
    unfold setLoop
    obtain ⟨bl, hbl, hlt⟩ := rd16_def hm (hp + 2) (by omega)
    obtain ⟨bl', hbl', hlt'⟩ := rd16_def hm' (hp + 2) (by omega)
    rw [hbl, Option.bind_some, hbl', Option.bind_some]
    dsimp only
    rw [Nat.mod_eq_of_lt (by omega : hp + 4 < 65536)]
    by_cases hin : hp + 4 ≤ dcplen
    · have hbb : bl = bl' := by
        have := rd16_same he (hp + 2) (by omega)
        rw [hbl, hbl'] at this
        exact Option.some.inj this
      subst hbb
      by_cases hcc : dcplen ≥ hp + 4 + bl
      · rw [if_pos hcc, if_pos hcc, rd16_same he (hp + 4) (by omega), he hp (by omega), he (hp + 1) (by omega)]
        obtain ⟨qual, hq, _⟩ := rd16_def hm' (hp + 4) (by omega)
        rw [hq, Option.bind_some, Option.bind_some]
        obtain ⟨opt, ho⟩ := hm' hp (by omega)
        obtain ⟨sub, hsu⟩ := hm' (hp + 1) (by omega)
        rw [ho, Option.bind_some, Option.bind_some, hsu, Option.bind_some, Option.bind_some]
        rw [Nat.mod_eq_of_lt (by omega : hp + 4 + 2 < 65536)]
        have hn : (hp + 4 + 2 + (bl + 65534) % 65536) % 65536 = hp + 4 + bl := by omega
        rw [hn, even_eq (by omega)]
        have step : ∀ x : Option Acc, (x.bind fun a' => setLoop c m dcplen fuel (hp + 4 + bl + (hp + 4 + bl) % 2) a') =
            x.bind fun a' => setLoop c m' dcplen fuel (hp + 4 + bl + (hp + 4 + bl) % 2) a' := by
          intro x
          cases x with
          | none => rfl
          | some y => exact ih _ y (by omega) (by omega)
        by_cases hsuite : opt = optIp ∧ sub = subIpSuite ∧ (bl + 65534) % 65536 = 12
        · obtain ⟨rfl, rfl, hl12⟩ := hsuite
          have hne : needed optIp subIpSuite 12 = 12 + 16 := by decide
          rw [hl12, hne, rdN_split, rdN_split, rdN_same he 12 (hp + 4 + 2) (by omega)]
          obtain ⟨v, hv, lv⟩ := rdN_def hm' 12 (hp + 4 + 2) (by omega)
          obtain ⟨y, hy, ly⟩ := rdN_def hm 16 (hp + 4 + 2 + 12) (by omega)
          obtain ⟨y', hy', ly'⟩ := rdN_def hm' 16 (hp + 4 + 2 + 12) (by omega)
          rw [hv, Option.bind_some, Option.bind_some, hy, hy']
          rw [Option.bind_some, Option.bind_some, Option.bind_some, Option.bind_some]
          rw [setBlk_suite c a qual (v ++ y) (v ++ y') (by
            rw [List.take_append_of_le_length (by omega), List.take_append_of_le_length (by omega)])]
          exact step _
        · have hle : hp + 4 + 2 + needed opt sub ((bl + 65534) % 65536) ≤ dcplen + 2 := by
            unfold needed
            repeat' split
            all_goals first | omega | contradiction
          rw [rdN_same he _ _ hle]
          cases rdN m' (hp + 4 + 2) (needed opt sub ((bl + 65534) % 65536)) with
          | none => rfl
          | some v => exact step _
      · rw [if_neg hcc, if_neg hcc]
    · rw [if_neg (by omega), if_neg (by omega)]

theorem getLoop_same (c : Cfg) (d : Dev) (tail : List Byte) (m m' : Mem) (dcplen : Nat) (he : Same m m' dcplen) :
    ∀ (fuel p : Nat) (out : List Byte), getLoop c d tail m dcplen fuel p out = getLoop c d tail m' dcplen fuel p out := by
  intro fuel
  induction fuel with
  | zero => intro p out; rfl
  | succ fuel ih =>
    intro p out
    unfold getLoop
    split
    · rw [he p (by omega), he (p + 1) (by omega)]
      cases m' p with
      | none => rfl
      | some opt =>
        rw [Option.bind_some, Option.bind_some]
        cases m' (p + 1) with
        | none => rfl
        | some sub =>
          rw [Option.bind_some, Option.bind_some]
          cases putOpt out (getBlk c d tail opt sub false none) with
          | none => rfl
          | some o => exact ih _ o
    · rfl

/-- The end of the DCP data that the frame announces. -/
def dcpEnd (m : Mem) (pos : Nat) : Nat := (pos + 12 + (rd16 m (pos + 10)).getD 0) % 65536

theorem hdr_len {m : Mem} {pos : Nat} {hdr : List Byte} (h : rdN m (pos + 2) 10 = some hdr) :
    (pos + 12 + be16 (hdr.getD 8 0) (hdr.getD 9 0)) % 65536 = dcpEnd m pos := by
  have ha := rdN_get h
  have hl := rdN_length h
  have g8 := ha 8 (by omega)
  have g9 := ha 9 (by omega)
  have e8 : hdr[8]? = some (hdr.getD 8 0) := by
    rw [List.getD_eq_getElem?_getD, List.getElem?_eq_getElem (by omega)]; rfl
  have e9 : hdr[9]? = some (hdr.getD 9 0) := by
    rw [List.getD_eq_getElem?_getD, List.getElem?_eq_getElem (by omega)]; rfl
  unfold dcpEnd rd16
  rw [show pos + 10 = pos + 2 + 8 by omega, show pos + 2 + 8 + 1 = pos + 2 + 9 by omega, g8, g9, e8, e9]
  rfl

/-- C52, second part: what the device does and answers depends on nothing further than two bytes behind the DCP data that
the frame announces (for which see `C52_fails_outside`). -/
theorem C52_inside_partial (c : Cfg) (e : Env) (n : Net) (m m' : Mem) (len pos : Nat)
    (hl : pos + 12 ≤ len) (hs : len ≤ 65000) (hm : Def m (len + 20)) (hm' : Def m' (len + 20))
    (hh : Same m m' (pos + 12)) (hd : Same m m' (dcpEnd m pos + 2)) :
    getSet c e n m len pos = getSet c e n m' len pos := by
  unfold getSet
  rw [rdN_same hh 10 (pos + 2) (by omega), rdN_same hh 6 0 (by omega), rdN_same hh 6 6 (by omega)]
  obtain ⟨hdr, h1, _⟩ := rdN_def hm' 10 (pos + 2) (by omega)
  obtain ⟨dest, h2, _⟩ := rdN_def hm' 6 0 (by omega)
  obtain ⟨src, h3, hsrc⟩ := rdN_def hm' 6 6 (by omega)
  have hde : dcpEnd m pos = dcpEnd m' pos := by
    unfold dcpEnd; rw [rd16_same hh (pos + 10) (by omega)]
  rw [h1, Option.bind_some, Option.bind_some, h2, Option.bind_some, Option.bind_some, h3, Option.bind_some,
    Option.bind_some]
  dsimp only
  rw [hdr_len h1, ← hde]
  generalize dcpEnd m pos = dcplen at hd ⊢
  split
  · rfl
  split
  · rfl
  split
  · rfl
  split
  · rfl
  unfold serve
  rw [setLoop_same c m m' _ hm hm' dcplen (by omega) (by omega) hd getSetFuel (pos + 12) _ (by omega) (by omega),
    getLoop_same c n.dev e.nameTail m m' dcplen (fun i hi => hd i (by omega))]

end Verif.Dcp
