import Verif.ConnRsp.Lemmas

/-! C102, C103, C104: the answer to a connect request. -/
set_option linter.unusedVariables false
set_option linter.unusedSimpArgs false

namespace Verif.ConnRsp
open Verif.Wire hiding ExpApi ExpMod ExpSub bit encBlock encBlock_length
open Verif.DiagRead (n16 n32 each skip Holds)
open Verif.Read (Ready Appends Within)
open Verif.Records
open Verif.Device (ApiDiff ModDiff SubDiff)
open Verif.Connect (crAt)

/-! ## Lengths -/

/-- Length of the blocks that precede the station name. -/
def frontLen (q : Req) (diff : List ApiDiff) : Nat :=
  46 + 12 * q.crs.length + (if diff = [] then 0 else 6 + ((Device.putDiff diff).drop 6).length) + (if q.rpc then 8 else 0)

/-- Length of the station name and the vendor blocks, with `n` bytes of vendor data. -/
def backLen (q : Req) (name : List Byte) (n : Nat) : Nat :=
  if q.advanced then up4 (8 + name.length) + q.vendors.length * up4 (16 + n) else 0

theorem encBlocks_same {α : Type} (f : α → U16 × List Byte) (n : Nat) (l : List α) (h : ∀ a ∈ l, (f a).2.length = n) :
    (encBlocks (l.map f)).length = l.length * (6 + n) := by
  induction l with
  | nil => simp [encBlocks]
  | cons a l ih =>
    rw [List.map_cons, show encBlocks (f a :: l.map f) = encBlock (f a).1 0 (f a).2 ++ encBlocks (l.map f) from List.flatMap_cons,
      List.length_append, ih (fun b hb => h b (by simp [hb])), encBlock_length, h a (by simp), List.length_cons, Nat.succ_mul]
    omega

theorem front_length {q : Req} {r : Res} (h1 : q.uuid.d4.length = 8) (h2 : r.mac.length = 6) (h3 : r.crs.length = q.crs.length) :
    (encBlocks (front q r)).length = frontLen q r.diff := by
  unfold front frontLen
  simp only [encBlocks_append, List.length_append]
  rw [encBlocks_same _ 6 _ (fun a _ => by simp [enc16_length]), encBlocks_one, encBlocks_one, encBlock_length, encBlock_length]
  simp only [List.length_append, enc16_length, encUuid_length h1, h2, h3]
  have a : (encBlocks (if r.diff = [] then [] else [(0x8104, ((Device.putDiff r.diff).drop 6).map (BitVec.ofNat 8))])).length =
      if r.diff = [] then 0 else 6 + ((Device.putDiff r.diff).drop 6).length := by
    split
    · rfl
    · rw [encBlocks_one, encBlock_length, List.length_map]
      omega
  have b : (encBlocks (if q.rpc then [(0x8107, enc16 true r.rpcPort)] else [])).length = if q.rpc then 8 else 0 := by
    split
    · rw [encBlocks_one, encBlock_length, enc16_length]
    · rfl
  rw [a, b]
  omega

theorem back_length (q : Req) (r : Res) : (encBlocks (back q r)).length = backLen q r.name r.vendorData.length := by
  unfold back backLen
  split
  · rw [show ∀ (c : U16 × List Byte) l, encBlocks (c :: l) = encBlock c.1 0 c.2 ++ encBlocks l from fun _ _ => List.flatMap_cons,
      List.length_append, encBlock_length, encBlocks_same _ (up4 (16 + r.vendorData.length) - 6) _ (fun a _ => by
        unfold pad4h up4
        simp [enc32_length, num16_length]
        omega)]
    unfold pad4h
    have : 6 + (up4 (16 + r.vendorData.length) - 6) = up4 (16 + r.vendorData.length) := by unfold up4; omega
    rw [this]
    unfold up4
    simp [num16_length]
    omega
  · rfl

theorem blocks_length {q : Req} {r : Res} (h1 : q.uuid.d4.length = 8) (h2 : r.mac.length = 6) (h3 : r.crs.length = q.crs.length) :
    (encBlocks (blocks q r)).length = frontLen q r.diff + backLen q r.name r.vendorData.length := by
  unfold blocks
  rw [encBlocks_append, List.length_append, front_length h1 h2 h3, back_length]

/-! ## C102 -/

theorem allocate_spec (i : Nat) (l : List (Option Nat)) :
    ((allocate i l).1 = 0 ∧ none ∉ l ∧ (allocate i l).2 = l) ∨
    (1 ≤ (allocate i l).1 ∧ (allocate i l).1 ≤ l.length ∧ l[(allocate i l).1 - 1]? = some none ∧
      (allocate i l).2 = l.set ((allocate i l).1 - 1) (some i)) := by
  induction l with
  | nil => exact Or.inl ⟨rfl, by simp, rfl⟩
  | cons a l ih =>
    cases a with
    | none =>
      right
      exact ⟨by simp [allocate], by simp [allocate], by simp [allocate], by simp [allocate]⟩
    | some j =>
      rcases ih with ⟨h1, h2, h3⟩ | ⟨h1, h2, h3, h4⟩
      · left
        exact ⟨by simp [allocate, h1], by simp [h2], by simp [allocate, h3]⟩
      · right
        have e : (allocate i (some j :: l)).1 = (allocate i l).1 + 1 := by
          simp only [allocate]
          rw [if_neg (by omega)]
        have e2 : (allocate i (some j :: l)).2 = some j :: (allocate i l).2 := rfl
        rw [e, e2]
        refine ⟨by omega, by simp; omega, ?_, ?_⟩
        · rw [Nat.add_sub_cancel, show (allocate i l).1 = ((allocate i l).1 - 1) + 1 by omega, List.getElem?_cons_succ]
          exact h3
        · rw [Nat.add_sub_cancel]
          conv => rhs; rw [show (allocate i l).1 = ((allocate i l).1 - 1) + 1 by omega, List.set_cons_succ]
          rw [h4]

/-- The table of connections after the choice of the frame IDs. -/
theorem fix_spec {e : Env} {q : Req} (ht : InTable e q) : ∃ ars crs, Connect.fixFrameIds e.maxAr e.ars e.i = some ars ∧
    ars[e.i]?.map Connect.Ar.crs = some crs ∧ crs.length = q.crs.length ∧
    ∀ (k : Nat) (c : CrReq), q.crs[k]? = some c → ∃ f : U16, crs[k]? = some { c.cr with frameId := f } ∧
      (¬ (c.cr.type = 2 ∧ c.cr.frameId = 0xFFFF) → f = c.cr.frameId) := by
  obtain ⟨hi, har, hcap⟩ := ht
  obtain ⟨ars, hars⟩ := Option.isSome_iff_exists.1 (Connect.C18_terminates e.maxAr e.ars e.i hcap)
  have hf := hars
  unfold Connect.fixFrameIds at hf
  rw [har] at hf
  simp only at hf
  have hu : ∃ ar, e.ars[e.i]? = some ar ∧ ar.inUse = true := ⟨_, har, rfl⟩
  have h0 : Connect.FixInv e.maxAr e.ars e.i 0 e.ars :=
    ⟨rfl, fun _ => Iff.rfl, fun _ _ _ => rfl, fun _ _ h _ => h, fun j' hj' => absurd hj' (by omega)⟩
  have hinv := Connect.fixFrom_inv hi hu _ 0 e.ars ars h0 hf
  rw [Nat.zero_add, List.length_map] at hinv
  obtain ⟨ar', hex, _⟩ := (hinv.use e.i).2 ⟨_, har, rfl⟩
  have hat : ∀ k, crAt ars e.i k = ar'.crs[k]? := by intro k; unfold crAt; rw [hex]; rfl
  have hat0 : ∀ k, crAt e.ars e.i k = (q.crs[k]?).map CrReq.cr := by intro k; unfold crAt; rw [har]; simp
  have hex' : ∀ (k : Nat) (c : CrReq), q.crs[k]? = some c → ∃ f : U16, ar'.crs[k]? = some { c.cr with frameId := f } ∧
      (¬ (c.cr.type = 2 ∧ c.cr.frameId = 0xFFFF) → f = c.cr.frameId) := by
    intro k c hc
    have hk : k < q.crs.length := (List.getElem?_eq_some_iff.1 hc).1
    have h1 : crAt e.ars e.i k = some c.cr := by rw [hat0, hc]; rfl
    by_cases hw : Connect.Waiting c.cr
    · obtain ⟨f, hf, _⟩ := hinv.done k hk c.cr h1 hw
      rw [hat] at hf
      exact ⟨f, hf, fun h => absurd ((Connect.waiting_iff _).1 hw) h⟩
    · have := hinv.same k c.cr h1 hw
      rw [hat] at this
      exact ⟨c.cr.frameId, this, fun _ => rfl⟩
  refine ⟨ars, ar'.crs, hars, by rw [hex]; rfl, ?_, hex'⟩
  have hge : q.crs.length ≤ ar'.crs.length := by
    apply Nat.le_of_not_lt
    intro hlt
    obtain ⟨f, hf, _⟩ := hex' ar'.crs.length _ (List.getElem?_eq_getElem hlt)
    simp at hf
  have hle : ar'.crs.length ≤ q.crs.length := by
    have h1 := hinv.other e.i q.crs.length (by omega)
    rw [hat, hat0] at h1
    simp at h1
    exact h1
  omega

theorem fill_spec {e : Env} {q : Req} (ht : InTable e q) : ∃ r ars eps, fill e q = some (r, ars, eps) ∧
    r.mac = e.mac ∧ r.udpPort = 0x8892 ∧ DescribesCrs e q ars r.crs ∧ r.alarm.type = q.alarmType ∧ r.alarm.maxLen = 200 ∧
    r.diff = e.diff ∧ r.rpcPort = 0 ∧ r.name = e.name ∧ r.vendorData = [] ∧
    (e.eps.length < 65536 → NamesEndpoint e eps r.alarm.ref ∨ (r.alarm.ref = 0 ∧ none ∉ e.eps ∧ eps = e.eps)) := by
  obtain ⟨ars, crs, h1, h2, h3, h4⟩ := fix_spec ht
  unfold fill
  rw [h1, Option.map_some]
  refine ⟨_, _, _, rfl, rfl, rfl, ⟨?_, ?_⟩, rfl, rfl, rfl, rfl, rfl, rfl, ?_⟩
  · rw [h2]; simp [h3]
  · intro k c hc
    obtain ⟨f, g1, g2⟩ := h4 k c hc
    refine ⟨f, ?_, ?_, g2⟩
    · obtain ⟨ar, ha, hb⟩ := Option.map_eq_some_iff.1 h2
      unfold crAt
      rw [ha, Option.bind_some, hb]
      exact g1
    · simp only [h2, Option.getD_some, List.getElem?_zipWith, hc, g1, Option.map_some]
  · intro hl
    have hr : ∀ n, n ≤ e.eps.length → (BitVec.ofNat 16 n : U16).toNat = n := by
      intro n hn; rw [BitVec.toNat_ofNat]; omega
    rcases allocate_spec e.i e.eps with ⟨a1, a2, a3⟩ | ⟨a1, a2, a3, a4⟩
    · right
      exact ⟨by simp only [a1]; rfl, a2, a3⟩
    · left
      unfold NamesEndpoint
      simp only [hr _ a2]
      exact ⟨a1, a3, a4⟩

/-- C102, partial.  What is missing is that the connection always gets an alarm endpoint, which is false.  An accepted request, if
there is room for the answer, is answered with the status left by the application and a description of the connection:
the identification from the request, the address of the device and the port for UDP; for each CR of the request its
type, reference and the frame ID that is in the table of connections; for alarms the type from the request, the longest
alarm, and the reference of an endpoint that was free and is now that of the connection, or 0 if none was free; the
module difference; and in advanced mode the station name. -/
theorem C102_answer_partial {e : Env} {q : Req} {ndr : Ndr} {w : Wr} (hw : Ready w) (ht : InTable e q) (ha : Accepted e q)
    (hep : e.eps.length < 65536)
    (hid : q.uuid.d4.length = 8) (hmac : e.mac.length = 6) (hroom : w.pos + 20 + frontLen q e.diff + backLen q e.name 0 ≤ w.cap) :
    ∃ w' r ars eps, connectInd e q none ndr w = some (w', e.app.2, ars, eps) ∧ Within w w' ∧
      Appends w w' (encRsp ndr e.app.2 (blocks q r)) ∧
      r.mac = e.mac ∧ r.udpPort = 0x8892 ∧ DescribesCrs e q ars r.crs ∧
      r.alarm.type = q.alarmType ∧ r.alarm.maxLen = 200 ∧
      (NamesEndpoint e eps r.alarm.ref ∨ (r.alarm.ref = 0 ∧ none ∉ e.eps ∧ eps = e.eps)) ∧
      r.diff = e.diff ∧ r.rpcPort = 0 ∧ r.name = e.name ∧ r.vendorData = [] := by
  obtain ⟨r, ars, eps, hf, h1, h2, h3, h4, h5, h6, h7, h8, h9, h10⟩ := fill_spec ht
  obtain ⟨w', e1, k1, k2⟩ := rsp_some ndr e.app.2 q r hw
    (by rw [blocks_length hid (by rw [h1]; exact hmac) h3.1, h6, h8, h9]; simp only [List.length_nil]; omega)
  refine ⟨w', r, ars, eps, ?_, k1, k2, h1, h2, h3, h4, h5, h10 hep, h6, h7, h8, h9⟩
  obtain ⟨a1, a2, a3, a4⟩ := ha
  have hc : cmdevConnect e q = some ⟨true, e.app.2, r, ars, eps⟩ := by
    unfold cmdevConnect
    rw [a1]
    simp only [hf, Option.map_some, a2, if_true]
    rcases a4 with h | h <;> simp [h]
  unfold connectInd
  simp only [hc, Option.bind_some, if_true, e1, Option.map_some]

/-- C102.  The claim that every accepted connection gets an alarm endpoint is false: if none is free, the connection is accepted all
the same, and the answer has the reference 0.  (How the endpoints are used up: `Device.C59_endpoint_leak`.) -/
theorem C102_no_endpoint_accepted_false {e : Env} {q : Req} {ndr : Ndr} {w : Wr} (hw : Ready w) (ht : InTable e q) (ha : Accepted e q)
    (hep : e.eps.length < 65536) (hnone : none ∉ e.eps)
    (hid : q.uuid.d4.length = 8) (hmac : e.mac.length = 6) (hroom : w.pos + 20 + frontLen q e.diff + backLen q e.name 0 ≤ w.cap) :
    ∃ w' r ars, connectInd e q none ndr w = some (w', e.app.2, ars, e.eps) ∧ e.app.2.code = 0 ∧
      Appends w w' (encRsp ndr e.app.2 (blocks q r)) ∧ r.alarm = ⟨q.alarmType, 0, 200⟩ := by
  obtain ⟨w', r, ars, eps, h1, _, h2, _, _, _, h3, h4, h5, _⟩ := C102_answer_partial (ndr := ndr) hw ht ha hep hid hmac hroom
  rcases h5 with h5 | ⟨h5, _, h6⟩
  · exact absurd (List.mem_of_getElem? h5.2.1) hnone
  · subst h6
    refine ⟨w', r, ars, h1, ha.2.2.1, h2, ?_⟩
    rw [← h3, ← h4, ← h5]

/-- C102.  The frame IDs: the one given for a CR that left the choice to the device (with RT class 1, 2, 3 or UDP) is the
smallest of the range of the class that no other CR of any connection has, or the range is exhausted. -/
theorem C102_frame_ids {e : Env} {q : Req} {ndr : Ndr} {w w' : Wr} {s : Status} {ars : List Connect.Ar} {eps : List (Option Nat)}
    (ht : InTable e q) (ha : Accepted e q) (hc : connectInd e q none ndr w = some (w', s, ars, eps))
    {k : Nat} {c : CrReq} (hk : q.crs[k]? = some c) (hw : c.cr.type = 2 ∧ c.cr.frameId = 0xFFFF) (hcls : c.cr.rtClass ∈ [1, 2, 3, 4]) :
    ∃ f : U16, crAt ars e.i k = some { c.cr with frameId := f } ∧
      (Connect.GoodChoice e.maxAr ars e.i k c.cr.rtClass f.toNat ∨
        f.toNat = 0xFFFF ∧ ∀ g, Connect.InRange c.cr.rtClass g → ∃ i' j', Connect.UsedAt e.maxAr ars i' j' g) := by
  obtain ⟨a1, a2, a3, a4⟩ := ha
  obtain ⟨r, ars', eps', hf, _⟩ := fill_spec ht
  have hcd : cmdevConnect e q = some ⟨true, e.app.2, r, ars', eps'⟩ := by
    unfold cmdevConnect
    rw [a1]
    simp only [hf, Option.map_some, a2, if_true]
    rcases a4 with h | h <;> simp [h]
  unfold connectInd at hc
  simp only [hcd, Option.bind_some, if_true] at hc
  obtain ⟨x, _, hx⟩ := Option.map_eq_some_iff.1 hc
  cases hx
  unfold fill at hf
  obtain ⟨a, hfix, heq⟩ := Option.map_eq_some_iff.1 hf
  cases heq
  have h18 := Connect.C18_frame_ids_partial e.maxAr e.ars _ e.i _ ht.1 ht.2.1 rfl hfix
  have hcr : crAt e.ars e.i k = some c.cr := by
    unfold crAt
    rw [ht.2.1]
    simp [hk]
  obtain ⟨f, g1, g2⟩ := h18.1 k c.cr hcr hw.1 (by rw [hw.2]; rfl)
  exact ⟨f, g1, g2 hcls⟩

/-! ### The answer can be read -/

theorem encBlocks_inj {l m : List (U16 × List Byte)} (hl : ∀ b ∈ l, b.2.length + 2 < 65536) (hm : ∀ b ∈ m, b.2.length + 2 < 65536)
    (h : encBlocks l = encBlocks m) : l = m := by
  have step : ∀ (b : U16 × List Byte) (l : List (U16 × List Byte)), encBlocks (b :: l) = encBlock b.1 0 b.2 ++ encBlocks l :=
    fun b l => List.flatMap_cons
  have hlen : ∀ b : U16 × List Byte, 0 < (encBlock b.1 0 b.2).length := fun b => by rw [encBlock_length]; omega
  induction l generalizing m with
  | nil =>
    cases m with
    | nil => rfl
    | cons b m =>
      rw [step] at h
      have := congrArg List.length h
      rw [List.length_append] at this
      have h2 := hlen b
      have h3 : (encBlocks []).length = 0 := rfl
      omega
  | cons a l ih =>
    cases m with
    | nil =>
      rw [step] at h
      have := congrArg List.length h
      rw [List.length_append] at this
      have h2 := hlen a
      have h3 : (encBlocks []).length = 0 := rfl
      omega
    | cons b m =>
      rw [step, step] at h
      have ha := hl a (by simp)
      have hb := hm b (by simp)
      have e16 : ∀ {x y : U16}, enc16 true x = enc16 true y → x = y := by
        intro x y hxy
        unfold enc16 at hxy
        simp only [if_true, List.cons.injEq, and_true] at hxy
        have h1 := congrArg BitVec.toNat hxy.1
        have h2 := congrArg BitVec.toNat hxy.2
        simp only [BitVec.toNat_ofNat] at h1 h2
        have := x.isLt
        have := y.isLt
        apply BitVec.eq_of_toNat_eq
        omega
      unfold encBlock num16 at h
      simp only [List.append_assoc] at h
      obtain ⟨h1, h⟩ := List.append_inj h (by simp [enc16_length])
      obtain ⟨h2, h⟩ := List.append_inj h (by simp [enc16_length])
      obtain ⟨_, h⟩ := List.append_inj h rfl
      have hn := congrArg BitVec.toNat (e16 h2)
      simp only [BitVec.toNat_ofNat] at hn
      obtain ⟨h3, h4⟩ := List.append_inj h (by omega)
      rw [ih (fun b hb => hl b (by simp [hb])) (fun b hb => hm b (by simp [hb])) h4]
      exact congrArg (· :: m) (Prod.ext (e16 h1) h3)

theorem enc16_inj {x y : U16} (hxy : enc16 true x = enc16 true y) : x = y := by
  unfold enc16 at hxy
  simp only [if_true, List.cons.injEq, and_true] at hxy
  have h1 := congrArg BitVec.toNat hxy.1
  have h2 := congrArg BitVec.toNat hxy.2
  simp only [BitVec.toNat_ofNat] at h1 h2
  have := x.isLt
  have := y.isLt
  apply BitVec.eq_of_toNat_eq
  omega

theorem enc32_inj {x y : U32} (hxy : enc32 true x = enc32 true y) : x = y := by
  unfold enc32 at hxy
  simp only [if_true, List.cons.injEq, and_true] at hxy
  have h1 := congrArg BitVec.toNat hxy.1
  have h2 := congrArg BitVec.toNat hxy.2.1
  have h3 := congrArg BitVec.toNat hxy.2.2.1
  have h4 := congrArg BitVec.toNat hxy.2.2.2
  simp only [BitVec.toNat_ofNat] at h1 h2 h3 h4
  have := x.isLt
  have := y.isLt
  apply BitVec.eq_of_toNat_eq
  omega

theorem uuid_inj {u v : Uuid} (h : encUuid true u = encUuid true v) : u = v := by
  unfold encUuid at h
  simp only [List.append_assoc] at h
  obtain ⟨h1, h⟩ := List.append_inj h (by simp [enc32_length])
  obtain ⟨h2, h⟩ := List.append_inj h (by simp [enc16_length])
  obtain ⟨h3, h4⟩ := List.append_inj h (by simp [enc16_length])
  cases u; cases v
  simp only at h1 h2 h3 h4
  rw [enc32_inj h1, enc16_inj h2, enc16_inj h3, h4]

/-- Values that can be put in a response: the UUID and the address have their lengths, and every block can tell its length. -/
def Sound (q : Req) (r : Res) : Prop :=
  q.uuid.d4.length = 8 ∧ r.mac.length = 6 ∧ r.name.length < 65536 ∧ ∀ b ∈ blocks q r, b.2.length + 2 < 65536

theorem name_inj {a b : List Byte} (ha : a.length < 65536) (hb : b.length < 65536)
    (h : pad4h (num16 a.length ++ a) = pad4h (num16 b.length ++ b)) : a = b := by
  unfold pad4h at h
  simp only [List.append_assoc] at h
  obtain ⟨h1, h⟩ := List.append_inj h (by simp [num16_length])
  have hn := congrArg BitVec.toNat (enc16_inj h1)
  simp only [BitVec.toNat_ofNat] at hn
  exact (List.append_inj h (by omega)).1

/-- The contents of the blocks with a type. -/
def ofType (t : U16) (l : List (U16 × List Byte)) : List (List Byte) := (l.filter (fun b => b.1 == t)).map Prod.snd

theorem ofType_append (t : U16) (a b : List (U16 × List Byte)) : ofType t (a ++ b) = ofType t a ++ ofType t b := by
  simp [ofType]

theorem ofType_cons_eq {t u : U16} (h : u = t) (c : List Byte) (l : List (U16 × List Byte)) : ofType t ((u, c) :: l) = c :: ofType t l := by
  subst h; simp [ofType]

theorem ofType_cons_ne {t u : U16} (h : u ≠ t) (c : List Byte) (l : List (U16 × List Byte)) : ofType t ((u, c) :: l) = ofType t l := by
  unfold ofType
  rw [List.filter_cons_of_neg (by simpa using h)]

theorem ofType_map_eq {α : Type} {t u : U16} (h : u = t) (f : α → List Byte) (l : List α) :
    ofType t (l.map fun a => (u, f a)) = l.map f := by
  induction l with
  | nil => rfl
  | cons a l ih => rw [List.map_cons, ofType_cons_eq h, ih, List.map_cons]

theorem ofType_map_ne {α : Type} {t u : U16} (h : u ≠ t) (f : α → List Byte) (l : List α) :
    ofType t (l.map fun a => (u, f a)) = [] := by
  induction l with
  | nil => rfl
  | cons a l ih => rw [List.map_cons, ofType_cons_ne h, ih]

/-- The contents of each type of block. -/
theorem ofType_blocks (t : U16) (q : Req) (r : Res) : ofType t (blocks q r) =
    (if t = 0x8101 then [enc16 true q.arType ++ encUuid true q.uuid ++ enc16 true q.key ++ r.mac ++ enc16 true r.udpPort] else []) ++
    (if t = 0x8102 then r.crs.map (fun c => enc16 true c.type ++ enc16 true c.ref ++ enc16 true c.frameId) else []) ++
    (if t = 0x8103 then [enc16 true r.alarm.type ++ enc16 true r.alarm.ref ++ enc16 true r.alarm.maxLen] else []) ++
    (if t = 0x8104 then if r.diff = [] then [] else [((Device.putDiff r.diff).drop 6).map (BitVec.ofNat 8)] else []) ++
    (if t = 0x8107 then if q.rpc then [enc16 true r.rpcPort] else [] else []) ++
    (if t = 0x8106 then if q.advanced then [pad4h (num16 r.name.length ++ r.name)] else [] else []) ++
    (if t = 0x8108 then if q.advanced then
      q.vendors.map (fun v => pad4h (enc32 true v.1 ++ enc32 true v.2 ++ num16 r.vendorData.length ++ r.vendorData)) else [] else []) := by
  have one : ∀ (u : U16) (c : List Byte), ofType t [(u, c)] = if t = u then [c] else [] := by
    intro u c
    by_cases h : t = u
    · rw [if_pos h, ofType_cons_eq h.symm]; rfl
    · rw [if_neg h, ofType_cons_ne (Ne.symm h)]; rfl
  have many : ∀ {α : Type} (u : U16) (f : α → List Byte) (l : List α),
      ofType t (l.map fun a => (u, f a)) = if t = u then l.map f else [] := by
    intro α u f l
    by_cases h : t = u
    · rw [if_pos h, ofType_map_eq h.symm]
    · rw [if_neg h, ofType_map_ne (Ne.symm h)]
  have cons : ∀ (u : U16) (c : List Byte) (l : List (U16 × List Byte)), ofType t ((u, c) :: l) = (if t = u then [c] else []) ++ ofType t l := by
    intro u c l
    rw [← one, ← ofType_append]
    rfl
  have nil : ofType t [] = [] := rfl
  unfold blocks front back
  by_cases hd : r.diff = [] <;> by_cases hr : q.rpc = true <;> by_cases ha : q.advanced = true <;>
    simp only [ofType_append, hd, hr, ha, if_true, if_false, cons, many, nil, List.append_nil, List.append_assoc, Bool.false_eq_true, ite_self]

attribute [local irreducible] enc16 enc32 encUuid num16 num32 pad4h Device.putDiff in
/-- C102.  Who receives the answer can tell from it the status and all values: two answers that are the same describe the same
connection. -/
theorem C102_answer_determines {ndr ndr' : Ndr} {s s' : Status} {q q' : Req} {r r' : Res} (h1 : Sound q r) (h2 : Sound q' r')
    (h : encRsp ndr s (blocks q r) = encRsp ndr' s' (blocks q' r')) :
    s = s' ∧ q.arType = q'.arType ∧ q.uuid = q'.uuid ∧ q.key = q'.key ∧ r.mac = r'.mac ∧ r.udpPort = r'.udpPort ∧
      r.crs = r'.crs ∧ r.alarm = r'.alarm ∧ (r.diff = [] ↔ r'.diff = []) ∧
      (r.diff ≠ [] → ((Device.putDiff r.diff).drop 6).map (BitVec.ofNat 8 : Nat → Byte) = ((Device.putDiff r'.diff).drop 6).map (BitVec.ofNat 8)) ∧
      q.rpc = q'.rpc ∧ (q.rpc = true → r.rpcPort = r'.rpcPort) ∧ q.advanced = q'.advanced ∧ (q.advanced = true → r.name = r'.name) := by
  obtain ⟨u1, m1, n1, l1⟩ := h1
  obtain ⟨u2, m2, n2, l2⟩ := h2
  unfold encRsp at h
  simp only [List.append_assoc] at h
  obtain ⟨hs, h⟩ := List.append_inj h rfl
  obtain ⟨_, h⟩ := List.append_inj h (by simp [num32_length])
  obtain ⟨_, h⟩ := List.append_inj h (by simp [enc32_length])
  obtain ⟨_, h⟩ := List.append_inj h (by simp [enc32_length])
  obtain ⟨_, h⟩ := List.append_inj h (by simp [num32_length])
  have hb := encBlocks_inj l1 l2 h
  have ht : ∀ t, ofType t (blocks q r) = ofType t (blocks q' r') := fun t => by rw [hb]
  simp only [ofType_blocks] at ht
  have t1 := ht 0x8101
  have t2 := ht 0x8102
  have t3 := ht 0x8103
  have t4 := ht 0x8104
  have t7 := ht 0x8107
  have t6 := ht 0x8106
  clear ht hb h
  simp only [BitVec.reduceEq, if_true, if_false, List.append_nil, List.nil_append, List.cons.injEq, and_true] at t1 t2 t3 t4 t7 t6
  have c1 : q.arType = q'.arType ∧ q.uuid = q'.uuid ∧ q.key = q'.key ∧ r.mac = r'.mac ∧ r.udpPort = r'.udpPort := by
    simp only [List.append_assoc] at t1
    obtain ⟨a1, t1⟩ := List.append_inj t1 (by simp [enc16_length])
    obtain ⟨a2, t1⟩ := List.append_inj t1 (by rw [encUuid_length u1, encUuid_length u2])
    obtain ⟨a3, t1⟩ := List.append_inj t1 (by simp [enc16_length])
    obtain ⟨a4, a5⟩ := List.append_inj t1 (by rw [m1, m2])
    exact ⟨enc16_inj a1, uuid_inj a2, enc16_inj a3, a4, enc16_inj a5⟩
  have three : ∀ {a b c a' b' c' : U16}, enc16 true a ++ enc16 true b ++ enc16 true c = enc16 true a' ++ enc16 true b' ++ enc16 true c' →
      a = a' ∧ b = b' ∧ c = c' := by
    intro a b c a' b' c' h
    simp only [List.append_assoc] at h
    obtain ⟨x1, h⟩ := List.append_inj h (by simp [enc16_length])
    obtain ⟨x2, x3⟩ := List.append_inj h (by simp [enc16_length])
    exact ⟨enc16_inj x1, enc16_inj x2, enc16_inj x3⟩
  have c2 : r.crs = r'.crs := by
    refine (List.map_inj_right ?_).1 t2
    intro a b hab
    obtain ⟨x1, x2, x3⟩ := three hab
    cases a; cases b
    simp only at x1 x2 x3
    rw [x1, x2, x3]
  have c3 : r.alarm = r'.alarm := by
    obtain ⟨x1, x2, x3⟩ := three t3
    generalize r.alarm = a at *
    generalize r'.alarm = b at *
    cases a; cases b
    simp only at x1 x2 x3
    rw [x1, x2, x3]
  have c0 : s = s' := by
    unfold Read.encStatus at hs
    cases s; cases s'
    simp only [List.cons.injEq, and_true] at hs
    obtain ⟨x1, x2, x3, x4⟩ := hs
    rw [x1, x2, x3, x4]
  refine ⟨c0, c1.1, c1.2.1, c1.2.2.1, c1.2.2.2.1, c1.2.2.2.2, c2, c3, ?_, ?_, ?_⟩
  · by_cases hd : r.diff = [] <;> by_cases hd' : r'.diff = [] <;> simp [hd, hd'] at t4 ⊢
  · intro hd
    by_cases hd' : r'.diff = []
    · simp [hd, hd'] at t4
    · simp only [hd, hd', if_false, List.cons.injEq, and_true] at t4
      exact t4
  refine ⟨?_, ?_, ?_, ?_⟩
  · cases hr : q.rpc <;> cases hr' : q'.rpc <;> simp [hr, hr'] at t7 ⊢
  · intro hr
    cases hr' : q'.rpc <;> simp only [hr, hr', if_true, List.cons.injEq, and_true, if_false, Bool.false_eq_true, reduceCtorEq] at t7
    exact enc16_inj t7
  · cases hr : q.advanced <;> cases hr' : q'.advanced <;> simp [hr, hr'] at t6 ⊢
  · intro hr
    cases hr' : q'.advanced <;> simp only [hr, hr', if_true, List.cons.injEq, and_true, if_false, Bool.false_eq_true, reduceCtorEq] at t6
    exact name_inj n1 n2 t6

/-! ## C103 -/

/-- C103, partial.  What is missing are requests refused by the checks of CMDEV or by the application, for which it is false.  A request
refused before (with status `s`), or refused because the protocol machines could not be started, is answered with the
status and no blocks. -/
theorem C103_refused_partial {e : Env} {q : Req} {pre : Option Status} {ndr : Ndr} {w : Wr} {s : Status} (hw : Ready w)
    (hroom : w.pos + 20 ≤ w.cap)
    (h : pre = some s ∨ (pre = none ∧ s = ⟨0xDB, 0x81, 0x40, 0x09⟩ ∧ InTable e q ∧ e.check = none ∧ e.app.1 = true ∧
      q.deviceAccess = false ∧ e.started = false)) :
    ∃ w' ars eps, connectInd e q pre ndr w = some (w', s, ars, eps) ∧ Within w w' ∧ Appends w w' (encRsp ndr s []) := by
  obtain ⟨w', e1, k1, k2⟩ := rsp_none ndr s hw
  rcases h with h | ⟨hp, hs, ht, a1, a2, a3, a4⟩
  · refine ⟨w', e.ars, e.eps, ?_, k1, k2 hroom⟩
    unfold connectInd
    rw [h]
    simp only [e1, Option.map_some]
  · obtain ⟨r, ars, eps, hf, _⟩ := fill_spec ht
    refine ⟨w', ars, eps, ?_, k1, k2 hroom⟩
    have hc : cmdevConnect e q = some ⟨false, alreadyOwned, r, ars, eps⟩ := by
      unfold cmdevConnect
      rw [a1]
      simp only [hf, Option.map_some, a2, a3, a4, if_true, if_false, Bool.false_eq_true]
    unfold connectInd
    rw [hp]
    simp only [hc, Option.bind_some, Bool.false_eq_true, if_false]
    rw [show alreadyOwned = s from hs.symm, e1, Option.map_some]

/-- C103.  A request refused by the checks is answered with its error, and with blocks in which all results are zero. -/
theorem C103_checks_with_zeros {e : Env} {q : Req} {ndr : Ndr} {w : Wr} {s : Status} (hw : Ready w) (hc : e.check = some s)
    (hid : q.uuid.d4.length = 8) (hroom : w.pos + 20 + frontLen q [] + backLen q [] 0 ≤ w.cap) :
    ∃ w', connectInd e q none ndr w = some (w', s, e.ars, e.eps) ∧
      Appends w w' (encRsp ndr s (blocks q (Res.zero q.crs.length))) := by
  obtain ⟨w', e1, k1, k2⟩ := rsp_some ndr s q (Res.zero q.crs.length) hw (by
    rw [blocks_length hid (by simp [Res.zero]) (by simp [Res.zero])]
    show _ + (frontLen q [] + backLen q [] 0) ≤ _
    omega)
  refine ⟨w', ?_, k2⟩
  unfold connectInd cmdevConnect
  simp only [hc, Option.bind_some, if_true, e1, Option.map_some]

/-- C103.  A request refused by the application is answered with its error, and with the blocks of a connection that has been
accepted. -/
theorem C103_application_with_blocks {e : Env} {q : Req} {ndr : Ndr} {w : Wr} (hw : Ready w) (ht : InTable e q)
    (hc : e.check = none) (ha : e.app.1 = false) (hid : q.uuid.d4.length = 8) (hmac : e.mac.length = 6)
    (hroom : w.pos + 20 + frontLen q e.diff + backLen q e.name 0 ≤ w.cap) :
    ∃ w' r ars eps, connectInd e q none ndr w = some (w', e.app.2, ars, eps) ∧
      Appends w w' (encRsp ndr e.app.2 (blocks q r)) ∧ r.mac = e.mac ∧ DescribesCrs e q ars r.crs := by
  obtain ⟨r, ars, eps, hf, h1, h2, h3, h4, h5, h6, h7, h8, h9, h10⟩ := fill_spec ht
  obtain ⟨w', e1, k1, k2⟩ := rsp_some ndr e.app.2 q r hw
    (by rw [blocks_length hid (by rw [h1]; exact hmac) h3.1, h6, h8, h9]; simp only [List.length_nil]; omega)
  refine ⟨w', r, ars, eps, ?_, k2, h1, h3⟩
  have hcd : cmdevConnect e q = some ⟨true, e.app.2, r, ars, eps⟩ := by
    unfold cmdevConnect
    rw [hc]
    simp only [hf, Option.map_some, ha, if_false, Bool.false_eq_true]
  unfold connectInd
  simp only [hcd, Option.bind_some, if_true, e1, Option.map_some]

/-- C103.  So the claim is false: no request refused by the checks or by the application gets an answer without blocks, whatever
the request and the device. -/
theorem C103_refused_without_blocks_false {e : Env} {q : Req} {ndr : Ndr} {w : Wr} {s : Status} (hw : Ready w)
    (hr : e.check = some s ∨ (e.check = none ∧ InTable e q ∧ e.app = (false, s)))
    (hid : q.uuid.d4.length = 8) (hmac : e.mac.length = 6)
    (hroom : w.pos + 20 + frontLen q e.diff + backLen q e.name 0 ≤ w.cap) :
    ∃ w' ars eps, connectInd e q none ndr w = some (w', s, ars, eps) ∧ ¬ Appends w w' (encRsp ndr s []) := by
  have key : ∀ (w' : Wr) (r : Res), Appends w w' (encRsp ndr s (blocks q r)) → ¬ Appends w w' (encRsp ndr s []) := by
    intro w' r h1 h2
    have := h1.2.2.1
    have := h2.2.2.1
    rw [rsp_length] at *
    have hb : 0 < (encBlocks (blocks q r)).length := by
      unfold blocks front
      simp only [encBlocks_append, List.length_append, encBlocks_one, encBlock_length]
      omega
    have : (encBlocks []).length = 0 := rfl
    omega
  rcases hr with h | ⟨h, ht, ha⟩
  · have hle : frontLen q [] + backLen q [] 0 ≤ frontLen q e.diff + backLen q e.name 0 := by
      have h1 : frontLen q [] ≤ frontLen q e.diff := by
        unfold frontLen
        simp only [if_true]
        omega
      have h2 : backLen q [] 0 ≤ backLen q e.name 0 := by
        unfold backLen up4
        split <;> simp
        omega
      omega
    obtain ⟨w', e1, k⟩ := C103_checks_with_zeros (ndr := ndr) hw h hid (by omega)
    exact ⟨w', _, _, e1, key _ _ k⟩
  · obtain ⟨w', r, ars, eps, e1, k, _⟩ := C103_application_with_blocks (ndr := ndr) hw ht h (by rw [ha]) hid hmac hroom
    rw [ha] at e1 k
    exact ⟨w', _, _, e1, key _ _ k⟩

/-! ## C104 -/

theorem putBack_not_advanced {q : Req} {r : Res} (h : q.advanced = false) : putBack q r = skip := by
  unfold putBack
  rw [h]
  rfl

/-- C104, partial.  What is missing are requests in advanced mode for which there is not enough room, for which it is false.  Any other
connect request is answered within the room, whatever the checks and the application decide. -/
theorem C104_answered_partial {e : Env} {q : Req} {pre : Option Status} {ndr : Ndr} {w : Wr} (hw : Ready w) (ht : InTable e q)
    (h : q.advanced = false ∨ (q.uuid.d4.length = 8 ∧ e.mac.length = 6 ∧
      w.pos + 20 + frontLen q e.diff + backLen q e.name 0 ≤ w.cap)) :
    ∃ w' s ars eps, connectInd e q pre ndr w = some (w', s, ars, eps) ∧ Within w w' := by
  have body : ∀ (s : Status) (r : Res), r.crs.length = q.crs.length → r.vendorData = [] →
      ((r.mac = e.mac ∧ r.diff = e.diff ∧ r.name = e.name) ∨ (r.mac.length = 6 ∧ r.diff = [] ∧ r.name = [])) →
      ∃ w', connectRsp ndr s (some (q, r)) w = some w' ∧ Within w w' := by
    intro s r h1 h2 h3
    rcases h with h | ⟨hid, hmac, hroom⟩
    · obtain ⟨x, hx, _, _, _, hs⟩ := rsp_at ndr s (putBlocks q r) (stays_blocks q r) [] hw (some (q, r)) rfl
      obtain ⟨y, _, _, hy, _⟩ := blocks_at q r hx
      rw [putBack_not_advanced h] at hy
      obtain ⟨w', e, h1, _⟩ := hs y hy
      exact ⟨w', e, h1⟩
    · have hle : frontLen q [] + backLen q [] 0 ≤ frontLen q e.diff + backLen q e.name 0 := by
        have h1 : frontLen q [] ≤ frontLen q e.diff := by
          unfold frontLen
          simp only [if_true]
          omega
        have h2 : backLen q [] 0 ≤ backLen q e.name 0 := by
          unfold backLen up4
          split <;> simp
          omega
        omega
      obtain ⟨w', e1, k1, _⟩ := rsp_some ndr s q r hw (by
        rcases h3 with ⟨m, d, n⟩ | ⟨m, d, n⟩
        · rw [blocks_length hid (by rw [m]; exact hmac) h1, d, n, h2]
          simp only [List.length_nil]
          omega
        · rw [blocks_length hid m h1, d, n, h2]
          simp only [List.length_nil]
          omega)
      exact ⟨w', e1, k1⟩
  unfold connectInd
  cases pre with
  | some s =>
    obtain ⟨w', e1, k1, _⟩ := rsp_none ndr s hw
    simp only [e1, Option.map_some]
    exact ⟨_, _, _, _, rfl, k1⟩
  | none =>
    simp only
    unfold cmdevConnect
    cases hc : e.check with
    | some s =>
      obtain ⟨w', e1, k1⟩ := body s (Res.zero q.crs.length) (by simp [Res.zero]) rfl (Or.inr ⟨by simp [Res.zero], rfl, rfl⟩)
      simp only [Option.bind_some, if_true, e1, Option.map_some]
      exact ⟨_, _, _, _, rfl, k1⟩
    | none =>
      obtain ⟨r, ars, eps, hf, h1, _, h3, _, _, h6, _, h8, h9, _⟩ := fill_spec ht
      simp only [hf, Option.map_some, Option.bind_some]
      obtain ⟨w', e1, k1⟩ := body e.app.2 r h3.1 h9 (Or.inl ⟨h1, h6, h8⟩)
      obtain ⟨w2, e2, k2, _⟩ := rsp_none ndr alreadyOwned hw
      cases e.app.1 <;> cases q.deviceAccess <;> cases e.started <;>
        simp only [if_true, if_false, Bool.false_eq_true, e1, e2, Option.map_some] <;>
        first | exact ⟨_, _, _, _, rfl, k1⟩ | exact ⟨_, _, _, _, rfl, k2⟩

theorem up4_lt_iff (n k : Nat) : k < up4 (if 8 + n ≤ k then 8 + n else min k 8) ↔
    (k < 8 ∧ k % 4 ≠ 0) ∨ (8 + n ≤ k ∧ k < up4 (8 + n)) := by
  unfold up4
  by_cases h : 8 + n ≤ k
  · rw [if_pos h]; omega
  · rw [if_neg h]
    by_cases h2 : k < 8
    · rw [Nat.min_eq_left (by omega)]; omega
    · rw [Nat.min_eq_right (by omega)]; omega

/-- The answer with blocks never ends: exactly for some amounts `k` of room behind the blocks that precede the station name. -/
theorem never_ends_iff {q : Req} {r : Res} (ndr : Ndr) (s : Status) {w : Wr} (hw : Ready w) (hadv : q.advanced = true) (hv : q.vendors = []) {k : Nat}
    (hk : w.cap = w.pos + 20 + (encBlocks (front q r)).length + k) :
    connectRsp ndr s (some (q, r)) w = none ↔
      (k < 8 ∧ k % 4 ≠ 0) ∨ (8 + r.name.length ≤ k ∧ k < up4 (8 + r.name.length)) := by
  obtain ⟨x, hx, hc, hp, hn, hs⟩ := rsp_at ndr s (putBlocks q r) (stays_blocks q r) [] hw (some (q, r)) rfl
  obtain ⟨y, hy, hyc, hyb, hyp⟩ := blocks_at q r hx
  have hpos := hyp (by omega)
  have hb : putBack q r y = putArServer true r.name y := by
    unfold putBack
    rw [hadv, hv]
    simp only [if_true]
    rw [show each (putVendor r.vendorData) [] = skip from rfl, seq_skip]
  have hk' : y.cap - y.pos = k := by omega
  have hiff := server_none_iff r.name hy
  rw [hk', up4_lt_iff] at hiff
  rw [← hiff, ← hb, ← hyb]
  constructor
  · intro h
    cases c : putBlocks q r x with
    | none => rfl
    | some x' =>
      obtain ⟨w', e, _⟩ := hs x' c
      rw [e] at h
      cases h
  · exact hn

/-- C104.  Exactly which requests that have been accepted or refused by the application are never answered: those in advanced
mode (here without vendor blocks) with `k` bytes of room behind the blocks that precede the station name, where `k` is less
than 8 and not a multiple of 4, or enough for the station name but not for its padding. -/
theorem C104_never_ends_iff {e : Env} {q : Req} {ndr : Ndr} {w : Wr} (hw : Ready w) (ht : InTable e q) (hc : e.check = none)
    (ha : e.app.1 = false ∨ q.deviceAccess = true ∨ e.started = true) (hadv : q.advanced = true) (hv : q.vendors = [])
    (hid : q.uuid.d4.length = 8) (hmac : e.mac.length = 6) {k : Nat} (hk : w.cap = w.pos + 20 + frontLen q e.diff + k) :
    connectInd e q none ndr w = none ↔ (k < 8 ∧ k % 4 ≠ 0) ∨ (8 + e.name.length ≤ k ∧ k < up4 (8 + e.name.length)) := by
  obtain ⟨r, ars, eps, hf, h1, _, h3, _, _, h6, _, h8, h9, _⟩ := fill_spec ht
  have hcd : cmdevConnect e q = some ⟨true, e.app.2, r, ars, eps⟩ := by
    unfold cmdevConnect
    rw [hc]
    simp only [hf, Option.map_some]
    rcases ha with h | h | h <;> simp [h]
  rw [← h8, ← never_ends_iff ndr e.app.2 hw hadv hv (r := r) (by rw [front_length hid (by rw [h1]; exact hmac) h3.1, h6]; exact hk)]
  unfold connectInd
  simp only [hcd, Option.bind_some, if_true, Option.map_eq_none_iff]

/-- C104.  The claim that every connect request is answered is false, for every device: any request in advanced mode (without
RPC server and vendor blocks) that is refused by the checks is never answered if it states a maximum response that ends one
byte behind the answer for its CRs and alarms.  The request is received at position 100 of the message, and the response
begins at 80, behind the RPC header. -/
theorem C104_every_connect_answered_false {e : Env} {q : Req} {ndr : Ndr} {w : Wr} {s : Status} {buffer : Nat} (hw : Ready w)
    (hc : e.check = some s) (hadv : q.advanced = true) (hv : q.vendors = []) (hrpc : q.rpc = false) (hid : q.uuid.d4.length = 8)
    (hp : w.pos = 80) (hn : q.crs.length < 65536) (hmax : ndr.argsMax = BitVec.ofNat 32 (47 + 12 * q.crs.length))
    (hb : 147 + 12 * q.crs.length ≤ buffer) (hcap : w.cap = Records.rspSize 100 ndr.argsMax buffer) :
    connectInd e q none ndr w = none := by
  have hcap' : w.cap = 147 + 12 * q.crs.length := by
    rw [hcap, hmax]
    unfold Records.rspSize
    have : (BitVec.ofNat 32 100 + BitVec.ofNat 32 (47 + 12 * q.crs.length)).toNat = 147 + 12 * q.crs.length := by
      rw [BitVec.toNat_add, BitVec.toNat_ofNat, BitVec.toNat_ofNat]
      omega
    simp only [this]
    rw [if_neg (by omega)]
  have hl := front_length (r := Res.zero q.crs.length) hid (by simp [Res.zero]) (by simp [Res.zero])
  have hf : frontLen q (Res.zero q.crs.length).diff = 46 + 12 * q.crs.length := by
    unfold frontLen
    rw [hrpc]
    simp [Res.zero]
  have := (never_ends_iff ndr s hw hadv hv (r := Res.zero q.crs.length) (k := 1) (by rw [hl, hf]; omega)).2 (Or.inl (by decide))
  unfold connectInd cmdevConnect
  simp only [hc, Option.bind_some, if_true, this, Option.map_none]

/-! ## The hypotheses are met -/

namespace Demo

/-- An input CR and an output CR whose frame ID the device chooses; a device with one other connection. -/
def q (advanced : Bool) : Req where
  arType := 1
  uuid := ⟨7, 1, 2, List.replicate 8 3⟩
  key := 5
  deviceAccess := false
  advanced := advanced
  crs := [⟨1, ⟨1, 2, 0xC010⟩⟩, ⟨2, ⟨2, 1, 0xFFFF⟩⟩]
  alarmType := 1
  rpc := false
  vendors := []

def env (check : Option Status) (app : Bool × Status) (started : Bool) : Env where
  maxAr := 3
  ars := [⟨true, [⟨1, 1, 0xC000⟩, ⟨2, 1, 0xC001⟩]⟩, ⟨true, (q true).crs.map CrReq.cr⟩, ⟨false, []⟩]
  i := 1
  eps := [some 0, none, none]
  mac := [2, 0, 0, 0, 0, 1]
  name := [100, 101, 118]
  diff := [⟨0, [⟨1, 5, .substitute, [⟨1, 6, .missing⟩]⟩]⟩]
  check := check
  app := app
  started := started

def ndr (max : U32) : Ndr := ⟨max, 64, max, 0, 64⟩
def w (cap : Nat) : Wr := ⟨List.replicate 250 0xEE, cap, 80⟩
def ok : Status := ⟨0, 0, 0, 0⟩
def bad : Status := ⟨0xDB, 0x81, 2, 4⟩

theorem met (b : Bool) (c : Option Status) (a : Bool × Status) (s : Bool) : InTable (env c a s) (q b) ∧ (env c a s).eps.length < 65536 ∧
    (q b).uuid.d4.length = 8 ∧ (env c a s).mac.length = 6 ∧ (q b).vendors = [] ∧ (q b).rpc = false ∧
    Ready (w 228) ∧ Ready (w 171) ∧ (w 228).pos + 20 + frontLen (q b) (env c a s).diff + backLen (q b) (env c a s).name 0 ≤ (w 228).cap ∧
    Accepted (env none (true, ok) true) (q b) ∧ (w 171).cap = Records.rspSize 100 (ndr 71).argsMax 1500 := by
  refine ⟨⟨show 1 < 3 by decide, by cases b <;> rfl, show 4 < 65536 by decide⟩, show 3 < 65536 by decide, by rfl, by rfl, by rfl, by rfl,
    by refine ⟨?_, ?_, ?_⟩ <;> decide +kernel, by refine ⟨?_, ?_, ?_⟩ <;> decide +kernel, ?_, ⟨rfl, rfl, rfl, Or.inr rfl⟩, by decide +kernel⟩
  cases b
  · exact (by decide +kernel : (w 228).pos + 20 + frontLen (q false) (env none (true, ok) true).diff + backLen (q false) (env none (true, ok) true).name 0 ≤ (w 228).cap)
  · exact (by decide +kernel : (w 228).pos + 20 + frontLen (q true) (env none (true, ok) true).diff + backLen (q true) (env none (true, ok) true).name 0 ≤ (w 228).cap)

/-- Accepted; refused by the checks; not answered. -/
theorem answers :
    (connectInd (env none (true, ok) true) (q true) none (ndr 148) (w 228)).map (fun x => (((x.1.buf.drop 80).take (x.1.pos - 80)), x.2.2.2)) =
      some (encRsp (ndr 148) ok (blocks (q true)
        ⟨[2, 0, 0, 0, 0, 1], 0x8892, [⟨1, 1, 0xC010⟩, ⟨2, 2, 0xC002⟩], ⟨1, 2, 200⟩, [⟨0, [⟨1, 5, .substitute, [⟨1, 6, .missing⟩]⟩]⟩], 0,
          [100, 101, 118], []⟩), [some 0, some 1, none]) ∧
    (connectInd (env (some bad) (true, ok) true) (q false) none (ndr 148) (w 228)).map (fun x => (x.1.buf.drop 80).take (x.1.pos - 80)) =
      some (encRsp (ndr 148) bad (blocks (q false) (Res.zero 2))) ∧
    (connectInd (env (some bad) (true, ok) true) (q true) none (ndr 71) (w 171)).isNone = true := by
  refine ⟨?_, ?_, ?_⟩ <;> decide +kernel

end Demo

end Verif.ConnRsp
