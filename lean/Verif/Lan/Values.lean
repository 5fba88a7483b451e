import Verif.Lan.Addr
import Verif.Lan.Sram

/-! C137: values set and read by the application with the LAN9662 driver; C138: settings of the application for the hardware. -/
set_option linter.unusedVariables false

namespace Verif.Lan.Values

abbrev U8 := BitVec 8
abbrev Mem := Nat → U8

/-! ## Model -/

/-- memcpy into a memory. -/
def put (m : Mem) (a : Nat) (l : List U8) : Mem := fun i => if a ≤ i then (l[i - a]?).getD (m i) else m i

def get (m : Mem) (a n : Nat) : List U8 := (List.range n).map fun i => m (a + i)

/-- What the driver uses of an io data object (pf_iodata_object_t) and of its entry in the frame (pf_rte_object_t,
src/drivers/lan9662/src/pf_lan9662_mera.c:64-83). -/
structure Obj where
  slot : U16
  sram : Bool
  addr : Nat
  dataOffset : Nat
  iopsOffset : Nat
  iocsOffset : Nat

/-- A frame to send: `buffer_data`, `buffer_pos` and `data_status_offset` of pf_ppm_t, and in the hardware the frame and the SRAM (byte by byte;
the access word by word is in C132). -/
structure Snd where
  active : Bool
  pos : Nat
  statusOffset : Nat
  buffer : Mem
  frame : Mem
  mem : Mem

/-- What the hardware answers: the buffer that mera_ib_ral_req gives out, and whether the release, the access to the SRAM and each write to
the frame succeed. -/
structure Ans where
  req : Option Nat
  rel : Bool
  access : Bool
  write : Nat → Bool

/-- pf_mera_ppm_write (src/drivers/lan9662/src/pf_lan9662_mera.c:1459-1493) for an active frame; the loop ends at the first error.  `offset`
counts up. -/
def writeFrame (h : Ans) : Nat → List U8 → Mem → Mem × Bool
  | _, [], m => (m, true)
  | o, b :: bs, m => if h.write o then writeFrame h (o + 1) bs fun i => if i = o then b else m i else (m, false)

/-- pf_mera_ppm_write_input (src/drivers/lan9662/src/pf_lan9662_mera.c:1495-1553). -/
def writeInput (h : Ans) (s : Snd) (o : Obj) (data : List U8) : Snd × Bool :=
  if s.active then
    if o.sram then
      match h.req with
      | some b => if h.access then ({ s with mem := put s.mem (o.addr + b) data }, h.rel) else (s, false)
      | none => (s, false)
    else (s, true)
  else (s, false)

/-- pf_mera_ppm_write_iops (src/drivers/lan9662/src/pf_lan9662_mera.c:1649-1693). -/
def writeIops (h : Ans) (s : Snd) (o : Obj) (iops : List U8) : Snd × Bool :=
  if o.slot = 0 then (s, false)
  else if s.active then
    if o.sram then let (m, ok) := writeFrame h (s.pos + o.iopsOffset) iops s.frame; ({ s with frame := m }, ok) else (s, false)
  else (s, false)

/-- pf_ppm_drv_lan9662_write_data_and_iops (src/drivers/lan9662/src/pf_ppm_driver_lan9662.c:172-222). -/
def setData (h : Ans) (s : Snd) (o : Obj) (data : Option (List U8)) (iops : List U8) : Snd × Bool :=
  let b := match data with
    | some d => put s.buffer o.dataOffset d
    | none => s.buffer
  let s := { s with buffer := put b o.iopsOffset iops }
  if s.active then
    match data with
    | some d => let (s', ok) := writeInput h s o d; if ok then writeIops h s' o iops else (s', false)
    | none => writeIops h s o iops
  else (s, true)

/-- pf_ppm_drv_lan9662_write_iocs (src/drivers/lan9662/src/pf_ppm_driver_lan9662.c:250-262). -/
def setIocs (s : Snd) (o : Obj) (iocs : List U8) : Snd × Bool := ({ s with buffer := put s.buffer o.iocsOffset iocs }, true)

/-- pf_ppm_drv_lan9662_write_data_status (src/drivers/lan9662/src/pf_ppm_driver_lan9662.c:285-297) with pf_mera_ppm_write_data_status (src/drivers/lan9662/src/pf_lan9662_mera.c:1717-1735). -/
def setStatus (h : Ans) (s : Snd) (status : U8) : Snd × Bool :=
  let s := { s with buffer := put s.buffer s.statusOffset [status] }
  if s.active then let (m, ok) := writeFrame h s.statusOffset [status] s.frame; ({ s with frame := m }, ok) else (s, true)

/-- pf_ppm_activate_req (src/common/pf_ppm.c:349-392), where pf_ppm_finish_buffer copies `inLength` bytes of the buffer into the frame, with
pf_mera_ib_rtp_config (src/drivers/lan9662/src/pf_lan9662_mera.c:976-1025), which copies the frame into the hardware.  The other contents of the frame are `header`. -/
def activate (s : Snd) (header : Mem) (inLength : Nat) : Snd := { s with active := true, frame := put header s.pos (get s.buffer 0 inLength) }

/-- pf_mera_ppm_read_data_and_iops (src/drivers/lan9662/src/pf_lan9662_mera.c:1555-1647) for a frame that is active, an object outside the device access point with data, mapped to SRAM: data and
IOPS (PNET_IOXS_GOOD is 0x80). -/
def readBack (h : Ans) (s : Snd) (o : Obj) (len : Nat) : Option (List U8 × U8) := if h.access then some (get s.mem o.addr len, 0x80) else none

/-- pf_mera_cpm_read_iocs (src/drivers/lan9662/src/pf_lan9662_mera.c:2569-2585): what the controller sent is no argument. -/
def readIocs (len : Nat) (old : U8) : U8 := if 0 < len then 0x80 else old

/-! ## Lemmas -/

theorem put_inside {m : Mem} {a : Nat} {l : List U8} {i : Nat} (h : i < l.length) : put m a l (a + i) = l[i] := by
  unfold put
  rw [if_pos (by omega), Nat.add_sub_cancel_left, List.getElem?_eq_getElem h]; rfl

theorem put_outside {m : Mem} {a : Nat} {l : List U8} {i : Nat} (h : i < a ∨ a + l.length ≤ i) : put m a l i = m i := by
  unfold put
  split
  · rw [List.getElem?_eq_none (by omega)]; rfl
  · rfl

theorem get_put (m : Mem) (a : Nat) (l : List U8) : get (put m a l) a l.length = l := by
  unfold get
  apply List.ext_getElem
  · simp
  · intro i h1 h2
    rw [List.getElem_map, List.getElem_range, put_inside h2]

theorem get_put_other {m : Mem} {a b n : Nat} {l : List U8} (h : b + n ≤ a ∨ a + l.length ≤ b) : get (put m a l) b n = get m b n := by
  unfold get
  apply List.map_congr_left
  intro i hi
  rw [List.mem_range] at hi
  exact put_outside (by omega)

theorem writeFrame_ok {h : Ans} (hw : ∀ i, h.write i = true) : ∀ (l : List U8) (o : Nat) (m : Mem), writeFrame h o l m = (put m o l, true) := by
  intro l
  induction l with
  | nil =>
    intro o m
    unfold writeFrame
    congr 1
    funext i
    exact (put_outside (by simp; omega)).symm
  | cons b bs ih =>
    intro o m
    unfold writeFrame
    rw [if_pos (hw o), ih]
    congr 1
    funext i
    unfold put
    dsimp only
    by_cases c1 : i = o
    · subst c1
      rw [if_neg (by omega), if_pos rfl, if_pos (Nat.le_refl _), Nat.sub_self]; rfl
    · rw [if_neg c1]
      by_cases c2 : o ≤ i
      · rw [if_pos (by omega), if_pos c2]
        have : i - o = i - (o + 1) + 1 := by omega
        rw [this, List.getElem?_cons_succ]
      · rw [if_neg (by omega), if_neg c2]

/-! ## C137 -/

/-- The hardware accepts everything. -/
structure Works (h : Ans) : Prop where
  rel : h.rel = true
  access : h.access = true
  write : ∀ i, h.write i = true

/-- C137, restricted to objects in SRAM outside the device access point: data and IOPS set while the frame is sent reach the hardware, and
nothing else of the hardware changes. -/
theorem C137_data_partial {h : Ans} (hw : Works h) {b : Nat} (hb : h.req = some b) {s : Snd} (ha : s.active = true) {o : Obj} (hs : o.sram = true)
    (h0 : o.slot ≠ 0) (data iops : List U8) :
    let r := setData h s o (some data) iops
    r.2 = true ∧ get r.1.mem (o.addr + b) data.length = data ∧ get r.1.frame (s.pos + o.iopsOffset) iops.length = iops ∧
      (∀ i, i < o.addr + b ∨ o.addr + b + data.length ≤ i → r.1.mem i = s.mem i) ∧
      (∀ i, i < s.pos + o.iopsOffset ∨ s.pos + o.iopsOffset + iops.length ≤ i → r.1.frame i = s.frame i) := by
  have key : setData h s o (some data) iops =
      ({ s with buffer := put (put s.buffer o.dataOffset data) o.iopsOffset iops, mem := put s.mem (o.addr + b) data,
                frame := put s.frame (s.pos + o.iopsOffset) iops }, true) := by
    unfold setData
    simp only [ha, if_true]
    unfold writeInput
    simp only [ha, hs, hb, hw.access, hw.rel, if_true]
    unfold writeIops
    simp only [if_neg h0, hs, ha, if_true, writeFrame_ok hw.write]
  intro r
  have hr : r = _ := key
  rw [hr]
  exact ⟨rfl, get_put _ _ _, get_put _ _ _, fun i hi => put_outside hi, fun i hi => put_outside hi⟩

/-- C137: the data status reaches the hardware. -/
theorem C137_status {h : Ans} (hw : Works h) {s : Snd} (ha : s.active = true) (status : U8) :
    (setStatus h s status).2 = true ∧ (setStatus h s status).1.frame s.statusOffset = status ∧
      ∀ i, i ≠ s.statusOffset → (setStatus h s status).1.frame i = s.frame i := by
  have key : setStatus h s status = ({ s with buffer := put s.buffer s.statusOffset [status], frame := put s.frame s.statusOffset [status] }, true) := by
    unfold setStatus
    simp only [ha, if_true, writeFrame_ok hw.write]
  rw [key]
  refine ⟨rfl, ?_, fun i hi => put_outside (by simp only [List.length_cons, List.length_nil]; omega)⟩
  exact put_inside (a := s.statusOffset) (i := 0) (l := [status]) (by simp)

/-- C137: values set before the start are the first ones sent. -/
theorem C137_first_values (h : Ans) {s : Snd} (ha : s.active = false) {o : Obj} (data iops : List U8) (header : Mem) {n : Nat}
    (hd : o.dataOffset + data.length ≤ n) (hi : o.iopsOffset + iops.length ≤ n)
    (apart : o.dataOffset + data.length ≤ o.iopsOffset ∨ o.iopsOffset + iops.length ≤ o.dataOffset) :
    let r := setData h s o (some data) iops
    r.2 = true ∧ (activate r.1 header n).active = true ∧
      get (activate r.1 header n).frame (s.pos + o.dataOffset) data.length = data ∧
      get (activate r.1 header n).frame (s.pos + o.iopsOffset) iops.length = iops := by
  have key : setData h s o (some data) iops = ({ s with buffer := put (put s.buffer o.dataOffset data) o.iopsOffset iops }, true) := by
    unfold setData
    simp only [ha, Bool.false_eq_true, if_false]
  have copy : ∀ (m : Mem) (a k : Nat), a + k ≤ n → get (put header s.pos (get m 0 n)) (s.pos + a) k = get m a k := by
    intro m a k hk
    unfold get
    apply List.map_congr_left
    intro i hi
    rw [List.mem_range] at hi
    have hl : a + i < ((List.range n).map fun i => m (0 + i)).length := by rw [List.length_map, List.length_range]; omega
    rw [Nat.add_assoc, put_inside hl, List.getElem_map, List.getElem_range, Nat.zero_add]
  intro r
  have hr : r = _ := key
  rw [hr]
  refine ⟨rfl, rfl, ?_, ?_⟩
  · show get (put header s.pos (get (put (put s.buffer o.dataOffset data) o.iopsOffset iops) 0 n)) _ _ = _
    rw [copy _ _ _ hd, get_put_other (by omega), get_put]
  · show get (put header s.pos (get (put (put s.buffer o.dataOffset data) o.iopsOffset iops) 0 n)) _ _ = _
    rw [copy _ _ _ hi, get_put]

/-- C137 fails: the consumer status set while the frame is sent is accepted but never reaches the hardware. -/
theorem C137_iocs_not_sent (s : Snd) (o : Obj) (iocs : List U8) :
    (setIocs s o iocs).2 = true ∧ (setIocs s o iocs).1.frame = s.frame ∧ (setIocs s o iocs).1.mem = s.mem := ⟨rfl, rfl, rfl⟩

/-- C137 fails: for the device access point and for objects mapped to QSPI setting the provider status is refused while the frame is sent. -/
theorem C137_iops_refused (h : Ans) {s : Snd} (ha : s.active = true) {o : Obj} (ho : o.slot = 0 ∨ o.sram = false) (iops : List U8) :
    (setData h s o none iops).2 = false ∧ (setData h s o none iops).1.frame = s.frame := by
  have : setData h s o none iops = ({ s with buffer := put s.buffer o.iopsOffset iops }, false) := by
    unfold setData
    simp only [ha, if_true]
    unfold writeIops
    rcases ho with c | c
    · simp only [if_pos c]
    · split
      · rfl
      · simp [c, ha]
  rw [this]
  exact ⟨rfl, rfl⟩

/-- C137 fails: reading back what was set gives the status GOOD whatever was set, and the data of the first buffer of the object whatever buffer
the data was written to. -/
theorem C137_read_back {h : Ans} (hw : Works h) {b : Nat} (hb : h.req = some b) {s : Snd} (ha : s.active = true) {o : Obj} (hs : o.sram = true)
    (h0 : o.slot ≠ 0) (data iops : List U8) (hlen : data.length ≤ b) :
    readBack h (setData h s o (some data) iops).1 o data.length = some (get s.mem o.addr data.length, 0x80) := by
  have k := C137_data_partial hw hb ha hs h0 data iops
  unfold readBack
  rw [if_pos hw.access]
  congr 2
  unfold get
  apply List.map_congr_left
  intro i hi
  rw [List.mem_range] at hi
  exact k.2.2.2.1 _ (Or.inl (by omega))

/-- C137 fails: the consumer status of the controller is always reported as GOOD. -/
theorem C137_iocs_always_good {len : Nat} (h : 0 < len) (old : U8) : readIocs len old = 0x80 := if_pos h

/-! ## C138 -/

/-- The member `rte_data_cfg` of pf_mera_t. -/
abbrev Settings (κ : Type) := Nat × Nat → Option κ

/-- pnet_mera_input_set_rte_config (src/drivers/lan9662/src/pf_lan9662_mera.c:2776-2798) and pnet_mera_output_set_rte_config (src/drivers/lan9662/src/pf_lan9662_mera.c:2800-2823), which do the same; `none` if an assertion fails or the access is
outside the table. -/
def setConfig {κ : Type} (lim : Lim) (t : Settings κ) (api : BitVec 32) (slot subslot : U16) (c : κ) : Option (Settings κ) :=
  (subslotIndex lim subslot).bind fun ix => if slot.toNat < lim.slots then some fun q => if q = (slot.toNat, ix) then some c else t q else none

/-- C138, restricted: a setting for a subslot inside the tables is kept until the next setting for the same slot and subslot. -/
theorem C138_kept_partial {κ : Type} {lim : Lim} {t : Settings κ} {api : BitVec 32} {slot subslot : U16} {c : κ} (hs : slot.toNat < lim.slots)
    {ix : Nat} (hx : subslotIndex lim subslot = some ix) :
    ∃ t', setConfig lim t api slot subslot c = some t' ∧ t' (slot.toNat, ix) = some c ∧ ∀ q, q ≠ (slot.toNat, ix) → t' q = t q := by
  refine ⟨fun q => if q = (slot.toNat, ix) then some c else t q, ?_, if_pos rfl, fun q hq => if_neg hq⟩
  unfold setConfig
  rw [hx]
  exact if_pos hs

/-- C138 fails: a setting for the outputs of a subslot replaces the one for its inputs, and one for another API replaces both. -/
theorem C138_one_table {κ : Type} {lim : Lim} {t t1 t2 : Settings κ} {api api' : BitVec 32} {slot subslot : U16} {input output : κ}
    (h1 : setConfig lim t api slot subslot input = some t1) (h2 : setConfig lim t1 api' slot subslot output = some t2) :
    ∃ q, t1 q = some input ∧ t2 q = some output := by
  unfold setConfig at h1 h2
  cases hx : subslotIndex lim subslot with
  | none => rw [hx] at h1; cases h1
  | some ix =>
    rw [hx] at h1 h2
    simp only [Option.bind_some] at h1 h2
    split at h1
    · rename_i hc
      rw [if_pos hc] at h2
      cases h1; cases h2
      exact ⟨_, if_pos rfl, if_pos rfl⟩
    · cases h1

/-- C138 fails: the slot is not checked. -/
theorem C138_slot_outside {κ : Type} {lim : Lim} (t : Settings κ) (api : BitVec 32) {slot : U16} (subslot : U16) (c : κ) (h : lim.slots ≤ slot.toNat) :
    setConfig lim t api slot subslot c = none := by
  unfold setConfig
  cases subslotIndex lim subslot with
  | none => rfl
  | some ix => exact if_neg (by omega)

/-! ## Concrete cases -/

def demoAns : Ans := ⟨some 4, true, true, fun _ => true⟩
def demoSnd : Snd := ⟨true, 22, 40, fun _ => 0, fun _ => 0, fun _ => 0⟩
def demoObj : Obj := ⟨1, true, 106, 0, 2, 3⟩

example : Works demoAns ∧ demoAns.req = some 4 ∧ demoSnd.active = true ∧ demoObj.sram = true ∧ demoObj.slot ≠ 0 := ⟨⟨rfl, rfl, fun _ => rfl⟩, rfl, rfl, rfl, by decide⟩

example : get (setData demoAns demoSnd demoObj (some [7, 8]) [0x80]).1.mem 110 2 = [7, 8] ∧
    readBack demoAns (setData demoAns demoSnd demoObj (some [7, 8]) [0]).1 demoObj 2 = some ([0, 0], 0x80) := by decide +kernel

example : subslotIndex ⟨5, 3, 2⟩ 1 = some 0 ∧ subslotIndex ⟨5, 3, 2⟩ 0x8000 = some 1 := by decide +kernel

end Verif.Lan.Values
