import Verif.Common.Bytes
import Mathlib.Data.List.Induction
import Mathlib.Data.List.Nodup
/-!
# C46 Dispatch of incoming Ethernet frames

Model of `src/common/pf_eth.c`: the frame ID map and the receive function.
-/
namespace Verif.Eth

variable {H : Type}

/-! ## Model -/

/-- `pf_eth_frame_id_map_t` (src/pf_types.h:1093-1101). `h` is the handler function with its argument. -/
structure Entry (H : Type) where
  inUse : Bool
  frameId : BitVec 16
  h : H

abbrev Map (H : Type) := List (Entry H)

/-- pf_eth_frame_id_map_add (src/common/pf_eth.c:266-297): the first entry not in use is taken; a full map is left as it is. -/
def add (m : Map H) (fid : BitVec 16) (h : H) : Map H :=
  match m with
  | [] => []
  | e :: m => if e.inUse = true then e :: add m fid h else ⟨true, fid, h⟩ :: m

/-- pf_eth_frame_id_map_remove (src/common/pf_eth.c:299-320). -/
def remove (m : Map H) (fid : BitVec 16) : Map H :=
  match m with
  | [] => []
  | e :: m => if e.inUse = false ∨ e.frameId ≠ fid then e :: remove m fid else { e with inUse := false } :: m

/-- The search loop of pf_eth_recv (src/common/pf_eth.c:197-264). -/
def find (m : Map H) (fid : BitVec 16) : Option H :=
  match m with
  | [] => none
  | e :: m => if e.inUse = false ∨ e.frameId ≠ fid then find m fid else some e.h

/-- What pf_eth_recv (src/common/pf_eth.c:197-264) does with a frame. `notHandled`: return value 0, the operating system may use the frame. -/
inductive Out (H : Type) where
  | handler (h : H) (fid : BitVec 16) (pos : Nat)
  | lldp (pos : Nat)
  | notHandled

/-- Big-endian 16-bit read; `none` beyond the end of the buffer. -/
def rd16 (d : List Byte) (pos : Nat) : Option (BitVec 16) :=
  match d[pos]?, d[pos + 1]? with
  | some a, some b => some (a ++ b)
  | _, _ => none

/-- The VLAN loop of pf_eth_recv (src/common/pf_eth.c:197-264); result: position and value of the Ethertype. `none`: a read beyond the end
of the buffer. The position is a `uint16_t` in the code; it cannot overflow since buffers are shorter than that. -/
def skipVlan (d : List Byte) : Nat → Nat → Option (Nat × BitVec 16)
  | 0, _ => none
  | fuel + 1, pos =>
    match rd16 d pos with
    | none => none
    | some t => if t = 0x8100#16 then skipVlan d fuel (pos + 4) else some (pos, t)

/-- pf_eth_recv (src/common/pf_eth.c:197-264). The loop ends at the end of the buffer at the latest, so its length is enough fuel. -/
def recv (m : Map H) (d : List Byte) : Option (Out H) :=
  match skipVlan d (d.length + 1) 12 with
  | none => none
  | some (pos, t) =>
    let fpos := pos + 2
    if t = 0x8892#16 then
      match rd16 d fpos with
      | none => none
      | some fid =>
        match find m fid with
        | some h => some (.handler h fid fpos)
        | none => some .notHandled
    else if t = 0x88CC#16 then some (.lldp fpos)
    else some .notHandled

/-- Registrations and removals. -/
inductive Op (H : Type) where
  | add (fid : BitVec 16) (h : H)
  | remove (fid : BitVec 16)

def step (m : Map H) : Op H → Map H
  | .add fid h => add m fid h
  | .remove fid => remove m fid

/-- pf_eth_init (src/common/pf_eth.c:102-159): all entries zeroed. -/
def init (n : Nat) (h0 : H) : Map H := List.replicate n ⟨false, 0, h0⟩

def run (n : Nat) (h0 : H) (ops : List (Op H)) : Map H := ops.foldl step (init n h0)

/-! ## Specification -/

/-- The registrations as a list of pairs. -/
abbrev Reg (H : Type) := List (BitVec 16 × H)

def regStep (r : Reg H) : Op H → Reg H
  | .add fid h => (fid, h) :: r
  | .remove fid => r.filter fun p => p.1 ≠ fid

/-- The registrations in force after a history. -/
def registered (ops : List (Op H)) : Reg H := ops.foldl regStep []

/-- Used as intended: an ID is registered only if it is not registered, and at most `n` at a time. -/
def WellUsed (n : Nat) (ops : List (Op H)) : Prop :=
  ∀ a fid h b, ops = a ++ .add fid h :: b → (∀ h', (fid, h') ∉ registered a) ∧ (registered a).length < n

/-- A frame with VLAN tags, and the bytes after the Ethertype. -/
def frame (macs : List Byte) (tags : List (Byte × Byte)) (etype : BitVec 16) (rest : List Byte) : List Byte :=
  macs ++ (tags.map fun t => [0x81, 0x00, t.1, t.2]).flatten ++
    [etype.extractLsb' 8 8, etype.extractLsb' 0 8] ++ rest

/-! ## Proof -/

/-- The pairs in use. -/
def live (m : Map H) : Reg H := (m.filter fun e => e.inUse).map fun e => (e.frameId, e.h)

theorem live_cons (e : Entry H) (m : Map H) :
    live (e :: m) = if e.inUse then (e.frameId, e.h) :: live m else live m := by
  unfold live
  rw [List.filter_cons]
  split <;> rfl

theorem live_add (m : Map H) (fid : BitVec 16) (h : H) (hl : (live m).length < m.length) :
    (live (add m fid h)).Perm ((fid, h) :: live m) := by
  induction m with
  | nil => simp at hl
  | cons e m ih =>
    unfold add
    by_cases he : e.inUse = true
    · rw [if_pos he, live_cons, live_cons, if_pos he, if_pos he]
      rw [live_cons, if_pos he] at hl
      have := ih (by simp only [List.length_cons] at hl; omega)
      exact (this.cons _).trans (List.Perm.swap _ _ _)
    · rw [if_neg he, live_cons, live_cons, if_neg he, if_pos rfl]

theorem add_length (m : Map H) (fid : BitVec 16) (h : H) : (add m fid h).length = m.length := by
  induction m with
  | nil => rfl
  | cons e m ih => unfold add; split <;> simp [ih]

theorem remove_length (m : Map H) (fid : BitVec 16) : (remove m fid).length = m.length := by
  induction m with
  | nil => rfl
  | cons e m ih => unfold remove; split <;> simp [ih]

theorem live_remove (m : Map H) (fid : BitVec 16) (hn : ((live m).map (·.1)).Nodup) :
    live (remove m fid) = (live m).filter fun p => p.1 ≠ fid := by
  induction m with
  | nil => rfl
  | cons e m ih =>
    unfold remove
    cases he : e.inUse with
    | false =>
      rw [live_cons, he] at hn
      rw [if_pos (Or.inl rfl), live_cons, live_cons, he]
      exact ih hn
    | true =>
      rw [live_cons, he, if_pos rfl] at hn
      simp only [List.map_cons, List.nodup_cons] at hn
      by_cases hf : e.frameId = fid
      · rw [if_neg (by simp [hf]), live_cons, live_cons, he]
        simp only [Bool.false_eq_true, if_false, if_true]
        rw [List.filter_cons_of_neg (by simp [hf])]
        symm
        rw [List.filter_eq_self]
        intro p hp
        simp only [ne_eq, decide_not, Bool.not_eq_eq_eq_not, Bool.not_true, decide_eq_false_iff_not]
        intro hh
        exact hn.1 (List.mem_map.2 ⟨p, hp, by rw [hh, hf]⟩)
      · rw [if_pos (Or.inr hf), live_cons, live_cons, he, if_pos rfl, if_pos rfl, ih hn.2,
          List.filter_cons_of_pos (by simp [hf])]

theorem find_mem (m : Map H) (fid : BitVec 16) (h : H) (hf : find m fid = some h) : (fid, h) ∈ live m := by
  induction m with
  | nil => cases hf
  | cons e m ih =>
    unfold find at hf
    rw [live_cons]
    split at hf
    · split
      · exact List.mem_cons_of_mem _ (ih hf)
      · exact ih hf
    · rename_i hh
      push Not at hh
      cases hf
      have : e.inUse = true := by simpa using hh.1
      rw [if_pos this, ← hh.2]; simp

theorem find_none (m : Map H) (fid : BitVec 16) (hf : find m fid = none) (h : H) : (fid, h) ∉ live m := by
  induction m with
  | nil => simp [live]
  | cons e m ih =>
    unfold find at hf
    rw [live_cons]
    split at hf
    · rename_i hh
      split
      · rename_i hu
        rcases hh with hh | hh
        · rw [hh] at hu; cases hu
        · intro hm
          rcases List.mem_cons.1 hm with hm | hm
          · cases hm; exact hh rfl
          · exact ih hf hm
      · exact ih hf
    · cases hf

theorem run_inv (n : Nat) (h0 : H) (ops : List (Op H)) (hw : WellUsed n ops) :
    (run n h0 ops).length = n ∧ (live (run n h0 ops)).Perm (registered ops) ∧
    ((registered ops).map (·.1)).Nodup ∧ (registered ops).length ≤ n := by
  induction ops using List.reverseRecOn with
  | nil =>
    refine ⟨by simp [run, init], ?_, by simp [registered], by simp [registered]⟩
    have : live (run n h0 []) = [] := by simp [run, live, init]
    rw [this]; exact List.Perm.refl _
  | append_singleton ops o ih =>
    have hw' : WellUsed n ops := by
      intro a fid h b e
      exact hw a fid h (b ++ [o]) (by rw [e]; simp)
    obtain ⟨h1, h2, h3, h4⟩ := ih hw'
    have er : run n h0 (ops ++ [o]) = step (run n h0 ops) o := by simp [run, List.foldl_append]
    have es : registered (ops ++ [o]) = regStep (registered ops) o := by simp [registered, List.foldl_append]
    rw [er, es]
    cases o with
    | add fid h =>
      obtain ⟨k1, k2⟩ := hw ops fid h [] rfl
      have hl : (live (run n h0 ops)).length < (run n h0 ops).length := by
        rw [h2.length_eq, h1]; exact k2
      refine ⟨by rw [step, add_length, h1], (live_add _ fid h hl).trans (h2.cons _), ?_, k2⟩
      simp only [regStep, List.map_cons, List.nodup_cons]
      refine ⟨?_, h3⟩
      intro hm
      obtain ⟨p, hp, hp'⟩ := List.mem_map.1 hm
      exact k1 p.2 (by rw [← hp']; exact hp)
    | remove fid =>
      have hn : ((live (run n h0 ops)).map (·.1)).Nodup := ((h2.map _).nodup_iff).2 h3
      refine ⟨by rw [step, remove_length, h1], ?_, ?_, ?_⟩
      · rw [step, live_remove _ _ hn]
        exact h2.filter _
      · exact h3.sublist (List.filter_sublist.map _)
      · exact Nat.le_trans (List.length_filter_le _ _) h4

theorem rd16_at (pre : List Byte) (a b : Byte) (rest : List Byte) (pos : Nat) (hp : pre.length = pos) :
    rd16 (pre ++ a :: b :: rest) pos = some (a ++ b) := by
  unfold rd16
  subst hp
  rw [List.getElem?_append_right (Nat.le_refl _), List.getElem?_append_right (by omega)]
  simp

theorem type_bytes (t : BitVec 16) : t.extractLsb' 8 8 ++ t.extractLsb' 0 8 = t := by
  apply BitVec.eq_of_getLsbD_eq
  intro i hi
  rw [BitVec.getLsbD_append]
  simp only [BitVec.getLsbD_extractLsb']
  by_cases h : i < 8
  · simp [h]
  · have h1 : i - 8 < 8 := by omega
    have h2 : 8 + (i - 8) = i := by omega
    simp [h, h1, h2]

theorem skip_frame (pre : List Byte) (tags : List (Byte × Byte)) (t : BitVec 16) (rest : List Byte) (fuel : Nat)
    (ht : t ≠ 0x8100#16) (hf : tags.length < fuel) :
    skipVlan (pre ++ ((tags.map fun t => [0x81, 0x00, t.1, t.2]).flatten ++
      ([t.extractLsb' 8 8, t.extractLsb' 0 8] ++ rest))) fuel pre.length =
      some (pre.length + 4 * tags.length, t) := by
  induction tags generalizing pre fuel with
  | nil =>
    cases fuel with
    | zero => simp at hf
    | succ fuel =>
      unfold skipVlan
      simp only [List.map_nil, List.flatten_nil, List.nil_append, List.cons_append]
      rw [rd16_at _ _ _ _ _ rfl, type_bytes]
      simp [ht]
  | cons g tags ih =>
    cases fuel with
    | zero => simp at hf
    | succ fuel =>
      unfold skipVlan
      simp only [List.map_cons, List.flatten_cons, List.cons_append, List.nil_append]
      rw [rd16_at _ _ _ _ _ rfl]
      have e : ((0x81 : Byte) ++ (0x00 : Byte) : BitVec 16) = 0x8100#16 := by decide
      simp only [e, if_true]
      have := ih (pre ++ [0x81, 0x00, g.1, g.2]) fuel (by simp only [List.length_cons] at hf; omega)
      simp only [List.length_append, List.length_cons, List.length_nil, List.append_assoc, List.cons_append,
        List.nil_append] at this
      rw [this]
      simp only [List.length_cons]
      congr 2
      omega

theorem frame_len (macs : List Byte) (tags : List (Byte × Byte)) (t : BitVec 16) (rest : List Byte) :
    (frame macs tags t rest).length = macs.length + 4 * tags.length + 2 + rest.length := by
  unfold frame
  have : ((tags.map fun t => [(0x81 : Byte), 0x00, t.1, t.2]).flatten).length = 4 * tags.length := by
    induction tags with
    | nil => rfl
    | cons g tags ih => simp only [List.map_cons, List.flatten_cons, List.length_append, ih, List.length_cons, List.length_nil]; omega
  simp only [List.length_append, this, List.length_cons, List.length_nil]

theorem recv_frame (m : Map H) (macs : List Byte) (hm : macs.length = 12) (tags : List (Byte × Byte)) (t : BitVec 16)
    (rest : List Byte) (ht : t ≠ 0x8100#16) :
    skipVlan (frame macs tags t rest) ((frame macs tags t rest).length + 1) 12 = some (12 + 4 * tags.length, t) := by
  have := skip_frame macs tags t rest ((frame macs tags t rest).length + 1) ht (by rw [frame_len]; omega)
  rw [hm] at this
  rw [← this]
  unfold frame
  simp only [List.append_assoc]

/-- **C46** After any history of registrations and removals used as intended, an incoming PROFINET frame with any number of
VLAN tags is given, with its frame ID and the position of the frame ID, to the handler registered for its frame ID and to no
other; if none is registered it is left to the operating system. -/
theorem C46_dispatch (n : Nat) (h0 : H) (ops : List (Op H)) (hw : WellUsed n ops)
    (macs : List Byte) (hm : macs.length = 12) (tags : List (Byte × Byte)) (fid : BitVec 16) (data : List Byte) :
    let out := recv (run n h0 ops) (frame macs tags 0x8892#16 ([fid.extractLsb' 8 8, fid.extractLsb' 0 8] ++ data))
    (∀ h, (fid, h) ∈ registered ops → out = some (.handler h fid (14 + 4 * tags.length))) ∧
    ((∀ h, (fid, h) ∉ registered ops) → out = some .notHandled) := by
  obtain ⟨_, hp, hn, _⟩ := run_inv n h0 ops hw
  generalize run n h0 ops = m at hp
  have e1 := recv_frame m macs hm tags 0x8892#16 ([fid.extractLsb' 8 8, fid.extractLsb' 0 8] ++ data) (by decide)
  have e2 : rd16 (frame macs tags 0x8892#16 ([fid.extractLsb' 8 8, fid.extractLsb' 0 8] ++ data)) (12 + 4 * tags.length + 2) = some fid := by
    have hl := frame_len macs tags 0x8892#16 []
    have : frame macs tags 0x8892#16 ([fid.extractLsb' 8 8, fid.extractLsb' 0 8] ++ data) =
        frame macs tags 0x8892#16 [] ++ fid.extractLsb' 8 8 :: fid.extractLsb' 0 8 :: data := by
      unfold frame; simp
    rw [this, rd16_at _ _ _ _ _ (by rw [hl, hm]; simp), type_bytes]
  intro out
  have hout : out = match find m fid with
      | some h => some (.handler h fid (12 + 4 * tags.length + 2))
      | none => some .notHandled := by
    show recv _ _ = _
    unfold recv
    rw [e1]
    dsimp only
    rw [if_pos rfl, e2]
  rw [hout]
  refine ⟨fun h hh => ?_, fun hh => ?_⟩
  · cases hf : find m fid with
    | none => exact absurd (hp.mem_iff.2 hh) (find_none m fid hf h)
    | some h' =>
      have hm' := hp.mem_iff.1 (find_mem m fid h' hf)
      have : h' = h := by
        have := List.inj_on_of_nodup_map hn hm' hh rfl
        cases this; rfl
      subst this
      dsimp only
      rw [show 12 + 4 * tags.length + 2 = 14 + 4 * tags.length by omega]
  · cases hf : find m fid with
    | none => rfl
    | some h' => exact absurd (hp.mem_iff.1 (find_mem m fid h' hf)) (hh h')

/-- **C46** Whatever the history, even with double registrations or a full map, a handler that gets a frame was
registered for exactly its frame ID. -/
theorem C46_never_another_handler (n : Nat) (h0 : H) (ops : List (Op H)) (fid : BitVec 16) (h : H)
    (hf : find (run n h0 ops) fid = some h) : Op.add fid h ∈ ops := by
  have key : ∀ p ∈ live (run n h0 ops), Op.add p.1 p.2 ∈ ops := by
    clear hf
    induction ops using List.reverseRecOn with
    | nil => intro p hp; simp [run, live, init] at hp
    | append_singleton ops o ih =>
      have er : run n h0 (ops ++ [o]) = step (run n h0 ops) o := by simp [run, List.foldl_append]
      rw [er]
      intro p hp
      have hsub : p ∈ live (run n h0 ops) ∨ o = .add p.1 p.2 := by
        cases o with
        | add fid h =>
          generalize run n h0 ops = m at hp
          simp only [step] at hp
          clear ih er
          induction m with
          | nil => simp [add, live] at hp
          | cons e m ih =>
            unfold add at hp
            split at hp
            · rename_i he
              rw [live_cons, if_pos he] at hp ⊢
              rcases List.mem_cons.1 hp with hp | hp
              · exact Or.inl (by rw [hp]; simp)
              · rcases ih hp with h | h
                · exact Or.inl (List.mem_cons_of_mem _ h)
                · exact Or.inr h
            · rename_i he
              rw [live_cons, if_pos rfl] at hp
              rw [live_cons, if_neg he]
              rcases List.mem_cons.1 hp with hp | hp
              · exact Or.inr (by rw [hp])
              · exact Or.inl hp
        | remove fid =>
          left
          generalize run n h0 ops = m at hp
          simp only [step] at hp
          clear ih er
          induction m with
          | nil => exact hp
          | cons e m ih =>
            unfold remove at hp
            split at hp
            · rw [live_cons] at hp ⊢
              split at hp
              · rename_i he
                rw [if_pos he]
                rcases List.mem_cons.1 hp with hp | hp
                · rw [hp]; simp
                · exact List.mem_cons_of_mem _ (ih hp)
              · rename_i he
                rw [if_neg he]; exact ih hp
            · rename_i he
              rw [live_cons] at hp ⊢
              simp only [Bool.false_eq_true, if_false] at hp
              split
              · exact List.mem_cons_of_mem _ hp
              · exact hp
      rcases hsub with h | h
      · exact List.mem_append_left _ (ih p h)
      · rw [h]; simp
  exact key _ (find_mem _ fid h hf)

/-- **C46** LLDP frames go to LLDP, frames of other types (not VLAN, PROFINET or LLDP) are left to the operating system,
with any number of VLAN tags. -/
theorem C46_other_types (m : Map H) (macs : List Byte) (hm : macs.length = 12) (tags : List (Byte × Byte)) (t : BitVec 16) (rest : List Byte)
    (h1 : t ≠ 0x8100#16) (h2 : t ≠ 0x8892#16) :
    recv m (frame macs tags t rest) = some (if t = 0x88CC#16 then .lldp (14 + 4 * tags.length) else .notHandled) := by
  unfold recv
  rw [recv_frame m macs hm tags t rest h1]
  dsimp only
  rw [if_neg h2]
  have : 12 + 4 * tags.length + 2 = 14 + 4 * tags.length := by omega
  split <;> simp [this]

/-- **C46 (finding)** A frame that consists of VLAN tags to its end, or ends right after the PROFINET Ethertype, is read beyond its
end. -/
theorem C46_reads_beyond_short_frame (m : Map H) :
    recv m (List.replicate 12 0 ++ [0x81, 0x00, 0, 0]) = none ∧
    recv m (List.replicate 12 0 ++ [0x88, 0x92]) = none := by
  constructor <;> rfl

/-- **C46 (finding)** Why `WellUsed` is needed: with an ID registered twice, removing it once leaves the other
registration in force; with a full map a registration is silently dropped. -/
theorem C46_misuse :
    find (run 3 0 [.add 5#16 1, .add 5#16 2, .remove 5#16]) 5#16 = some 2 ∧
    find (run 1 0 [.add 5#16 1, .add 6#16 2]) 6#16 = none := by decide

/-- Concrete case of `C46_dispatch`: re-use of an entry. -/
theorem C46_example :
    (registered [.add 5#16 1, .add 6#16 2, .remove 5#16, .add 7#16 3] : Reg Nat) = [(7#16, 3), (6#16, 2)] ∧
    find (run 2 0 [.add 5#16 1, .add 6#16 2, .remove 5#16, .add 7#16 3]) 7#16 = some 3 ∧
    find (run 2 0 [.add 5#16 1, .add 6#16 2, .remove 5#16, .add 7#16 3]) 5#16 = none := by decide

end Verif.Eth
