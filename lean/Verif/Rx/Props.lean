import Verif.Rx.Auto

/-!
# C144, C145 Frames reach the part of the stack they are meant for
-/
namespace Verif.Rx

open Verif.Connect (Cr)
open Verif.Eth (live recv frame)

theorem find_iff {m : Eth.Map Handler} (hn : (keys m).Nodup) (f : BitVec 16) (h : Handler) :
    Eth.find m f = some h ↔ (f, h) ∈ live m := by
  constructor
  · exact Eth.find_mem m f h
  · intro hm
    cases hf : Eth.find m f with
    | none => exact absurd hm (Eth.find_none m f hf h)
    | some h' =>
      have := List.inj_on_of_nodup_map hn (Eth.find_mem m f h' hf) hm rfl
      cases this; rfl

/-- A PROFINET frame is handed to what is found in the map. -/
theorem recv_find (m : Eth.Map Handler) (macs : List Byte) (hm : macs.length = 12) (tags : List (Byte × Byte))
    (fid : BitVec 16) (data : List Byte) :
    recv m (frame macs tags 0x8892#16 ([fid.extractLsb' 8 8, fid.extractLsb' 0 8] ++ data)) =
      match Eth.find m fid with
      | some h => some (.handler h fid (14 + 4 * tags.length))
      | none => some .notHandled := by
  have e1 := Eth.recv_frame m macs hm tags 0x8892#16 ([fid.extractLsb' 8 8, fid.extractLsb' 0 8] ++ data) (by decide)
  have e2 : Eth.rd16 (frame macs tags 0x8892#16 ([fid.extractLsb' 8 8, fid.extractLsb' 0 8] ++ data)) (12 + 4 * tags.length + 2) = some fid := by
    have hl := Eth.frame_len macs tags 0x8892#16 []
    have : frame macs tags 0x8892#16 ([fid.extractLsb' 8 8, fid.extractLsb' 0 8] ++ data) =
        frame macs tags 0x8892#16 [] ++ fid.extractLsb' 8 8 :: fid.extractLsb' 0 8 :: data := by
      unfold frame; simp
    rw [this, Eth.rd16_at _ _ _ _ _ (by rw [hl, hm]; simp), Eth.type_bytes]
  unfold recv
  rw [e1]
  dsimp only
  rw [if_pos rfl, e2, show 12 + 4 * tags.length + 2 = 14 + 4 * tags.length by omega]
  dsimp only
  cases Eth.find m fid <;> rfl

/-- Every PROFINET frame, with any VLAN tags, goes to the owner of its frame ID, and is left to the
operating system if there is none. -/
def Dispatches (st : St) : Prop :=
  ∀ (macs : List Byte) (tags : List (Byte × Byte)) (fid : BitVec 16) (data : List Byte), macs.length = 12 →
    let out := recv st.map (frame macs tags 0x8892#16 ([fid.extractLsb' 8 8, fid.extractLsb' 0 8] ++ data))
    (∀ h, Owner st fid h → out = some (.handler h fid (14 + 4 * tags.length))) ∧
    ((∀ h, ¬ Owner st fid h) → out = some .notHandled)

theorem inv_dispatches {n maxCr size : Nat} {st : St} (hI : Inv n maxCr size st) : Dispatches st := by
  intro macs tags fid data hm out
  have hout : out = _ := recv_find st.map macs hm tags fid data
  rw [hout]
  refine ⟨fun h ho => ?_, fun ho => ?_⟩
  · rw [(find_iff hI.nodup fid h).2 ((hI.mem fid h).2 ho)]
  · cases hf : Eth.find st.map fid with
    | none => rfl
    | some h => exact absurd ((hI.mem fid h).1 (Eth.find_mem _ _ _ hf)) (ho h)

/-- **C144** With IO connections whose controllers leave the choice of the output frame IDs to the
device: after any history of connections starting and ending, in any order, every incoming PROFINET
frame is given to the CR of the running connection that has its frame ID, to DCP, or, while any
connection runs, to the alarm handler; all other frames are left to the operating system.  `size` is
PF_ETH_MAX_MAP, `nApi` PNET_MAX_API, `n` PNET_MAX_AR, `maxCr` PNET_MAX_CR. -/
theorem C144_dispatch (nApi n maxCr : Nat) (hapi : 0 < nApi) (hcap : (n + 1) * maxCr < 14336) (os : List Op)
    (ho : ∀ o ∈ os, Auto maxCr o) :
    ∃ st, exec n (init n (nApi * n * maxCr * 2 + 4 + 2)) os = some st ∧ Distinct st ∧ Dispatches st := by
  have hsize : 5 + n * maxCr ≤ nApi * n * maxCr * 2 + 4 + 2 := by
    have h1 : 1 * (n * maxCr) ≤ nApi * (n * maxCr) := Nat.mul_le_mul_right _ hapi
    rw [Nat.mul_assoc nApi n maxCr]
    omega
  generalize nApi * n * maxCr * 2 + 4 + 2 = size at hsize
  have key : ∀ (os : List Op) st, Inv n maxCr size st → AutoInv n st → (∀ o ∈ os, Auto maxCr o) →
      ∃ st', exec n st os = some st' ∧ Inv n maxCr size st' ∧ AutoInv n st' := by
    intro os
    induction os with
    | nil => intro st h1 h2 _; exact ⟨st, rfl, h1, h2⟩
    | cons o os ih =>
      intro st hI hA ho
      obtain ⟨hok, hn⟩ := auto_good hsize hcap [o] st hI hA (fun o' h' => ho o' (by simp at h'; simp [h']))
      obtain ⟨st', hs, hI'⟩ := step_inv hsize (by omega) hI o hok
      have hI'' := hI' (hn st' hs).1
      have hA' : AutoInv n st' := by
        have hoo := ho o (by simp)
        cases o with
        | io crs =>
          simp only [step] at hs
          cases ht : take n st crs with
          | none => rw [ht] at hs; cases hs; exact hA
          | some p =>
            obtain ⟨i, ars⟩ := p
            rw [ht] at hs
            exact auto_io hsize hcap hI hA hoo ht hs
        | access => exact hoo.elim
        | refused crs => exact hoo.elim
        | failed crs k => exact hoo.elim
        | close i =>
          simp only [step, Option.some.injEq] at hs
          subst hs
          exact auto_close hI hA i
      obtain ⟨st'', hx, h3, h4⟩ := ih st' hI'' hA' (fun o' h' => ho o' (by simp [h']))
      exact ⟨st'', by unfold exec; rw [hs]; exact hx, h3, h4⟩
  obtain ⟨st, h1, h2, h3⟩ := key os _ (init_inv n maxCr size hsize) (auto_init n size) ho
  exact ⟨st, h1, h3.dist, inv_dispatches h2⟩

/-- **C145 (partial)** The same for all histories, also with frame IDs given by the controllers,
connections for device access and refused connections, as long as the frame IDs of the running
connections are distinct and no IDs of DCP or alarms, every IO connection finds a free alarm endpoint,
and no start fails.  Missing: the device enforces none of the three, see `C145_identify_lost`,
`C145_shared_id`, `C145_endpoint_leak` and `C145_failed_start`. -/
theorem C145_dispatch_partial (nApi n maxCr : Nat) (hapi : 0 < nApi) (hcap : (n + 1) * maxCr < 65536) (os : List Op)
    (hg : Good n maxCr (init n (nApi * n * maxCr * 2 + 4 + 2)) os) :
    ∃ st, exec n (init n (nApi * n * maxCr * 2 + 4 + 2)) os = some st ∧ Dispatches st := by
  have hsize : 5 + n * maxCr ≤ nApi * n * maxCr * 2 + 4 + 2 := by
    have h1 : 1 * (n * maxCr) ≤ nApi * (n * maxCr) := Nat.mul_le_mul_right _ hapi
    rw [Nat.mul_assoc nApi n maxCr]
    omega
  obtain ⟨st, h1, h2⟩ := exec_inv hsize hcap os _ (init_inv n maxCr _ hsize) hg
  exact ⟨st, h1, inv_dispatches h2⟩

/-- Input and output CR; the frame ID of the output CR is to be chosen. -/
def autoCrs : List Cr := [⟨1, 1, 0x8001⟩, ⟨2, 1, 0xFFFF⟩]

/-- A history for both theorems: two connections start, the first ends, a third starts. -/
def sampleOps : List Op := [.io autoCrs, .io autoCrs, .close 0, .io autoCrs, .close 1]

/-- The hypotheses of `C144_dispatch` hold for `sampleOps`; the connection that is left has frame ID
0xC000, gets its frames, and alarms are received. -/
theorem C144_example : (∀ o ∈ sampleOps, Auto 2 o) ∧
    ((exec 2 (init 2 14) sampleOps).map fun st =>
      (Eth.find st.map 0xC000, Eth.find st.map 0xC001, Eth.find st.map 0xFC01, Eth.find st.map 0xFEFE)) =
      some (some (.output 0 1), none, some .alarm, some .identify) := by
  constructor
  · intro o ho
    simp only [sampleOps, List.mem_cons, List.not_mem_nil, or_false] at ho
    rcases ho with rfl | rfl | rfl | rfl | rfl
    · exact ⟨by decide, by decide⟩
    · exact ⟨by decide, by decide⟩
    · trivial
    · exact ⟨by decide, by decide⟩
    · trivial
  · decide +kernel

/-- The hypotheses of `C145_dispatch_partial` hold for `sampleOps`. -/
theorem C145_example_good : Good 2 2 (init 2 14) sampleOps :=
  auto_good (size := 14) (by decide) (by decide) _ _ (init_inv 2 2 14 (by decide)) (auto_init 2 14) C144_example.1

/-- **C145, what is false (1)**.  A controller may give an output CR the frame ID of DCP Identify requests:
the check of the request accepts it.  When this connection ends, it takes the handler of DCP with
it, and the device is no longer found by Identify requests.  Before, frames of the CR go to DCP. -/
theorem C145_identify_lost :
    Connect.checkIocrs 32 Connect.exampleArLegacy [{ Connect.exampleIocr with type := 2, frameId := 0xFEFE }] = .ok () ∧
    ((exec 2 (init 2 14) [.io [⟨2, 1, 0xFEFE⟩]]).map fun st => Eth.find st.map 0xFEFE) = some (some .identify) ∧
    ((exec 2 (init 2 14) [.io [⟨2, 1, 0xFEFE⟩], .close 0]).map fun st => Eth.find st.map 0xFEFE) =
      some (some (.output 0 0)) ∧
    ((exec 2 (init 2 14) [.io [⟨2, 1, 0xFEFE⟩], .close 0]).map fun st => (st.started 0, st.started 1)) =
      some (false, false) := by
  decide +kernel

/-- **C145, what is false (2)**.  Two controllers may choose the same output frame ID.  The frames of the second
go to the CR of the first; when the second connection ends, the registration of the first, which
goes on, is removed, and its frames are given to the CR of the connection that has ended. -/
theorem C145_shared_id :
    ((exec 2 (init 2 14) [.io [⟨2, 1, 0xC100⟩], .io [⟨2, 1, 0xC100⟩]]).map fun st => Eth.find st.map 0xC100) =
      some (some (.output 0 0)) ∧
    ((exec 2 (init 2 14) [.io [⟨2, 1, 0xC100⟩], .io [⟨2, 1, 0xC100⟩], .close 1]).map fun st =>
      (Eth.find st.map 0xC100, st.started 0, st.started 1)) = some (some (.output 1 0), true, false) := by
  decide +kernel

/-- **C145, what is false (3)**.  Connections for device access do not free their alarm endpoint.  After two of
them, of two IO connections the second has no endpoint, and loses alarm reception when the first
ends. -/
theorem C145_endpoint_leak :
    ((exec 2 (init 2 14) [.access, .close 0, .access, .close 0, .io autoCrs, .io autoCrs, .close 0]).map fun st =>
      (Eth.find st.map 0xFC01, Eth.find st.map 0xFE01, st.started 1)) = some (none, none, true) := by
  decide +kernel

/-- **C145, what is false (4)**.  If a connection cannot be started because no timer is left, its frame ID stays
registered: with no connection running frames with this ID are given to a CR, and the next
connection that has another ID in this CR gets them too. -/
theorem C145_failed_start :
    ((exec 2 (init 2 14) [.failed [⟨2, 1, 0xC100⟩] 0]).map fun st =>
      (Eth.find st.map 0xC100, st.started 0, st.started 1)) = some (some (.output 0 0), false, false) ∧
    ((exec 2 (init 2 14) [.failed [⟨2, 1, 0xC100⟩] 0, .io [⟨2, 1, 0xC200⟩]]).map fun st =>
      (Eth.find st.map 0xC100, Eth.find st.map 0xC200)) = some (some (.output 0 0), some (.output 0 0)) := by
  decide +kernel

end Verif.Rx
