import Verif.Control.Demo

/-!
C159, the part in the RPC layer: the request "parameter begin" (block type 0x0118, command 64) of a controller is refused by pf_cmrpc_rm_dcontrol_interpret
(src/device/pf_cmrpc.c), which takes only the command "parameter end".
-/

namespace Verif.Control
open Verif.Wire
open Verif.Read (Result Fit noResult)

variable {A : Type}

/-- A DControl request that is one control block with a command that is not "parameter end" is answered with an error, and nothing is done: the block types of
"parameter begin", "parameter end" and "parameter end for a plug alarm" do not matter, nor does the connection. -/
theorem C159_begin_refused (e : Env A) (ndr : Ndr) (h32 : ndr.argsLen.toNat = 32) {seq : U32} {last : Last} (hseq : last.seq ≠ seq) {r : Rd} (hr : Fit r)
    {w : Wr} (hw : Read.Ready w) (room : w.pos + 52 ≤ w.cap) {t : U16} {c : Control} (hm : Message r t c)
    (ht : t = 0x0110 ∨ t = 0x0111 ∨ t = 0x0118) (hc : c.command ≠ 1) :
    ∃ rep last', dcontrolInd e ndr seq last noResult r w = some (rep, [], last') ∧ ∃ s : Status, s.code = 0xDD ∧ Answers ndr w rep s [] := by
  have no : ∀ t' c', ¬ Asks ndr r t' c' := by
    intro t' c' h
    have hm' := message_of_contains (by have := h.2.2.1; omega) h.2.2.2
    have h1 := loop_message dcontrol nilControl noResult hr hm (asks_types.mpr ht)
    have h2 := loop_message dcontrol nilControl noResult hr hm' (asks_types.mpr h.1)
    rw [h1] at h2
    cases h2
    exact hc h.2.1
  obtain ⟨rep, acts, last', h1, h2⟩ := C115_dcontrol e ndr hseq hr hw room
  rcases h2 with ⟨t', c', a, g, _⟩ | ⟨_, rfl, s, s1, _, s2⟩
  · exact absurd g (no t' c')
  · exact ⟨rep, last', h1, s, s1, s2⟩

/-- Whatever bytes the request has: what reaches a connection carries the command "parameter end". -/
theorem C159_only_end (e : Env A) (ndr : Ndr) {seq : U32} {last : Last} (hseq : last.seq ≠ seq) {r : Rd} (hr : Fit r) {w : Wr} (hw : Read.Ready w)
    (room : w.pos + 52 ≤ w.cap) {rep : Reply} {acts : List (Act A)} {last' : Last}
    (h : dcontrolInd e ndr seq last noResult r w = some (rep, acts, last')) :
    ∀ x ∈ acts, (∃ a, x = .plugEnd a) ∨ ∃ a c, x = .prmEnd a c ∧ c.command = 1 := by
  obtain ⟨rep', acts', l', h1, h2⟩ := C115_dcontrol e ndr hseq hr hw room
  rw [h] at h1
  cases h1
  intro x hx
  rcases h2 with ⟨t', c', a, g, _, g2, _⟩ | ⟨_, g, _⟩
  · rw [g2, List.mem_singleton] at hx
    unfold call at hx
    split at hx
    · exact .inl ⟨a, hx⟩
    · exact .inr ⟨a, c', hx, g.2.1⟩
  · rw [g] at hx; cases hx

/-- The request "parameter begin" as a controller sends it, for a connection that exists. -/
theorem C159_begin_example : Fit (msg 0x0118 ⟨demoU, 5, 0, 64, 0⟩) ∧ Message (msg 0x0118 ⟨demoU, 5, 0, 64, 0⟩) 0x0118 ⟨demoU, 5, 0, 64, 0⟩ ∧
    demoNdr.argsLen.toNat = 32 ∧ noLast.seq ≠ 3 ∧ demoE.find demoU = some 7 ∧
    (dcontrolInd demoE demoNdr 3 noLast noResult (msg 0x0118 ⟨demoU, 5, 0, 64, 0⟩) demoW).map (fun x => (isSent x.1, x.2.1.length)) = some (false, 0) :=
  ⟨(msg_ok _ rfl).1, (msg_ok _ rfl).2, by decide, by decide, rfl, by decide +kernel⟩

end Verif.Control
