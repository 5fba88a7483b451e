import Verif.ConnRsp.Props

/-!
# The answer to a connect request is sent, or it is lost

`connectInd` says what the answer contains.  Here: whether it leaves the device.
-/

namespace Verif.ConnRsp

open Verif.Wire (Wr Ndr Status)
open Verif.Read (Ready Within)

/-- What the controller gets. -/
inductive Reply where
  | sent (w : Wr) (s : Status)
  | lost

/-- Whether the session of the request is still there when the answer has been built.  If no timer is left for the supervision
of an output CR (`timers = false`), pf_cpm_activate_req (src/common/pf_cpm.c:212-308), called from pf_cmsu_start_req (src/device/pf_cmsu.c:179-274), calls pf_cmsu_cpm_error_ind (src/device/pf_cmsu.c:287-296): the
connection is aborted and pf_cmrpc_cmdev_state_ind (src/device/pf_cmrpc.c:5222-5276) releases its session, which is the one of the request.  It comes to this when
the checks and the application have accepted the request and it is not for device access. -/
def sessionKept (e : Env) (q : Req) (pre : Option Status) (timers : Bool) : Bool :=
  pre.isSome || e.check.isSome || !e.app.1 || q.deviceAccess || timers

/-- The end of pf_cmrpc_dce_packet (src/device/pf_cmrpc.c:4288-5092) for a connect request: the answer is sent on the socket of the session (pf_cmrpc_send_once_from_buffer (src/device/pf_cmrpc.c:968-1018)).  In a session that was
released the socket is not there any more (pf_session_release (src/device/pf_cmrpc.c:560-597)): nothing is sent.  Simplified: what is written into the buffer of
the released session. -/
def connectReply (e : Env) (timers : Bool) (q : Req) (pre : Option Status) (ndr : Ndr) (w : Wr) : Option Reply :=
  if sessionKept e q pre timers then (connectInd e q pre ndr w).map fun x => .sent x.1 x.2.1 else some .lost

/-- C104, partial.  What is missing are requests in advanced mode for which there is not enough room, and requests that are accepted
when the device has no timer left, for which it is false.  If the device has timers, the answer to any other request is sent. -/
theorem C104_sent_partial {e : Env} {timers : Bool} {q : Req} {pre : Option Status} {ndr : Ndr} {w : Wr} (hw : Ready w) (ht : InTable e q)
    (h : q.advanced = false ∨ (q.uuid.d4.length = 8 ∧ e.mac.length = 6 ∧
      w.pos + 20 + frontLen q e.diff + backLen q e.name 0 ≤ w.cap))
    (htim : pre = none → e.check = none → e.app.1 = true → q.deviceAccess = false → timers = true) :
    ∃ w' s, connectReply e timers q pre ndr w = some (.sent w' s) ∧ Within w w' := by
  obtain ⟨w', s, ars, eps, h1, h2⟩ := C104_answered_partial (pre := pre) (ndr := ndr) hw ht h
  refine ⟨w', s, ?_, h2⟩
  have hk : sessionKept e q pre timers = true := by
    unfold sessionKept
    cases hp : pre <;> cases hc : e.check <;> cases ha : e.app.1 <;> cases hd : q.deviceAccess <;> simp_all
  unfold connectReply
  rw [if_pos hk, h1]
  rfl

/-- C104.  For every device and every request that its checks and its application accept: if it is for an IO connection and no timer is
left for an output CR, the controller gets no answer. -/
theorem C104_fails_no_timer {e : Env} {q : Req} {ndr : Ndr} {w : Wr} (hc : e.check = none) (ha : e.app.1 = true)
    (hd : q.deviceAccess = false) : connectReply e false q none ndr w = some .lost := by
  unfold connectReply sessionKept
  simp [hc, ha, hd]

/-- C104.  An answer is lost in no other case. -/
theorem C104_lost_only {e : Env} {timers : Bool} {q : Req} {pre : Option Status} {ndr : Ndr} {w : Wr}
    (h : connectReply e timers q pre ndr w = some .lost) :
    pre = none ∧ e.check = none ∧ e.app.1 = true ∧ q.deviceAccess = false ∧ timers = false := by
  unfold connectReply at h
  by_cases hk : sessionKept e q pre timers = true
  · rw [if_pos hk] at h
    cases hx : connectInd e q pre ndr w <;> simp [hx] at h
  · unfold sessionKept at hk
    simp only [Bool.or_eq_true, not_or, Bool.not_eq_true, Option.isSome_eq_false_iff, Option.isNone_iff_eq_none, Bool.not_eq_false'] at hk
    obtain ⟨⟨⟨⟨a, b⟩, c⟩, d⟩, e'⟩ := hk
    exact ⟨a, b, c, d, e'⟩

namespace Demo

/-- A request that is accepted with timers and lost without. -/
theorem lost : InTable (env none (true, ok) true) (q false) ∧ Ready (w 228) ∧
    (connectReply (env none (true, ok) true) true (q false) none (ndr 148) (w 228)).any (fun r => match r with | .sent _ _ => true | .lost => false) = true ∧
    connectReply (env none (true, ok) true) false (q false) none (ndr 148) (w 228) = some .lost :=
  ⟨(met false none (true, ok) true).1, (met false none (true, ok) true).2.2.2.2.2.2.1, by decide +kernel, C104_fails_no_timer rfl rfl rfl⟩

end Demo

end Verif.ConnRsp
