import Verif.Wire.Model
/-!
UDP sockets of the RPC layer: opening and closing, and the requests that the device sends on its own (application ready).

What a datagram says is left open: a packet is given by what matters for sockets (which session has its activity UUID, whether it is an
endpoint mapper request, a release request or an end of the call, what its handling does).  All combinations are allowed, so all packets
are covered.  Handlers may release any sessions (an abort releases all sessions of a connection).
-/
set_option linter.unusedVariables false
set_option linter.unusedSimpArgs false

namespace Verif.Sock

/-! ## Model -/

/-- The fields of `pf_session_info_t` that have to do with sockets; `timer`: `resend_timeout` runs, `left`: `resend_counter`, `ar`: `p_ar` is not NULL. -/
structure Sess where
  inUse : Bool
  fromMe : Bool
  sock : Int
  timer : Bool
  left : Nat
  ar : Bool
deriving DecidableEq

/-- After pf_session_release (src/device/pf_cmrpc.c:560-597) and pf_cmrpc_init (src/device/pf_cmrpc.c:5187-5207). -/
def Sess.free : Sess := ⟨false, false, -1, false, 0, false⟩

/-- `cmrpc_rpcreq_socket`, `cmrpc_pnioreq_socket`, `cmrpc_session_info` with its number of elements. -/
structure Net where
  rpc : Int
  pnio : Int
  size : Nat
  sess : Nat → Sess

/-- What the operating system is asked for: pf_udp_open with its result, pf_udp_close, pf_udp_sendto
(pf_udp_open (src/common/pf_udp.c:31-34), pf_udp_close (src/common/pf_udp.c:71-74), pf_udp_sendto (src/common/pf_udp.c:36-58)). -/
inductive Ev where
  | opened (fd : Int)
  | closed (fd : Int)
  | sent (fd : Int)
  /-- Not the operating system: a NULL pointer is used. -/
  | undef
deriving DecidableEq

def Net.set (n : Net) (j : Nat) (s : Sess) : Net := { n with sess := fun i => if i = j then s else n.sess i }

/-- pf_session_release (src/device/pf_cmrpc.c:560-597). -/
def release (n : Net) (j : Nat) : Net × List Ev :=
  let s := n.sess j
  if s.inUse then (n.set j .free, if s.sock > -1 ∧ s.fromMe = true then [.closed s.sock] else []) else (n, [])

/-- Several sessions are released, as by an abort: pf_cmrpc_cmdev_state_ind (src/device/pf_cmrpc.c:5222-5276). -/
def releases (n : Net) : List Nat → Net × List Ev
  | [] => (n, [])
  | j :: js => let x := release n j; let y := releases x.1 js; (y.1, x.2 ++ y.2)

/-- The search in pf_session_allocate (src/device/pf_cmrpc.c:502-550). -/
def freeIx (n : Net) : Option Nat := (List.range n.size).find? fun j => !(n.sess j).inUse

/-- PF_CMRPC_NUMBER_OF_RESENDS is `resends`.  pf_cmrpc_send_with_timeout (src/device/pf_cmrpc.c:1065-1154) while there are sends left.  `ok`: all bytes were sent,
`armed`: the timer could be started. -/
def sendTimed (n : Net) (j : Nat) (ok armed : Bool) : Net × List Ev :=
  let s := n.sess j
  if s.sock < 0 then (n, [])
  else (n.set j { s with left := s.left - 1, timer := ok && armed }, [.sent s.sock])

/-- What kind of packet it is, as far as sockets are concerned. -/
inductive Kind where
  /-- A request for the endpoint mapper. -/
  | epm
  /-- A request with the operation number of a release. -/
  | rel
  /-- Cancel, fault or reject. -/
  | fin
  /-- Anything else. -/
  | other
deriving DecidableEq

/-- What a packet does: `hit` is the session in use with its activity UUID; `drops` the sessions that its handling releases; `answer`: it
is answered at once; `conn`: a Connect request sets `p_ar` (to an AR or to NULL); `again`: a message with timeout is sent (a fragment); `kill`: `kill_session` in the end. -/
structure Packet where
  hit : Option Nat
  kind : Kind
  drops : List Nat
  answer : Bool
  conn : Option Bool
  again : Option (Bool × Bool)
  kill : Bool

/-- The session of a packet: a known one, or a new one (src/device/pf_cmrpc.c:4337-4350). -/
def target (n : Net) (p : Packet) : Option (Net × Nat) :=
  match p.hit with
  | some j => if (n.sess j).inUse then some (n, j) else none
  | none => (freeIx n).map fun j => (n.set j ⟨true, false, n.pnio, false, 0, false⟩, j)

/-- A message with timeout, if there is one (src/device/pf_cmrpc.c:4757-4766, 4915-4921). -/
def sendAgain (resends : Nat) (n : Net) (j : Nat) : Option (Bool × Bool) → Net × List Ev
  | none => (n, [])
  | some (ok, armed) => sendTimed (n.set j { n.sess j with left := resends }) j ok armed

/-- The end of the session, if it is wanted (src/device/pf_cmrpc.c:5083-5088). -/
def killIf (kill : Bool) (n : Net) (j : Nat) : Net × List Ev := if kill then release n j else (n, [])

/-- pf_cmrpc_dce_packet (src/device/pf_cmrpc.c:4288-5092), the effects on sockets; the second result is `*p_close_socket`. -/
def dcePacket (resends : Nat) (n : Net) (p : Packet) : Net × Bool × List Ev :=
  match target n p with
  | none => (n, false, [])
  | some (n, j) =>
    -- any incoming message stops resending
    let n := n.set j { n.sess j with timer := false, ar := p.conn.getD (n.sess j).ar }
    let flag := (p.kind == .rel || p.kind == .epm) && (n.sess j).fromMe
    let n := if p.kind = .epm then n.set j { n.sess j with sock := n.rpc } else n
    let x := releases n p.drops
    let n := x.1
    let flag := flag || (p.kind == .fin && (n.sess j).fromMe)
    let e1 := if p.answer then [Ev.sent (n.sess j).sock] else []
    let y := sendAgain resends n j p.again
    let z := killIf p.kill y.1 j
    (z.1, flag, x.2 ++ e1 ++ y.2 ++ z.2)

/-- What happens. -/
inductive Op where
  /-- pf_cmrpc_rm_ccontrol_req (src/device/pf_cmrpc.c:3741-4000); `fd` is the result of pf_udp_open. -/
  | ready (fd : Int) (ok armed : Bool)
  /-- A packet on a server socket (`none`) or found when session `ix` is polled: pf_cmrpc_periodic (src/device/pf_cmrpc.c:5139-5183), poll_rpc_socket (src/device/pf_cmrpc.c:5094-5137). -/
  | packet (on : Option Nat) (p : Packet)
  /-- The timer of session `j` expires; `drops`: sessions released by the abort if there are no sends left. -/
  | expire (j : Nat) (ok armed : Bool) (drops : List Nat)
  /-- Sessions are released for other reasons (pf_session_epm_timeout (src/device/pf_cmrpc.c:608-616), pf_cmrpc_cmdev_state_ind (src/device/pf_cmrpc.c:5222-5276)). -/
  | drop (js : List Nat)

/-- One step; the result of pf_cmrpc_rm_ccontrol_req is 0 unless there is no session. -/
def step (resends : Nat) (n : Net) : Op → Net × List Ev
  | .ready fd ok armed =>
    match freeIx n with
    | none => (n, [])
    | some j =>
      let x := sendTimed (n.set j ⟨true, true, fd, false, resends, true⟩) j ok armed
      (x.1, .opened fd :: x.2)
  | .packet none p => let x := dcePacket resends n p; (x.1, x.2.2)
  | .packet (some ix) p =>
    if ix < n.size ∧ (n.sess ix).inUse = true ∧ (n.sess ix).fromMe = true then
      let x := dcePacket resends n p
      if x.2.1 then (x.1.set ix { x.1.sess ix with sock := -1 }, x.2.2 ++ [.closed (x.1.sess ix).sock]) else (x.1, x.2.2)
    else (n, [])
  | .expire j ok armed drops =>
    let s := n.sess j
    if s.timer then
      if s.sock < 0 then (n.set j { s with timer := false }, [])
      else if s.left > 0 then sendTimed n j ok armed
      else if s.ar = false then (n, [.undef])
      else
        let x := releases (n.set j { s with timer := false }) drops
        if s.fromMe ∧ (x.1.sess j).sock > -1 then
          (x.1.set j { x.1.sess j with sock := -1 }, x.2 ++ [.closed (x.1.sess j).sock])
        else x
    else (n, [])
  | .drop js => releases n js

def run (resends : Nat) : Net → List Op → Net × List Ev
  | n, [] => (n, [])
  | n, o :: os => let x := step resends n o; let y := run resends x.1 os; (y.1, x.2 ++ y.2)

/-- pf_cmrpc_init (src/device/pf_cmrpc.c:5187-5207): the server sockets are open, all sessions are free. -/
def init (rpc pnio : Int) (size : Nat) : Net := ⟨rpc, pnio, size, fun _ => .free⟩

end Verif.Sock
