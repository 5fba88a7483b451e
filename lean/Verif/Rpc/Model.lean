import Verif.Wire.Records
/-!
Model of the RPC layer: one incoming UDP datagram is assigned to a session, fragments of requests are
collected, complete messages are handed over, responses are sent in fragments, fragments are sent again
when no acknowledge arrives.
Source: src/device/pf_cmrpc.c.

Simplified: sessions that the device opens itself (application ready requests) are not part of the
table; the request handlers behind pf_cmrpc_rpc_request (src/device/pf_cmrpc.c:3627-3739) and pf_cmrpc_lookup_ind (src/device/pf_cmrpc.c:3106-3147) are
represented by what they leave behind (`Reply`: the bytes they append to the response and whether they
ask for the end of the session); they do not touch the buffers of the session otherwise.  IP address, port,
socket and log output are left out, sending always succeeds.  A result `none` is an access outside an
array.
-/
set_option linter.unusedVariables false

namespace Verif.Rpc
open Verif.Wire

/-- Sizes: `cap` = PNET_MAX_SESSION_BUFFER_SIZE (both buffers of a session), `maxUdp` =
PF_MAX_UDP_PAYLOAD_SIZE (src/pf_types.h:74), `maxBody` = PF_CMRPC_MAX_PDU_BODY_SIZE
(src/device/pf_cmrpc.c:71-72), `frameSize` = PF_FRAME_BUFFER_SIZE (src/pf_types.h:69), `resends` =
PF_CMRPC_NUMBER_OF_RESENDS. -/
structure Cfg where
  cap : Nat
  maxUdp : Nat
  maxBody : Nat
  frameSize : Nat
  resends : Nat
deriving DecidableEq

/-- The members of `pf_session_info_t` (src/pf_types.h:2032-2094) used here.  `timer`: `resend_timeout` is
running. -/
structure Sess where
  inUse : Bool
  uuid : Uuid
  kill : Bool
  be : Bool
  inBuf : List Byte
  inLen : Nat
  inFrag : Nat
  outBuf : List Byte
  outLen : Nat
  sentPos : Nat
  sendLen : Nat
  outFrag : Nat
  resend : Nat
  timer : Bool
deriving DecidableEq

def nilUuid : Uuid := ⟨0, 0, 0, List.replicate 8 0⟩

/-- A session after `memset`. -/
def Sess.zero (c : Cfg) : Sess where
  inUse := false
  uuid := nilUuid
  kill := false
  be := false
  inBuf := List.replicate c.cap 0
  inLen := 0
  inFrag := 0
  outBuf := List.replicate c.cap 0
  outLen := 0
  sentPos := 0
  sendLen := 0
  outFrag := 0
  resend := 0
  timer := false

/-- What the request handler leaves behind, and the UUID that a new session gets
(src/device/pf_cmrpc.c:534-539). -/
structure Reply where
  body : List Byte
  kill : Bool
  gen : Uuid
deriving DecidableEq

/-- Effects visible outside. -/
inductive Ev where
  /-- A request is handed to its handler; `err`: an error is already set in `rpc_result`; `msg`: the
  bytes the handler can read. -/
  | request (s : Nat) (h : RpcHeader) (err : Bool) (msg : List Byte)
  /-- The same for a response to a request of the device. -/
  | response (s : Nat) (h : RpcHeader) (err : Bool) (msg : List Byte)
  /-- A datagram leaves; `again`: because no acknowledge came. -/
  | sent (s : Nat) (again : Bool) (data : List Byte)
  /-- The connection of the session is aborted. -/
  | abort (s : Nat)
deriving DecidableEq

/-- The input frame array and the session table. -/
structure St where
  frame : List Byte
  sess : List Sess
deriving DecidableEq

/-! ## Headers -/

/-- pf_put_dce_rpc_header (src/device/pf_block_writer.c:1437-1545) up to the length of the body. -/
def putRpcPre (h : RpcHeader) : W :=
  let f := putBits (bit h.broadcast) 1 6 (putBits (bit h.idempotent) 1 5 (putBits (bit h.maybe) 1 4
    (putBits (bit h.noFack) 1 3 (putBits (bit h.fragment) 1 2 (putBits (bit h.lastFragment) 1 1 0)))))
  let d := putBits (bit (!h.isBe)) 4 4 0
  putByte h.version ;; putByte h.packetType ;; putByte (f.setWidth 8) ;; putByte 0 ;;
  putByte (d.setWidth 8) ;; putByte h.floatRepr ;; putByte h.reserved ;; putByte h.serialHigh ;;
  putUuid h.isBe h.objUuid ;; putUuid h.isBe h.ifUuid ;; putUuid h.isBe h.actUuid ;;
  putU32 h.isBe h.bootTime ;; putU32 h.isBe h.ifVersion ;; putU32 h.isBe h.seqNmb ;;
  putU16 h.isBe h.opnum ;; putU16 h.isBe h.ifHint ;; putU16 h.isBe h.actHint

/-- The rest of pf_put_dce_rpc_header (src/device/pf_block_writer.c:1437-1545). -/
def putRpcPost (h : RpcHeader) : W :=
  putU16 h.isBe h.lengthOfBody ;; putU16 h.isBe h.fragmentNmb ;; putByte h.auth ;; putByte h.serialLow

/-- pf_put_dce_rpc_header (src/device/pf_block_writer.c:1437-1545) with `*p_pos_body_len`. -/
def putHdr (h : RpcHeader) (w : Wr) : Option (Wr × Nat) :=
  (putRpcPre h w).bind fun a => (putRpcPost h a).map fun b => (b, a.pos)

/-- The flags of all responses (for example src/device/pf_cmrpc.c:4614-4626). -/
def resHeader (h : RpcHeader) (type : Byte) (noFack idempotent be : Bool) (nmb : U16) : RpcHeader :=
  { h with
    packetType := type, lastFragment := false, fragment := false, noFack := noFack, maybe := false,
    idempotent := idempotent, broadcast := false, cancelPending := false, fragmentNmb := nmb, isBe := be }

/-! ## Collecting fragments -/

/-- What a message with number 0, or an unfragmented one, sets (src/device/pf_cmrpc.c:4378-4386 and
4396-4407). -/
def Sess.start (s : Sess) (h : RpcHeader) (be : Bool) : Sess :=
  { s with inLen := 0, uuid := h.actUuid, be := be, inFrag := 0, kill := false }

/-- src/device/pf_cmrpc.c:4365-4478: the session, the reader of the message, and whether an error is set
in `rpc_result`.  `r` is the reader after the header. -/
def collect (c : Cfg) (h : RpcHeader) (r : Rd) (s : Sess) : Option (Sess × Rd × Bool) :=
  if h.lengthOfBody.toNat > c.maxBody then some (s, r, false)
  else if h.fragment = false then some (s.start h r.be, r, false)
  else
    let s1 := if h.fragmentNmb = 0 then s.start h r.be else s
    let e := h.fragmentNmb != 0 && s1.be != h.isBe
    if s1.inFrag ≠ h.fragmentNmb.toNat then some (s1, r, true)
    else if s1.inLen + h.lengthOfBody.toNat > c.cap then some (s1, r, true)
    else
      (slice r.buf r.pos h.lengthOfBody.toNat).bind fun d =>
        (writeAt s1.inBuf s1.inLen d).map fun b =>
          let s2 := { s1 with
            inBuf := b, inLen := s1.inLen + h.lengthOfBody.toNat, inFrag := (s1.inFrag + 1) % 65536 }
          (s2, if h.lastFragment then ⟨b, false, s2.inLen, r.be, r.err, 0⟩ else r, e)

/-! ## Sending -/

/-- pf_cmrpc_send_once_from_buffer (src/device/pf_cmrpc.c:968-1018): nothing is sent if the size is 0. -/
def sentEv (i : Nat) (again : Bool) (d : List Byte) : List Ev :=
  if d.length = 0 then [] else [.sent i again d]

/-- pf_cmrpc_send_once (src/device/pf_cmrpc.c:1030-1045). -/
def sendOnce (i : Nat) (again : Bool) (s : Sess) : Option (List Ev) :=
  (slice s.outBuf 0 s.sendLen).map (sentEv i again)

/-- pf_cmrpc_send_with_timeout (src/device/pf_cmrpc.c:1065-1154); `again` tells whether the timer calls it.  With the counter at zero
the connection is aborted. -/
def sendTimed (i : Nat) (again : Bool) (s : Sess) : Option (Sess × List Ev) :=
  if s.resend > 0 then
    (sendOnce i again s).map fun e => ({ s with resend := s.resend - 1, timer := true }, e)
  else some ({ s with timer := false }, [.abort i])

/-- A short answer that is built in the output frame array: reject, ping response, acknowledge
(src/device/pf_cmrpc.c:4491-4524, 4543-4573, 5026-5055). -/
def shortAnswer (c : Cfg) (i : Nat) (h : RpcHeader) (rest : W) : Option (List Ev) :=
  (putHdr h ⟨List.replicate c.frameSize 0, c.maxUdp, 0⟩).bind fun x =>
    (rest x.1).bind fun w => (slice w.buf 0 w.pos).map (sentEv i false)

/-- `uuid_epmap_interface` (src/device/pf_cmrpc.c:77-81). -/
def uuidEpm : Uuid := ⟨0xE1AF8308, 0x5D1F, 0x11C9, [0x91, 0xA4, 0x08, 0x00, 0x2B, 0x14, 0xA0, 0xFA]⟩

/-- `uuid_io_device_interface` (src/device/pf_cmrpc.c:83-87). -/
def uuidPnio : Uuid := ⟨0xDEA00001, 0x6C97, 0x11D1, [0x82, 0x71, 0x00, 0xA0, 0x24, 0x42, 0xDF, 0x7D]⟩

/-- The reader after the NDR header and the size limit of the response
(src/device/pf_cmrpc.c:4584-4612). -/
def respLimit (c : Cfg) (h : RpcHeader) (r : Rd) : Option (Rd × Nat) :=
  if h.ifUuid ≠ uuidEpm then
    (getNdr r).map fun x =>
      let m := (BitVec.ofNat 32 x.2.pos + x.1.argsMax).toNat
      ({ x.2 with be := true }, if m > c.cap then c.cap else m)
  else some ({ r with be := false }, c.cap)

/-- Header of the first fragment (src/device/pf_cmrpc.c:4614-4629 and 4676-4677). -/
def respHeader (h : RpcHeader) (be : Bool) : RpcHeader :=
  { resHeader h 2 true true be 0 with serialHigh := 0, serialLow := 0 }

/-- The header is written again for a fragmented response (src/device/pf_cmrpc.c:4720-4738). -/
def fragHeader0 (h : RpcHeader) (be : Bool) : RpcHeader :=
  { respHeader h be with fragment := true, noFack := false, idempotent := h.ifUuid != uuidEpm }

/-- A complete request (src/device/pf_cmrpc.c:4574-4780).  `r` reads the message. -/
def request (c : Cfg) (i : Nat) (h : RpcHeader) (r : Rd) (err : Bool) (rep : Reply) (s : Sess) :
    Option (Sess × List Ev) :=
  (respLimit c h r).bind fun x =>
    (putHdr (respHeader h x.1.be) ⟨s.outBuf, x.2, 0⟩).bind fun w =>
      let known := h.ifUuid = uuidPnio ∨ h.ifUuid = uuidEpm
      (putMem (if known then rep.body else []) w.1).bind fun w1 =>
        let kill := if known then rep.kill else s.kill
        let evs := if known then [Ev.request i h err ((r.buf.drop r.pos).take (r.len - r.pos))] else []
        if w1.pos < c.maxUdp then
          (putU16 x.1.be (BitVec.ofNat 16 (w1.pos - w.1.pos)) ⟨w1.buf, w1.pos, w.2⟩).bind fun w2 =>
            let s1 := { s with
              outBuf := w2.buf, outLen := w1.pos, sentPos := 0, sendLen := w1.pos, outFrag := 0, kill := kill }
            (sendOnce i false s1).map fun e => (s1, evs ++ e)
        else
          (putHdr (fragHeader0 h x.1.be) ⟨w1.buf, x.2, 0⟩).bind fun w3 =>
            (putU16 x.1.be (BitVec.ofNat 16 (c.maxUdp - w.1.pos)) ⟨w3.1.buf, c.maxUdp, w3.2⟩).bind fun w2 =>
              let s1 := { s with
                outBuf := w2.buf, outLen := w1.pos, sentPos := 0, sendLen := c.maxUdp, outFrag := 0,
                kill := kill, resend := c.resends }
              (sendTimed i false s1).map fun y => (y.1, evs ++ y.2)

/-- Header of a later fragment (src/device/pf_cmrpc.c:4815-4833). -/
def fragHeader (h : RpcHeader) (be : Bool) (nmb : Nat) (last : Bool) : RpcHeader :=
  { resHeader h 2 false true be (BitVec.ofNat 16 nmb) with
    fragment := true, lastFragment := last, serialHigh := BitVec.ofNat 8 (nmb / 256), serialLow := BitVec.ofNat 8 nmb }

/-- An acknowledge of a fragment (src/device/pf_cmrpc.c:4781-4936).  The number in it is not looked at. -/
def fragAck (c : Cfg) (i : Nat) (h : RpcHeader) (be : Bool) (s : Sess) : Option (Sess × List Ev) :=
  let sent := if s.outFrag > 0 then (s.sentPos + s.sendLen + (65536 - 80)) % 65536
    else (s.sentPos + s.sendLen) % 65536
  let nmb := (s.outFrag + 1) % 65536
  if s.outLen > sent then
    (putHdr (fragHeader h be nmb false) ⟨s.outBuf, c.maxUdp, 0⟩).bind fun w =>
      let last : Bool := s.outLen - sent < c.maxUdp - w.1.pos
      let n := if last then s.outLen - sent else c.maxUdp - w.1.pos
      (if last then putHdr (fragHeader h be nmb true) ⟨w.1.buf, c.maxUdp, 0⟩ else some w).bind fun w1 =>
        (slice w1.1.buf sent n).bind fun d =>
          (putMem d ⟨w1.1.buf, c.maxUdp, w.1.pos⟩).bind fun w2 =>
            (putU16 be (BitVec.ofNat 16 n) ⟨w2.buf, c.maxUdp, w1.2⟩).bind fun w3 =>
              sendTimed i false { s with
                outBuf := w3.buf, sentPos := sent, sendLen := n + w.1.pos, outFrag := nmb,
                resend := c.resends }
  else some ({ s with outLen := 0, sentPos := 0, sendLen := 0, outFrag := 0 }, [])

/-! ## The datagram -/

/-- What to do with a datagram after the collection of fragments (src/device/pf_cmrpc.c:4480-5076).
`r` is the reader of the message; its byte order is that of the datagram. -/
def dispatch (c : Cfg) (i : Nat) (isNew : Bool) (h : RpcHeader) (r : Rd) (err : Bool) (rep : Reply)
    (s : Sess) : Option (Sess × List Ev) :=
  if h.lengthOfBody.toNat > c.maxBody then
    (shortAnswer c i { resHeader h 6 true true s.be 0 with lengthOfBody := 4 } (putU32 s.be 0x1C01000B)).map
      fun e => ({ s with kill := isNew }, e)
  else if h.fragment = false ∨ h.lastFragment = true then
    if h.packetType = 1 then
      (shortAnswer c i (resHeader h 5 true true s.be 0) some).map fun e =>
        ({ s with outLen := 0, sentPos := 0, sendLen := 0, outFrag := 0, kill := isNew }, e)
    else if h.packetType = 0 then request c i h r err rep s
    else if h.packetType = 9 then fragAck c i h r.be s
    else if h.packetType = 2 then
      if isNew then some ({ s with kill := true }, [])
      else some ({ s with kill := rep.kill }, [.response i h err ((r.buf.drop r.pos).take (r.len - r.pos))])
    else if h.packetType = 8 ∨ h.packetType = 3 ∨ h.packetType = 6 then
      some ({ s with kill := true }, [.abort i])
    else some (s, [])
  else if h.noFack = false then
    (shortAnswer c i { resHeader h 9 false false s.be h.fragmentNmb with lengthOfBody := 0 } some).map fun e =>
      (s, e)
  else some (s, [])

/-- pf_session_locate_by_uuid (src/device/pf_cmrpc.c:627-652). -/
def locate (u : Uuid) (l : List Sess) : Option Nat := l.findIdx? fun s => s.inUse && s.uuid == u

/-- pf_session_allocate (src/device/pf_cmrpc.c:502-550), the search. -/
def freeIx (l : List Sess) : Option Nat := l.findIdx? fun s => !s.inUse

/-- The session of a datagram and whether it is new (src/device/pf_cmrpc.c:4326-4350). -/
def findSess (c : Cfg) (u gen : Uuid) (l : List Sess) : Option (Nat × Bool × Sess) :=
  match locate u l with
  | some i => (l[i]?).map fun s => (i, false, s)
  | none => (freeIx l).map fun i => (i, true, { Sess.zero c with inUse := true, uuid := gen })

/-- pf_session_release (src/device/pf_cmrpc.c:560-597) at the end (src/device/pf_cmrpc.c:5082-5087). -/
def finish (c : Cfg) (s : Sess) : Sess := if s.kill then Sess.zero c else s

/-- pf_cmrpc_dce_packet (src/device/pf_cmrpc.c:4288-5092) on the first `len` bytes of the input frame array. -/
def dcePacket (c : Cfg) (len : Nat) (rep : Reply) (st : St) : Option (St × List Ev) :=
  (getRpcHeader ⟨st.frame, false, len, false, .ok, 0⟩).bind fun x =>
    match findSess c x.1.actUuid rep.gen st.sess with
    | none => some (st, [])
    | some (i, isNew, s) =>
      (collect c x.1 x.2 s).bind fun y =>
        (dispatch c i isNew x.1 y.2.1 y.2.2 rep { y.1 with timer := false }).map fun z =>
          ({ st with sess := st.sess.set i (finish c z.1) }, z.2)

/-- Events that drive the layer. -/
inductive Op where
  /-- A datagram arrives (poll_rpc_socket (src/device/pf_cmrpc.c:5094-5137)); one that is empty or longer than the
  frame array is not delivered. -/
  | recv (data : List Byte) (rep : Reply)
  /-- The resend timer of session `i` expires. -/
  | expire (i : Nat)
deriving DecidableEq

/-- The effect of an event. -/
def step (c : Cfg) (st : St) : Op → Option (St × List Ev)
  | .recv data rep =>
    if data.length = 0 ∨ data.length > c.frameSize then some (st, [])
    else dcePacket c data.length rep { st with frame := data ++ st.frame.drop data.length }
  | .expire i =>
    match st.sess[i]? with
    | some s =>
      if s.inUse ∧ s.timer then
        (sendTimed i true s).map fun x => ({ st with sess := st.sess.set i x.1 }, x.2)
      else some (st, [])
    | none => some (st, [])

/-- A sequence of events, with all effects. -/
def run (c : Cfg) (st : St) : List Op → Option (St × List Ev)
  | [] => some (st, [])
  | o :: os => (step c st o).bind fun x => (run c x.1 os).map fun y => (y.1, x.2 ++ y.2)

/-- After pf_cmrpc_init: `n` free sessions. -/
def St.init (c : Cfg) (n : Nat) : St := ⟨List.replicate c.frameSize 0, List.replicate n (Sess.zero c)⟩

end Verif.Rpc
