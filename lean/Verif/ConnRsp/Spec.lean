import Verif.ConnRsp.Model
import Verif.Records.Spec
import Verif.Connect.Spec

/-! Specification of the answer to a connect request. -/

namespace Verif.ConnRsp
open Verif.Wire hiding ExpApi ExpMod ExpSub bit
open Verif.Records (num16 num32 encBlock pad4h)
open Verif.Device (ApiDiff)
open Verif.Connect (crAt)

/-! ## On the wire -/

/-- Type and contents of each block of an answer that describes the connection: the connection itself, its CRs, its alarm CR,
the module difference if there is one (encoded as in `Device.putDiff`, behind the six bytes of the header), the RPC server if
the request has one; in advanced mode the station name, filled up to a multiple of four bytes, and the vendor blocks. -/
def front (q : Req) (r : Res) : List (U16 × List Byte) :=
  [(0x8101, enc16 true q.arType ++ encUuid true q.uuid ++ enc16 true q.key ++ r.mac ++ enc16 true r.udpPort)] ++
  r.crs.map (fun c => (0x8102, enc16 true c.type ++ enc16 true c.ref ++ enc16 true c.frameId)) ++
  [(0x8103, enc16 true r.alarm.type ++ enc16 true r.alarm.ref ++ enc16 true r.alarm.maxLen)] ++
  (if r.diff = [] then [] else [(0x8104, ((Device.putDiff r.diff).drop 6).map (BitVec.ofNat 8))]) ++
  (if q.rpc then [(0x8107, enc16 true r.rpcPort)] else [])

def back (q : Req) (r : Res) : List (U16 × List Byte) :=
  if q.advanced then
    (0x8106, pad4h (num16 r.name.length ++ r.name)) ::
      q.vendors.map (fun v => (0x8108, pad4h (enc32 true v.1 ++ enc32 true v.2 ++ num16 r.vendorData.length ++ r.vendorData)))
  else []

def blocks (q : Req) (r : Res) : List (U16 × List Byte) := front q r ++ back q r

/-- Blocks one after the other. -/
def encBlocks (l : List (U16 × List Byte)) : List Byte := l.flatMap fun b => encBlock b.1 0 b.2

/-- The answer: status, length of the blocks (twice; in between the values of the request), blocks. -/
def encRsp (ndr : Ndr) (s : Status) (l : List (U16 × List Byte)) : List Byte :=
  let n := num32 (encBlocks l).length
  Read.encStatus s ++ (n ++ enc32 true ndr.maxCount ++ enc32 true ndr.offset ++ n) ++ encBlocks l

/-! ## What the values are -/

/-- The request is accepted: by the checks, by the application, and (except for device access) by the protocol machines. -/
def Accepted (e : Env) (q : Req) : Prop :=
  e.check = none ∧ e.app.1 = true ∧ e.app.2.code = 0 ∧ (q.deviceAccess = true ∨ e.started = true)

/-- The new connection is in the table of connections, and the table has fewer than 65536 CRs. -/
def InTable (e : Env) (q : Req) : Prop :=
  e.i < e.maxAr ∧ e.ars[e.i]? = some ⟨true, q.crs.map CrReq.cr⟩ ∧ (e.ars.flatMap (·.crs)).length < 65536

/-- The answer gives, for each CR of the request, its type and reference as requested, and the frame ID that the CR has in the
table of connections, which is the one requested unless the controller left the choice to the device. -/
def DescribesCrs (e : Env) (q : Req) (ars : List Connect.Ar) (crs : List CrRes) : Prop :=
  crs.length = q.crs.length ∧
  ∀ (k : Nat) (c : CrReq), q.crs[k]? = some c → ∃ f : U16,
    crAt ars e.i k = some { c.cr with frameId := f } ∧ crs[k]? = some ⟨BitVec.ofNat 16 c.cr.type, c.ref, f⟩ ∧
    (¬ (c.cr.type = 2 ∧ c.cr.frameId = 0xFFFF) → f = c.cr.frameId)

/-- The reference names an endpoint (counted from 1) that was free and now belongs to the connection. -/
def NamesEndpoint (e : Env) (eps : List (Option Nat)) (ref : U16) : Prop :=
  1 ≤ ref.toNat ∧ e.eps[ref.toNat - 1]? = some none ∧ eps = e.eps.set (ref.toNat - 1) (some e.i)

end Verif.ConnRsp
