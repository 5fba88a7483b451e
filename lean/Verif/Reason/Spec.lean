import Verif.Reason.Model
/-!
# What should be told at the end of a connection

The pairs of class and code that `include/pnet_api.h` (lines 200-355) documents, for each cause.
-/
namespace Verif.Reason

/-- The pair that names the cause for the application; `none`: there is no such pair.
0x0d: ABORT_REQ, 0x0e: RE_RUN_ABORTS_EXISTING, 0x0f: RELEASE_IND_RECEIVED, 0x06: CMI_TIMEOUT, 0x05: CONSUMER_DHT_EXPIRED,
0x24: PDEV_CHECK_FAILED, 0x18: RPC_CONTROL_ERROR, 0x1f: DCP_STATION_NAME_CHANGED, 0x20: DCP_RESET_TO_FACTORY,
0x08: ALARM_SEND_CNF_NEG, 0x12: PROTOCOL_VIOLATION, 0x0b: ALARM_IND_ERROR, all of class PROTOCOL; 0x01 of the classes CPM and PPM: INVALID. -/
def Cause.forApp : Cause → Option Codes
  | .released => some ⟨0xFD, 0x0f⟩
  | .releasedError code => some ⟨0xFD, code⟩
  | .startupTimeout => some ⟨0xFD, 0x06⟩
  | .outputsLost => some ⟨0xFD, 0x05⟩
  | .noPort => some ⟨0xFD, 0x24⟩
  | .failure .alarmUnacked => some ⟨0xFD, 0x08⟩
  | .failure .alarmTooEarly => some ⟨0xFD, 0x12⟩
  | .failure .alarmUnknown => some ⟨0xFD, 0x0b⟩
  | .failure (.errorFrame cls code _) => some ⟨cls, code⟩
  | .failure .noCpmTimer => some ⟨0x48, 0x01⟩
  | .failure .noPpmTimer => some ⟨0x49, 0x01⟩
  | .noAnswer => some ⟨0xFD, 0x18⟩
  | .nameChanged => some ⟨0xFD, 0x1f⟩
  | .dcpReset => some ⟨0xFD, 0x20⟩
  | .appAbort | .appReset => some ⟨0xFD, 0x0d⟩
  | .newConnect => some ⟨0xFD, 0x0e⟩
  | .cancelled | .controlRefused | .readyRefused => none

/-- The pair that names the cause for the controller: always of class PROTOCOL.  0x04: ADD_CPM_PPM_FAILED.  An error frame of the
controller needs no reason. -/
def Cause.forController : Cause → Option Codes
  | .failure .noCpmTimer | .failure .noPpmTimer => some ⟨0xFD, 0x04⟩
  | .failure (.errorFrame _ _ _) => none
  | c => c.forApp

/-- The full statement of C156: at each end of a connection, class and code that the application gets name the cause (or are zero, if
nothing names it), and so do those in the frame to the controller.  It is false, see `C156_fails`. -/
def C156_statement : Prop :=
  ∀ (c : Startup.Cfg) (ops : List (Op × Bool)) (x : St), exec c init ops = some x → ∀ t ∈ x.told,
    t.app = t.cause.forApp.getD ⟨0, 0⟩ ∧ ∀ w ∈ t.frame, ∀ k ∈ t.cause.forController, w = k

/-- Causes for which the application is told right. -/
def Cause.toldRight : Cause → Bool
  | .released | .releasedError _ | .startupTimeout | .outputsLost | .noPort | .noAnswer | .nameChanged | .dcpReset => true
  | .failure .alarmUnacked => false
  | .failure (.errorFrame _ _ busy) => !busy
  | .failure _ => true
  | .appAbort | .appReset | .newConnect | .cancelled | .controlRefused | .readyRefused => false

/-- Causes for which the stack sets no codes. -/
def Cause.silent : Cause → Bool
  | .appAbort | .appReset | .newConnect | .cancelled | .controlRefused | .readyRefused => true
  | _ => false

/-- The codes that can be left over from something that did not end the connection: those of a mishap, of outputs lost before
the connection is up, and of a request without answer. -/
def leftOver : List Codes :=
  [⟨0, 0⟩, ⟨0x48, 0x00⟩, ⟨0x49, 0x00⟩, ⟨0x41, 0x03⟩, ⟨0xFD, 0x01⟩, ⟨0xFD, 0x05⟩, ⟨0xFD, 0x18⟩]

/-- Does the operation set codes without ending the connection? -/
def Op.leaves : Op → Bool
  | .mishap _ _ => true
  | .base (.cpmState _ _ false) => true
  | .noAnswer _ => true
  | _ => false

end Verif.Reason
