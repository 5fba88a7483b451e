import Verif.Startup.Model
/-!
What connection start-up should look like from outside, as functions of the log only (newest entry
first).
-/
namespace Verif.Startup

/-- How far connection `i` has come.  `bad` is for a history that breaks the sequence. -/
inductive Phase where
  | idle | started | prmended | called | ready | confirmed | data | bad
deriving DecidableEq

/-- The PROFINET sequence: STARTUP, PRMEND, the application calls application-ready, APPLRDY, the
controller confirms (status 0, "done"), DATA; ABORT ends the connection in any phase. -/
def phaseNext (i : Nat) (p : Phase) : Entry → Phase
  | .event j e _ =>
    if j = i then
      match e, p with
      | .startup, .idle => .started
      | .prmend, .started => .prmended
      | .applrdy, .called => .ready
      | .data, .confirmed => .data
      | .abort, .idle => .bad
      | .abort, .bad => .bad
      | .abort, _ => .idle
      | _, _ => .bad
    else p
  | .readyCall j => if j = i ∧ p = .prmended then .called else p
  | .readyRsp j status done => if j = i ∧ p = .ready ∧ status = 0 ∧ done = true then .confirmed else p
  | _ => p

def phase (i : Nat) : List Entry → Phase
  | [] => .idle
  | e :: l => phaseNext i (phase i l) e

/-- The weaker sequence: STARTUP once, then (PRMEND and APPLRDY not looked at) a call of
application-ready, an answer of the controller, DATA once; ABORT ends the connection. -/
inductive Weak where
  | idle | up | called | answered | data | bad
deriving DecidableEq

def weakNext (i : Nat) (p : Weak) : Entry → Weak
  | .event j e _ =>
    if j = i then
      match e, p with
      | .startup, .idle => .up
      | .startup, _ => .bad
      | .data, .answered => .data
      | .data, _ => .bad
      | .abort, .bad => .bad
      | .abort, _ => .idle
      | _, _ => p
    else p
  | .readyCall j => if j = i ∧ p = .up then .called else p
  | .readyRsp j _ done => if j = i ∧ p = .called ∧ done = true then .answered else p
  | _ => p

def weak (i : Nat) : List Entry → Weak
  | [] => .idle
  | e :: l => weakNext i (weak i l) e

/-- Supervision factor of the last accepted connect of connection `i`. -/
def factorOf (i : Nat) : List Entry → Nat
  | [] => 0
  | .connected j f :: l => if j = i then f else factorOf i l
  | _ :: l => factorOf i l

/-- Whether connection `i` is in start-up (STARTUP reported, neither DATA nor ABORT since); if so, the
time of STARTUP or of the last record read or written since, and the supervision factor. -/
def supNext (i : Nat) (f : Nat) (v : Option (Nat × Nat)) : Entry → Option (Nat × Nat)
  | .event j e t =>
    if j = i then
      match e with
      | .startup => some (t, f)
      | .data => none
      | .abort => none
      | _ => v
    else v
  | .activity j t => if j = i then v.map (fun x => (t, x.2)) else v
  | _ => v

def supervised (i : Nat) : List Entry → Option (Nat × Nat)
  | [] => none
  | e :: l => supNext i (factorOf i l) (supervised i l) e

/-- Sequence number and result of the last well-formed DControl request on session `s` since it was
opened. -/
def dcNext (s : Nat) (v : Option (Nat × Nat)) : Entry → Option (Nat × Nat)
  | .opened t => if t = s then none else v
  | .dcAnswer t q r true => if t = s then some (q, r) else v
  | _ => v

def lastDc (s : Nat) : List Entry → Option (Nat × Nat)
  | [] => none
  | e :: l => dcNext s (lastDc s l) e

/-- A controller and an application that keep to the rules:
* a request on a session is for the connection that was made on this session, a read without connection
  comes on a session of its own,
* an answer arrives on the session of the question, and one that says "done" does not carry an error,
* the device has a session left for the application ready request, and timers for the supervision of the output CRs,
* an application that refuses a connect sets an error code. -/
def Orderly (c : Cfg) (st : St) : Op → Prop
  | .connect s u _ _ _ _ v =>
    ((st.sess s).ar = none ∨ (st.sess s).ar = findUuid c st u) ∧ v ≠ .refused 0 ∧ v ≠ .accept .noTimer
  | .release s u => (st.sess s).ar = none ∨ (st.sess s).ar = findUuid c st u
  | .dcontrol q => (st.sess q.s).ar = findUuid c st q.u
  | .read s u implicit _ _ _ => implicit = true ∨ u = 0 → (st.sess s).ar = none
  | .write s u _ _ _ _ => (st.sess s).ar = none ∨ (st.sess s).ar = findUuid c st u
  | .response s status done _ =>
    (st.sess s).inUse = true → (st.sess s).fromMe = true ∧ (done = true → status = 0)
  | .appReady _ _ out => ∃ s, out = some s ∧ (st.sess s).inUse = false
  | _ => True

/-- A run in which every operation is orderly in the state it meets. -/
def Run (c : Cfg) (P : St → Op → Prop) : St → List Op → Prop
  | _, [] => True
  | st, o :: os => P st o ∧ ∀ st', step c st o = some st' → Run c P st' os

end Verif.Startup
