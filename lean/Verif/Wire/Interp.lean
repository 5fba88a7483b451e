import Verif.Wire.Model
/-!
Model of the interpretation of a connect request: the blocks of the request are stored in the AR.
Source: src/device/pf_cmrpc.c.

Simplified: of the response only whether an error is set (return value -1) is kept, not its code.  Blocks
under options that are off by default count as unknown.  What a block that is refused has written to the AR
is not kept: the AR is discarded then.
-/
set_option linter.unusedVariables false

namespace Verif.Wire

/-- The parts of `pf_ar_t` (src/pf_types.h) that the connect request fills in. -/
structure Conn where
  ar : ArParam
  nbrAr : Nat
  iocrs : List IocrParam
  exp : List ExpApi
  alarm : AlarmCr
  nbrAlarm : Nat
  rpcPort : U16
  nbrRpc : Nat
deriving DecidableEq

def Uuid.zero : Uuid := ⟨0, 0, 0, List.replicate 8 0⟩

/-- A cleared AR. -/
def Conn.empty : Conn :=
  ⟨⟨0, Uuid.zero, 0, List.replicate 6 0, Uuid.zero, ⟨0, false, 0, false, 0, false, false, false, false⟩, 0, 0, 0, []⟩, 0,
    [], [], ⟨0, 0, false, false, 0, 0, 0, 0, 0, 0, 0, 0⟩, 0, 0, 0⟩

/-- Sizes of the tables of an AR: PNET_MAX_CR, NELEMENTS (io_data) and those of the expected modules. -/
structure ConnSizes where
  maxCr : Nat
  ioCap : Nat
  tab : Sizes

def reader : P Rd := fun r => some (r, r)

/-- pf_check_block_header (src/device/pf_cmrpc.c:1168-1208); `len` is converted to `uint16_t`. -/
def checkHeader (len : Nat) (h : BlockHeader) : Bool :=
  h.length.toNat == len % 65536 && h.verHigh == 1 && h.verLow == 0

/-- `strlen` of the bytes before the terminator. -/
def strlen (d : List Byte) : Nat := (d.takeWhile (· != 0)).length

/-- One block of a connect request (the `switch` of pf_cmrpc_rm_connect_interpret_ind (src/device/pf_cmrpc.c:1220-1760)): return value 0
and the AR. -/
def connBlock (z : ConnSizes) (h : BlockHeader) (first : Bool) (c : Conn) : P (Bool × Conn) := do
  let r0 ← reader
  if h.type = 0x0101 then
    let a ← getArParam
    if first = false then pure (false, c)
    else if checkHeader (54 + strlen a.name) h = true then pure (true, { c with ar := a, nbrAr := c.nbrAr + 1 })
    else pure (false, c)
  else if h.type = 0x0102 then
    if ¬ c.iocrs.length < z.maxCr then pure (false, c)
    else do
      match ← getIocrParam z.tab.maxApi z.ioCap with
      | none => pure (false, c)
      | some p =>
        let r1 ← reader
        if c.ar.props.deviceAccess = true then pure (false, c)
        else if checkHeader (r1.pos - r0.pos + 2) h = true then pure (true, { c with iocrs := c.iocrs ++ [p] })
        else pure (false, c)
  else if h.type = 0x0104 then
    let e ← getExpApiModule z.tab c.exp
    let r1 ← reader
    if r1.err ≠ .ok then pure (false, c)
    else if c.ar.props.deviceAccess = true then pure (false, c)
    else if checkHeader (r1.pos - r0.pos + 2) h = true then pure (true, { c with exp := e })
    else pure (false, c)
  else if h.type = 0x0103 then
    let a ← getAlarmCr
    let r1 ← reader
    if c.ar.props.deviceAccess = true then pure (false, c)
    else if checkHeader (r1.pos - r0.pos + 2) h = true then
      pure (true, { c with alarm := a, nbrAlarm := c.nbrAlarm + 1 })
    else pure (false, c)
  else if h.type = 0x0107 then
    let a ← getArRpc
    let r1 ← reader
    if c.ar.props.deviceAccess = true then pure (false, c)
    else if checkHeader (r1.pos - r0.pos + 2) h = true then
      pure (true, { c with rpcPort := a, nbrRpc := c.nbrRpc + 1 })
    else pure (false, c)
  else pure (false, c)

/-- The `while` loop of pf_cmrpc_rm_connect_interpret_ind (src/device/pf_cmrpc.c:1220-1760); the first argument bounds the rounds. -/
def connLoop (z : ConnSizes) : Nat → Bool → Conn → P (Bool × Conn)
  | 0, _, _ => outside
  | k + 1, first, c => do
    let r ← reader
    if r.err = .ok ∧ r.pos + 6 ≤ r.len then
      let h ← getBlockHeader
      let r1 ← reader
      if r1.err = .ok ∧ r1.pos + h.length.toNat + 4 - 6 ≤ r1.len then
        let x ← connBlock z h first c
        if x.1 = true then connLoop z k false x.2 else pure x
      else pure (false, c)
    else pure (true, c)

/-- pf_cmrpc_rm_connect_interpret_ind (src/device/pf_cmrpc.c:1220-1760); `args` is `args_length` of the NDR header. -/
def connectInterpret (z : ConnSizes) (args : Nat) : P (Bool × Conn) := do
  let r0 ← reader
  let x ← connLoop z (r0.len + 1) true Conn.empty
  let r ← reader
  if x.1 = true ∧ r.err = .ok ∧ r.pos = r.len ∧ r.pos - r0.pos = args then pure (true, x.2) else pure (false, x.2)

end Verif.Wire
