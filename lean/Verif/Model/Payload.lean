import Verif.Model.Common

/-!
# Fragments and messages

Models /repo/src/psrpcore/_payload.py: the PSRP fragment and message wire
formats and the outgoing message object.
-/

namespace Verif

/-- A `uuid.UUID`: its 16 bytes in big endian (`.bytes`) order.
(/repo/src/psrpcore/_payload.py:12, 30-31) -/
structure UUID where
  bytes : Bytes
  len : bytes.length = 16
deriving DecidableEq

/-- `EMPTY_UUID`, /repo/src/psrpcore/_payload.py:12. -/
def EMPTY_UUID : UUID := ⟨List.replicate 16 0, by decide⟩

/-- The byte permutation between `.bytes` and `.bytes_le` of the stdlib `uuid`
module; it is its own inverse (/repo/src/psrpcore/_payload.py:191-192, 256-257). -/
def uuidSwap (b : Bytes) : Bytes :=
  (b.take 4).reverse ++ ((b.drop 4).take 2).reverse ++ ((b.drop 6).take 2).reverse ++ b.drop 8

/-- `uuid.bytes_le` (/repo/src/psrpcore/_payload.py:191-192). -/
def UUID.bytesLE (u : UUID) : Bytes := uuidSwap u.bytes

/-- `uuid.UUID(bytes_le=b)`: `ValueError` unless there are 16 bytes
(/repo/src/psrpcore/_payload.py:256-257). -/
def UUID.ofBytesLE (b : Bytes) : Except Err UUID :=
  if h : (uuidSwap b).length = 16 then .ok ⟨uuidSwap b, h⟩ else .error .valueError

/-- `PSRPMessageType`, /repo/src/psrpcore/types/_psrp.py:46-83. -/
inductive MsgType
  | SessionCapability | InitRunspacePool | PublicKey | EncryptedSessionKey | PublicKeyRequest
  | SetMaxRunspaces | SetMinRunspaces | RunspaceAvailability | RunspacePoolState | CreatePipeline
  | GetAvailableRunspaces | UserEvent | ApplicationPrivateData | GetCommandMetadata
  | RunspacePoolHostCall | RunspacePoolHostResponse | PipelineInput | EndOfPipelineInput
  | PipelineOutput | ErrorRecord | PipelineState | DebugRecord | VerboseRecord | WarningRecord
  | ProgressRecord | InformationRecord | PipelineHostCall | PipelineHostResponse
  | ConnectRunspacePool | RunspacePoolInitData | ResetRunspaceState
deriving DecidableEq, Repr

/-- The numeric values, /repo/src/psrpcore/types/_psrp.py:53-83. -/
def MsgType.value : MsgType → Nat
  | SessionCapability => 0x00010002
  | InitRunspacePool => 0x00010004
  | PublicKey => 0x00010005
  | EncryptedSessionKey => 0x00010006
  | PublicKeyRequest => 0x00010007
  | SetMaxRunspaces => 0x00021002
  | SetMinRunspaces => 0x00021003
  | RunspaceAvailability => 0x00021004
  | RunspacePoolState => 0x00021005
  | CreatePipeline => 0x00021006
  | GetAvailableRunspaces => 0x00021007
  | UserEvent => 0x00021008
  | ApplicationPrivateData => 0x00021009
  | GetCommandMetadata => 0x0002100A
  | RunspacePoolHostCall => 0x00021100
  | RunspacePoolHostResponse => 0x00021101
  | PipelineInput => 0x00041002
  | EndOfPipelineInput => 0x00041003
  | PipelineOutput => 0x00041004
  | ErrorRecord => 0x00041005
  | PipelineState => 0x00041006
  | DebugRecord => 0x00041007
  | VerboseRecord => 0x00041008
  | WarningRecord => 0x00041009
  | ProgressRecord => 0x00041010
  | InformationRecord => 0x00041011
  | PipelineHostCall => 0x00041100
  | PipelineHostResponse => 0x00041101
  | ConnectRunspacePool => 0x00010008
  | RunspacePoolInitData => 0x0002100B
  | ResetRunspaceState => 0x0002100C

/-- All members in definition order, /repo/src/psrpcore/types/_psrp.py:53-83. -/
def MsgType.all : List MsgType :=
  [.SessionCapability, .InitRunspacePool, .PublicKey, .EncryptedSessionKey, .PublicKeyRequest,
   .SetMaxRunspaces, .SetMinRunspaces, .RunspaceAvailability, .RunspacePoolState, .CreatePipeline,
   .GetAvailableRunspaces, .UserEvent, .ApplicationPrivateData, .GetCommandMetadata,
   .RunspacePoolHostCall, .RunspacePoolHostResponse, .PipelineInput, .EndOfPipelineInput,
   .PipelineOutput, .ErrorRecord, .PipelineState, .DebugRecord, .VerboseRecord, .WarningRecord,
   .ProgressRecord, .InformationRecord, .PipelineHostCall, .PipelineHostResponse,
   .ConnectRunspacePool, .RunspacePoolInitData, .ResetRunspaceState]

/-- `PSRPMessageType(n)`: enum lookup by value, `ValueError` when there is none
(/repo/src/psrpcore/_payload.py:255). -/
def MsgType.ofValue (n : Nat) : Except Err MsgType :=
  match MsgType.all.find? (fun t => t.value == n) with
  | some t => .ok t
  | none => .error .valueError

/-- `StreamType`, /repo/src/psrpcore/_payload.py:85-94. -/
inductive StreamType
  | default | prompt_response
deriving DecidableEq, Repr

/-- `Fragment`, /repo/src/psrpcore/_payload.py:15-22. -/
structure Fragment where
  objectId : Nat
  fragmentId : Nat
  start : Bool
  end_ : Bool
  data : Bytes
deriving DecidableEq, Repr

/-- `Message`, /repo/src/psrpcore/_payload.py:25-32. -/
structure Message where
  destination : Nat
  messageType : MsgType
  rpid : UUID
  pid : Option UUID
  data : Bytes
deriving DecidableEq

/-- `PSRPPayload`, /repo/src/psrpcore/_payload.py:35-42. -/
structure Payload where
  data : Bytes
  streamType : StreamType
  pipelineId : Option UUID
deriving DecidableEq

/-- `PSRPMessage`, the outgoing message object, /repo/src/psrpcore/_payload.py:97-157.
The runspace pool id attribute is not modelled: no modelled function reads it. -/
structure PSRPMessage where
  messageType : MsgType
  pipelineId : Option UUID
  objectId : Nat
  streamType : StreamType
  data : Bytes
  fragCounter : Nat := 0
deriving DecidableEq

/-- `PSRPMessage.fragment(length)`, /repo/src/psrpcore/_payload.py:147-157:
returns the message with the cut data and advanced counter, and the fragment. -/
def PSRPMessage.fragment (m : PSRPMessage) (length : Nat) : PSRPMessage × Fragment :=
  let data := m.data.take length
  let rest := m.data.drop length
  ({ m with data := rest, fragCounter := m.fragCounter + 1 },
   { objectId := m.objectId, fragmentId := m.fragCounter, start := m.fragCounter == 0,
     end_ := rest.length == 0, data := data })

/-- `create_message`, /repo/src/psrpcore/_payload.py:160-195. -/
def createMessage (client : Bool) (t : MsgType) (data : Bytes) (rpid : UUID)
    (pid : Option UUID) : Except Err Bytes := do
  let destination := if client then 2 else 1
  let d ← packLE 4 destination
  let ty ← packLE 4 t.value
  pure (d ++ ty ++ rpid.bytesLE ++ (pid.getD EMPTY_UUID).bytesLE ++ data)

/-- The start/end flag byte of `create_fragment`, /repo/src/psrpcore/_payload.py:224-228. -/
def startEndByte (fragmentId : Nat) (end_ : Bool) : UInt8 :=
  (if fragmentId = 0 then 1 else 0) ||| (if end_ then 2 else 0)

/-- `create_fragment`, /repo/src/psrpcore/_payload.py:198-238. -/
def createFragment (objectId fragmentId : Nat) (data : Bytes) (end_ : Bool) : Except Err Bytes := do
  let o ← packBE 8 objectId
  let f ← packBE 8 fragmentId
  let l ← packBE 4 data.length
  pure (o ++ f ++ [startEndByte fragmentId end_] ++ l ++ data)

/-- The UTF-8 byte order mark, /repo/src/psrpcore/_payload.py:263. -/
def utf8Bom : Bytes := [0xEF, 0xBB, 0xBF]

/-- `unpack_message`, /repo/src/psrpcore/_payload.py:241-266. -/
def unpackMessage (data : Bytes) : Except Err Message := do
  let destination ← unpackLE 4 (slice data 0 4)
  let t ← unpackLE 4 (slice data 4 8)
  let messageType ← MsgType.ofValue t
  let rpid ← UUID.ofBytesLE (slice data 8 24)
  let pid ← UUID.ofBytesLE (slice data 24 40)
  let pid := if pid = EMPTY_UUID then none else some pid
  let body := data.drop 40
  let body := if utf8Bom.isPrefixOf body then body.drop 3 else body
  pure { destination, messageType, rpid, pid, data := body }

/-- `unpack_fragment`, /repo/src/psrpcore/_payload.py:269-289. -/
def unpackFragment (data : Bytes) : Except Err Fragment := do
  let objectId ← unpackBE 8 (slice data 0 8)
  let fragmentId ← unpackBE 8 (slice data 8 16)
  let flags ← unpackBE 1 (slice data 16 17)
  let start := flags &&& 1 == 1
  let end_ := flags &&& 2 == 2
  let length ← unpackBE 4 (slice data 17 21)
  pure { objectId, fragmentId, start, end_, data := slice data 21 (length + 21) }

end Verif
