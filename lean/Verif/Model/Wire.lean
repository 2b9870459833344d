import Verif.Model.Link
import Verif.Model.XmlText

/-!
# Objects as the data of messages

`RunspacePool.prepare_message` (/repo/src/psrpcore/_base.py:357-417) turns an object into the bytes of a
message and `_process_message` (427-455) turns the bytes into an object. Together with the link of
`Model/Link.lean` this is the whole way of an object from a pool to its peer.
-/

namespace Verif

/-! ## UTF-8 -/

/-- A byte. The arguments are below 256 (/repo/src/psrpcore/_base.py:393). -/
def byte (n : Nat) : UInt8 := UInt8.ofNat n

/-- One character in `ElementTree.tostring(element, encoding="utf-8")`, /repo/src/psrpcore/_base.py:393. Python encodes
with `errors="xmlcharrefreplace"`: surrogates, which UTF-8 does not have, become character references. -/
def utf8Char (c : Nat) : Bytes :=
  if c < 0x80 then [byte c]
  else if c < 0x800 then [byte (0xC0 + c / 64), byte (0x80 + c % 64)]
  else if isSurrogate c then ((txt! "&#") ++ natStr c ++ (txt! ";")).map byte
  else if c < 0x10000 then [byte (0xE0 + c / 4096), byte (0x80 + c / 64 % 64), byte (0x80 + c % 64)]
  else [byte (0xF0 + c / 262144), byte (0x80 + c / 4096 % 64), byte (0x80 + c / 64 % 64), byte (0x80 + c % 64)]

/-- `ElementTree.tostring(element, encoding="utf-8", method="xml")`, /repo/src/psrpcore/_base.py:393: there is no XML
declaration for this encoding. -/
def xmlBytes (x : Xml) : Bytes := (writeXml x).flatMap utf8Char

/-- The six bits of a byte that continues a character, /repo/src/psrpcore/_base.py:440 (`bytes.decode`). -/
def contBits (b : UInt8) : Option Nat := if 0x80 ≤ b.toNat ∧ b.toNat < 0xC0 then some (b.toNat - 0x80) else none

/-- The first character and the rest, `bytes.decode()`, /repo/src/psrpcore/_base.py:440: no character in more bytes than
needed, no surrogates, nothing above `0x10FFFF`. -/
def utf8Next : Bytes → Option (Nat × Bytes)
  | [] => none
  | a :: s =>
    if a.toNat < 0x80 then some (a.toNat, s)
    else if a.toNat < 0xC2 then none
    else if a.toNat < 0xE0 then
      match s with
      | b :: s => (contBits b).map fun b => ((a.toNat - 0xC0) * 64 + b, s)
      | _ => none
    else if a.toNat < 0xF0 then
      match s with
      | b :: c :: s =>
        match contBits b, contBits c with
        | some b, some c =>
          let v := ((a.toNat - 0xE0) * 64 + b) * 64 + c
          if v < 0x800 ∨ isSurrogate v then none else some (v, s)
        | _, _ => none
      | _ => none
    else if a.toNat < 0xF5 then
      match s with
      | b :: c :: d :: s =>
        match contBits b, contBits c, contBits d with
        | some b, some c, some d =>
          let v := (((a.toNat - 0xF0) * 64 + b) * 64 + c) * 64 + d
          if v < 0x10000 ∨ 0x10FFFF < v then none else some (v, s)
        | _, _, _ => none
      | _ => none
    else none

/-- All characters; `n` is at least the number of bytes (/repo/src/psrpcore/_base.py:440). -/
def utf8Chars : Nat → Bytes → Option PyStr
  | _, [] => some []
  | 0, _ :: _ => none
  | n + 1, b :: bs =>
    match utf8Next (b :: bs) with
    | none => none
    | some (c, r) => (utf8Chars n r).map (c :: ·)

/-- `data.decode()`, /repo/src/psrpcore/_base.py:440. -/
def utf8Decode (b : Bytes) : Option PyStr := utf8Chars b.length b

/-! ## Messages -/

/-- What `prepare_message` is given: an object of the message class `EndOfPipelineInput`
(/repo/src/psrpcore/types/_psrp.py:571-578) or any other value with the objects it refers to. -/
inductive Outgoing
  | endOfInput
  | object (H : Heap) (v : PVal)

/-- What `_process_message` has for the event: `EndOfPipelineInput()` or a value, the state holds its objects
(/repo/src/psrpcore/_base.py:443-455). -/
inductive Incoming
  | endOfInput
  | object (v : DVal) (s : DState)
deriving DecidableEq

/-- The type and the data of a message, /repo/src/psrpcore/_base.py:377-399. `t` is the type that is given, or that of the class
of the message; `n` is Python's recursion limit. -/
def messageData (E : TextEnv) (n : Nat) (t : MsgType) : Outgoing → Except Err (MsgType × Bytes)
  | .object _ .nil => .ok (.PipelineOutput, [])
  | .endOfInput => .ok (.EndOfPipelineInput, [])
  | .object H v =>
    match ser E H n v {} with
    | .error e => .error e
    | .ok (x, _) => .ok (t, xmlBytes x)

/-- The object of a message, /repo/src/psrpcore/_base.py:427-455: the data is decoded for the log (440) in any case. `sh` is what
the enum classes hold. -/
def messageObject (E : TextEnv) (L : Lib) (n : Nat) (sh : Dict PyStr DObj) (m : Message) : Except Err Incoming :=
  match utf8Decode m.data with
  | none => .error .unicodeError
  | some t =>
    if m.messageType = .EndOfPipelineInput then .ok .endOfInput
    else if m.messageType = .PipelineOutput ∧ m.data = [] then .ok (.object .nil { shared := sh })
    else
      match parseRoot t with
      | .error e => .error e
      | .ok x =>
        match deser E L n x { shared := sh } with
        | .error e => .error e
        | .ok (v, s) => .ok (.object v s)

/-! ## A link for objects -/

/-- One step of the two users: `prepare_message` with an object (/repo/src/psrpcore/_base.py:357-417), `data_to_send` (227-288),
`receive_data` (290-302), `next_event` (304-355, 427-455). -/
inductive WireOp
  | send (t : MsgType) (m : Outgoing) (pid : Option UUID) (st : StreamType)
  | flush (amount : Option Int)
  | deliver
  | poll

/-- A message with an object: its type, the pipeline it is for and the object (/repo/src/psrpcore/_base.py:357-363, 457). -/
structure Mail (α : Type) where
  type : MsgType
  pid : Option UUID
  object : α

/-- The link and what the users see: what was sent, what arrived (an event or the exception `next_event` raises in reading
an object), what `prepare_message` raised. `shared` is what the enum classes of the receiver hold
(/repo/src/psrpcore/_base.py:139-148, /repo/src/psrpcore/types/_enum.py:53-60). -/
structure WireLink where
  link : Link
  shared : Dict PyStr DObj := []
  sent : List (Mail Outgoing) := []
  arrived : List (Mail (Except Err Incoming)) := []
  refused : List Err := []

/-- What the enum classes hold after a message (/repo/src/psrpcore/types/_enum.py:53-60). What an object that could not be read has
changed is left out. -/
def sharedAfter (sh : Dict PyStr DObj) : Except Err Incoming → Dict PyStr DObj
  | .ok (.object _ s) => s.shared
  | _ => sh

/-- Effect of one step (/repo/src/psrpcore/_base.py:227-355, 357-417, 427-455). The event that the message is given to and its
effect on the pool are in `Model/Pool.lean`. -/
def WireLink.step (E : TextEnv) (L : Lib) (n m : Nat) (w : WireLink) : WireOp → WireLink
  | .send t o pid st =>
    match messageData E n t o with
    | .error e => { w with refused := w.refused ++ [e] }
    | .ok (t', data) => { w with link := w.link.step (.queue t' data pid st), sent := w.sent ++ [⟨t, pid, o⟩] }
  | .flush amount => { w with link := w.link.step (.flush amount) }
  | .deliver => { w with link := w.link.step .deliver }
  | .poll =>
    let l := w.link.step .poll
    match l.taken.drop w.link.taken.length with
    | [] => { w with link := l }
    | msg :: _ =>
      let o := messageObject E L m w.shared msg
      { w with link := l, arrived := w.arrived ++ [⟨msg.messageType, msg.pid, o⟩], shared := sharedAfter w.shared o }

/-- A whole history (/repo/src/psrpcore/_base.py:227-355, 357-417, 427-455). -/
def WireLink.run (E : TextEnv) (L : Lib) (n m : Nat) (w : WireLink) (ops : List WireOp) : WireLink :=
  ops.foldl (WireLink.step E L n m) w

end Verif
