import Verif.Model.Link

/-!
# Specifications used by the transport properties

Nothing here refers to the receiver's or sender's internal state.
-/

namespace Verif

/-- `b` is the concatenation of the packed fragments `fs`. -/
inductive Encodes : List Fragment → Bytes → Prop
  | nil : Encodes [] []
  | cons {f fs b bs} : createFragment f.objectId f.fragmentId f.data f.end_ = .ok b →
      Encodes fs bs → Encodes (f :: fs) (b ++ bs)

/-- The fragments of one object id, in order. -/
def fragmentsOf (oid : Nat) (fs : List Fragment) : List Fragment :=
  fs.filter (fun f => f.objectId == oid)

/-- All bytes sent for one object id. -/
def bytesOf (oid : Nat) (fs : List Fragment) : Bytes :=
  ((fragmentsOf oid fs).map Fragment.data).flatten

/-- A legal interleaving of the fragments of any number of messages, some possibly
unfinished: for every object id the fragment ids count up from 0, only its last fragment
may carry the end flag, and finished messages have a readable message header. -/
structure WellInterleaved (fs : List Fragment) : Prop where
  ids : ∀ oid, (fragmentsOf oid fs).map Fragment.fragmentId =
    List.range (fragmentsOf oid fs).length
  ends : ∀ oid, ∀ f ∈ (fragmentsOf oid fs).dropLast, f.end_ = false
  readable : ∀ f ∈ fs, f.end_ = true → ∃ m, unpackMessage (bytesOf f.objectId fs) = .ok m

/-- The finished messages in the order of their end fragments: object id and the result
of unpacking exactly the bytes sent for it. -/
def completions (fs : List Fragment) : List (Nat × Except Err Message) :=
  fs.filterMap fun f =>
    if f.end_ then some (f.objectId, unpackMessage (bytesOf f.objectId fs)) else none

/-- The object id has been finished. -/
def finished (oid : Nat) (fs : List Fragment) : Bool :=
  (fragmentsOf oid fs).any Fragment.end_

/-- The fragment id the next fragment of `oid` must carry: the number of its fragments
so far, or 0 when it is new or was finished. -/
def nextId (oid : Nat) (fs : List Fragment) : Nat :=
  if finished oid fs then 0 else (fragmentsOf oid fs).length

/-- A stream with in-sequence fragments (`true`) and stray ones (`false`). -/
abbrev Stream := List (Bool × Fragment)

/-- The in-sequence part of a stream. -/
def good (s : Stream) : List Fragment := (s.filter (fun x => x.1)).map Prod.snd

/-- The stray part of a stream. -/
def stray (s : Stream) : List Fragment := (s.filter (fun x => !x.1)).map Prod.snd

/-- Every stray fragment has a fragment id other than the next one expected. -/
def StraysOutOfSequence (s : Stream) : Prop :=
  ∀ pre f post, s = pre ++ (false, f) :: post → f.fragmentId ≠ nextId f.objectId (good pre)

/-- The receiver's user is given exactly the stream `s`, cut at fragment boundaries into
`receive_data` calls in any way, with `next_event` calls anywhere in between. -/
inductive Carries : List RecvOp → Stream → Prop
  | nil : Carries [] []
  | poll {ops s} : Carries ops s → Carries (.poll :: ops) s
  | receive {ops s g b} : Encodes (g.map Prod.snd) b → Carries ops s →
      Carries (.receive b :: ops) (g ++ s)

/-- The total number of message bytes waiting to be sent. -/
def bytesQueued (buffer : List PSRPMessage) : Nat := (buffer.map (fun m => m.data.length)).sum

/-- The inputs the transport properties range over: message data that fits a 4 byte
length with its 40 byte header and does not begin with a byte order mark (the library
queues XML or nothing), no all-zero pipeline id, and amounts `data_to_send` accepts. -/
def LinkOp.Legal : LinkOp → Prop
  | .queue _ data pid _ => data.length + 40 < 2 ^ 32 ∧ ¬ [0xEF, 0xBB, 0xBF] <+: data ∧
      ∀ p, pid = some p → p.bytes ≠ List.replicate 16 0
  | .flush (some a) => 22 ≤ a
  | _ => True

/-- A fresh pair of pools. -/
def Link.fresh (client : Bool) (rpid : UUID) : Link := { sender := { client, rpid } }

end Verif
