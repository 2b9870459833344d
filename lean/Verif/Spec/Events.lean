import Verif.Model.Events
import Verif.Spec.Wire

/-! # What events show -/

namespace Verif

/-! ## The messages the property is about -/

/-- The objects of the caller in a message. -/
def Letter.objects : Letter → List PVal
  | initRunspacePool _ _ threadOptions apartment host args => [threadOptions, apartment, host, args]
  | runspacePoolState _ reason => [reason]
  | createPipeline _ apartment options _ host command _ => [apartment, options, host, command]
  | userEvent _ _ _ sender args data _ _ => [sender, args, data]
  | applicationPrivateData data => [data]
  | getCommandMetadata name commandType names args => [name, commandType, names, args]
  | runspacePoolHostCall _ mi mp => [mi, mp]
  | runspacePoolHostResponse _ mi mr me => [mi, mr, me]
  | pipelineInput v => [v]
  | pipelineOutput v => [v]
  | record _ v => [v]
  | pipelineState _ reason => [reason]
  | progressRecord _ _ _ _ _ _ type _ => [type]
  | informationRecord data _ _ tags _ _ _ _ _ => [data, tags]
  | pipelineHostCall _ mi mp => [mi, mp]
  | pipelineHostResponse _ mi mr me => [mi, mr, me]
  | _ => []

/-- The numbers in a message with the integer types of the protocol. -/
def Letter.numbers : Letter → List (IntKind × Int)
  | initRunspacePool min max _ _ _ _ => [(.psInt, min), (.psInt, max)]
  | setMaxRunspaces count ci => [(.psInt, count), (.psInt64, ci)]
  | setMinRunspaces count ci => [(.psInt, count), (.psInt64, ci)]
  | runspaceAvailability _ ci => [(.psInt64, ci)]
  | getAvailableRunspaces ci => [(.psInt64, ci)]
  | userEvent id _ _ _ _ _ _ _ => id.toList.map (IntKind.psInt, ·)
  | runspacePoolHostCall ci _ _ => [(.psInt64, ci)]
  | runspacePoolHostResponse ci _ _ _ => [(.psInt64, ci)]
  | progressRecord _ activityId _ _ parentId percent _ seconds =>
      (activityId.toList ++ parentId.toList ++ percent.toList ++ seconds.toList).map (IntKind.psInt, ·)
  | informationRecord _ _ _ _ _ _ process native managed =>
      (process.toList ++ native.toList ++ managed.toList).map (IntKind.psUInt, ·)
  | pipelineHostCall ci _ _ => [(.psInt64, ci)]
  | pipelineHostResponse ci _ _ _ => [(.psInt64, ci)]
  | connectRunspacePool min max => (min.toList ++ max.toList).map (IntKind.psInt, ·)
  | runspacePoolInitData min max => [(.psInt, min), (.psInt, max)]
  | resetRunspaceState ci => [(.psInt64, ci)]
  | _ => []

/-- All of them are values of their types. -/
def Letter.InRange (l : Letter) : Prop := ∀ q ∈ l.numbers, q.1.InRange q.2

/-- The texts that come back and that XML can hold. -/
def TextsOk (l : List (Option PyStr)) : Prop := ∀ t, some t ∈ l → TextOk t ∧ Escapable t

/-- A date that comes back. -/
def TimeOk (E : TextEnv) (t : Option DateFields) : Prop := ∀ d, t = some d → (Prim.date d).Ok E ∧ (Prim.date d).XmlOk E

/-- A value is a list. -/
def IsList (H : Heap) (v : PVal) : Prop := ∃ a k items, v = .ref a ∧ (H a).data = .list k items

/-- The other fields: versions, texts and dates that come back, numbers in range. The parameters of host calls are a list, the limits of
`ConnectRunspacePool` are not zero, input and records are not `None`. -/
def Letter.FieldsOk (E : TextEnv) (H : Heap) : Letter → Prop
  | sessionCapability ps protocol serialization _ => ∀ v ∈ [ps, protocol, serialization], (Prim.version v).Ok E
  | runspaceAvailability (.int n) _ => -(2 ^ 31) ≤ n ∧ n < 2 ^ 63
  | userEvent _ source time _ _ _ computer runspace => TextsOk [source, computer] ∧ TimeOk E time ∧ ∀ g, runspace = some g → g < 2 ^ 128
  | runspacePoolHostCall _ _ mp => IsList H mp
  | pipelineHostCall _ _ mp => IsList H mp
  | pipelineInput v => v ≠ .nil
  | record _ v => v ≠ .nil
  | progressRecord activity _ status operation _ _ _ _ => TextsOk [activity, status, operation]
  | informationRecord _ source time _ user computer _ _ _ => TextsOk [source, user, computer] ∧ TimeOk E time
  | connectRunspacePool min max => min ≠ some 0 ∧ max ≠ some 0
  | _ => True

/-- A message with the objects it refers to, the place of the new object and the pipeline it is for. -/
structure Post where
  letter : Letter
  heap : Heap
  addr : Nat
  key : Nat
  pid : Option UUID
  stream : StreamType := .default

/-- The conditions on a message. The object that is made for it is new: it is not among the caller's and has a key of its own. -/
structure Post.Ok (E : TextEnv) (L : Lib) (p : Post) : Prop where
  graph : GraphOk E L p.heap p.letter.objects
  xml : GraphXmlOk E p.heap p.letter.objects
  numbers : p.letter.InRange
  fields : p.letter.FieldsOk E p.heap
  addr : ∀ b, Reach p.heap p.letter.objects b → b ≠ p.addr
  key : ∀ b, Reach p.heap p.letter.objects b → (p.heap b).key ≠ some p.key
  types : ∀ b, Reach p.heap p.letter.objects b → (p.heap b).types.head? = some (txt! "System.Object") →
    (p.heap b).types = [txt! "System.Object"]
  pid : ∀ q, p.pid = some q → q.bytes ≠ List.replicate 16 0

/-- No class is registered for `System.Object`. -/
def Lib.NoObject (L : Lib) : Prop := L.reg.types.get? (txt! "System.Object") = none

/-! ## What an event shows -/

/-- An `Int32`. -/
def ShowsInt (v : Int) (d : DVal) : Prop := d = .prim (.int .psInt v)

/-- An `Int64`. -/
def ShowsLong (v : Int) (d : DVal) : Prop := d = .prim (.int .psInt64 v)

/-- A version. -/
def ShowsVersion (v : PSVersion) (d : DVal) : Prop := d = .prim (.version v)

/-- A number of an integer class or `None`. -/
def ShowsInt? (k : IntKind) (v : Option Int) (d : DVal) : Prop :=
  d = match v with
    | none => .nil
    | some v => .prim (.int k v)

/-- A text or `None`. -/
def ShowsText (v : Option PyStr) (d : DVal) : Prop :=
  d = match v with
    | none => .nil
    | some t => .prim (.str .string t)

/-- A date or `None`. -/
def ShowsDate (v : Option DateFields) (d : DVal) : Prop :=
  d = match v with
    | none => .nil
    | some t => .prim (.date t)

/-- A GUID or `None`. -/
def ShowsGuid (v : Option Nat) (d : DVal) : Prop :=
  d = match v with
    | none => .nil
    | some n => .prim (.guid n)

/-- The parameters: the list that was sent, or a new empty list for an empty list. -/
def ShowsParams (φ : Nat → Option Nat) (H : Heap) (mp : PVal) : Option DVal → Prop
  | some d => VMatch φ mp d
  | none => ∃ a k, mp = .ref a ∧ (H a).data = .list k []

/-- The event shows what is in the message, field by field. -/
def Shows (φ : Nat → Option Nat) (H : Heap) : Letter → EventView → Prop
  | .sessionCapability a b c _, .sessionCapability a' b' c' => ShowsVersion a a' ∧ ShowsVersion b b' ∧ ShowsVersion c c'
  | .initRunspacePool lo hi t a h g, .initRunspacePool lo' hi' t' a' h' g' =>
      ShowsInt lo lo' ∧ ShowsInt hi hi' ∧ VMatch φ t t' ∧ VMatch φ a a' ∧ VMatch φ h h' ∧ VMatch φ g g'
  | .publicKey k, .publicKey k' => k' = k
  | .encryptedSessionKey k, .encryptedSessionKey k' => k' = k
  | .publicKeyRequest, .publicKeyRequest => True
  | .setMaxRunspaces n ci, .setMaxRunspaces n' ci' => ShowsInt n n' ∧ ShowsLong ci ci'
  | .setMinRunspaces n ci, .setMinRunspaces n' ci' => ShowsInt n n' ∧ ShowsLong ci ci'
  | .runspaceAvailability (.bool b) ci, .setAvailability b' ci' => b' = .bool b ∧ ShowsLong ci ci'
  | .runspaceAvailability (.int n) ci, .getAvailability n' ci' => n' = n ∧ ShowsLong ci ci'
  | .runspacePoolState st r, .runspacePoolState st' r' => st' = st ∧ VMatch φ r r'
  | .createPipeline i a o y h c n, .createPipeline i' a' o' y' h' c' n' =>
      i' = .bool i ∧ VMatch φ a a' ∧ VMatch φ o o' ∧ y' = .bool y ∧ VMatch φ h h' ∧ VMatch φ c c' ∧ n' = .bool n
  | .getAvailableRunspaces ci, .getAvailableRunspaces ci' => ShowsLong ci ci'
  | .userEvent i s t e a m c r, .userEvent i' s' t' e' a' m' c' r' =>
      ShowsInt? .psInt i i' ∧ ShowsText s s' ∧ ShowsDate t t' ∧ VMatch φ e e' ∧ VMatch φ a a' ∧ VMatch φ m m' ∧ ShowsText c c' ∧
        ShowsGuid r r'
  | .applicationPrivateData d, .applicationPrivateData d' => VMatch φ d d'
  | .getCommandMetadata n c s a, .getCommandMetadata n' c' s' a' => VMatch φ n n' ∧ VMatch φ c c' ∧ VMatch φ s s' ∧ VMatch φ a a'
  | .runspacePoolHostCall ci mi mp, .runspacePoolHostCall ci' mi' mp' => ShowsLong ci ci' ∧ VMatch φ mi mi' ∧ ShowsParams φ H mp mp'
  | .runspacePoolHostResponse ci mi mr me, .runspacePoolHostResponse ci' mi' mr' me' =>
      ShowsLong ci ci' ∧ VMatch φ mi mi' ∧ VMatch φ mr mr' ∧ VMatch φ me me'
  | .pipelineInput v, .pipelineInput v' => VMatch φ v v'
  | .endOfPipelineInput, .endOfPipelineInput => True
  | .pipelineOutput v, .pipelineOutput v' => VMatch φ v v'
  | .pipelineState st r, .pipelineState st' r' => st' = st ∧ VMatch φ r r'
  | .progressRecord a i s o p c t r, .progressRecord a' i' s' o' p' c' t' r' =>
      ShowsText a a' ∧ ShowsInt? .psInt i i' ∧ ShowsText s s' ∧ ShowsText o o' ∧ ShowsInt? .psInt p p' ∧ ShowsInt? .psInt c c' ∧
        VMatch φ t t' ∧ ShowsInt? .psInt r r'
  | .informationRecord d s t g u c p n m, .informationRecord d' s' t' g' u' c' p' n' m' =>
      VMatch φ d d' ∧ ShowsText s s' ∧ ShowsDate t t' ∧ VMatch φ g g' ∧ ShowsText u u' ∧ ShowsText c c' ∧ ShowsInt? .psUInt p p' ∧
        ShowsInt? .psUInt n n' ∧ ShowsInt? .psUInt m m'
  | .pipelineHostCall ci mi mp, .pipelineHostCall ci' mi' mp' => ShowsLong ci ci' ∧ VMatch φ mi mi' ∧ ShowsParams φ H mp mp'
  | .pipelineHostResponse ci mi mr me, .pipelineHostResponse ci' mi' mr' me' =>
      ShowsLong ci ci' ∧ VMatch φ mi mi' ∧ VMatch φ mr mr' ∧ VMatch φ me me'
  | .connectRunspacePool lo hi, .connectRunspacePool lo' hi' => ShowsInt? .psInt lo lo' ∧ ShowsInt? .psInt hi hi'
  | .runspacePoolInitData lo hi, .runspacePoolInitData lo' hi' => ShowsInt lo lo' ∧ ShowsInt hi hi'
  | .resetRunspaceState ci, .resetRunspaceState ci' => ShowsLong ci ci'
  | .record k v, .record t v' => t = k.type ∧ VMatch φ v v'
  | _, _ => False

/-- The event of a message: its type and pipeline, all its properties can be read and show what was sent. The objects they show stand
for the caller's objects, `φ` tells which. -/
def EventOf (L : Lib) (p : Post) (i : Mail (Except Err Incoming)) : Prop :=
  i.type = p.letter.type ∧ i.pid = p.pid ∧ ∃ x e φ, i.object = .ok x ∧ readEvent L i.type x = .ok e ∧ Shows φ p.heap p.letter e ∧
    ∀ d ds, x = .object d ds → ∀ b a, φ b = some a → a ≠ p.addr → ∃ o, ds.heap[b]? = some o ∧ OMatch L φ (p.heap a) (ds.shown L o)

/-! ## Histories -/

/-- The steps of the users: making a message and `prepare_message`, and those of the link. -/
inductive LetterOp
  | post (p : Post)
  | flush (amount : Option Int)
  | deliver
  | poll

/-- The messages of a history. -/
def posts : List LetterOp → List Post
  | [] => []
  | .post p :: ops => p :: posts ops
  | _ :: ops => posts ops

/-- What a step is on the link. A message whose class does not take its arguments is not sent. -/
def LetterOp.wire : LetterOp → List WireOp
  | .post p =>
    match p.letter.shape with
    | .error _ => []
    | .ok sh => [.send p.letter.type (sh.outgoing p.heap p.addr p.key) p.pid p.stream]
  | .flush amount => [.flush amount]
  | .deliver => [.deliver]
  | .poll => [.poll]

end Verif
