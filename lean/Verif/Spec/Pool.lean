import Verif.Model.Ops
import Verif.Spec.Version

/-!
# What the pool properties talk about (specification for C11 - C22, C45, C48)
-/

namespace Verif

/-! ## Guards (C12) -/

/-- What the documentation of an operation says about the pool state. -/
structure Guard where
  /-- the operation does nothing in these states -/
  ignored : List PoolState := []
  /-- the operation is allowed in these states -/
  allowed : List PoolState
  /-- the state it moves to, if it does -/
  target : Option PoolState := none

/-- Every pool state. -/
def everyState : List PoolState :=
  [.BeforeOpen, .Opening, .Opened, .Closed, .Closing, .Broken, .Disconnecting, .Disconnected,
   .Connecting]

/-- The guards common to both sides. -/
def baseGuard : BaseOp → Option Guard
  | .beginClose => some { allowed := everyState, target := some .Closing }
  | .close => some { allowed := [.Closed, .Closing, .Opened], target := some .Closed }
  | .beginDisconnect => some { allowed := everyState, target := some .Disconnecting }
  | .disconnect =>
    some { allowed := [.Opened, .Disconnecting, .Disconnected], target := some .Disconnected }
  | .reconnect => some { allowed := [.Disconnected, .Opened], target := some .Opened }
  | _ => none

/-- The guards of the client operations. -/
def clientGuard : ClientOp → Option Guard
  | .base op => baseGuard op
  | .open_ => some { ignored := [.Opened], allowed := [.BeforeOpen], target := some .Opening }
  | .connect =>
    some { ignored := [.Opened], allowed := [.BeforeOpen, .Disconnected], target := some .Connecting }
  | .getAvailableRunspaces => some { allowed := [.Opened] }
  | .exchangeKey => some { allowed := [.Opened] }
  | .resetRunspaceState => some { allowed := [.Opened] }
  | .hostResponse .. => some { allowed := [.Opened] }
  | .setMaxRunspaces _ => some { allowed := everyState }
  | .setMinRunspaces _ => some { allowed := everyState }
  | _ => none

/-- The guards of the server operations. -/
def serverGuard : ServerOp → Option Guard
  | .base op => baseGuard op
  | .connect => some { ignored := [.Opened], allowed := [.Disconnected], target := some .Connecting }
  | .requestKey => some { allowed := [.Opened] }
  | .sendEvent _ => some { allowed := [.Opened] }
  | .setBroken _ => some { allowed := [.Broken, .Opened], target := some .Broken }
  | .hostCall .. => some { allowed := [.Opened] }
  | .availabilityResponse .. => some { allowed := everyState }
  | _ => none

/-- The peer is known to speak protocol version `v` or later. -/
def Pool.PeerAtLeast (p : Pool) (v : PSVersion) : Prop :=
  ∃ c, p.theirs = some c ∧ ¬ c.protocolVersion.Before v

/-- The conditions of the operations besides the pool state: they are decided before it. -/
def BaseOp.Ready (p : Pool) : BaseOp → Prop
  | .close => p.table = []
  | _ => True

/-- As `BaseOp.Ready`: version gate and finished key exchange. -/
def ClientOp.Ready (p : Pool) : ClientOp → Prop
  | .base op => op.Ready p
  | .exchangeKey => p.keyRequested = false
  | .resetRunspaceState => p.PeerAtLeast Pwsh5
  | _ => True

/-- As `BaseOp.Ready`: finished key exchange. -/
def ServerOp.Ready (p : Pool) : ServerOp → Prop
  | .base op => op.Ready p
  | .requestKey => p.keyRequested = false
  | _ => True

/-- What C12 says of one operation with guard `g` in state `p`: ignored without effect in the
ignored states, refused with `InvalidRunspacePoolState` and without any effect in the states
that are not allowed, and in the allowed ones not refused for that reason and moving to the
documented state. -/
def Obeys (g : Guard) (p : Pool) (r : Res Ret) : Prop :=
  (p.state ∈ g.ignored → r = (p, .ok .none)) ∧
  (p.state ∉ g.ignored → p.state ∉ g.allowed → r = (p, .error .invalidPoolState)) ∧
  (p.state ∉ g.ignored → p.state ∈ g.allowed →
    r.1.state = g.target.getD p.state ∧ r.2 ≠ .error .invalidPoolState)

/-! ## Histories -/

/-- `p` is a newly constructed client pool. -/
def FreshClient (p : Pool) : Prop :=
  ∃ rpid args apartment threads host min max key,
    p = Pool.newClient rpid args apartment threads host min max key

/-- `p` is a newly constructed server pool. -/
def FreshServer (p : Pool) : Prop := ∃ data key, p = Pool.newServer data key

/-! ## Results of a history -/

/-- What happened: the operations of a client with their results. -/
abbrev ClientTrace := List (ClientOp × Except Err Ret)

/-- What happened: the operations of a server with their results. -/
abbrev ServerTrace := List (ServerOp × Except Err Ret)

/-- The call ids handed out in a history, in order. -/
def callIds {α : Type} (tr : List (α × Except Err Ret)) : List Int :=
  tr.filterMap fun e => match e.2 with
    | .ok (.ci n) => some n
    | _ => none

/-! ## Live pipelines (C13) -/

/-- Number of pipelines created in a client history; they are numbered from 0. -/
def ClientTrace.created (tr : ClientTrace) : Nat :=
  tr.countP fun e => match e.1 with
    | .newPipe .. => true
    | _ => false

/-- Pipeline `h` was created and has not been closed successfully. -/
def ClientTrace.Live (tr : ClientTrace) (h : Nat) : Prop :=
  h < tr.created ∧ ∀ r, (ClientOp.base (.pipeClose h), Except.ok r) ∉ tr

/-- As for the client. -/
def ServerTrace.created (tr : ServerTrace) : Nat :=
  tr.countP fun e => match e.1 with
    | .newPipe .. => true
    | _ => false

/-- As for the client. -/
def ServerTrace.Live (tr : ServerTrace) (h : Nat) : Prop :=
  h < tr.created ∧ ∀ r, (ServerOp.base (.pipeClose h), Except.ok r) ∉ tr

/-- The ids given to the pipelines created by client operations. -/
def clientPids (ops : List ClientOp) : List UUID :=
  ops.filterMap fun op => match op with
    | .newPipe pid _ _ => some pid
    | _ => none

/-- The ids given to the pipelines created by server operations. -/
def serverPids (ops : List ServerOp) : List UUID :=
  ops.filterMap fun op => match op with
    | .newPipe pid => some pid
    | _ => none

/-! ## Pipeline data (C14) -/

/-- The pipeline on which a client operation sends data. -/
def ClientOp.dataOf : ClientOp → Option Nat
  | .pipeSend h _ => some h
  | .pipeSendEof h => some h
  | .pipeHostResponse h _ _ _ => some h
  | _ => none

/-- The pipeline on which a server operation sends data. -/
def ServerOp.dataOf : ServerOp → Option Nat
  | .pipeHostCall h _ _ => some h
  | .pipeWriteOutput h _ => some h
  | .pipeWriteRecord h _ _ => some h
  | _ => none

/-- The operation succeeded with result `x`, and queued exactly one message: of type `t`
with content `c` for pipeline `pid` on stream `s`. -/
def Sends (p : Pool) (r : Res Ret) (x : Ret) (t : MsgType) (c : Option Obj) (pid : Option UUID)
    (s : StreamType) : Prop :=
  r.2 = .ok x ∧ ∃ m : Msg, r.1.sendBuffer = p.sendBuffer ++ [m] ∧
    m.type = t ∧ m.content = c ∧ m.pid = pid ∧ m.stream = s

/-! ## Host calls (C16, C48) -/

/-- `m` is a host call with the given call id and method. -/
def Msg.IsHostCall (m : Msg) (ci : Int) (mi : HostMethod) : Prop :=
  (m.type = .PipelineHostCall ∧ ∃ mp, m.content = some (.msg (.pipelineHostCall ci mi mp))) ∨
  (m.type = .RunspacePoolHostCall ∧ ∃ mp, m.content = some (.msg (.runspacePoolHostCall ci mi mp)))

/-- The host call `m` under id `ci` waits for an answer after the history `tr`: it was
received, and since then no call with that id was received or answered. -/
inductive Waiting : ClientTrace → Int → Msg → Prop
  | received (tr : ClientTrace) (m : Msg) (ci : Int) (mi : HostMethod) :
      m.IsHostCall ci mi → ci ≠ -100 → Waiting (tr ++ [(.recv m, .ok (.event m))]) ci m
  | kept (tr : ClientTrace) (ci : Int) (m : Msg) (op : ClientOp) (r : Except Err Ret) :
      Waiting tr ci m →
      (∀ m' mi, op = .recv m' → m'.IsHostCall ci mi → ∃ e, r = .error e) →
      (∀ a b, op = .hostResponse ci a b → ∃ e, r = .error e) →
      (∀ h a b, op = .pipeHostResponse h ci a b → ∃ e, r = .error e) →
      Waiting (tr ++ [(op, r)]) ci m

/-- The method of `ClientHostResponder` (/repo/src/psrpcore/_host.py:87-625) that answers a
host method, i.e. the host methods that return a value. `GetRunspace` has no such method in
psrpcore, but returns a runspace. -/
def HostMethod.answeredBy : HostMethod → Option String
  | .GetName => some "get_name"
  | .GetVersion => some "get_version"
  | .GetInstanceId => some "get_instance_id"
  | .GetCurrentCulture => some "get_current_culture"
  | .GetCurrentUICulture => some "get_current_ui_culture"
  | .GetIsRunspacePushed => some "get_is_runspace_pushed"
  | .GetRunspace => some "(none in psrpcore)"
  | .ReadLine => some "read_line"
  | .ReadLineAsSecureString => some "read_line_as_secure_string"
  | .Prompt => some "prompt"
  | .PromptForCredential1 => some "prompt_for_credential"
  | .PromptForCredential2 => some "prompt_for_credential"
  | .PromptForChoice => some "prompt_for_choice"
  | .PromptForChoiceMultipleSelection => some "prompt_for_multiple_choice"
  | .GetForegroundColor => some "get_foreground_color"
  | .GetBackgroundColor => some "get_background_color"
  | .GetCursorPosition => some "get_cursor_position"
  | .GetWindowPosition => some "get_window_position"
  | .GetCursorSize => some "get_cursor_size"
  | .GetBufferSize => some "get_buffer_size"
  | .GetWindowSize => some "get_window_size"
  | .GetWindowTitle => some "get_window_title"
  | .GetMaxWindowSize => some "get_max_window_size"
  | .GetMaxPhysicalWindowSize => some "get_max_physical_window_size"
  | .GetKeyAvailable => some "get_key_available"
  | .ReadKey => some "read_key"
  | .GetBufferContents => some "get_buffer_contents"
  | _ => none

/-! ## Peers (C19) -/

/-- The capabilities received in a client history, in order. -/
def ClientTrace.capabilities (tr : ClientTrace) : List Capability :=
  tr.filterMap fun e => match e.1 with
    | .recv m => match m.type, m.content with
      | .SessionCapability, some (.msg (.sessionCapability c)) => some c
      | _, _ => none
    | _ => none

/-- The capabilities received in a server history, in order. -/
def ServerTrace.capabilities (tr : ServerTrace) : List Capability :=
  tr.filterMap fun e => match e.1 with
    | .recv m => match m.type, m.content with
      | .SessionCapability, some (.msg (.sessionCapability c)) => some c
      | _, _ => none
    | _ => none

/-! ## Keys (C20) -/

/-- The messages of a type. -/
def ofType (t : MsgType) (ms : List Msg) : List Msg := ms.filter fun m => decide (m.type = t)

/-! ## State messages (C22) -/

/-- The pool states announced by a list of messages, in order. -/
def poolStates (ms : List Msg) : List PoolState :=
  ms.filterMap fun m => match m.type, m.content with
    | .RunspacePoolState, some (.msg (.runspacePoolState s _)) => some s
    | _, _ => none

/-- The states of the pipeline with id `pid` announced by a list of messages, in order. -/
def pipeStates (pid : UUID) (ms : List Msg) : List PipeState :=
  ms.filterMap fun m => match m.type, m.content with
    | .PipelineState, some (.msg (.pipelineState s _)) => if m.pid = some pid then some s else none
    | _, _ => none

/-- The states a server does not announce: those of the connection, and `Opening`, entered
silently on the first data received. -/
def PoolState.silent : PoolState → Bool
  | .Disconnected | .Disconnecting | .Connecting | .Opening => true
  | _ => false

/-- The states a server announces. -/
def PoolState.announced (s : PoolState) : Bool := !s.silent && s != .BeforeOpen

/-- The states of a server after each operation of a history. -/
def serverStates (p : Pool) : List ServerOp → List PoolState
  | [] => []
  | op :: ops => (op.step p).1.state :: serverStates (op.step p).1 ops

/-- A list with immediate repetitions removed. -/
def squash {α : Type} [DecidableEq α] : List α → List α
  | [] => []
  | [a] => [a]
  | a :: b :: l => if a = b then squash (b :: l) else a :: squash (b :: l)

/-- The operation is not a raw `prepare_message` of one of the given types. -/
def BaseOp.NotRaw (ts : List MsgType) : BaseOp → Prop
  | .prepare m t _ _ =>
    (∀ t', t = some t' → t' ∉ ts) ∧ (∀ b, m = some (.msg b) → t = none → b.type ∉ ts)
  | _ => True

/-- As `BaseOp.NotRaw`. -/
def ClientOp.NotRaw (ts : List MsgType) : ClientOp → Prop
  | .base op => op.NotRaw ts
  | _ => True

/-- As `BaseOp.NotRaw`. -/
def ServerOp.NotRaw (ts : List MsgType) : ServerOp → Prop
  | .base op => op.NotRaw ts
  | _ => True

/-! ## Availability requests (C17, C18) -/

/-- The call id and the limit change of a runspace availability request. -/
def Pool.requestOf (m : Msg) : Option (Int × Option Handler) :=
  match m.type, m.content with
  | .GetAvailableRunspaces, some (.msg (.getAvailableRunspaces ci)) => some (ci, none)
  | .ResetRunspaceState, some (.msg (.resetRunspaceState ci)) => some (ci, none)
  | .SetMaxRunspaces, some (.msg (.setMaxRunspaces v ci)) => some (ci, some (.setMax v))
  | .SetMinRunspaces, some (.msg (.setMinRunspaces v ci)) => some (ci, some (.setMin v))
  | _, _ => none

/-- The answer and call id of a runspace availability message. -/
def responseOf (m : Msg) : Option (Resp × Int) :=
  match m.type, m.content with
  | .RunspaceAvailability, some (.msg (.runspaceAvailability r ci)) => some (r, ci)
  | _, _ => none

/-- The limits in a message answering a connect. -/
def initOf (m : Msg) : Option (Int × Int) :=
  match m.type, m.content with
  | .RunspacePoolInitData, some (.msg (.runspacePoolInitData mn mx)) => some (mn, mx)
  | _, _ => none

/-- What carrying out a handler does to (min, max). -/
def handled (h : Option Handler) (l : Int × Int) : Int × Int :=
  match h with
  | some (.setMax v) => (l.1, v)
  | some (.setMin v) => (v, l.2)
  | none => l

end Verif
