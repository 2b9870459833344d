import Verif.Model.Ops

/-!
# Specification of C91: calls that raise

That a call that raises has no effect is said in the theorems by equality of the pool before and
after. Here are the calls for which it is not so.
-/

namespace Verif
open Pool

/-- The client calls that raise and leave something behind: `open` of a new pool whose limits,
host or arguments cannot be sent, `set_max_runspaces` and `set_min_runspaces` with a value that is
no Int32 on a pool that was opened, and a received answer that is a number for a request that
takes yes or no (/repo/src/psrpcore/_client.py:116-139, 259-311, 382-388, 428-436). -/
def ClientOp.Spoils (p : Pool) : ClientOp → Prop
  | .open_ => p.state = .BeforeOpen ∧
      ((fitsInt32 p.minR && fitsInt32 p.maxR) = false ∨
        (p.host.getD defaultHost).serializeFails p.cipher ≠ none ∨
        p.appArgs.serializeFails p.cipher ≠ none)
  | .setMaxRunspaces v => p.state ≠ .BeforeOpen ∧ p.maxR ≠ v ∧ fitsInt32 v = false
  | .setMinRunspaces v => p.state ≠ .BeforeOpen ∧ p.minR ≠ v ∧ fitsInt32 v = false
  | .recv m => m.type = .RunspaceAvailability ∧ ∃ n ci h, bareIntFits n = true ∧
      m.content = some (.msg (.runspaceAvailability (.int n) ci)) ∧
      p.ciHandlers.get? ci = some (some h)
  | _ => False

/-- The server calls that raise and may leave something behind: `set_broken` with an error that
cannot be sent, host calls with parameters that cannot be sent (a call id is used up), opening
messages that are answered with private data that cannot be sent, and a capability for another
pool than the one that is being connected to
(/repo/src/psrpcore/_server.py:167-220, 296-333, 366-378, 417-429). -/
def ServerOp.Spoils (p : Pool) : ServerOp → Prop
  | .setBroken e => p.state = .Opened ∧ e.serializeFails p.cipher ≠ none
  | .hostCall m ps _ => p.state = .Opened ∧ m.isVoid = false ∧ ps.serializeFails p.cipher ≠ none
  | .pipeHostCall _ m ps => p.state = .Opened ∧ m.isVoid = false ∧ ps.serializeFails p.cipher ≠ none
  | .recv m =>
    (m.type = .InitRunspacePool ∨ m.type = .ConnectRunspacePool) ∧
        p.appPrivate.serializeFails p.cipher ≠ none ∨
      m.type = .SessionCapability ∧ p.state = .Connecting ∧ m.rpid ≠ p.rpid
  | _ => False

/-- The result of a call is not an exception. -/
def Fine (r : Except Err Ret) : Bool :=
  match r with
  | .ok _ => true
  | .error _ => false

/-- No call of a history is one that raises and leaves something behind. -/
def NoneSpoils : Pool → List ClientOp → Prop
  | _, [] => True
  | p, op :: ops => ¬ op.Spoils p ∧ NoneSpoils (op.step p).1 ops

/-- No call of a history of a server is one that raises and may leave something behind. -/
def NoneSpoilsServer : Pool → List ServerOp → Prop
  | _, [] => True
  | p, op :: ops => ¬ op.Spoils p ∧ NoneSpoilsServer (op.step p).1 ops

end Verif
