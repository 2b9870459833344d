import Verif.Proof.Refused
import Verif.Proof.Transport

/-!
# C91: a call that raises has no effect

A program that catches the exception of a call goes on with the pool it had before: nothing was
queued, no state, limit, key, pending request, host call or pipeline was changed. The exceptions
are `ClientOp.Spoils` and `ServerOp.Spoils` (`Verif.Spec.Refused`); each of them is a finding.
-/

namespace Verif
open Pool

/-! ## Single calls -/

/-- A client call (or received message) that raises leaves the pool exactly as it was, except for
those of `ClientOp.Spoils`, which always raise and always leave something behind. -/
theorem C91_client_exact (p : Pool) (op : ClientOp) :
    ((∃ e, (op.step p).2 = .error e) ∧ (op.step p).1 ≠ p) ↔ op.Spoils p := by
  constructor
  · rintro ⟨⟨e, he⟩, hne⟩
    exact Classical.byContradiction fun h => hne (clean_client op h e he)
  · intro h
    cases op <;> try exact h.elim
    case open_ =>
      obtain ⟨hs, h⟩ := h
      obtain ⟨q, hq, hc, ho⟩ := open_cases p hs
      have hne : q ≠ p := fun he => by rw [he, hs] at hq; cases hq
      have key : ∃ e, p.open_ = (q, .error e) := by
        rw [ho]
        by_cases hf : fitsInt32 p.minR = true ∧ fitsInt32 p.maxR = true
        · rw [if_neg (fun hn => hn hf)]
          rcases prepare_cases q (some (.msg (.initRunspacePool p.minR p.maxR q.threadOptions
            q.apartment (p.host.getD defaultHost) p.appArgs))) none none .default with
            ⟨e, h'⟩ | ⟨t', c, _, h'⟩
          · exact ⟨e, h'⟩
          · exfalso
            have hv : (Obj.msg (.initRunspacePool p.minR p.maxR q.threadOptions q.apartment
                (p.host.getD defaultHost) p.appArgs)).serializeFails q.cipher = none := by
              cases hv : (Obj.msg (.initRunspacePool p.minR p.maxR q.threadOptions q.apartment
                (p.host.getD defaultHost) p.appArgs)).serializeFails q.cipher with
              | none => rfl
              | some e =>
                simp only [prepareMessage, hv] at h'
                exact absurd (congrArg Prod.snd h') (by intro h; cases h)
            simp only [Obj.serializeFails, Obj.vals, Body.vals, List.findSome?_cons,
              List.findSome?_nil, hc] at hv
            rcases h with h | h | h
            · rw [hf.1, hf.2] at h; cases h
            · cases hh : (p.host.getD defaultHost).serializeFails p.cipher with
              | none => exact h hh
              | some e => rw [hh] at hv; cases hv
            · cases hh : (p.host.getD defaultHost).serializeFails p.cipher with
              | none =>
                rw [hh] at hv
                cases ha : p.appArgs.serializeFails p.cipher with
                | none => exact h ha
                | some e => rw [ha] at hv; cases hv
              | some e => rw [hh] at hv; cases hv
        · rw [if_pos hf]; exact ⟨_, rfl⟩
      obtain ⟨e, he⟩ := key
      have hst : ClientOp.step p .open_ = (q, .error e) := by
        simp only [ClientOp.step, he, Res.ret]; rfl
      rw [hst]
      exact ⟨⟨e, rfl⟩, hne⟩
    case setMaxRunspaces v =>
      obtain ⟨hs, hv, hf⟩ := h
      have : p.setMaxRunspaces v = ({ p.nextCi.1 with
          ciHandlers := p.ciHandlers.set p.nextCi.2 (some (.setMax v)) }, .error .valueError) := by
        unfold setMaxRunspaces
        rw [if_neg (fun h => h.elim hs hv)]
        simp only [hf, Bool.false_eq_true, not_false_eq_true, if_true]
        rfl
      simp only [ClientOp.step, this, Res.ret]
      refine ⟨⟨_, rfl⟩, fun he => ?_⟩
      have := congrArg Pool.ciCount he
      simp only [nextCi] at this
      omega
    case setMinRunspaces v =>
      obtain ⟨hs, hv, hf⟩ := h
      have : p.setMinRunspaces v = ({ p.nextCi.1 with
          ciHandlers := p.ciHandlers.set p.nextCi.2 (some (.setMin v)) }, .error .valueError) := by
        unfold setMinRunspaces
        rw [if_neg (fun h => h.elim hs hv)]
        simp only [hf, Bool.false_eq_true, not_false_eq_true, if_true]
        rfl
      simp only [ClientOp.step, this, Res.ret]
      refine ⟨⟨_, rfl⟩, fun he => ?_⟩
      have := congrArg Pool.ciCount he
      simp only [nextCi] at this
      omega
    case recv m =>
      obtain ⟨ht, n, ci, hd, hb, hc, hh⟩ := h
      have hdec : Pool.decode m = .ok (some (.msg (.runspaceAvailability (.int n) ci))) := by
        unfold decode
        rw [if_neg (by rw [ht]; decide), hc]
        simp only [Obj.deserializeFails, hb, if_true]
      have : p.recvClient m = ({ p with ciHandlers := p.ciHandlers.erase ci }, .error .attributeError) := by
        unfold recvClient
        rw [hdec]
        simp only [processClient, ht, clientAvailability, hh, Res.next]
      simp only [ClientOp.step, this, Res.ret]
      refine ⟨⟨_, rfl⟩, fun he => ?_⟩
      have h1 := congrArg Pool.ciHandlers he
      simp only at h1
      exact Dict.erase_ne hh h1

/-- A server call (or received message) that raises leaves the pool exactly as it was, except for
those of `ServerOp.Spoils`. -/
theorem C91_server_partial (p : Pool) (op : ServerOp) (e : Err) (h : (op.step p).2 = .error e)
    (hn : ¬ op.Spoils p) : (op.step p).1 = p :=
  clean_server op hn e h

/-! ## Histories -/

/-- Leaving the calls that raised out of a history of a client changes neither the pool nor the
result of any other call. -/
theorem C91_client_history_partial (p : Pool) (ops : List ClientOp) (hn : NoneSpoils p ops) :
    runClient p (((runClient p ops).2.filter fun r => Fine r.2).map Prod.fst) =
      ((runClient p ops).1, (runClient p ops).2.filter fun r => Fine r.2) := by
  induction ops generalizing p with
  | nil => rfl
  | cons op ops ih =>
    have ih := ih (op.step p).1 hn.2
    cases hr : (op.step p).2 with
    | ok a =>
      have hf : Fine (op.step p).2 = true := by rw [hr]; rfl
      simp only [runClient, List.filter_cons, hf, if_true, List.map_cons, ih]
    | error e =>
      have hf : Fine (op.step p).2 = false := by rw [hr]; rfl
      have hp := clean_client op hn.1 e hr
      rw [hp] at ih
      simp only [runClient, List.filter_cons, hf, Bool.false_eq_true, if_false, hp]
      exact ih

/-- Leaving the calls that raised out of a history of a server changes neither the pool nor the
result of any other call. -/
theorem C91_server_history_partial (p : Pool) (ops : List ServerOp) (hn : NoneSpoilsServer p ops) :
    runServer p (((runServer p ops).2.filter fun r => Fine r.2).map Prod.fst) =
      ((runServer p ops).1, (runServer p ops).2.filter fun r => Fine r.2) := by
  induction ops generalizing p with
  | nil => rfl
  | cons op ops ih =>
    have ih := ih (op.step p).1 hn.2
    cases hr : (op.step p).2 with
    | ok a =>
      have hf : Fine (op.step p).2 = true := by rw [hr]; rfl
      simp only [runServer, List.filter_cons, hf, if_true, List.map_cons, ih]
    | error e =>
      have hf : Fine (op.step p).2 = false := by rw [hr]; rfl
      have hp := clean_server op hn.1 e hr
      rw [hp] at ih
      simp only [runServer, List.filter_cons, hf, Bool.false_eq_true, if_false, hp]
      exact ih

/-! ## Findings -/

private def u1 : UUID := ⟨List.replicate 16 1, by decide⟩

/-- A client pool whose limit is `max`. -/
private def clientWith (max : Int) : Pool :=
  newClient u1 { tag := 1 } 0 0 none 1 max 7

/-- `open` of a pool with a limit that is no Int32 raises, but the capability was queued and the
pool can never be opened afterwards: correcting the limit and calling `open` or `connect` again is
refused. -/
theorem C91_open_violated : ∃ p : Pool, p.isClient = true ∧ p.state = .BeforeOpen ∧
    p.sendBuffer = [] ∧
    (ClientOp.open_.step p).2 = .error .valueError ∧
    (ClientOp.open_.step p).1.sendBuffer.length = 1 ∧
    (ClientOp.open_.step p).1.state = .Opening ∧
    (∀ limit, (ClientOp.open_.step { (ClientOp.open_.step p).1 with maxR := limit }).2 =
      .error .invalidPoolState) ∧
    (ClientOp.connect.step (ClientOp.open_.step p).1).2 = .error .invalidPoolState := by
  refine ⟨clientWith (2 ^ 31), by decide +kernel, by decide +kernel, by decide +kernel,
    by decide +kernel, by decide +kernel, by decide +kernel, ?_, by decide +kernel⟩
  intro limit
  have h : (ClientOp.open_.step (clientWith (2 ^ 31))).1.state = .Opening := by decide +kernel
  simp only [ClientOp.step, Res.ret] at h ⊢
  simp only [open_, h]
  rfl

/-- `set_max_runspaces` with a number that is no Int32 raises, but the pool keeps waiting for an
answer to a request that was never sent; should the peer send one with that id, the limit becomes
that number. -/
theorem C91_limit_violated : ∃ p : Pool, ∃ m : Msg, p.isClient = true ∧ p.state = .Opened ∧
    p.ciHandlers = [] ∧ p.maxR = 1 ∧
    ((ClientOp.setMaxRunspaces (2 ^ 31)).step p).2 = .error .valueError ∧
    ((ClientOp.setMaxRunspaces (2 ^ 31)).step p).1.sendBuffer = p.sendBuffer ∧
    ((ClientOp.recv m).step p).2 = .error .keyError ∧
    ((ClientOp.recv m).step ((ClientOp.setMaxRunspaces (2 ^ 31)).step p).1).1.maxR = 2 ^ 31 := by
  refine ⟨{ clientWith 1 with state := .Opened },
    { type := .RunspaceAvailability, content := some (.msg (.runspaceAvailability (.bool true) 1)),
      rpid := u1, pid := none, oid := 1 }, ?_⟩
  decide +kernel

/-- `set_broken` with an error record that cannot be sent raises, but the pool is broken all the
same and the client is never told. -/
theorem C91_broken_violated : ∃ (p : Pool) (error : Val), p.isClient = false ∧ p.state = .Opened ∧
    (∃ e, ((ServerOp.setBroken error).step p).2 = .error e) ∧
    ((ServerOp.setBroken error).step p).1.state = .Broken ∧
    ((ServerOp.setBroken error).step p).1.sendBuffer = p.sendBuffer := by
  refine ⟨{ newServer { tag := 1 } 5 with state := .Opened }, { tag := 2, serializeError := some 3 },
    by decide +kernel, by decide +kernel, ⟨.raised 3, by decide +kernel⟩, by decide +kernel,
    by decide +kernel⟩

/-- An `InitRunspacePool` that is answered with private data that cannot be sent makes
`next_event` raise, but the limits and arguments of the client were taken over. -/
theorem C91_init_violated : ∃ (p : Pool) (m : Msg), p.isClient = false ∧
    (∃ e, ((ServerOp.recv m).step p).2 = .error e) ∧ p.maxR = 0 ∧
    ((ServerOp.recv m).step p).1.maxR = 3 := by
  refine ⟨{ newServer { tag := 1, serializeError := some 3 } 5 with state := .Opening },
    { type := .InitRunspacePool,
      content := some (.msg (.initRunspacePool 1 3 0 0 { tag := 0 } { tag := 0 })),
      rpid := u1, pid := none, oid := 1 },
    by decide +kernel, ⟨.raised 3, by decide +kernel⟩, by decide +kernel, by decide +kernel⟩

/-! ## The theorems are about something -/

/-- A history with refused calls that leaves nothing behind: asking for runspaces before the pool
is open, opening, an unknown host call, and closing too early. -/
private def tries : List ClientOp :=
  [.getAvailableRunspaces, .open_, .hostResponse 4 none none, .base .close, .base .reconnect]

example : NoneSpoils (clientWith 4) tries ∧
    ((runClient (clientWith 4) tries).2.filter fun r => Fine r.2).map Prod.fst = [.open_] ∧
    (runClient (clientWith 4) tries).2.length = 5 := by
  refine ⟨⟨id, ?_, id, id, id, trivial⟩, by decide +kernel, by decide +kernel⟩
  rintro ⟨_, h | h | h⟩
  · revert h; decide +kernel
  · exact h (by decide +kernel)
  · exact h (by decide +kernel)

example : ∃ e, ((ClientOp.base .close).step (clientWith 4)).2 = .error e :=
  ⟨.invalidPoolState, by decide +kernel⟩

example : ClientOp.open_.Spoils (clientWith (2 ^ 31)) := ⟨rfl, Or.inl (by decide +kernel)⟩

/-- Pipeline output that cannot be sent is refused, and so is an event before the pool is open. -/
private def tries' : List ServerOp :=
  [.sendEvent { tag := 1 }, .newPipe u1, .pipeStart 0,
    .pipeWriteOutput 0 (some (.val { tag := 1, serializeError := some 3 })), .pipeComplete 0]

example : NoneSpoilsServer (newServer { tag := 1 } 5) tries' ∧
    ((runServer (newServer { tag := 1 } 5) tries').2.filter fun r => Fine r.2).map Prod.fst =
      [.newPipe u1, .pipeStart 0, .pipeComplete 0] :=
  ⟨⟨id, id, id, id, id, trivial⟩, by decide +kernel⟩

example : ∃ e, ((ServerOp.sendEvent { tag := 1 }).step (newServer { tag := 1 } 5)).2 = .error e :=
  ⟨.invalidPoolState, by decide +kernel⟩

end Verif
