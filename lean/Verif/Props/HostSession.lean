import Verif.Proof.HostSession
import Verif.Props.Session

/-!
# C80: an answer the server gets belongs to the host call it made

The pools and what they exchange are those of `Verif.Model.Session`; a history starts with two new
pools and consists of calls of the API of either side and of deliveries, in any order, without a
`connect` of the server.
-/

namespace Verif
open Session

/-- C80: whenever the server gets an event with a response to a host call, it had before made that
call, for that pipeline, with that method and under that id; after that the client was shown the call
with its parameters; and after that the client answered it with exactly the values of the response. -/
theorem C80_response (k : Config) (ops : List SessionOp) (ho : ∀ op ∈ ops, op.KeepsCount)
    (tr : SessionTrace) (htr : tr = (k.session.run ops).2) (before after : SessionTrace) (m : Msg)
    (e : SessionEntry) (hs : tr = before ++ e :: after) (he : ServerSees m e) (ci : Int)
    (hm : m.IsHostReply ci) :
    ∃ (c : MadeCall) (a b : Option Val) (made shown answered : SessionEntry),
      List.Sublist [made, shown, answered] before ∧
      c.MadeBy tr.pipelines made ∧ c.ShownBy shown ∧ AnsweredBy c.ci a b answered ∧
      c.method.isVoid = false ∧ c.ci = ci ∧ c.Answer a b m := by
  have g := hostGood_run k ops ho
  rw [← htr] at g
  obtain ⟨c, a, b, h1, h2, e1, e2, e3, h3, h4, h5, h6, h7⟩ :=
    (g.inv _ (List.prefix_refl _)).events before after e m ci hs he hm
  exact ⟨c, a, b, e1, e2, e3, h3, h4, h5, h6, h7, h1, h2⟩

/-- C80: no two responses the server gets have the same id. -/
theorem C80_once (k : Config) (ops : List SessionOp) (ho : ∀ op ∈ ops, op.KeepsCount)
    (t1 t2 t3 : SessionTrace) (e e' : SessionEntry) (m m' : Msg) (ci ci' : Int)
    (hs : (k.session.run ops).2 = t1 ++ e :: (t2 ++ e' :: t3))
    (he : ServerSees m e) (he' : ServerSees m' e') (hm : m.IsHostReply ci) (hm' : m'.IsHostReply ci') :
    ci ≠ ci' := by
  have g := (hostGood_run k ops ho).inv _ (List.prefix_refl _)
  have hn : ((k.session.run ops).2.filterMap seenId).Nodup := by
    refine g.seen.nodup ?_
    have := (List.nodup_append.mp g.waiting).2.1
    exact ((List.take_sublist _ _).filterMap _).nodup this
  have h1 : seenId e = some ci := by rw [he]; exact (replyId_iff _ _).mpr hm
  have h2 : seenId e' = some ci' := by rw [he']; exact (replyId_iff _ _).mpr hm'
  rw [hs, List.filterMap_append, List.filterMap_cons, h1, List.filterMap_append, List.filterMap_cons, h2] at hn
  have hn := (List.nodup_append.mp hn).2.1
  rw [List.nodup_cons] at hn
  intro h
  exact hn.1 (by rw [h]; simp)

/-- C80: no two host calls that want an answer have the same id, so that the call of a response is
the only one with its id. -/
theorem C80_ids (k : Config) (ops : List SessionOp) (ho : ∀ op ∈ ops, op.KeepsCount)
    (tr : SessionTrace) (htr : tr = (k.session.run ops).2)
    (t1 t2 t3 : SessionTrace) (e e' : SessionEntry) (c c' : MadeCall)
    (hs : tr = t1 ++ e :: (t2 ++ e' :: t3))
    (he : c.MadeBy tr.pipelines e) (he' : c'.MadeBy tr.pipelines e')
    (hv : c.ci ≠ -100) : c.ci ≠ c'.ci := by
  have g := (hostGood_run k ops ho).inv _ (List.prefix_refl _)
  rw [← htr] at g
  have hn := g.ids
  rw [← g.madeIds] at hn
  have h1 := MadeBy.id he
  have h2 := MadeBy.id he'
  rw [hs, List.filterMap_append, List.filterMap_cons, h1, List.filterMap_append, List.filterMap_cons, h2] at hn
  rw [List.filter_append] at hn
  have hn := (List.nodup_append.mp hn).2.1
  have hd : decide (c.ci ≠ -100) = true := decide_eq_true hv
  rw [List.filter_cons, if_pos hd, List.nodup_cons] at hn
  intro h
  refine hn.1 (List.mem_filter.mpr ⟨?_, hd⟩)
  rw [h]; simp

/-- C80: every host call of the server reaches the client, with its pipeline, id, method and
parameters, by the time nothing is in flight, if the client can read the parameters. -/
theorem C80_call_arrives (k : Config) (ops : List SessionOp) (ho : ∀ op ∈ ops, op.KeepsCount)
    (tr : SessionTrace) (htr : tr = (k.session.run ops).2) (before after : SessionTrace)
    (e : SessionEntry) (c : MadeCall) (hs : tr = before ++ e :: after)
    (he : c.MadeBy tr.pipelines e) (hr : Readable (some c.params)) (hd : (k.session.run ops).1.Drained) :
    ∃ e' ∈ after, c.ShownBy e' := by
  have g := (hostGood_run k ops ho).inv _ (List.prefix_refl _)
  rw [← htr] at g
  rcases g.callsGo before after e c hs he hr with h | ⟨m, hm, _⟩
  · exact h
  · exfalso
    rw [Session.toClient, hd.2, List.drop_length] at hm
    cases hm

/-- C80: every answer the client gave is to a call the server made and the client was shown before, and
it reaches the server, for the pipeline and with the id, the method and the values, by the time nothing
is in flight, if the server can read the values. -/
theorem C80_answer_arrives (k : Config) (ops : List SessionOp) (ho : ∀ op ∈ ops, op.KeepsCount)
    (tr : SessionTrace) (htr : tr = (k.session.run ops).2) (before after : SessionTrace)
    (e : SessionEntry) (ci : Int) (a b : Option Val) (hs : tr = before ++ e :: after)
    (he : AnsweredBy ci a b e) (ha : Readable a) (hb : Readable b) (hd : (k.session.run ops).1.Drained) :
    ∃ (c : MadeCall) (made shown : SessionEntry), c.ci = ci ∧ List.Sublist [made, shown] before ∧
      c.MadeBy tr.pipelines made ∧ c.ShownBy shown ∧
      ∃ e' ∈ after, ∃ m, c.Answer a b m ∧ ServerSees m e' := by
  have g := (hostGood_run k ops ho).inv _ (List.prefix_refl _)
  rw [← htr] at g
  obtain ⟨c, h1, ⟨e1, e2, h2, h3, h4, _⟩, h5⟩ := g.answersGo before after e ci a b hs he
  refine ⟨c, e1, e2, h1, h2, h3, h4, ?_⟩
  rcases h5 ha hb with h | ⟨m, hm, _⟩
  · exact h
  · exfalso
    rw [Session.toServer, hd.1, List.drop_length] at hm
    cases hm

/-- A history in which two host calls of the server, one of the pool and one of a pipeline, are answered
in the other order, with a call without an answer between them. -/
def exampleHostSession : List SessionOp :=
  [.client .open_, .toServer, .toClient, .toClient, .toServer, .toClient, .toClient,
   .client (.newPipe ⟨List.replicate 16 1, rfl⟩ .powerShell { tag := 9 }), .client (.pipeStart 0), .toServer,
   .server (.newPipe ⟨List.replicate 16 1, rfl⟩), .server (.pipeStart 0), .toClient,
   .server (.hostCall .ReadLine { tag := 1 } none), .server (.pipeHostCall 0 .WriteLine1 { tag := 2 }),
   .server (.pipeHostCall 0 .GetName { tag := 3 }), .toClient, .toClient, .toClient,
   .client (.pipeHostResponse 0 2 (some { tag := 5 }) none), .client (.hostResponse 1 none (some { tag := 6 })),
   .toServer, .toServer]

theorem exampleHostSession_ok : ∀ op ∈ exampleHostSession, op.KeepsCount := by
  simp [exampleHostSession, SessionOp.KeepsCount, SessionOp.IsApi]

theorem exampleHostSession_drained : (exampleConfig.session.run exampleHostSession).1.Drained := by
  unfold Drained; decide +kernel

-- the last two steps show the server the two responses, and they are what C80 says
example : ((exampleConfig.session.run exampleHostSession).2.drop 21).map (fun e => match e with
      | (.toServer, .ok (.event m)) => some (m.pid, m.content)
      | _ => none) =
    [some (some ⟨List.replicate 16 1, rfl⟩,
      some (.msg (.pipelineHostResponse 2 .GetName (some { tag := 5 }) none))),
     some (none, some (.msg (.runspacePoolHostResponse 1 .ReadLine none (some { tag := 6 }))))] := by
  decide +kernel

-- the calls before them, with the ids they were given
example : ((exampleConfig.session.run exampleHostSession).2.drop 13).take 3 =
    [(.server (.hostCall .ReadLine { tag := 1 } none), .ok (.ci 1)),
     (.server (.pipeHostCall 0 .WriteLine1 { tag := 2 }), .ok (.ci (-100))),
     (.server (.pipeHostCall 0 .GetName { tag := 3 }), .ok (.ci 2))] ∧
    SessionTrace.pipelines (exampleConfig.session.run exampleHostSession).2 = [⟨List.replicate 16 1, rfl⟩] := by
  decide +kernel

/-- A history in which the server takes a new connection and makes a second call under the id of a call
that still waits at the client. -/
def exampleHostReconnect : List SessionOp :=
  [.client .open_, .toServer, .toClient, .toClient, .toServer, .toClient, .toClient,
   .server (.hostCall .ReadLine { tag := 1 } none), .toClient,
   .server (.base .disconnect), .client (.base .disconnect), .server .connect, .client .connect,
   .toServer, .toServer, .toClient, .toClient, .toClient,
   .server (.hostCall .GetName { tag := 2 } none),
   .client (.hostResponse 1 (some { tag := 5 }) none), .toServer,
   .toClient, .client (.hostResponse 1 (some { tag := 6 }) none), .toServer]

/-- The responses in that history. -/
def exampleStale (oid : Nat) (mi : HostMethod) (tag : Nat) : Msg :=
  { type := .RunspacePoolHostResponse
    content := some (.msg (.runspacePoolHostResponse 1 mi (some { tag := tag }) none))
    rpid := exampleConfig.rpid, pid := none, oid := oid }

/-- C80 does not survive a `connect` of the server, with which it counts its calls anew: the server then
gets two responses with the same id, the first of them, to the call it made before, after it made
another call with that id and another method. -/
theorem C80_reconnect_violated :
    ∃ (k : Config) (ops : List SessionOp) (t1 t2 t3 : SessionTrace) (m m' : Msg),
      k.Ok ∧ (∀ op ∈ ops, op.IsApi) ∧ (∀ e ∈ (k.session.run ops).2, ∃ r, e.2 = .ok r) ∧
      (k.session.run ops).2 = t1 ++ (.toServer, .ok (.event m)) :: (t2 ++ (.toServer, .ok (.event m')) :: t3) ∧
      List.Sublist [(.server (.hostCall .ReadLine { tag := 1 } none), .ok (.ci 1)),
        (.server .connect, .ok .none),
        (.server (.hostCall .GetName { tag := 2 } none), .ok (.ci 1))] t1 ∧
      MadeCall.Answer ⟨none, 1, .ReadLine, { tag := 1 }⟩ (some { tag := 5 }) none m ∧
      MadeCall.Answer ⟨none, 1, .GetName, { tag := 2 }⟩ (some { tag := 6 }) none m' := by
  refine ⟨exampleConfig, exampleHostReconnect, (exampleConfig.session.run exampleHostReconnect).2.take 20,
    ((exampleConfig.session.run exampleHostReconnect).2.drop 21).take 2, [], exampleStale 5 .ReadLine 5,
    exampleStale 6 .GetName 6, by constructor <;> decide, by simp [exampleHostReconnect, SessionOp.IsApi], ?_, ?_, ?_,
    ⟨rfl, Or.inr ⟨rfl, rfl, rfl⟩⟩, ⟨rfl, Or.inr ⟨rfl, rfl, rfl⟩⟩⟩
  · have : (exampleConfig.session.run exampleHostReconnect).2.all (fun e => match e.2 with | .ok _ => true | .error _ => false)
        = true := by decide +kernel
    intro e he
    have := List.all_eq_true.mp this e he
    cases h : e.2 with
    | ok r => exact ⟨r, rfl⟩
    | error x => rw [h] at this; cases this
  · decide +kernel
  · decide +kernel

end Verif
