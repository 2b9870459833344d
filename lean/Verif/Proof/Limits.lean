import Verif.Proof.Frames

/-! # When the limits change (C17), and lemmas on open sessions -/

namespace Verif
open Pool

/-- Nothing but receiving an answer changes the limits of a client that left `BeforeOpen`. -/
theorem limits_client {q : Pool} {op : ClientOp} (hst : q.state ≠ .BeforeOpen)
    (hr : ∀ m, op = .recv m → m.type ≠ .RunspaceAvailability ∧ m.type ≠ .RunspacePoolInitData) :
    (op.step q).1.limits = q.limits := by
  have C : ClientStable Any (fun x => x.limits = q.limits ∧
      ((∃ v, op = .setMaxRunspaces v ∨ op = .setMinRunspaces v) → x.state ≠ .BeforeOpen)) op :=
    { queue := fun p t c pid s _ h => h
      changeState := fun p s e hm h => by
        refine ⟨?_, ?_⟩
        · exact changeAny (I := fun x => x.limits = q.limits) (fun _ _ _ _ _ h => h) (fun _ _ h => h) p s e h.1
        · rintro ⟨v, rfl | rfl⟩ <;> simp [ClientOp.Moves] at hm
      pipeChange := fun p n s e hm h => by
        refine ⟨?_, ?_⟩
        · exact pipeChangeAny (I := fun x => x.limits = q.limits) (fun _ _ _ _ _ h => h)
            (fun _ _ _ h => h) p n s e h.1
        · rintro ⟨v, rfl | rfl⟩ <;> simp [ClientOp.PipeMoves] at hm
      keySent := fun p h _ => h
      minR := fun p v hv h => by
        rcases hv with ⟨hop, hv⟩ | ⟨m, hop, ht⟩
        · have := hv.resolve_left (h.2 ⟨v, Or.inr hop⟩)
          subst this
          exact h
        · exact absurd ht (by simp [hr m hop])
      maxR := fun p v hv h => by
        rcases hv with ⟨hop, hv⟩ | ⟨m, hop, ht⟩
        · have := hv.resolve_left (h.2 ⟨v, Or.inl hop⟩)
          subst this
          exact h
        · exact absurd ht (by simp [hr m hop]) }
  exact (step_client C ⟨rfl, fun _ => hst⟩).1

theorem processClient_availability {q : Pool} {m : Msg} (ht : m.type = .RunspaceAvailability)
    (o : Option Obj) : (∃ r ci, o = some (.msg (.runspaceAvailability r ci)) ∧
      q.processClient m o = q.clientAvailability r ci) ∨ (q.processClient m o).1 = q := by
  unfold processClient
  rw [ht]
  rcases o with _ | (b | v)
  · exact Or.inr rfl
  · cases b <;> first | exact Or.inr rfl | exact Or.inl ⟨_, _, rfl, rfl⟩
  · exact Or.inr rfl

theorem processClient_initData {q : Pool} {m : Msg} (ht : m.type = .RunspacePoolInitData)
    (o : Option Obj) : (∃ mn mx, o = some (.msg (.runspacePoolInitData mn mx)) ∧
      (q.processClient m o).1 = { q with minR := mn, maxR := mx }) ∨ (q.processClient m o).1 = q := by
  unfold processClient
  rw [ht]
  rcases o with _ | (b | v)
  · exact Or.inr rfl
  · cases b <;> first | exact Or.inr rfl | exact Or.inl ⟨_, _, rfl, rfl⟩
  · exact Or.inr rfl

/-- When the limits of a client change. -/
theorem client_change {q : Pool} {op : ClientOp} (hst : q.state ≠ .BeforeOpen)
    (hch : (op.step q).1.limits ≠ q.limits) :
    ∃ m, op = .recv m ∧ (initOf m = some (op.step q).1.limits ∨
      ∃ ci h, responseOf m = some (.bool true, ci) ∧ q.ciHandlers.get? ci = some (some h) ∧
        (op.step q).1.limits = handled (some h) q.limits) := by
  by_cases hm : ∀ m, op = .recv m → m.type ≠ .RunspaceAvailability ∧ m.type ≠ .RunspacePoolInitData
  · exact absurd (limits_client hst hm) hch
  · have : ∃ m, op = .recv m ∧ (m.type = .RunspaceAvailability ∨ m.type = .RunspacePoolInitData) := by
      refine Classical.byContradiction fun hn => hm fun m hop => ?_
      constructor <;> intro ht <;> exact hn ⟨m, hop, by simp [ht]⟩
    obtain ⟨m, rfl, ht⟩ := this
    refine ⟨m, rfl, ?_⟩
    have hne : m.type ≠ .EndOfPipelineInput := by rcases ht with ht | ht <;> simp [ht]
    simp only [ClientOp.step, Res.ret, recvClient] at hch ⊢
    cases hdec : Pool.decode m with
    | error e => simp [hdec] at hch
    | ok o =>
      simp only [hdec] at hch ⊢
      have hnext : ((q.processClient m o).next fun p _ => (p, Except.ok m)).1 = (q.processClient m o).1 := by
        rcases q.processClient m o with ⟨a, b | b⟩ <;> rfl
      rw [hnext] at hch ⊢
      rcases ht with ht | ht
      · rcases processClient_availability ht o with ⟨r, ci, rfl, he⟩ | he
        · rw [he] at hch ⊢
          have hcon := decode_content hdec hne
          right
          unfold clientAvailability at hch ⊢
          cases hg : q.ciHandlers.get? ci with
          | none => simp [hg] at hch
          | some h =>
            simp only [hg] at hch ⊢
            rcases h with _ | h
            · exact absurd rfl hch
            · rcases r with (_ | _) | n
              · cases h <;> exact absurd rfl hch
              · refine ⟨ci, h, by simp [responseOf, ht, hcon], hg, ?_⟩
                cases h <;> rfl
              · cases h <;> exact absurd rfl hch
        · exact absurd (by rw [he]) hch
      · rcases processClient_initData ht o with ⟨mn, mx, rfl, he⟩ | he
        · have hcon := decode_content hdec hne
          left
          rw [he]
          simp [initOf, ht, hcon, limits]
        · exact absurd (by rw [he]) hch

/-- The request with this effect was made under the id, or failed after taking the id. -/
def AskedFor (tr : ClientTrace) (ci : Int) : Handler → Prop
  | .setMax v => (.setMaxRunspaces v, .ok (.ci ci)) ∈ tr ∨
      fitsInt32 v = false ∧ (.setMaxRunspaces v, .error .valueError) ∈ tr
  | .setMin v => (.setMinRunspaces v, .ok (.ci ci)) ∈ tr ∨
      fitsInt32 v = false ∧ (.setMinRunspaces v, .error .valueError) ∈ tr

theorem AskedFor.mono {tr : ClientTrace} {ci : Int} {h : Handler} (x : ClientTrace)
    (ha : AskedFor tr ci h) : AskedFor (tr ++ x) ci h := by
  cases h <;> simp only [AskedFor, List.mem_append] at ha ⊢ <;>
  · rcases ha with ha | ⟨hf, ha⟩
    · exact Or.inl (Or.inl ha)
    · exact Or.inr ⟨hf, Or.inl ha⟩

/-- Operations that are no requests add no handler. -/
theorem handlers_client {q : Pool} {op : ClientOp} (hr : op.request = none)
    (hn : q.ciHandlers.keys.Nodup) : (op.step q).1.ciHandlers.keys.Nodup ∧
      ∀ ci h, (op.step q).1.ciHandlers.get? ci = some h → q.ciHandlers.get? ci = some h := by
  have C : ClientStable Any (fun x => x.ciHandlers.keys.Nodup ∧
      ∀ ci h, x.ciHandlers.get? ci = some h → q.ciHandlers.get? ci = some h) op :=
    { queue := fun p t c pid s _ h => h
      changeState := fun p s e _ h => changeAny (I := fun x => x.ciHandlers.keys.Nodup ∧
        ∀ ci h, x.ciHandlers.get? ci = some h → q.ciHandlers.get? ci = some h)
        (fun _ _ _ _ _ h => h) (fun _ _ h => h) p s e h
      pipeChange := fun p n s e _ h => pipeChangeAny (I := fun x => x.ciHandlers.keys.Nodup ∧
        ∀ ci h, x.ciHandlers.get? ci = some h → q.ciHandlers.get? ci = some h)
        (fun _ _ _ _ _ h => h) (fun _ _ _ h => h) p n s e h
      keySent := fun p h _ => h
      request := fun p h he => by rw [hr] at he; cases he
      answered := fun p m r ci _ _ _ h => by
        refine ⟨Dict.keys_nodup_erase _ _ h.1, fun ci' h' hg => h.2 ci' h' ?_⟩
        by_cases he : ci = ci'
        · subst he; rw [Dict.get?_erase_self _ _ h.1] at hg; cases hg
        · rw [Dict.get?_erase_ne _ he] at hg; exact hg }
  exact step_client C ⟨hn, fun _ _ h => h⟩

/-- What a request does to the handlers, and its result. -/
theorem handlers_request {q : Pool} {op : ClientOp} {h : Option Handler} (hr : op.request = some h) :
    (op.step q).1.ciHandlers = q.ciHandlers ∨
    ((op.step q).1.ciHandlers = q.ciHandlers.set (q.ciCount : Int) h ∧
      ((op.step q).2 = .ok (.ci q.ciCount) ∨ (op.step q).2 = .error .valueError ∧
        ∀ v, h = some (.setMax v) ∨ h = some (.setMin v) → fitsInt32 v = false)) := by
  cases op <;> simp [ClientOp.request] at hr <;> subst hr
  · simp only [ClientOp.step, Res.ret, getAvailableRunspaces]
    split
    · exact Or.inl rfl
    · right
      simp [Res.next, nextCi, prepareMessage, Obj.serializeFails, Obj.vals, Body.vals, messageType,
          Body.type, Except.map, queue]
  · simp only [ClientOp.step, Res.ret, resetRunspaceState]
    split
    · exact Or.inl rfl
    split
    · exact Or.inl rfl
    · right
      simp [Res.next, nextCi, prepareMessage, Obj.serializeFails, Obj.vals, Body.vals, messageType,
          Body.type, Except.map, queue]
  · rename_i v
    simp only [ClientOp.step, Res.ret, setMaxRunspaces]
    split
    · exact Or.inl rfl
    · right
      dsimp only [nextCi]
      split
      · refine ⟨rfl, Or.inr ⟨rfl, ?_⟩⟩
        rintro v' (he | he) <;> cases he
        rename_i hf; simpa using hf
      · simp [Res.next, prepareMessage, Obj.serializeFails, Obj.vals, Body.vals, messageType,
          Body.type, Except.map, queue, Ret.ofOption]
  · rename_i v
    simp only [ClientOp.step, Res.ret, setMinRunspaces]
    split
    · exact Or.inl rfl
    · right
      dsimp only [nextCi]
      split
      · refine ⟨rfl, Or.inr ⟨rfl, ?_⟩⟩
        rintro v' (he | he) <;> cases he
        rename_i hf; simpa using hf
      · simp [Res.next, prepareMessage, Obj.serializeFails, Obj.vals, Body.vals, messageType,
          Body.type, Except.map, queue, Ret.ofOption]

theorem handlers_asked (p : Pool) (hp : FreshClient p) (ops : List ClientOp) :
    (runClient p ops).1.ciHandlers.keys.Nodup ∧
    ∀ ci h, (runClient p ops).1.ciHandlers.get? ci = some (some h) →
      AskedFor (runClient p ops).2 ci h := by
  induction ops using snoc_induction with
  | h0 =>
    obtain ⟨_, _, _, _, _, _, _, _, rfl⟩ := hp
    simp [runClient, newClient, Dict.keys, Dict.get?]
  | h1 ops op ih =>
    rw [runClient_snoc]
    generalize (runClient p ops).1 = q at *
    generalize (runClient p ops).2 = tr at *
    cases hr : op.request with
    | none =>
      obtain ⟨h1, h2⟩ := handlers_client hr ih.1
      exact ⟨h1, fun ci h hg => (ih.2 ci h (h2 _ _ hg)).mono _⟩
    | some h =>
      rcases handlers_request (q := q) hr with he | ⟨he, hres⟩
      · dsimp only
        rw [he]
        exact ⟨ih.1, fun ci h hg => (ih.2 ci h hg).mono _⟩
      · dsimp only
        rw [he]
        refine ⟨Dict.keys_nodup_set _ _ _ ih.1, fun ci h' hg => ?_⟩
        by_cases hci : (q.ciCount : Int) = ci
        · subst hci
          rw [Dict.get?_set_self] at hg
          cases hg
          cases op <;> simp [ClientOp.request] at hr <;> subst hr <;>
          · rcases hres with hres | ⟨hres, hf⟩
            · rw [hres]; left; simp
            · rw [hres]; right; exact ⟨hf _ (by simp), by simp⟩
        · rw [Dict.get?_set_ne _ _ hci] at hg
          exact (ih.2 ci h' hg).mono _

/-! ## The server -/

theorem limits_server {q : Pool} {op : ServerOp} (h1 : ∀ ci, op ≠ .availabilityResponse ci (.bool true))
    (h2 : ∀ m, op = .recv m → m.type ≠ .InitRunspacePool ∧ m.type ≠ .ConnectRunspacePool) :
    (op.step q).1.limits = q.limits := by
  have S : ServerStable Any (fun x => x.limits = q.limits) op :=
    { queue := fun p t c pid s _ h => h
      changeState := fun p s e _ h => changeAny (I := fun x => x.limits = q.limits)
        (fun _ _ _ _ _ h => h) (fun _ _ h => h) p s e h
      pipeChange := fun p n s e _ h => pipeChangeAny (I := fun x => x.limits = q.limits)
        (fun _ _ _ _ _ h => h) (fun _ _ _ h => h) p n s e h
      keyAsked := fun p h _ => h
      keyReceived := fun p _ _ _ _ _ h => h
      init := fun p m _ _ _ _ _ _ hop ht => absurd ht (h2 m hop).1
      limits := fun p _ _ hl => by
        rcases hl with ⟨ci, hop⟩ | ⟨m, hop, ht⟩
        · exact absurd hop (h1 ci)
        · exact absurd ht (h2 m hop).2 }
  exact step_server S rfl

theorem handlers_server (p : Pool) (hp : FreshServer p) (ops : List ServerOp) :
    (runServer p ops).1.ciHandlers.keys.Nodup ∧
    ∀ ci h, (runServer p ops).1.ciHandlers.get? ci = some h →
      ∃ m, ServerOp.recv m ∈ ops ∧ requestOf m = some (ci, h) := by
  induction ops using snoc_induction with
  | h0 =>
    obtain ⟨_, _, rfl⟩ := hp
    simp [runServer, newServer, Dict.keys, Dict.get?]
  | h1 ops op ih =>
    rw [runServer_snoc]
    generalize (runServer p ops).1 = q at *
    have S : ServerStable Any (fun x => x.ciHandlers.keys.Nodup ∧
        ∀ ci h, x.ciHandlers.get? ci = some h → ∃ m, ServerOp.recv m ∈ ops ++ [op] ∧ requestOf m = some (ci, h)) op :=
      { queue := fun p t c pid s _ h => h
        changeState := fun p s e _ h => changeAny (I := fun x => x.ciHandlers.keys.Nodup ∧
          ∀ ci h, x.ciHandlers.get? ci = some h → ∃ m, ServerOp.recv m ∈ ops ++ [op] ∧ requestOf m = some (ci, h))
          (fun _ _ _ _ _ h => h) (fun _ _ h => h) p s e h
        pipeChange := fun p n s e _ h => pipeChangeAny (I := fun x => x.ciHandlers.keys.Nodup ∧
          ∀ ci h, x.ciHandlers.get? ci = some h → ∃ m, ServerOp.recv m ∈ ops ++ [op] ∧ requestOf m = some (ci, h))
          (fun _ _ _ _ _ h => h) (fun _ _ _ h => h) p n s e h
        keyAsked := fun p h _ => h
        keyReceived := fun p _ _ _ _ _ h => h
        record := fun p ci m h hop hr hI => by
          refine ⟨Dict.keys_nodup_set _ _ _ hI.1, fun ci' h' hg => ?_⟩
          by_cases he : ci = ci'
          · subst he; rw [Dict.get?_set_self] at hg; cases hg
            exact ⟨m, by simp [hop], hr⟩
          · rw [Dict.get?_set_ne _ _ he] at hg; exact hI.2 ci' h' hg
        answered := fun p ci r _ hI => by
          refine ⟨Dict.keys_nodup_erase _ _ hI.1, fun ci' h' hg => ?_⟩
          by_cases he : ci = ci'
          · subst he; rw [Dict.get?_erase_self _ _ hI.1] at hg; cases hg
          · rw [Dict.get?_erase_ne _ he] at hg; exact hI.2 ci' h' hg }
    refine step_server S ⟨ih.1, fun ci h hg => ?_⟩
    obtain ⟨m, h1, h2⟩ := ih.2 ci h hg
    exact ⟨m, by simp [h1], h2⟩

theorem changeState_limits (q : Pool) (s : PoolState) (e : Option Val) :
    (q.changeState s e).1.limits = q.limits :=
  changeAny (I := fun x => x.limits = q.limits) (fun _ _ _ _ _ h => h) (fun _ _ h => h) q s e rfl

theorem prepare_limits (q : Pool) (m : Option Obj) (t : Option MsgType) (pid : Option UUID)
    (s : StreamType) : (q.prepareMessage m t pid s).1.limits = q.limits := by
  rcases prepare_cases q m t pid s with ⟨e, he⟩ | ⟨t', c, _, he⟩ <;> rw [he] <;> rfl

theorem next_limits {α β : Type} (l : Int × Int) (r : Res α) (f : Pool → α → Res β)
    (h1 : r.1.limits = l) (h2 : ∀ p a, p.limits = l → (f p a).1.limits = l) :
    (r.next f).1.limits = l := by
  obtain ⟨p, x⟩ := r
  cases x with
  | ok a => exact h2 p a h1
  | error e => exact h1

theorem server_init_limits {q : Pool} {m : Msg}
    (ht : m.type = .InitRunspacePool ∨ m.type = .ConnectRunspacePool)
    (hch : ((ServerOp.recv m).step q).1.limits ≠ q.limits) :
    (∃ t a h args, m.type = .InitRunspacePool ∧
        m.content = some (.msg (.initRunspacePool ((ServerOp.recv m).step q).1.minR
          ((ServerOp.recv m).step q).1.maxR t a h args))) ∨
      (∃ mn mx, m.type = .ConnectRunspacePool ∧ m.content = some (.msg (.connectRunspacePool mn mx)) ∧
        (((ServerOp.recv m).step q).1.minR = q.minR ∨ mn = some ((ServerOp.recv m).step q).1.minR) ∧
        (((ServerOp.recv m).step q).1.maxR = q.maxR ∨ mx = some ((ServerOp.recv m).step q).1.maxR)) := by
  have hne : m.type ≠ .EndOfPipelineInput := by rcases ht with ht | ht <;> simp [ht]
  have hl : ∀ p : Pool, p.limits = (p.minR, p.maxR) := fun _ => rfl
  simp only [ServerOp.step, Res.ret, recvServer] at hch ⊢
  cases hdec : Pool.decode m with
  | error e => simp [hdec] at hch
  | ok o =>
    simp only [hdec] at hch ⊢
    have hnext : ((q.processServer m o).next fun p _ => (p, Except.ok m)).1 = (q.processServer m o).1 := by
      rcases q.processServer m o with ⟨a, b | b⟩ <;> rfl
    rw [hnext] at hch ⊢
    rcases ht with ht | ht
    · have : (∃ mn mx t a h args, o = some (.msg (.initRunspacePool mn mx t a h args)) ∧
          q.processServer m o = q.serverInit mn mx t a h args) ∨ (q.processServer m o).1 = q := by
        unfold processServer
        rw [ht]
        rcases o with _ | (b | v)
        · exact Or.inr rfl
        · cases b <;> first | exact Or.inr rfl | exact Or.inl ⟨_, _, _, _, _, _, rfl, rfl⟩
        · exact Or.inr rfl
      rcases this with ⟨mn, mx, t, a, h, args, rfl, he⟩ | he
      · left
        have hlim : (q.processServer m (some (.msg (.initRunspacePool mn mx t a h args)))).1.limits =
            (mn, mx) := by
          rw [he]
          exact next_limits (mn, mx) _ _ (prepare_limits _ _ _ _ _)
            fun p _ hp => by rw [changeState_limits]; exact hp
        rw [hl] at hlim
        injection hlim with e1 e2
        rw [e1, e2]
        exact ⟨t, a, h, args, ht, decode_content hdec hne⟩
      · exact absurd (by rw [he]) hch
    · have : (∃ mn mx, o = some (.msg (.connectRunspacePool mn mx)) ∧
          q.processServer m o = q.serverConnect mn mx) ∨ (q.processServer m o).1 = q := by
        unfold processServer
        rw [ht]
        rcases o with _ | (b | v)
        · exact Or.inr rfl
        · cases b <;> first | exact Or.inr rfl | exact Or.inl ⟨_, _, rfl, rfl⟩
        · exact Or.inr rfl
      rcases this with ⟨mn, mx, rfl, he⟩ | he
      · right
        have hlim : (q.processServer m (some (.msg (.connectRunspacePool mn mx)))).1.limits =
            (orCurrent mn q.minR, orCurrent mx q.maxR) := by
          rw [he]
          unfold serverConnect
          dsimp only
          refine next_limits _ _ _ (prepare_limits _ _ _ _ _) fun p _ hp => ?_
          refine next_limits _ _ _ ?_ fun p _ hp => ?_
          · rw [prepare_limits]; exact hp
          · rw [changeState_limits]; exact hp
        rw [hl] at hlim
        injection hlim with e1 e2
        rw [e1, e2]
        have hor : ∀ x (y : Int), orCurrent x y = y ∨ x = some (orCurrent x y) := by
          intro x y
          rcases x with _ | v
          · exact Or.inl rfl
          · simp only [orCurrent]; split
            · exact Or.inl rfl
            · exact Or.inr rfl
        exact ⟨mn, mx, ht, decode_content hdec hne, hor _ _, hor _ _⟩
      · exact absurd (by rw [he]) hch

/-! ## Open sessions -/

theorem good_open {s : Session} (h : OpenSession s) : Good s [] := by
  obtain ⟨k, ds, hk, hd, hs, hdr⟩ := h
  have h0 : (k.session.step (.client .open_)).1 =
      { client := k.clients 0, server := k.servers 0, atServer := 0, atClient := 0 } := by
    simp only [Session.step, Session.Config.session, hk.opened]; rfl
  have hrun : s = ((k.session.step (.client .open_)).1.run ds).1 := hs
  rw [h0] at hrun
  obtain ⟨i, j, hi, hj, hij⟩ := (hk.during_run ⟨0, 0, by omega, by omega, rfl⟩ ds hd).1
  rw [hrun, hij] at hdr ⊢
  simp only [Session.Drained, Session.Config.clients_buffer] at hdr
  have hi2 : i = 2 := by simpa [Session.Config.client0] using hdr.1
  subst hi2
  have hj3 : j = 3 := by simpa [Session.Config.servers, Session.Config.server2] using hdr.2
  subst hj3
  refine
    { cl := rfl, sv := rfl, typed := ?_, state := ?_, posS := ?_, posC := ?_, toS := ?_, toC := ?_, core := ?_ }
  · intro q hq; cases hq
  · simp [Session.Config.clients, Session.Config.client3]
  · simp [Session.Config.clients_buffer, Session.Config.client0]
  · simp [Session.Config.servers, Session.Config.server2]
  · simp [Session.toServer, Session.Config.clients_buffer, Session.Config.client0]
  · simp [Session.toClient, Session.Config.servers, Session.Config.server2]
  · have ht : Session.toServer { client := k.clients 3, server := k.servers 2, atServer := 2, atClient := 3 } = [] := by
      simp [Session.toServer, Session.Config.clients_buffer, Session.Config.client0]
    have ht' : Session.toClient { client := k.clients 3, server := k.servers 2, atServer := 2, atClient := 3 } = [] := by
      simp [Session.toClient, Session.Config.servers, Session.Config.server2]
    rw [ht, ht']
    constructor <;> simp [Session.Config.clients, Session.Config.servers, Session.Config.client3,
      Session.Config.client2, Session.Config.client1, Session.Config.client0,
      Session.Config.client, Session.Config.server2, Session.Config.server1, Session.Config.server,
      newClient, newServer, Dict.keys, Dict.get?, responseOf]
    exact List.nodup_nil

theorem requested_issued (s : Session) (ops : List SessionOp) :
    SessionTrace.requested (s.run ops).2 = (issued (s.run ops).2).map Prod.fst := by
  induction ops generalizing s with
  | nil => rfl
  | cons op ops ih =>
    have e1 : ∀ x (l : SessionTrace), SessionTrace.requested (x :: l) =
        SessionTrace.requested [x] ++ SessionTrace.requested l := by
      intro x l; simp only [SessionTrace.requested, ← List.filterMap_append, List.singleton_append]
    have e2 : ∀ x (l : SessionTrace), issued (x :: l) = issued [x] ++ issued l := by
      intro x l; simp only [issued, ← List.filterMap_append, List.singleton_append]
    simp only [Session.run]
    rw [e1, e2, List.map_append, ih]
    congr 1
    rcases op with c | c | _ | _
    · rcases hx : (s.step (.client c)).2 with e | (_ | n | m) <;>
        simp only [SessionTrace.requested, issued, List.filterMap_cons, List.filterMap_nil, List.map_nil]
      cases hr : c.request with
      | some h => rfl
      | none => exact absurd hx (not_ci hr n)
    all_goals rfl

theorem issued_mem {tr : SessionTrace} {ci : Int} {h : Option Handler} (hm : (ci, h) ∈ issued tr) :
    ∃ op, op.request = some h ∧ (.client op, .ok (.ci ci)) ∈ tr := by
  simp only [issued, List.mem_filterMap] at hm
  obtain ⟨e, he, hx⟩ := hm
  split at hx
  · rename_i op n
    simp only [Option.map_eq_some_iff] at hx
    obtain ⟨h', h1, h2⟩ := hx
    cases h2
    exact ⟨op, h1, he⟩
  · cases hx

theorem Good.limits_change {s : Session} {tr : SessionTrace} (g : Good s (issued tr)) {op : SessionOp}
    (hop : op.IsApi) (hch : (s.step op).1.client.limits ≠ s.client.limits) :
    op = .toClient ∧ ∃ m, s.server.sendBuffer[s.atClient]? = some m ∧
      (initOf m = some (s.step op).1.client.limits ∨
       ∃ ci v, responseOf m = some (.bool true, ci) ∧
        ((s.step op).1.client.limits = (s.client.minR, v) ∧
            (.client (.setMaxRunspaces v), .ok (.ci ci)) ∈ tr ∨
         (s.step op).1.client.limits = (v, s.client.maxR) ∧
            (.client (.setMinRunspaces v), .ok (.ci ci)) ∈ tr)) := by
  cases op with
  | server op => exact absurd rfl hch
  | toServer => simp only [Session.step] at hch; split at hch <;> exact absurd rfl hch
  | client op =>
    simp only [Session.step] at hch
    obtain ⟨m, rfl, _⟩ := client_change g.state hch
    exact hop.elim
  | toClient =>
    refine ⟨rfl, ?_⟩
    simp only [Session.step] at hch ⊢
    split at hch
    · exact absurd rfl hch
    · rename_i m hm
      dsimp only at hch
      simp only [hm]
      refine ⟨m, rfl, ?_⟩
      obtain ⟨m', he, hx⟩ := client_change g.state hch
      cases he
      rcases hx with hx | ⟨ci, h, hr, hg, hl⟩
      · exact Or.inl hx
      · refine Or.inr ?_
        have hr' : responseOf m = some (.bool true, ci) := hr
        have hmem : m ∈ s.toClient := by
          simp only [Session.toClient]
          rw [List.drop_eq_getElem_cons (List.getElem?_eq_some_iff.mp hm).1,
            (List.getElem?_eq_some_iff.mp hm).2]
          simp
        obtain ⟨ha, _⟩ := g.core.coming (.bool true, ci) (List.mem_filterMap.mpr ⟨m, hmem, hr'⟩)
        have hi := g.core.asked ci (some h) (g.core.issued.mem_iff.mpr (by simp [ha])) hg
        obtain ⟨op, ho, ht⟩ := issued_mem hi
        cases h with
        | setMax v =>
          refine ⟨ci, v, hr', Or.inl ⟨hl, ?_⟩⟩
          cases op <;> simp [ClientOp.request] at ho
          subst ho; exact ht
        | setMin v =>
          refine ⟨ci, v, hr', Or.inr ⟨hl, ?_⟩⟩
          cases op <;> simp [ClientOp.request] at ho
          subst ho; exact ht

end Verif
