import Verif.Proof.Pool
import Verif.Spec.Refused

/-!
# Facts for C91
-/

namespace Verif
open Pool

theorem Dict.erase_ne {α β : Type} [DecidableEq α] {d : Dict α β} {k : α} {v : β}
    (h : d.get? k = some v) : d.erase k ≠ d := by
  have : (d.erase k).length < d.length := by
    induction d with
    | nil => cases h
    | cons x d ih =>
      obtain ⟨k', v'⟩ := x
      simp only [Dict.get?] at h
      simp only [Dict.erase]
      split
      · simp
      · rename_i hk
        rw [if_neg hk] at h
        have := ih h
        simp only [List.length_cons]; omega
  intro he; rw [he] at this; omega

/-- A call that raises leaves the pool as it was. -/
def Clean {α : Type} (p : Pool) (r : Res α) : Prop := ∀ e, r.2 = .error e → r.1 = p

theorem clean_ok {α : Type} {p q : Pool} {a : α} : Clean p (q, .ok a) := by
  intro e h; cases h

theorem clean_left {α : Type} {p : Pool} {x : Except Err α} : Clean p (p, x) := by
  intro e _; rfl

theorem clean_ret {α : Type} {p : Pool} {r : Res α} {f : α → Ret} (h : Clean p r) :
    Clean p (r.ret f) := by
  intro e he
  obtain ⟨q, x⟩ := r
  cases x with
  | ok a => cases he
  | error e' => exact h e' rfl

theorem clean_next {α β : Type} {p : Pool} {r : Res α} {f : Pool → α → Res β}
    (h : Clean p r) (hf : ∀ q a, r = (q, .ok a) → Clean p (f q a)) : Clean p (r.next f) := by
  intro e he
  obtain ⟨q, x⟩ := r
  cases x with
  | ok a => exact hf q a rfl e he
  | error e' => exact h e' rfl

theorem clean_prepare {p : Pool} {m : Option Obj} {t : Option MsgType} {pid : Option UUID}
    {s : StreamType} : Clean p (p.prepareMessage m t pid s) := by
  rcases prepare_cases p m t pid s with ⟨e, h⟩ | ⟨t', c, _, h⟩ <;> rw [h]
  · exact clean_left
  · exact clean_ok

/-- A message object none of whose values fails is queued. -/
theorem prepare_sends {p : Pool} {b : Body} {pid : Option UUID} {s : StreamType}
    (hv : b.vals.findSome? (Val.serializeFails p.cipher) = none) :
    ∃ q, p.prepareMessage (some (.msg b)) none pid s = (q, .ok ()) := by
  unfold prepareMessage
  split
  · exact ⟨_, rfl⟩
  · exact ⟨_, rfl⟩
  · rename_i o _ ho
    injection ho with ho; subst ho
    have : Obj.serializeFails p.cipher (.msg b) = none := hv
    rw [this]
    exact ⟨_, rfl⟩

theorem clean_sends {α : Type} {p p' : Pool} {b : Body} {pid : Option UUID} {s : StreamType}
    {f : Pool → Unit → Res α} (hv : b.vals = [])
    (hf : ∀ q a, Clean p (f q a)) :
    Clean p ((p'.prepareMessage (some (.msg b)) none pid s).next f) := by
  obtain ⟨q, h⟩ := prepare_sends (p := p') (b := b) (pid := pid) (s := s) (by rw [hv]; rfl)
  rw [h]; exact hf q ()

theorem clean_sends' {p p' : Pool} {b : Body} {pid : Option UUID} {s : StreamType}
    (hv : b.vals = []) : Clean p (p'.prepareMessage (some (.msg b)) none pid s) := by
  obtain ⟨q, h⟩ := prepare_sends (p := p') (b := b) (pid := pid) (s := s) (by rw [hv]; rfl)
  rw [h]; exact clean_ok

theorem clean_state {p p' : Pool} {s : PoolState} : Clean p (p'.changeState s) := by
  unfold changeState
  split
  · exact clean_ok
  · split
    · exact clean_sends' rfl
    · exact clean_ok

theorem clean_onPipe {α : Type} {p : Pool} {h : Nat} {f : Pipe → Res α}
    (hf : ∀ q, Clean p (f q)) : Clean p (p.onPipe h f) := by
  unfold onPipe
  split
  · exact clean_left
  · exact hf _

theorem clean_pipeState {p : Pool} {h : Nat} {s : PipeState} {e : Option Val} :
    Clean p (p.pipeChangeState h s e) := by
  refine clean_onPipe fun q => ?_
  split
  · exact clean_ok
  · exact clean_next clean_prepare fun _ _ _ => clean_ok

theorem clean_base {p : Pool} (op : BaseOp) : Clean p (op.step p) := by
  cases op <;> refine clean_ret ?_
  case beginClose => exact clean_state
  case close =>
    unfold close; split
    · exact clean_left
    · split
      · exact clean_left
      · exact clean_state
  case beginDisconnect => exact clean_state
  case disconnect => unfold disconnect; split <;> first | exact clean_left | exact clean_state
  case reconnect => unfold reconnect; split <;> first | exact clean_left | exact clean_state
  case pipeBeginStop h =>
    refine clean_onPipe fun q => ?_
    split
    · exact clean_left
    · exact clean_pipeState
  case pipeClose h =>
    refine clean_onPipe fun q => ?_
    split
    · exact clean_left
    · exact clean_ok
  case prepare => exact clean_prepare

theorem val_none {c : Option Nat} {v : Val} (h : ¬ v.serializeFails c ≠ none) :
    v.serializeFails c = none := Classical.not_not.mp h

theorem changeState_cipher {p : Pool} {s : PoolState} {q : Pool}
    (h : p.changeState s = (q, .ok ())) : q.cipher = p.cipher ∧ q.minR = p.minR ∧ q.maxR = p.maxR ∧
      q.host = p.host ∧ q.appArgs = p.appArgs ∧ q.state = s ∧ q.appPrivate = p.appPrivate := by
  unfold changeState at h
  split at h
  · cases h; simp
  · split at h
    · rcases prepare_cases { p with state := s } (some (.msg (.runspacePoolState s none))) none none
        .default with ⟨e, h'⟩ | ⟨t', c, _, h'⟩
      · rw [h'] at h; cases h
      · rw [h'] at h; cases h; simp [queue]
    · cases h; simp

theorem prepare_cipher {p : Pool} {m : Option Obj} {t : Option MsgType} {pid : Option UUID}
    {s : StreamType} {q : Pool}
    (h : p.prepareMessage m t pid s = (q, .ok ())) :
    q.cipher = p.cipher ∧ q.minR = p.minR ∧ q.maxR = p.maxR ∧
      q.host = p.host ∧ q.appArgs = p.appArgs ∧ q.state = p.state ∧ q.appPrivate = p.appPrivate := by
  rcases prepare_cases p m t pid s with ⟨e, h'⟩ | ⟨t', c, _, h'⟩
  · rw [h'] at h; cases h
  · rw [h'] at h; cases h; simp [queue]

theorem changeState_ok (p : Pool) (s : PoolState) : ∃ q, p.changeState s = (q, .ok ()) := by
  unfold changeState
  split
  · exact ⟨_, rfl⟩
  · split
    · exact prepare_sends rfl
    · exact ⟨_, rfl⟩

/-- What `open` does on a new pool: after the state and the capability, whether the limits and
the arguments can be sent decides. -/
theorem open_cases (p : Pool) (hs : p.state = .BeforeOpen) :
    ∃ q, q.state = .Opening ∧ q.cipher = p.cipher ∧
      p.open_ = (if ¬ (fitsInt32 p.minR ∧ fitsInt32 p.maxR) then (q, .error .valueError)
        else q.prepareMessage (some (.msg (.initRunspacePool p.minR p.maxR q.threadOptions
          q.apartment (p.host.getD defaultHost) p.appArgs)))) := by
  obtain ⟨q1, h1⟩ := changeState_ok p .Opening
  obtain ⟨q2, h2⟩ := prepare_sends (p := q1) (b := .sessionCapability q1.ours) (pid := none)
    (s := .default) rfl
  obtain ⟨a1, a2, a3, a4, a5, a6, _⟩ := changeState_cipher h1
  obtain ⟨b1, b2, b3, b4, b5, b6, _⟩ := prepare_cipher h2
  refine ⟨q2, by rw [b6, a6], by rw [b1, a1], ?_⟩
  unfold open_
  rw [if_neg (by rw [hs]; decide), if_neg (by rw [hs]; decide), h1]
  simp only [Res.next]
  rw [h2]
  simp only [b2, a2, b3, a3, b4, a4, b5, a5]

theorem clean_hostResponse {p : Pool} {ci : Int} {ret err : Option Val} :
    Clean p (p.hostResponse ci ret err) := by
  unfold hostResponse
  split
  · exact clean_left
  · split
    · exact clean_left
    · split
      · exact clean_left
      · exact clean_next clean_prepare fun _ _ _ => clean_ok

theorem clean_exchange {p : Pool} : Clean p p.exchangeKeyOp := by
  unfold exchangeKeyOp
  split
  · exact clean_ok
  · split
    · exact clean_left
    · exact clean_sends rfl fun _ _ => clean_ok

theorem clean_recv {p : Pool} {m : Msg} {f : Pool → Msg → Option Obj → Res Unit}
    (hf : ∀ o, Pool.decode m = .ok o → Clean p (f p m o)) :
    Clean p (match Pool.decode m with
      | .error e => ((p, .error e) : Res Msg)
      | .ok o => (f p m o).next fun p _ => (p, .ok m)) := by
  split
  · exact clean_left
  · rename_i o ho
    exact clean_next (hf o ho) fun _ _ _ => clean_ok

/-- Client calls that leave nothing behind. -/
theorem clean_client {p : Pool} (op : ClientOp) (hn : ¬ op.Spoils p) : Clean p (op.step p) := by
  cases op
  case base op => exact clean_base op
  case newPipe => exact clean_ok
  case open_ =>
    refine clean_ret ?_
    by_cases hs : p.state = .BeforeOpen
    · obtain ⟨q, _, hc, ho⟩ := open_cases p hs
      have hn' : ¬ ((fitsInt32 p.minR && fitsInt32 p.maxR) = false ∨
        (p.host.getD defaultHost).serializeFails p.cipher ≠ none ∨
        p.appArgs.serializeFails p.cipher ≠ none) := fun h => hn ⟨hs, h⟩
      have h1 : fitsInt32 p.minR = true ∧ fitsInt32 p.maxR = true := by
        cases h1 : fitsInt32 p.minR <;> cases h2 : fitsInt32 p.maxR <;> simp_all
      rw [ho, if_neg (by simp [h1])]
      have hv : (Body.initRunspacePool p.minR p.maxR q.threadOptions q.apartment
          (p.host.getD defaultHost) p.appArgs).vals.findSome? (Val.serializeFails q.cipher) = none := by
        rw [hc]
        have a := val_none fun h => hn' (Or.inr (Or.inl h))
        have b := val_none fun h => hn' (Or.inr (Or.inr h))
        simp only [Body.vals, List.findSome?, a, b]
      obtain ⟨q', h'⟩ := prepare_sends (p := q) (pid := none) (s := .default) hv
      rw [h']; exact clean_ok
    · unfold open_
      split
      · exact clean_ok
      · exact clean_left
  case connect =>
    refine clean_ret ?_
    unfold connectClient
    split
    · exact clean_ok
    · split
      · exact clean_left
      · obtain ⟨q, h⟩ := changeState_ok p .Connecting
        rw [h]
        refine clean_next clean_ok fun q' _ _ => ?_
        exact clean_sends rfl fun _ _ => clean_sends' (b := .connectRunspacePool none none) rfl
  case getAvailableRunspaces =>
    refine clean_ret ?_
    unfold getAvailableRunspaces
    split
    · exact clean_left
    · exact clean_sends rfl fun _ _ => clean_ok
  case exchangeKey => exact clean_ret clean_exchange
  case resetRunspaceState =>
    refine clean_ret ?_
    unfold resetRunspaceState
    split
    · exact clean_left
    · split
      · exact clean_left
      · exact clean_sends rfl fun _ _ => clean_ok
  case hostResponse => exact clean_ret clean_hostResponse
  case setMaxRunspaces v =>
    refine clean_ret ?_
    unfold setMaxRunspaces
    split
    · exact clean_ok
    · rename_i h
      have hv : fitsInt32 v = true := by
        cases hv : fitsInt32 v
        · exact absurd ⟨fun h' => h (Or.inl h'), fun h' => h (Or.inr h'), hv⟩ hn
        · rfl
      simp only [hv, not_true, if_false]
      exact clean_sends rfl fun _ _ => clean_ok
  case setMinRunspaces v =>
    refine clean_ret ?_
    unfold setMinRunspaces
    split
    · exact clean_ok
    · rename_i h
      have hv : fitsInt32 v = true := by
        cases hv : fitsInt32 v
        · exact absurd ⟨fun h' => h (Or.inl h'), fun h' => h (Or.inr h'), hv⟩ hn
        · rfl
      simp only [hv, not_true, if_false]
      exact clean_sends rfl fun _ _ => clean_ok
  case pipeStart h =>
    refine clean_ret (clean_onPipe fun q => ?_)
    split
    · exact clean_left
    · exact clean_next clean_prepare fun _ _ _ => clean_ok
  case pipeSend h d =>
    refine clean_ret (clean_onPipe fun q => ?_)
    split
    · exact clean_left
    · exact clean_prepare
  case pipeSendEof h =>
    refine clean_ret (clean_onPipe fun q => ?_)
    split
    · exact clean_left
    · exact clean_prepare
  case pipeHostResponse h ci ret err =>
    refine clean_ret (clean_onPipe fun q => ?_)
    split
    · exact clean_left
    · exact clean_hostResponse
  case recv m =>
    refine clean_ret (clean_recv (f := processClient) fun o ho => ?_)
    unfold processClient
    split <;> try exact clean_left
    case h_1 => exact clean_ok
    case h_2 => dsimp only; split <;> first | exact clean_state | exact clean_ok
    case h_3 =>
      unfold clientSessionKey
      split
      · exact clean_left
      · split <;> first | exact clean_ok | exact clean_left
    case h_4 => split <;> exact clean_ok
    case h_5 => split <;> exact clean_ok
    case h_6 =>
      unfold clientPipelineState
      split <;> first | exact clean_ok | exact clean_left
    case h_7 => exact clean_exchange
    case h_8 r ci ht =>
      unfold clientAvailability
      split
      · exact clean_left
      · rename_i handler hh
        split <;> try exact clean_ok
        rename_i h n
        exfalso
        have hc := decode_content ho (by rw [ht]; decide)
        refine hn ⟨ht, n, ci, h, ?_, hc, hh⟩
        unfold decode at ho
        rw [if_neg (by rw [ht]; decide), hc] at ho
        simp only [Obj.deserializeFails] at ho
        cases hb : bareIntFits n
        · rw [hb] at ho; cases ho
        · rfl
    case h_9 => exact clean_ok
    case h_10 => exact clean_state

theorem clean_private {α : Type} {p p' : Pool} {f : Pool → Unit → Res α}
    (hv : p'.appPrivate.serializeFails p'.cipher = none) (hf : ∀ q a, Clean p (f q a)) :
    Clean p ((p'.prepareMessage (some (.msg (.applicationPrivateData p'.appPrivate)))).next f) := by
  obtain ⟨q, h⟩ := prepare_sends (p := p') (b := .applicationPrivateData p'.appPrivate) (pid := none)
    (s := .default) (by simp only [Body.vals, List.findSome?, hv])
  rw [h]; exact hf q ()

/-- Server calls that leave nothing behind. -/
theorem clean_server {p : Pool} (op : ServerOp) (hn : ¬ op.Spoils p) : Clean p (op.step p) := by
  have hcall : ∀ (m : HostMethod) (ps : Val) (pid : Option UUID),
      ¬ (p.state = .Opened ∧ m.isVoid = false ∧ ps.serializeFails p.cipher ≠ none) →
      Clean p (p.hostCall m ps pid) := by
    intro m ps pid h
    unfold hostCall
    split
    · exact clean_left
    · rename_i hs
      have hs : p.state = .Opened := Classical.not_not.mp hs
      cases hv : m.isVoid
      · have hf := val_none fun h' => h ⟨hs, hv, h'⟩
        have hv' : ∀ ci, (callBody pid ci m ps).vals.findSome? (Val.serializeFails p.cipher) = none := by
          intro ci; cases pid <;> simp only [callBody, Body.vals, List.findSome?, hf]
        obtain ⟨q, h'⟩ := prepare_sends (p := p.nextCi.1) (pid := pid) (s := .prompt_response)
          (hv' p.nextCi.2)
        simp only [Bool.false_eq_true, if_false]
        rw [h']; exact clean_ok
      · simp only [if_true]
        exact clean_next clean_prepare fun _ _ _ => clean_ok
  cases op
  case base op => exact clean_base op
  case connect =>
    refine clean_ret ?_
    unfold connectServer
    split
    · exact clean_ok
    · split
      · exact clean_left
      · exact clean_state
  case requestKey =>
    refine clean_ret ?_
    unfold requestKey
    split
    · exact clean_ok
    · split
      · exact clean_left
      · exact clean_sends rfl fun _ _ => clean_ok
  case sendEvent v =>
    refine clean_ret ?_
    unfold sendEvent
    split
    · exact clean_left
    · exact clean_prepare
  case setBroken e =>
    refine clean_ret ?_
    unfold setBroken
    split
    · exact clean_left
    · rename_i hs
      by_cases ho : p.state = .Opened
      · have hf := val_none fun h' => hn ⟨ho, h'⟩
        unfold changeState
        split
        · exact clean_ok
        · split
          · obtain ⟨q, h'⟩ := prepare_sends (p := { p with state := .Broken }) (pid := none)
              (s := .default) (b := .runspacePoolState .Broken (some e))
              (by simp only [Body.vals, Option.toList, List.findSome?, hf])
            rw [h']; exact clean_ok
          · exact clean_ok
      · have hb : p.state = .Broken := by
          simp only [List.mem_cons, List.not_mem_nil, or_false, ho, Classical.not_not] at hs
          exact hs
        have hp : { p with state := .Broken } = p := by rw [← hb]
        unfold changeState
        rw [hp]
        split
        · exact clean_ok
        · split
          · exact clean_prepare
          · exact clean_ok
  case hostCall m ps pid => exact clean_ret (hcall m ps pid hn)
  case availabilityResponse ci r =>
    refine clean_ret ?_
    unfold availabilityResponse
    split
    · exact clean_left
    · split
      · exact clean_left
      · exact clean_sends' rfl
  case receiveData => refine clean_ret ?_; unfold receiveServer; split <;> exact clean_ok
  case newPipe => exact clean_ok
  case pipeComplete => exact clean_ret clean_pipeState
  case pipeStart h =>
    refine clean_ret (clean_onPipe fun q => ?_)
    split
    · exact clean_left
    · exact clean_pipeState
  case pipeStop h =>
    refine clean_ret (clean_onPipe fun q => ?_)
    split
    · exact clean_ok
    · split
      · exact clean_left
      · exact clean_pipeState
  case pipeHostCall h m ps =>
    refine clean_ret (clean_onPipe fun q => ?_)
    split
    · exact clean_left
    · exact hcall m ps _ hn
  case pipeWriteOutput =>
    refine clean_ret (clean_onPipe fun q => ?_)
    split
    · exact clean_left
    · exact clean_prepare
  case pipeWriteRecord =>
    refine clean_ret (clean_onPipe fun q => ?_)
    split
    · exact clean_left
    · split
      · exact clean_left
      · exact clean_prepare
  case recv m =>
    refine clean_ret (clean_recv (f := processServer) fun o ho => ?_)
    unfold processServer
    split <;> try exact clean_left
    case h_1 c ht =>
      unfold serverCapability processSessionCapability
      dsimp only
      split
      · rename_i hs
        split
        · rename_i hr
          exact absurd (Or.inr ⟨ht, hs, fun h => hr h.symm⟩) hn
        · exact clean_ok
      · exact clean_sends rfl fun _ _ => clean_ok
    case h_2 mn mx t a h args ht =>
      have hf := val_none fun h' => hn (Or.inl ⟨Or.inl ht, h'⟩)
      unfold serverInit
      refine clean_private ?_ fun _ _ => clean_state
      exact hf
    case h_3 mn mx ht =>
      have hf := val_none fun h' => hn (Or.inl ⟨Or.inr ht, h'⟩)
      unfold serverConnect
      dsimp only
      generalize hp' : ({ p with maxR := orCurrent mx p.maxR, minR := orCurrent mn p.minR } : Pool) = p'
      have e1 : p'.cipher = p.cipher := by rw [← hp']
      have e2 : p'.appPrivate = p.appPrivate := by rw [← hp']
      obtain ⟨q, h'⟩ := prepare_sends (p := p') (pid := none) (s := .default)
        (b := .runspacePoolInitData (orCurrent mn p.minR) (orCurrent mx p.maxR)) rfl
      obtain ⟨c1, _, _, _, _, _, c2⟩ := prepare_cipher h'
      rw [h']
      refine clean_private ?_ fun _ _ => clean_state
      rw [c1, c2, e1, e2]; exact hf
    case h_4 => unfold serverPipelineData; split <;> first | exact clean_left | exact clean_ok
    case h_5 => unfold serverPipelineData; split <;> first | exact clean_left | exact clean_ok
    case h_6 => exact clean_sends' rfl
    case h_7 => exact clean_ok
    case h_8 => exact clean_ok
    case h_9 => exact clean_ok
    case h_10 => exact clean_ok

end Verif
