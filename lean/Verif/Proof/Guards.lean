import Verif.Proof.Pool
import Verif.Proof.Version
import Verif.Spec.Pool

/-! # Lemmas on results: which exceptions an operation can raise -/

namespace Verif
namespace Pool

/-- The result is not the exception `e`. -/
def Avoids {α : Type} (e : Err) (r : Res α) : Prop := r.2 ≠ .error e

theorem avoids_next {α β : Type} {e : Err} {r : Res α} {f : Pool → α → Res β} (h : Avoids e r)
    (hf : ∀ p a, r = (p, .ok a) → Avoids e (f p a)) : Avoids e (r.next f) := by
  obtain ⟨p, x⟩ := r
  cases x with
  | ok a => exact hf p a rfl
  | error e' => intro h'; exact h (by simpa [Res.next] using h')

theorem avoids_ret {α : Type} {e : Err} {r : Res α} {g : α → Ret} (h : Avoids e r) :
    Avoids e (r.ret g) := by
  obtain ⟨p, x⟩ := r
  cases x with
  | ok a => simp [Avoids, Res.ret, Except.map]
  | error e' => intro h'; exact h (by simpa [Res.ret, Except.map] using h')

/-- The exceptions psrpcore raises itself to refuse an operation. -/
def isRefusal : Err → Bool
  | .invalidPoolState | .invalidPipelineState | .invalidProtocolVersion | .keyError => true
  | _ => false

theorem serializeFails_raised {c : Option Nat} {o : Obj} {e : Err}
    (h : o.serializeFails c = some e) : isRefusal e = false := by
  unfold Obj.serializeFails at h
  obtain ⟨v, _, hv⟩ := List.exists_of_findSome?_eq_some h
  unfold Val.serializeFails at hv
  split at hv
  · cases hv; rfl
  · obtain ⟨n, _, rfl⟩ := Option.map_eq_some_iff.mp hv
    rfl

theorem messageType_error {o : Obj} {t : Option MsgType} {e : Err}
    (h : messageType o t = .error e) : e = .valueError := by
  unfold messageType at h
  split at h <;> cases h
  rfl

theorem avoids_prepare {e : Err} (he : isRefusal e = true) {p : Pool} {m : Option Obj}
    {t : Option MsgType} {pid : Option UUID} {s : StreamType} :
    Avoids e (p.prepareMessage m t pid s) := by
  unfold prepareMessage
  intro h
  split at h
  · cases h
  · cases h
  · split at h
    · rename_i he'
      cases h
      rw [serializeFails_raised he'] at he
      cases he
    · split at h
      · rename_i he'
        cases h
        rw [messageType_error he'] at he
        cases he
      · cases h

theorem prepare_state {p : Pool} {m : Option Obj} {t : Option MsgType} {pid : Option UUID}
    {s : StreamType} : (p.prepareMessage m t pid s).1.state = p.state :=
  keeps_prepare (I := fun q => q.state = p.state) (A := fun _ _ => True)
    (fun _ _ _ _ _ _ h => h) (fun _ _ _ => trivial) rfl

theorem keeps_state_prepare {x : PoolState} {p : Pool} {m : Option Obj} {t : Option MsgType}
    {pid : Option UUID} {s : StreamType} (h : p.state = x) :
    Keeps (fun q => q.state = x) (p.prepareMessage m t pid s) := by
  rw [← h]; exact prepare_state

theorem keeps_state_change {p : Pool} {x : PoolState} {e : Option Val} :
    Keeps (fun q => q.state = x) (p.changeState x e) := by
  unfold changeState
  split
  · rfl
  · split
    · exact keeps_state_prepare rfl
    · rfl

theorem avoids_change {e : Err} (he : isRefusal e = true) {p : Pool} {x : PoolState}
    {r : Option Val} : Avoids e (p.changeState x r) := by
  unfold changeState
  split
  · simp [Avoids]
  · split
    · exact avoids_prepare he
    · simp [Avoids]

theorem keeps_fst {α : Type} {I : Pool → Prop} {r : Res α} (h : Keeps I r) : I r.1 := h

/-- The version gate of the code is the order of versions. -/
theorem lt_pwsh5_iff (a : PSVersion) : a.lt Pwsh5 = true ↔ a.Before Pwsh5 := by
  obtain ⟨a1, a2, a3, a4⟩ := a
  simp only [PSVersion.lt, PSVersion.cmp, PSVersion.tuple, Pwsh5, PSVersion.Before]
  cases a3 <;> cases a4 <;>
    simp [PSVersion.tupleCmp, compBefore] <;> grind

/-- The version gate of the code in terms of what is known of the peer. -/
theorem gate_iff (p : Pool) : p.theirVersion.lt Pwsh5 = true ↔ ¬ p.PeerAtLeast Pwsh5 := by
  unfold theirVersion PeerAtLeast
  cases h : p.theirs with
  | none => simp; decide
  | some c => simp [lt_pwsh5_iff]

theorem everyState_mem (s : PoolState) : s ∈ everyState := by cases s <;> decide

/-- An operation without guard list: it has to succeed in reaching the target. -/
theorem obeys_always {p : Pool} {r : Res Ret} {g : Guard} (hi : g.ignored = [])
    (ha : g.allowed = everyState) (h1 : r.1.state = g.target.getD p.state)
    (h2 : Avoids .invalidPoolState r) : Obeys g p r := by
  refine ⟨fun h => by simp [hi] at h, fun _ h => absurd (everyState_mem _) (ha ▸ h), fun _ _ => ⟨h1, h2⟩⟩

/-- An operation that checks a list of states first. -/
theorem obeys_checked {α : Type} {p : Pool} {r : Res α} {f : α → Ret} {g : Guard}
    (hi : g.ignored = []) (h1 : p.state ∉ g.allowed → r = (p, .error .invalidPoolState))
    (h2 : p.state ∈ g.allowed → r.1.state = g.target.getD p.state ∧ Avoids .invalidPoolState r) :
    Obeys g p (r.ret f) := by
  refine ⟨fun h => by simp [hi] at h, fun _ h => by rw [h1 h]; rfl, fun _ h => ⟨(h2 h).1, avoids_ret (h2 h).2⟩⟩

/-- An operation that ignores the `Opened` state, then checks a list. -/
theorem obeys_opening {α : Type} {p : Pool} {r : Res α} {g : Guard}
    (hi : g.ignored = [.Opened]) (h0 : p.state = .Opened → ∃ a, r = (p, .ok a))
    (h1 : p.state ≠ .Opened → p.state ∉ g.allowed → r = (p, .error .invalidPoolState))
    (h2 : p.state ≠ .Opened → p.state ∈ g.allowed →
      r.1.state = g.target.getD p.state ∧ Avoids .invalidPoolState r) :
    Obeys g p (r.ret fun _ => .none) := by
  refine ⟨fun h => ?_, fun hn h => ?_, fun hn h => ?_⟩
  · rw [hi] at h
    obtain ⟨a, ha⟩ := h0 (by simpa using h)
    rw [ha]; rfl
  · rw [hi] at hn
    rw [h1 (by simpa using hn) h]; rfl
  · rw [hi] at hn
    exact ⟨(h2 (by simpa using hn) h).1, avoids_ret (h2 (by simpa using hn) h).2⟩

theorem hostResponse_guard (p : Pool) (ci : Int) (a b : Option Val) (h : p.state = .Opened) :
    (p.hostResponse ci a b).1.state = p.state ∧ Avoids .invalidPoolState (p.hostResponse ci a b) := by
  unfold hostResponse
  rw [if_neg (not_not_intro h)]
  split
  · simp [Avoids]
  · split
    · simp [Avoids]
    · refine ⟨?_, avoids_next (avoids_prepare rfl) fun _ _ _ => by simp [Avoids]⟩
      exact keeps_next (I := fun q => q.state = p.state) (keeps_state_prepare rfl) fun _ _ h => h

/-- `prepare_message` of an object that serializes, with an explicit type. -/
theorem prepare_typed {p : Pool} {o : Obj} {t : MsgType} {pid : Option UUID} {s : StreamType}
    (ho : o ≠ .msg .endOfPipelineInput) (hs : o.serializeFails p.cipher = none) :
    p.prepareMessage (some o) (some t) pid s = (p.queue t (some o) pid s, .ok ()) := by
  unfold prepareMessage
  split
  · simp_all
  · rename_i h; injection h with h; exact absurd h ho
  · rename_i h; injection h with h; subst h
    simp [hs, messageType]

/-- `prepare_message` of a message object that serializes. -/
theorem prepare_body {p : Pool} {b : Body} {pid : Option UUID} {s : StreamType}
    (ho : b ≠ .endOfPipelineInput) (hs : (Obj.msg b).serializeFails p.cipher = none) :
    p.prepareMessage (some (.msg b)) none pid s = (p.queue b.type (some (.msg b)) pid s, .ok ()) := by
  unfold prepareMessage
  split
  · simp_all
  · rename_i h; injection h with h; injection h with h; exact absurd h ho
  · rename_i h; injection h with h; subst h
    simp [hs, messageType]

/-- `prepare_message` of an object that does not serialize. -/
theorem prepare_fails {p : Pool} {o : Obj} {t : Option MsgType} {pid : Option UUID}
    {s : StreamType} {e : Err} (ho : o ≠ .msg .endOfPipelineInput)
    (hs : o.serializeFails p.cipher = some e) :
    p.prepareMessage (some o) t pid s = (p, .error e) := by
  unfold prepareMessage
  split
  · simp_all
  · rename_i h; injection h with h; exact absurd h ho
  · rename_i h; injection h with h; subst h
    simp [hs]

theorem onPipe_some {α : Type} {p : Pool} {h : Nat} {f : Pipe → Res α} {q : Pipe}
    (hq : p.pipes[h]? = some q) : p.onPipe h f = f q := by
  unfold onPipe; rw [hq]

theorem prepare_ciCount {p : Pool} {m : Option Obj} {t : Option MsgType} {pid : Option UUID}
    {s : StreamType} : (p.prepareMessage m t pid s).1.ciCount = p.ciCount :=
  keeps_prepare (I := fun q => q.ciCount = p.ciCount) (A := fun _ _ => True)
    (fun _ _ _ _ _ _ h => h) (fun _ _ _ => trivial) rfl

/-- A successful last step that only returns a value. -/
theorem next_pure_ok {α β : Type} {r : Res α} {x y : β}
    (h : (r.next fun p _ => ((p, .ok x) : Res β)).2 = .ok y) : y = x := by
  obtain ⟨p, z⟩ := r
  cases z with
  | ok a => cases h; rfl
  | error e => cases h

theorem next_pure_fst {α β : Type} {r : Res α} {x : β} :
    (r.next fun p _ => ((p, .ok x) : Res β)).1 = r.1 := by
  obtain ⟨p, z⟩ := r
  cases z <;> rfl

/-- What a host call returns, and the call id it takes. -/
theorem hostCall_ok {p : Pool} {m : HostMethod} {v : Val} {pid : Option UUID} {n : Int}
    (h : (p.hostCall m v pid).2 = .ok n) :
    n = (if m.isVoid = true then -100 else (p.ciCount : Int)) ∧
    (p.hostCall m v pid).1.ciCount = if m.isVoid = true then p.ciCount else p.ciCount + 1 := by
  unfold hostCall at *
  split at h
  · cases h
  · rename_i hs
    rw [if_neg hs]
    by_cases hv : m.isVoid = true <;> simp only [hv, if_true, nextCi] at h ⊢ <;>
      rw [next_pure_ok h, next_pure_fst, prepare_ciCount] <;> simp

end Pool
end Verif
