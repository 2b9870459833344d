import Verif.Spec.Transport
import Verif.Proof.Link

/-! # The receiver under arbitrary interleavings and stray fragments -/

namespace Verif

theorem createFragment_inv {o f : Nat} {d : Bytes} {e : Bool} {w : Bytes}
    (h : createFragment o f d e = .ok w) :
    o < 2 ^ 64 ∧ f < 2 ^ 64 ∧ d.length < 2 ^ 32 ∧ w = fragBytes o f d e := by
  have e8 : (256 : Nat) ^ 8 = 2 ^ 64 := by decide
  have e4 : (256 : Nat) ^ 4 = 2 ^ 32 := by decide
  have h0 := h
  simp only [createFragment, packBE, bind, Except.bind, pure, Except.pure, e8, e4] at h
  by_cases h1 : o < 2 ^ 64
  · by_cases h2 : f < 2 ^ 64
    · by_cases h3 : d.length < 2 ^ 32
      · refine ⟨h1, h2, h3, ?_⟩
        rw [createFragment_ok e h1 h2 h3] at h0
        exact (Except.ok.inj h0).symm
      · simp [h1, h2, h3] at h
    · simp [h1, h2] at h
  · simp [h1] at h

theorem Encodes.append {fs gs : List Fragment} {a b : Bytes} (h : Encodes fs a)
    (h' : Encodes gs b) : Encodes (fs ++ gs) (a ++ b) := by
  induction h with
  | nil => simpa using h'
  | cons h1 _ ih => rw [List.cons_append, List.append_assoc]; exact .cons h1 ih

theorem Encodes.wireOf {fs : List Fragment} {b : Bytes} (h : Encodes fs b) : b = wireOf fs := by
  induction h with
  | nil => rfl
  | cons h1 _ ih =>
    obtain ⟨-, -, -, rfl⟩ := createFragment_inv h1
    rw [wireOf_cons, ih]; rfl

theorem encodes_wireOf {fs : List Fragment} (h : ∀ f ∈ fs, f.Fits) : Encodes fs (wireOf fs) := by
  induction fs with
  | nil => exact .nil
  | cons f fs ih =>
    have hf := h f (by simp)
    exact .cons (createFragment_ok _ hf.oid hf.fid hf.len) (ih (fun g hg => h g (by simp [hg])))

/-- `addFragment` never reads the start flag. -/
theorem addFragment_start (r : Recv) (f : Fragment) (b : Bool) :
    r.addFragment { f with start := b } = r.addFragment f := rfl

theorem drain_encodes (r : Recv) (f : Fragment) (b rest : Bytes)
    (hf : createFragment f.objectId f.fragmentId f.data f.end_ = .ok b)
    (hb : r.buffer = b ++ rest) :
    r.drain = match ({ r with buffer := rest } : Recv).addFragment f with
      | (r', .error e) => (r', .error e)
      | (r', .ok ()) => r'.drain := by
  obtain ⟨h1, h2, h3, rfl⟩ := createFragment_inv hf
  rw [← addFragment_start _ f (f.fragmentId == 0)]
  exact drain_cons r { f with start := f.fragmentId == 0 } rest ⟨h1, h2, h3, rfl⟩ hb

theorem fragmentsOf_append (o : Nat) (a b : List Fragment) :
    fragmentsOf o (a ++ b) = fragmentsOf o a ++ fragmentsOf o b := by
  simp [fragmentsOf]

theorem finished_append (o : Nat) (a b : List Fragment) :
    finished o (a ++ b) = (finished o a || finished o b) := by
  simp [finished, fragmentsOf_append]

theorem fragmentsOf_single_self (f : Fragment) : fragmentsOf f.objectId [f] = [f] := by
  simp [fragmentsOf]

theorem fragmentsOf_single_ne {o : Nat} {f : Fragment} (h : f.objectId ≠ o) :
    fragmentsOf o [f] = [] := by
  simp [fragmentsOf, h]

/-- The completions of the first part of a stream. -/
def completedIn (G done : List Fragment) : List (Nat × Except Err Message) :=
  done.filterMap fun f =>
    if f.end_ then some (f.objectId, unpackMessage (bytesOf f.objectId G)) else none

/-- The receiver after processing `done`, with `T` taken out. -/
structure RS (G done : List Fragment) (T : List (Nat × Message)) (r : Recv) : Prop where
  frags : ∀ oid, (r.fragments.get? oid).getD [] =
    if finished oid done then [] else (fragmentsOf oid done).map Fragment.data
  nodup : r.fragments.keys.Nodup
  msgs : (T ++ r.messages).map (fun x => (x.1, (Except.ok x.2 : Except Err Message))) =
    completedIn G done

theorem RS.buffer {G done T r} (h : RS G done T r) (b : Bytes) :
    RS G done T { r with buffer := b } := ⟨h.frags, h.nodup, h.msgs⟩

/-- Facts on the next fragment of a legal interleaving. -/
theorem WellInterleaved.next {done rest : List Fragment} {f : Fragment}
    (h : WellInterleaved (done ++ f :: rest)) :
    finished f.objectId done = false ∧ f.fragmentId = (fragmentsOf f.objectId done).length ∧
    (f.end_ = true → fragmentsOf f.objectId rest = []) := by
  have hsplit : fragmentsOf f.objectId (done ++ f :: rest) =
      fragmentsOf f.objectId done ++ f :: fragmentsOf f.objectId rest := by
    simp [fragmentsOf]
  have hids := h.ids f.objectId
  have hends := h.ends f.objectId
  rw [hsplit] at hids hends
  refine ⟨?_, ?_, ?_⟩
  · rw [finished, List.any_eq_false]
    intro g hg
    have := hends g (by
      rw [List.dropLast_append_of_ne_nil (by simp)]
      exact List.mem_append_left _ hg)
    simp [this]
  · have h1 := congrArg (fun l => l[(fragmentsOf f.objectId done).length]?) hids
    simp only [List.map_append, List.map_cons] at h1
    rw [List.getElem?_append_right (by simp)] at h1
    simp only [List.length_map, Nat.sub_self, List.getElem?_cons_zero] at h1
    rw [List.getElem?_range (by simp)] at h1
    exact Option.some.inj h1
  · intro he
    by_cases hr : fragmentsOf f.objectId rest = []
    · exact hr
    · have := hends f (by
        rw [List.dropLast_append_of_ne_nil (by simp), List.dropLast_cons_of_ne_nil hr]
        simp)
      rw [he] at this
      cases this

theorem completedIn_keys {G done : List Fragment} {T : List (Nat × Message)} {r : Recv}
    (h : RS G done T r) {o : Nat} (hf : finished o done = false) : o ∉ r.messages.keys := by
  intro hk
  rw [Dict.keys, List.mem_map] at hk
  obtain ⟨⟨o', m⟩, hm, rfl⟩ := hk
  have : (o', (Except.ok m : Except Err Message)) ∈ completedIn G done := by
    rw [← h.msgs, List.mem_map]
    exact ⟨(o', m), by simp [hm], rfl⟩
  rw [completedIn, List.mem_filterMap] at this
  obtain ⟨f, hfm, hfe⟩ := this
  split at hfe
  · rename_i he
    simp only [Option.some.injEq, Prod.mk.injEq] at hfe
    rw [finished, List.any_eq_false] at hf
    refine hf f ?_ he
    simp [fragmentsOf, hfm, hfe.1]
  · cases hfe

theorem RS.good {G done rest T r f} (h : RS G done T r) (hG : G = done ++ f :: rest)
    (hw : WellInterleaved G) :
    ∃ r', r.addFragment f = (r', .ok ()) ∧ RS G (done ++ [f]) T r' ∧ r'.buffer = r.buffer := by
  subst hG
  obtain ⟨hfin, hid, hrest⟩ := hw.next
  have hget : (r.fragments.get? f.objectId).getD [] =
      (fragmentsOf f.objectId done).map Fragment.data := by
    rw [h.frags, hfin]; rfl
  have hlen : ¬ (f.fragmentId ≠ ((fragmentsOf f.objectId done).map Fragment.data).length) := by
    simp [hid]
  have hbuf : ∀ r' e, r.addFragment f = (r', e) → r'.buffer = r.buffer := by
    intro r' e he
    have := r.addFragment_buffer f
    rw [he] at this; exact this
  by_cases he : f.end_ = true
  · have hbytes : bytesOf f.objectId (done ++ f :: rest) =
        ((fragmentsOf f.objectId done).map Fragment.data ++ [f.data]).flatten := by
      have : fragmentsOf f.objectId (done ++ f :: rest) = fragmentsOf f.objectId done ++ [f] := by
        have h2 := hrest he
        simp only [fragmentsOf] at h2 ⊢
        simp [h2]
      rw [bytesOf, this]; simp
    obtain ⟨m, hm⟩ := hw.readable f (by simp) he
    have hnew := completedIn_keys h hfin
    have hadd : r.addFragment f = ({ r with
        messages := r.messages ++ [(f.objectId, m)],
        fragments := ((r.fragments.set f.objectId
          ((fragmentsOf f.objectId done).map Fragment.data ++ [f.data])).erase f.objectId) },
        .ok ()) := by
      simp only [Recv.addFragment, hget, Dict.set_set]
      rw [if_neg hlen, if_pos he, ← hbytes, hm]
      simp only [Dict.set_new _ _ _ hnew]
    refine ⟨_, hadd, ⟨?_, ?_, ?_⟩, hbuf _ _ hadd⟩
    · intro oid
      dsimp only
      by_cases ho : f.objectId = oid
      · subst ho
        rw [Dict.get?_erase_self _ _ (Dict.keys_nodup_set _ _ _ h.nodup)]
        rw [finished_append]
        have : finished f.objectId [f] = true := by
          simp [finished, fragmentsOf_single_self, he]
        simp [this]
      · rw [Dict.get?_erase_ne _ ho, Dict.get?_set_ne _ _ ho, h.frags, finished_append,
          fragmentsOf_append, fragmentsOf_single_ne ho]
        have : finished oid [f] = false := by simp [finished, fragmentsOf_single_ne ho]
        simp [this]
    · exact Dict.keys_nodup_erase _ _ (Dict.keys_nodup_set _ _ _ h.nodup)
    · have := h.msgs
      simp only [completedIn, List.filterMap_append] at this ⊢
      rw [← List.append_assoc, List.map_append, this]
      simp [he, hm]
  · have hadd : r.addFragment f = ({ r with
        fragments := r.fragments.set f.objectId
          ((fragmentsOf f.objectId done).map Fragment.data ++ [f.data]) }, .ok ()) := by
      simp only [Recv.addFragment, hget, Dict.set_set]
      rw [if_neg hlen, if_neg he]
    refine ⟨_, hadd, ⟨?_, ?_, ?_⟩, hbuf _ _ hadd⟩
    · intro oid
      dsimp only
      by_cases ho : f.objectId = oid
      · subst ho
        rw [Dict.get?_set_self, finished_append, hfin, fragmentsOf_append,
          fragmentsOf_single_self]
        have : finished f.objectId [f] = false := by
          simp [finished, fragmentsOf_single_self, he]
        simp [this]
      · rw [Dict.get?_set_ne _ _ ho, h.frags, finished_append,
          fragmentsOf_append, fragmentsOf_single_ne ho]
        have : finished oid [f] = false := by simp [finished, fragmentsOf_single_ne ho]
        simp [this]
    · exact Dict.keys_nodup_set _ _ _ h.nodup
    · have := h.msgs
      simp only [completedIn, List.filterMap_append] at this ⊢
      rw [this]
      simp [he]

theorem RS.stray {G done T r f} (h : RS G done T r)
    (hid : f.fragmentId ≠ nextId f.objectId done) :
    ∃ r', r.addFragment f = (r', .error .psrpCore) ∧ RS G done T r' ∧ r'.buffer = r.buffer := by
  have hlen : f.fragmentId ≠ ((r.fragments.get? f.objectId).getD []).length := by
    rw [h.frags]
    unfold nextId at hid
    cases hf : finished f.objectId done <;> simp_all
  have hadd : r.addFragment f = ({ r with
      fragments := r.fragments.set f.objectId ((r.fragments.get? f.objectId).getD []) },
      .error .psrpCore) := by
    simp only [Recv.addFragment]
    rw [if_pos hlen]
  refine ⟨_, hadd, ⟨?_, Dict.keys_nodup_set _ _ _ h.nodup, h.msgs⟩, rfl⟩
  intro oid
  dsimp only
  by_cases ho : f.objectId = oid
  · subst ho
    rw [Dict.get?_set_self, ← h.frags]; rfl
  · rw [Dict.get?_set_ne _ _ ho, h.frags]

theorem good_append (a b : Stream) : good (a ++ b) = good a ++ good b := by simp [good]
theorem stray_append (a b : Stream) : stray (a ++ b) = stray a ++ stray b := by simp [stray]

theorem drain_stream (G : List Fragment) (v : Stream) (hw : WellInterleaved G) (T) :
    ∀ (u d : Stream) (r : Recv), RS G (good d) T r → Encodes (u.map Prod.snd) r.buffer →
    G = good (d ++ u ++ v) → StraysOutOfSequence (d ++ u ++ v) →
    (∃ r', r.drain = (r', .ok ()) ∧ stray u = [] ∧ RS G (good (d ++ u)) T r' ∧ r'.buffer = []) ∨
    (∃ r' u1 f u2, r.drain = (r', .error .psrpCore) ∧ u = u1 ++ (false, f) :: u2 ∧
      stray u1 = [] ∧ RS G (good (d ++ u1)) T r' ∧ Encodes (u2.map Prod.snd) r'.buffer) := by
  intro u
  induction u with
  | nil =>
    intro d r h he hG hs
    left
    have hb : r.buffer = [] := by
      simp only [List.map_nil] at he
      generalize r.buffer = b at he
      cases he; rfl
    exact ⟨r, drain_nil r hb, rfl, by simpa using h, hb⟩
  | cons x u ih =>
    intro d r h he hG hs
    obtain ⟨g, f⟩ := x
    obtain ⟨b, rest, hb1, hb2, hb3⟩ : ∃ b rest, r.buffer = b ++ rest ∧
        createFragment f.objectId f.fragmentId f.data f.end_ = .ok b ∧
        Encodes (u.map Prod.snd) rest := by
      simp only [List.map_cons] at he
      generalize r.buffer = bb at he
      cases he with
      | cons h1 h2 => exact ⟨_, _, rfl, h1, h2⟩
    rw [drain_encodes r f b rest hb2 hb1]
    have h0 : RS G (good d) T { r with buffer := rest } := h.buffer rest
    cases g with
    | true =>
      have hG' : G = good d ++ f :: good (u ++ v) := by
        rw [hG]; simp [good]
      obtain ⟨r', hadd, hrs, hbuf⟩ := h0.good hG' hw
      rw [hadd]
      dsimp only
      have hrs' : RS G (good (d ++ [(true, f)])) T r' := by
        simpa [good] using hrs
      have := ih (d ++ [(true, f)]) r' hrs' (by rw [hbuf]; exact hb3) (by rw [hG]; simp)
        (by simpa using hs)
      rcases this with ⟨r2, h1, h2, h3, h4⟩ | ⟨r2, u1, f', u2, h1, h2, h3, h4, h5⟩
      · left
        exact ⟨r2, h1, by simpa [Verif.stray] using h2, by simpa using h3, h4⟩
      · right
        refine ⟨r2, (true, f) :: u1, f', u2, h1, by rw [h2]; rfl, by simpa [Verif.stray] using h3,
          by simpa using h4, h5⟩
    | false =>
      right
      have hid := hs d f (u ++ v) (by simp)
      obtain ⟨r', hadd, hrs, hbuf⟩ := h0.stray hid
      rw [hadd]
      dsimp only
      exact ⟨r', [], f, u, rfl, rfl, rfl, by simpa using hrs, by rw [hbuf]; exact hb3⟩

/-- The state of a receiver run that was given `d ++ u` and processed `d`. -/
structure RunInv (all d u : Stream) (s : RecvRun) : Prop where
  rs : RS (good all) (good d) s.taken s.recv
  buf : Encodes (u.map Prod.snd) s.recv.buffer
  errs : s.errors = List.replicate (stray d).length .psrpCore

theorem run_stream (all : Stream) (hw : WellInterleaved (good all))
    (hs : StraysOutOfSequence all) : ∀ (ops : List RecvOp) (v d u : Stream) (s : RecvRun),
    Carries ops v → all = d ++ u ++ v → RunInv all d u s →
    ∃ d' u', all = d' ++ u' ∧ RunInv all d' u' (s.run ops) := by
  intro ops
  induction ops with
  | nil =>
    intro v d u s hc hall hi
    cases hc
    exact ⟨d, u, by simpa using hall, hi⟩
  | cons op ops ih =>
    intro v d u s hc hall hi
    cases hc with
    | receive he hc' =>
      rename_i v' g b
      refine ih v' d (u ++ g) _ hc' (by rw [hall]; simp) ⟨hi.rs.buffer _, ?_, hi.errs⟩
      rw [List.map_append]
      exact hi.buf.append he
    | poll hc' =>
      rcases drain_stream (good all) v hw s.taken u d s.recv hi.rs hi.buf (by rw [hall])
        (by rw [← hall]; exact hs) with ⟨r', h1, h2, h3, h4⟩ | ⟨r', u1, f, u2, h1, h2, h3, h4, h5⟩
      · have herr : s.errors = List.replicate (stray (d ++ u)).length .psrpCore := by
          rw [stray_append, h2, List.append_nil]; exact hi.errs
        cases hm : r'.messages with
        | nil =>
          have hstep : s.step .poll = { s with recv := r' } := by
            simp only [RecvRun.step, Recv.nextMessage, h1, hm]
          have : s.run (.poll :: ops) = RecvRun.run { s with recv := r' } ops := by
            rw [RecvRun.run, List.foldl_cons, hstep]; rfl
          rw [this]
          refine ih v (d ++ u) [] _ hc' (by rw [hall]; simp) ⟨h3, ?_, herr⟩
          rw [h4]; exact .nil
        | cons x xs =>
          obtain ⟨o, m⟩ := x
          have hstep : s.step .poll = { s with recv := { r' with messages := xs },
                                               taken := s.taken ++ [(o, m)] } := by
            simp only [RecvRun.step, Recv.nextMessage, h1, hm]
          have : s.run (.poll :: ops) = RecvRun.run { s with
              recv := { r' with messages := xs }, taken := s.taken ++ [(o, m)] } ops := by
            rw [RecvRun.run, List.foldl_cons, hstep]; rfl
          rw [this]
          refine ih v (d ++ u) [] _ hc' (by rw [hall]; simp) ⟨⟨h3.frags, h3.nodup, ?_⟩, ?_, herr⟩
          · have := h3.msgs
            rw [hm] at this
            simpa using this
          · show Encodes _ r'.buffer
            rw [h4]; exact .nil
      · have hstep : s.step .poll = { s with recv := r', errors := s.errors ++ [.psrpCore] } := by
          simp only [RecvRun.step, Recv.nextMessage, h1]
        have : s.run (.poll :: ops) =
            RecvRun.run { s with recv := r', errors := s.errors ++ [.psrpCore] } ops := by
          rw [RecvRun.run, List.foldl_cons, hstep]; rfl
        rw [this]
        refine ih v (d ++ u1 ++ [(false, f)]) u2 _ hc' (by rw [hall, h2]; simp) ⟨?_, h5, ?_⟩
        · have : good (d ++ u1 ++ [(false, f)]) = good (d ++ u1) := by simp [good]
          rw [this]; exact h4
        · have : stray (d ++ u1 ++ [(false, f)]) = stray d ++ [f] := by
            rw [stray_append, stray_append, h3]; simp [Verif.stray]
          rw [this, hi.errs]
          simp [List.replicate_succ']

/-- A poll that reports "nothing more" has processed everything. -/
theorem run_quiet {all d u : Stream} (hw : WellInterleaved (good all))
    (hs : StraysOutOfSequence all) {s : RecvRun} (hall : all = d ++ u) (hi : RunInv all d u s)
    {r : Recv} (hq : s.recv.nextMessage = (r, .ok none)) :
    stray u = [] ∧ RS (good all) (good all) s.taken r ∧ r.messages = [] ∧ r.buffer = [] := by
  rcases drain_stream (good all) [] hw s.taken u d s.recv hi.rs hi.buf (by rw [hall]; simp)
    (by rw [hall] at hs; simpa using hs) with ⟨r', h1, h2, h3, h4⟩ | ⟨r', u1, f, u2, h1, -⟩
  · simp only [Recv.nextMessage, h1] at hq
    split at hq
    · rename_i hm
      cases hq
      rw [← hall] at h3
      exact ⟨h2, h3, hm, h4⟩
    · cases hq
  · simp only [Recv.nextMessage, h1] at hq
    cases hq

theorem runInv_init (all : Stream) : RunInv all [] [] {} where
  rs := ⟨by intro; rfl, by simp [Dict.keys], rfl⟩
  buf := .nil
  errs := rfl

theorem sendLoop_length (S : List PSRPMessage) : ∀ (a : Int) buf st pid kept S' b st' pid',
    sendLoop (some a) buf st pid kept S = (S', .ok (b, st', pid')) →
    (b.length : Int) ≤ buf.length + max a 0 := by
  induction S with
  | nil =>
    intro a buf st pid kept S' b st' pid' h
    simp only [sendLoop, Prod.mk.injEq, Except.ok.injEq] at h
    rw [← h.2.1]; omega
  | cons m ms ih =>
    intro a buf st pid kept S' b st' pid' h
    rw [sendLoop] at h
    split at h
    · simp only [Prod.mk.injEq, Except.ok.injEq] at h
      rw [← h.2.1]; omega
    · rename_i h21
      have h21 : 21 ≤ a := by simpa [amountBelow] using h21
      dsimp only at h
      generalize (if List.isEmpty buf = true then m.streamType else st) = st2 at h
      generalize (if List.isEmpty buf = true then m.pipelineId else pid) = pid2 at h
      split at h
      · simp only [Prod.mk.injEq, Except.ok.injEq] at h
        rw [← h.2.1]; omega
      · split at h
        · cases h
        · rename_i w hw
          have := ih _ _ _ _ _ _ _ _ _ h
          obtain ⟨-, -, -, rfl⟩ := createFragment_inv hw
          simp only [List.length_append, fragBytes_length, PSRPMessage.fragment, allowedLength,
            List.length_take] at this
          push_cast at this
          omega

theorem fresh_run (client : Bool) (rpid : UUID) (ops : List LinkOp)
    (hl : ∀ op ∈ ops, op.Legal) (hn : ops.length < 2 ^ 64) :
    LinkInv ((Link.fresh client rpid).run ops) := by
  refine (linkInv_run ops _ (linkInv_init client rpid) hl ?_).1
  show 1 + ops.length ≤ 2 ^ 64
  omega

theorem sent_bytes {pid S fs S'} (h : Sent pid S fs S') :
    bytesQueued S' + (fs.map (fun f => f.data.length)).sum = bytesQueued S := by
  induction h with
  | stop => simp [bytesQueued]
  | full m ms fs ms' _ _ ih =>
    simp only [bytesQueued, List.map_cons, List.sum_cons] at ih ⊢
    omega
  | part m ms n _ hn =>
    simp only [bytesQueued, List.map_cons, List.sum_cons, List.length_drop, List.map_nil,
      List.sum_nil, List.length_take]
    omega

theorem good_all (fs : List Fragment) : good (fs.map (fun f => (true, f))) = fs := by
  induction fs with
  | nil => rfl
  | cons f fs ih =>
    simp only [good, List.map_cons, List.filter_cons_of_pos] at ih ⊢
    rw [ih]

theorem stray_all (fs : List Fragment) : stray (fs.map (fun f => (true, f))) = [] := by
  induction fs with
  | nil => rfl
  | cons f fs ih =>
    simp only [stray, List.map_cons, Bool.not_true, Bool.false_eq_true, not_false_eq_true,
      List.filter_cons_of_neg] at ih ⊢
    exact ih

end Verif
