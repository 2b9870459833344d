import Verif.Spec.Wire
import Verif.Proof.Utf8
import Verif.Proof.XmlDoc
import Verif.Props.Transport
import Verif.Props.Shared
import Verif.Props.Clixml

/-! # One message, and the link under the objects -/

namespace Verif

theorem ser_clean {E : TextEnv} {H : Heap} {v : PVal} (ok : GraphXmlOk E H [v]) {n : Nat} {s s' : SState} {x : Xml}
    (h : ser E H n v s = .ok (x, s')) : x.Clean :=
  ser_cleans (fun _ h => h.xml.ok) (fun _ h => h.xml) E H [v]
    (fun a ha => ⟨fun _ hp => clean_prim E ((ok.objs a ha).vals _ hp), fun p hp => clean_prim E ((ok.objs a ha).own p hp),
      fun q hq => (xmlLine_escaped ((ok.objs a ha).names q hq)).ok, (ok.objs a ha).types, (ok.objs a ha).string⟩)
    n v (fun p hp => clean_prim E (by have := ok.vals v (by simp); rw [hp] at this; exact this)) (fun a ha => .root (by rw [ha]; simp)) s x s' h

/-- The text of an element begins with `<`. -/
theorem writeXml_head (x : Xml) : ∃ r, writeXml x = 60 :: r := by
  obtain ⟨t, a, x, k⟩ := x
  unfold writeXml
  exact ⟨_, rfl⟩

theorem xmlBytes_head (x : Xml) : ∃ r, xmlBytes x = 60 :: r := by
  obtain ⟨r, e⟩ := writeXml_head x
  unfold xmlBytes
  rw [e]
  exact ⟨_, rfl⟩

theorem xmlBytes_read {x : Xml} (h : x.Clean) : utf8Decode (xmlBytes x) = some (writeXml x) :=
  utf8Decode_all _ fun c hc => scalar_xml (safe_xml x h c hc).1

/-- The data of a message does not begin with a byte order mark. -/
theorem messageData_bom {E : TextEnv} {n : Nat} {t t' : MsgType} {o : Outgoing} {data : Bytes}
    (h : messageData E n t o = .ok (t', data)) : ¬ [0xEF, 0xBB, 0xBF] <+: data := by
  have nil : ¬ ([0xEF, 0xBB, 0xBF] : Bytes) <+: [] := by simp
  cases o with
  | endOfInput => cases h; exact nil
  | object H v =>
    unfold messageData at h
    split at h
    · cases h; exact nil
    · cases h; exact nil
    · rename_i H' v' hv e
      split at h
      · cases h
      · cases h
        obtain ⟨r, e⟩ := xmlBytes_head ‹Xml›
        rw [e]
        rintro ⟨q, hq⟩
        simp at hq

/-- What is sent is read. -/
theorem message_back {E : TextEnv} (hE : ExtendsAscii E.uni) {L : Lib} (std : L.Standard) {n m : Nat} (hnm : n < m)
    {t t' : MsgType} {o : Outgoing} {data : Bytes} (so : Sendable E L t o) (h : messageData E n t o = .ok (t', data))
    {sh : Dict PyStr DObj} (hc : DState.Clean L { shared := sh }) (msg : Message) (ht : msg.messageType = t') (hd : msg.data = data) :
    t' = t ∧ ∃ i, messageObject E L m sh msg = .ok i ∧ SameObject L o i ∧ DState.Clean L { shared := sharedAfter sh (.ok i) } := by
  cases o with
  | endOfInput =>
    cases h
    unfold messageObject
    rw [hd, ht]
    exact ⟨so.symm, _, rfl, rfl, hc⟩
  | object H v =>
    obtain ⟨hnil, hend, ok, okx⟩ := so
    by_cases hv : v = .nil
    · subst hv
      cases h
      unfold messageObject
      rw [hd, ht]
      exact ⟨(hnil rfl).symm, _, rfl, ⟨_, _, fun _ => none, rfl, rfl, fun _ _ e => by cases e⟩, hc⟩
    · have e : messageData E n t (.object H v) = match ser E H n v {} with
          | .error e => .error e
          | .ok (x, _) => .ok (t, xmlBytes x) := by
        cases v <;> first | rfl | exact absurd rfl hv
      rw [e] at h
      cases hs : ser E H n v {} with
      | error e => rw [hs] at h; cases h
      | ok q =>
        obtain ⟨x, s⟩ := q
        rw [hs] at h
        cases h
        have hx := ser_clean okx hs
        obtain ⟨d, ds, φ, h1, st, hm⟩ := sim_ser hE std (good_reach ok) n m hnm v {} x s { shared := sh } (fun _ => none)
          (fun a e => .root (by simp [e])) (ok.vals v (by simp)) { inv_empty L H _ with clean := hc } hs
        refine ⟨rfl, .object d ds, ?_, ⟨d, ds, φ, rfl, hm, fun b a e => ?_⟩, st.inv.clean⟩
        · unfold messageObject
          rw [hd, ht, xmlBytes_read hx]
          dsimp only
          rw [if_neg hend, if_neg, parseRoot_clean hx]
          · dsimp only
            rw [h1]
          · rintro ⟨_, h⟩
            obtain ⟨r, e⟩ := xmlBytes_head x
            rw [e] at h
            cases h
        · obtain ⟨d, hd, m⟩ := st.done b a (Nat.zero_le _) e
          exact ⟨d, hd, shown_match std st.inv.clean ((good_reach ok).objs a (st.inv.dom b a e).2) m⟩

/-! ## The link under the objects -/

/-- What an operation does on the link under the objects. -/
def WireOp.under (E : TextEnv) (n : Nat) : WireOp → List LinkOp
  | .send t o pid st =>
    match messageData E n t o with
    | .error _ => []
    | .ok (t', data) => [.queue t' data pid st]
  | .flush a => [.flush a]
  | .deliver => [.deliver]
  | .poll => [.poll]

theorem step_under (E : TextEnv) (L : Lib) (n m : Nat) (w : WireLink) (op : WireOp) :
    (w.step E L n m op).link = w.link.run (op.under E n) := by
  cases op with
  | send t o pid st =>
    simp only [WireLink.step, WireOp.under]
    cases messageData E n t o with
    | error e => rfl
    | ok q => rfl
  | flush a => rfl
  | deliver => rfl
  | poll =>
    simp only [WireLink.step, WireOp.under]
    split <;> rfl

theorem run_under (E : TextEnv) (L : Lib) (n m : Nat) (w : WireLink) (ops : List WireOp) :
    (w.run E L n m ops).link = w.link.run (ops.flatMap (WireOp.under E n)) := by
  induction ops generalizing w with
  | nil => rfl
  | cons op ops ih =>
    show ((w.step E L n m op).run E L n m ops).link = _
    rw [ih, step_under, List.flatMap_cons]
    unfold Link.run
    rw [List.foldl_append]

theorem under_legal {E : TextEnv} {L : Lib} {n : Nat} {op : WireOp} (h : op.Legal E L n) : ∀ o ∈ op.under E n, o.Legal := by
  cases op with
  | send t o pid st =>
    intro q hq
    simp only [WireOp.under] at hq
    cases e : messageData E n t o with
    | error _ => rw [e] at hq; cases hq
    | ok r =>
      obtain ⟨t', data⟩ := r
      rw [e] at hq
      simp only [List.mem_singleton] at hq
      subst hq
      exact ⟨h.2.1 _ _ e, messageData_bom e, h.2.2⟩
  | flush a =>
    intro q hq
    simp only [WireOp.under, List.mem_singleton] at hq
    subst hq
    cases a <;> exact h
  | deliver => intro q hq; simp only [WireOp.under, List.mem_singleton] at hq; subst hq; trivial
  | poll => intro q hq; simp only [WireOp.under, List.mem_singleton] at hq; subst hq; trivial

theorem under_length (E : TextEnv) (n : Nat) (op : WireOp) : (op.under E n).length ≤ 1 := by
  cases op with
  | send t o pid st =>
    simp only [WireOp.under]
    cases messageData E n t o <;> simp only [List.length_nil, List.length_singleton] <;> omega
  | _ => simp [WireOp.under]

theorem unders_length (E : TextEnv) (n : Nat) (ops : List WireOp) : (ops.flatMap (WireOp.under E n)).length ≤ ops.length := by
  induction ops with
  | nil => simp
  | cons op ops ih =>
    have := under_length E n op
    rw [List.flatMap_cons, List.length_append, List.length_cons]
    omega

theorem unders_legal {E : TextEnv} {L : Lib} {n : Nat} {ops : List WireOp} (h : ∀ op ∈ ops, op.Legal E L n) :
    ∀ o ∈ ops.flatMap (WireOp.under E n), o.Legal := by
  intro o ho
  obtain ⟨op, hop, ho⟩ := List.mem_flatMap.mp ho
  exact under_legal (h op hop) o ho

/-! ## All messages -/

/-- The message under a mail. -/
def Under (E : TextEnv) (L : Lib) (n : Nat) (o : Mail Outgoing) (q : Message) : Prop :=
  Sendable E L o.type o.object ∧ q.pid = o.pid ∧ messageData E n o.type o.object = .ok (q.messageType, q.data)

/-- What holds in all histories. -/
structure WireInv (E : TextEnv) (L : Lib) (n : Nat) (w : WireLink) : Prop where
  under : All2 (Under E L n) w.sent w.link.queued
  count : w.arrived.length = w.link.taken.length
  arrived : All2 (Arrives L) (w.sent.take w.arrived.length) w.arrived
  clean : DState.Clean L { shared := w.shared }

theorem All2.length_eq {α β : Type} {R : α → β → Prop} {as : List α} {bs : List β} (h : All2 R as bs) : as.length = bs.length := by
  induction h with
  | nil => rfl
  | cons _ _ ih => simp [ih]

theorem All2.at_prefix {α β : Type} {R : α → β → Prop} {as : List α} {bs : List β} (h : All2 R as bs) :
    ∀ {pre : List β} {b : β}, pre ++ [b] <+: bs → ∃ a, as.take (pre.length + 1) = as.take pre.length ++ [a] ∧ R a b := by
  induction h with
  | nil => intro pre b hp; exact absurd (List.prefix_nil.mp hp) (by simp)
  | @cons a b as bs hab t ih =>
    intro pre c hp
    cases pre with
    | nil =>
      obtain ⟨q, hq⟩ := hp
      simp only [List.nil_append, List.cons_append, List.cons.injEq] at hq
      exact ⟨a, rfl, by rw [hq.1]; exact hab⟩
    | cons p pre =>
      obtain ⟨q, hq⟩ := hp
      simp only [List.cons_append, List.cons.injEq] at hq
      obtain ⟨a', h1, h2⟩ := ih (pre := pre) (b := c) ⟨q, hq.2⟩
      refine ⟨a', ?_, h2⟩
      simp only [List.length_cons, List.take_succ_cons, List.cons_append, h1]

theorem queue_queued {l : Link} {t : MsgType} {data : Bytes} {pid : Option UUID} {st : StreamType}
    (he : (l.step (.queue t data pid st)).errors = []) :
    ∃ q : Message, (l.step (.queue t data pid st)).queued = l.queued ++ [q] ∧ q.messageType = t ∧ q.data = data ∧ q.pid = pid ∧
      (l.step (.queue t data pid st)).taken = l.taken := by
  simp only [Link.step] at he ⊢
  split
  · exact ⟨_, rfl, rfl, rfl, rfl, rfl⟩
  · rename_i s e h
    rw [h] at he
    simp at he

theorem step_inv {E : TextEnv} (hE : ExtendsAscii E.uni) {L : Lib} (std : L.Standard) {n m : Nat} (hnm : n < m) {w : WireLink}
    (inv : WireInv E L n w) {op : WireOp} (hop : op.Legal E L n)
    (he : (w.step E L n m op).link.errors = []) (hp : (w.step E L n m op).link.taken <+: (w.step E L n m op).link.queued) :
    WireInv E L n (w.step E L n m op) := by
  have len := inv.under.length_eq
  cases op with
  | send t o pid st =>
    simp only [WireLink.step] at he hp ⊢
    cases e : messageData E n t o with
    | error _ => exact ⟨inv.under, inv.count, inv.arrived, inv.clean⟩
    | ok r =>
      obtain ⟨t', data⟩ := r
      rw [e] at he hp
      dsimp only at he hp ⊢
      obtain ⟨q, h1, h2, h3, h4, h5⟩ := queue_queued he
      have hle : w.arrived.length ≤ w.sent.length := by
        have := inv.arrived.length_eq
        rw [List.length_take] at this
        omega
      refine ⟨?_, ?_, ?_, inv.clean⟩
      · dsimp only
        rw [h1]
        exact inv.under.snoc ⟨hop.1, h4, by rw [h2, h3]; exact e⟩
      · dsimp only
        rw [h5]
        exact inv.count
      · dsimp only
        rw [List.take_append_of_le_length hle]
        exact inv.arrived
  | flush a =>
    have hq : (w.link.step (.flush a)).queued = w.link.queued ∧ (w.link.step (.flush a)).taken = w.link.taken := by
      simp only [Link.step]
      split <;> exact ⟨rfl, rfl⟩
    refine ⟨?_, ?_, inv.arrived, inv.clean⟩
    · show All2 _ w.sent (w.link.step (.flush a)).queued
      rw [hq.1]; exact inv.under
    · show _ = (w.link.step (.flush a)).taken.length
      rw [hq.2]; exact inv.count
  | deliver =>
    have hq : (w.link.step .deliver).queued = w.link.queued ∧ (w.link.step .deliver).taken = w.link.taken := by
      simp only [Link.step]
      split <;> exact ⟨rfl, rfl⟩
    refine ⟨?_, ?_, inv.arrived, inv.clean⟩
    · show All2 _ w.sent (w.link.step .deliver).queued
      rw [hq.1]; exact inv.under
    · show _ = (w.link.step .deliver).taken.length
      rw [hq.2]; exact inv.count
  | poll =>
    have hq : (w.link.step .poll).queued = w.link.queued ∧
        ((w.link.step .poll).taken = w.link.taken ∨ ∃ q, (w.link.step .poll).taken = w.link.taken ++ [q]) := by
      simp only [Link.step]
      split
      · exact ⟨rfl, .inl rfl⟩
      · exact ⟨rfl, .inr ⟨_, rfl⟩⟩
      · exact ⟨rfl, .inl rfl⟩
    obtain ⟨hq, hk | ⟨q, hk⟩⟩ := hq
    · have e : w.step E L n m .poll = { w with link := w.link.step .poll } := by
        simp only [WireLink.step, hk, List.drop_length]
      rw [e]
      refine ⟨?_, ?_, inv.arrived, inv.clean⟩
      · show All2 _ w.sent (w.link.step .poll).queued
        rw [hq]; exact inv.under
      · show _ = (w.link.step .poll).taken.length
        rw [hk]; exact inv.count
    · have e : w.step E L n m .poll = { w with
            link := w.link.step .poll
            arrived := w.arrived ++ [⟨q.messageType, q.pid, messageObject E L m w.shared q⟩]
            shared := sharedAfter w.shared (messageObject E L m w.shared q) } := by
        simp only [WireLink.step, hk, List.drop_append_of_le_length (Nat.le_refl _), List.drop_length, List.nil_append]
      rw [e] at hp ⊢
      dsimp only at hp
      rw [hk, hq] at hp
      obtain ⟨o, h1, h2, h3, h4⟩ := inv.under.at_prefix hp
      obtain ⟨ht, i, g1, g2, g3⟩ := message_back hE std hnm h2 h4 inv.clean q rfl rfl
      rw [← inv.count] at h1
      refine ⟨?_, ?_, ?_, ?_⟩
      · show All2 _ w.sent (w.link.step .poll).queued
        rw [hq]; exact inv.under
      · show (w.arrived ++ [_]).length = (w.link.step .poll).taken.length
        rw [hk, List.length_append, List.length_append, inv.count]; rfl
      · show All2 _ (w.sent.take (w.arrived ++ [_]).length) (w.arrived ++ [_])
        rw [List.length_append, List.length_singleton, h1]
        exact inv.arrived.snoc ⟨ht, h3, i, g1, g2⟩
      · show DState.Clean L { shared := sharedAfter w.shared (messageObject E L m w.shared q) }
        rw [g1]; exact g3

theorem wire_run (E : TextEnv) (hE : ExtendsAscii E.uni) (L : Lib) (std : L.Standard) (n m : Nat) (hnm : n < m)
    (client : Bool) (rpid : UUID) (ops : List WireOp) (hl : ∀ op ∈ ops, op.Legal E L n) (hn : ops.length < 2 ^ 64) :
    WireInv E L n ((WireLink.fresh client rpid).run E L n m ops) := by
  have key : ∀ k, k ≤ ops.length → WireInv E L n ((WireLink.fresh client rpid).run E L n m (ops.take k)) := by
    intro k
    induction k with
    | zero =>
      intro _
      exact ⟨.nil, rfl, .nil, fun c m e => by cases e⟩
    | succ k ih =>
      intro hk
      have hi := ih (by omega)
      have e : ops.take (k + 1) = ops.take k ++ [ops[k]] := (List.take_append_getElem (by omega)).symm
      have hrun : (WireLink.fresh client rpid).run E L n m (ops.take (k + 1)) =
          ((WireLink.fresh client rpid).run E L n m (ops.take k)).step E L n m ops[k] := by
        rw [e]; unfold WireLink.run; rw [List.foldl_append]; rfl
      have hlk : ∀ op ∈ ops.take (k + 1), op.Legal E L n := fun op hop => hl op (List.mem_of_mem_take hop)
      have hlen := unders_length E n (ops.take (k + 1))
      rw [List.length_take] at hlen
      have c := C04_fifo_prefix client rpid ((ops.take (k + 1)).flatMap (WireOp.under E n)) (unders_legal hlk) (by omega)
      have hu := run_under E L n m (WireLink.fresh client rpid) (ops.take (k + 1))
      rw [show (WireLink.fresh client rpid).link = Link.fresh client rpid from rfl] at hu
      rw [← hu] at c
      rw [hrun] at c ⊢
      exact step_inv hE std hnm hi (hl _ (List.getElem_mem _)) c.1 c.2
  have := key ops.length (Nat.le_refl _)
  rwa [List.take_length] at this

end Verif
