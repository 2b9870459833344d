import Verif.Model.Transport
import Verif.Proof.Bytes

/-! # Lemmas on the send loop and on dicts -/

namespace Verif

/-! ## Dicts -/

namespace Dict

variable {α β : Type} [DecidableEq α]

theorem get?_set_self (d : Dict α β) (k : α) (v : β) : (d.set k v).get? k = some v := by
  induction d with
  | nil => simp [set, get?]
  | cons kv d ih =>
    obtain ⟨k', v'⟩ := kv
    simp only [set]
    split <;> simp_all [get?]

theorem get?_set_ne (d : Dict α β) {k k' : α} (v : β) (h : k ≠ k') :
    (d.set k v).get? k' = d.get? k' := by
  induction d with
  | nil => simp [set, get?, h]
  | cons kv d ih =>
    obtain ⟨k2, v2⟩ := kv
    simp only [set]
    split
    · subst_vars; simp [get?, h]
    · simp [get?, ih]

theorem get?_erase_ne (d : Dict α β) {k k' : α} (h : k ≠ k') :
    (d.erase k).get? k' = d.get? k' := by
  induction d with
  | nil => rfl
  | cons kv d ih =>
    obtain ⟨k2, v2⟩ := kv
    simp only [erase]
    split
    · subst_vars; simp [get?, h]
    · simp [get?, ih]

theorem get?_eq_none (d : Dict α β) (k : α) : d.get? k = none ↔ k ∉ d.keys := by
  induction d with
  | nil => simp [get?, keys]
  | cons kv d ih =>
    obtain ⟨k2, v2⟩ := kv
    simp only [get?, keys, List.map_cons, List.mem_cons, not_or]
    split
    · subst_vars; simp
    · rename_i h
      rw [ih]
      simp only [keys]
      exact ⟨fun h' => ⟨fun h2 => h h2.symm, h'⟩, fun h' => h'.2⟩

theorem set_new (d : Dict α β) (k : α) (v : β) (h : k ∉ d.keys) : d.set k v = d ++ [(k, v)] := by
  induction d with
  | nil => rfl
  | cons kv d ih =>
    obtain ⟨k2, v2⟩ := kv
    simp only [keys, List.map_cons, List.mem_cons, not_or] at h
    simp only [set, List.cons_append]
    rw [if_neg (fun h2 => h.1 h2.symm), ih h.2]

theorem keys_set_mem (d : Dict α β) (k : α) (v : β) (h : k ∈ d.keys) :
    (d.set k v).keys = d.keys := by
  induction d with
  | nil => simp [keys] at h
  | cons kv d ih =>
    obtain ⟨k2, v2⟩ := kv
    simp only [set]
    split
    · subst_vars; simp [keys]
    · rename_i hne
      simp only [keys, List.map_cons, List.mem_cons] at h
      rcases h with h | h
      · exact absurd h.symm hne
      · have := ih h
        simp only [keys, List.map_cons] at this ⊢
        rw [this]

theorem keys_nodup_set (d : Dict α β) (k : α) (v : β) (h : d.keys.Nodup) :
    (d.set k v).keys.Nodup := by
  by_cases hk : k ∈ d.keys
  · rw [keys_set_mem d k v hk]; exact h
  · rw [set_new d k v hk]
    simp only [keys, List.map_append, List.map_cons, List.map_nil] at hk ⊢
    rw [List.nodup_append]
    refine ⟨h, by simp, ?_⟩
    intro a ha b hb hab
    simp only [List.mem_singleton] at hb
    subst hb; subst hab
    exact hk ha

theorem erase_sublist (d : Dict α β) (k : α) : (d.erase k).Sublist d := by
  induction d with
  | nil => exact List.Sublist.refl _
  | cons kv d ih =>
    obtain ⟨k2, v2⟩ := kv
    simp only [erase]
    split
    · exact List.sublist_cons_self _ _
    · exact ih.cons_cons _

theorem keys_nodup_erase (d : Dict α β) (k : α) (h : d.keys.Nodup) : (d.erase k).keys.Nodup :=
  ((erase_sublist d k).map _).nodup h

theorem get?_erase_self (d : Dict α β) (k : α) (h : d.keys.Nodup) : (d.erase k).get? k = none := by
  induction d with
  | nil => rfl
  | cons kv d ih =>
    obtain ⟨k2, v2⟩ := kv
    simp only [keys, List.map_cons, List.nodup_cons] at h
    simp only [erase]
    split
    · subst_vars
      rw [get?_eq_none]; exact h.1
    · rename_i hne
      simp only [get?, if_neg hne]
      exact ih h.2

theorem set_set (d : Dict α β) (k : α) (v v' : β) : (d.set k v).set k v' = d.set k v' := by
  induction d with
  | nil => simp [set]
  | cons kv d ih =>
    obtain ⟨k2, v2⟩ := kv
    simp only [set]
    split
    · subst_vars; simp [set]
    · rename_i hne; simp [set, hne, ih]

end Dict

/-! ## The send loop -/

/-- The bytes of a fragment. -/
def Fragment.wire (f : Fragment) : Bytes := fragBytes f.objectId f.fragmentId f.data f.end_

/-- The bytes of a list of fragments. -/
def wireOf (fs : List Fragment) : Bytes := fs.flatMap Fragment.wire

@[simp] theorem wireOf_nil : wireOf [] = [] := rfl
@[simp] theorem wireOf_cons (f : Fragment) (fs : List Fragment) :
    wireOf (f :: fs) = f.wire ++ wireOf fs := rfl
@[simp] theorem wireOf_append (fs gs : List Fragment) :
    wireOf (fs ++ gs) = wireOf fs ++ wireOf gs := by simp [wireOf]

theorem Fragment.wire_length (f : Fragment) : f.wire.length = 21 + f.data.length :=
  fragBytes_length ..

/-- The ids and the length of a fragment fit the header fields. -/
structure Fragment.Fits (f : Fragment) : Prop where
  oid : f.objectId < 2 ^ 64
  fid : f.fragmentId < 2 ^ 64
  len : f.data.length < 2 ^ 32
  start : f.start = (f.fragmentId == 0)

theorem Fragment.Fits.unpack {f : Fragment} (h : f.Fits) (rest : Bytes) :
    unpackFragment (f.wire ++ rest) = .ok f := by
  unfold Fragment.wire
  rw [unpackFragment_fragBytes f.end_ rest h.oid h.fid h.len]
  cases f; cases h; simp_all

/-- The ids and the length of a queued message fit the header fields. -/
structure PSRPMessage.Fits (m : PSRPMessage) : Prop where
  oid : m.objectId < 2 ^ 64
  fid : m.fragCounter < 2 ^ 64
  len : m.data.length < 2 ^ 32

/-- What one `data_to_send` call did to the send buffer: the messages sent in full,
then possibly one sent in part; all of them for the same pipeline. -/
inductive Sent (pid : Option UUID) :
    List PSRPMessage → List Fragment → List PSRPMessage → Prop
  | stop (S) : Sent pid S [] S
  | full (m ms fs ms') : m.pipelineId = pid → Sent pid ms fs ms' →
      Sent pid (m :: ms) (⟨m.objectId, m.fragCounter, m.fragCounter == 0, true, m.data⟩ :: fs) ms'
  | part (m ms n) : m.pipelineId = pid → n < m.data.length →
      Sent pid (m :: ms) [⟨m.objectId, m.fragCounter, m.fragCounter == 0, false, m.data.take n⟩]
        ({ m with data := m.data.drop n, fragCounter := m.fragCounter + 1 } :: ms)

theorem sendLoop_stop (a : Int) (h : a < 21) (buf st pid kept S) :
    sendLoop (some a) buf st pid kept S = (kept ++ S, .ok (buf, st, pid)) := by
  cases S with
  | nil => simp [sendLoop]
  | cons m ms => simp [sendLoop, amountBelow, h]

theorem fragment_full (m : PSRPMessage) (n : Nat) (h : m.data.length ≤ n) :
    m.fragment n = ({ m with data := [], fragCounter := m.fragCounter + 1 },
      ⟨m.objectId, m.fragCounter, m.fragCounter == 0, true, m.data⟩) := by
  simp [PSRPMessage.fragment, List.take_of_length_le h, List.drop_of_length_le h]

theorem fragment_part (m : PSRPMessage) (n : Nat) (h : n < m.data.length) :
    m.fragment n = ({ m with data := m.data.drop n, fragCounter := m.fragCounter + 1 },
      ⟨m.objectId, m.fragCounter, m.fragCounter == 0, false, m.data.take n⟩) := by
  have : (m.data.drop n).length ≠ 0 := by rw [List.length_drop]; omega
  simp only [PSRPMessage.fragment, Prod.mk.injEq, Fragment.mk.injEq, true_and, and_true]
  simpa using this

/-- One iteration that sends a message in full. -/
theorem sendLoop_full (amount : Option Int) (buf st pid kept m ms) (hm : m.Fits)
    (ha : ∀ a, amount = some a → 21 ≤ a) (hp : buf ≠ [] → pid = m.pipelineId)
    (hlen : m.data.length ≤ allowedLength amount m) :
    sendLoop amount buf st pid kept (m :: ms) =
      sendLoop (amountLeft amount m)
        (buf ++ fragBytes m.objectId m.fragCounter m.data true)
        (if buf.isEmpty then m.streamType else st) m.pipelineId kept ms := by
  have h1 : amountBelow amount 21 = false := by
    cases amount with
    | none => rfl
    | some a => have := ha a rfl; simp [amountBelow]; omega
  have h2 : (if buf.isEmpty then m.pipelineId else pid) = m.pipelineId := by
    cases buf with
    | nil => rfl
    | cons b bs => simpa using hp (by simp)
  have h3 := fragment_full m _ hlen
  rw [sendLoop]
  simp only [h1, h2, h3, createFragment_ok true hm.oid hm.fid hm.len]
  simp

/-- One iteration that sends a message in part. -/
theorem sendLoop_part (a : Int) (buf st pid kept m ms) (hm : m.Fits)
    (ha : 21 ≤ a) (hp : buf ≠ [] → pid = m.pipelineId)
    (hlen : (a - 21).toNat < m.data.length) :
    sendLoop (some a) buf st pid kept (m :: ms) =
      (kept ++ { m with data := m.data.drop (a - 21).toNat, fragCounter := m.fragCounter + 1 } :: ms,
       .ok (buf ++ fragBytes m.objectId m.fragCounter (m.data.take (a - 21).toNat) false,
        (if buf.isEmpty then m.streamType else st), m.pipelineId)) := by
  have h1 : amountBelow (some a) 21 = false := by simp [amountBelow]; omega
  have h2 : (if buf.isEmpty then m.pipelineId else pid) = m.pipelineId := by
    cases buf with
    | nil => rfl
    | cons b bs => simpa using hp (by simp)
  have h3 := fragment_part m _ hlen
  have h4 : (m.data.take (a - 21).toNat).length < 2 ^ 32 := by
    have := hm.len
    rw [List.length_take]; omega
  have h5 : (m.data.drop (a - 21).toNat).length ≠ 0 := by rw [List.length_drop]; omega
  rw [sendLoop]
  simp only [h1, h2, h3, createFragment_ok false hm.oid hm.fid h4, if_neg h5, amountLeft, allowedLength]
  rw [sendLoop_stop _ (by omega)]
  simp

theorem sendLoop_otherPid (amount : Option Int) (buf st pid kept m ms)
    (hb : buf ≠ []) (hp : pid ≠ m.pipelineId) :
    sendLoop amount buf st pid kept (m :: ms) = (kept ++ m :: ms, .ok (buf, st, pid)) := by
  have hb' : buf.isEmpty = false := by cases buf <;> simp_all
  rw [sendLoop]
  simp only [hb', Bool.false_eq_true, if_false, if_pos hp]
  split <;> rfl

/-- The full specification of the loop. -/
theorem sendLoop_spec (S : List PSRPMessage) (hS : ∀ m ∈ S, m.Fits) :
    ∀ (amount : Option Int) (buf : Bytes) (st : StreamType) (pid : Option UUID),
    (buf = [] → ∀ a, amount = some a → 22 ≤ a) →
    ∃ fs S' st' pid', sendLoop amount buf st pid [] S = (S', .ok (buf ++ wireOf fs, st', pid')) ∧
      Sent pid' S fs S' ∧
      (∀ a, amount = some a → ((wireOf fs).length : Int) ≤ max a 0) ∧
      (buf ≠ [] → pid' = pid ∧ st' = st) ∧
      (buf = [] → ∀ m ms, S = m :: ms → pid' = m.pipelineId ∧ st' = m.streamType ∧
        ∃ f fs', fs = f :: fs' ∧ f.objectId = m.objectId ∧ (m.data ≠ [] → f.data ≠ [])) := by
  induction S with
  | nil =>
    intro amount buf st pid _
    refine ⟨[], [], st, pid, by simp [sendLoop], .stop _, ?_, fun _ => ⟨rfl, rfl⟩, ?_⟩
    · intro a _; simp; omega
    · intro _ m ms h; cases h
  | cons m ms ih =>
    intro amount buf st pid ha
    have hm : m.Fits := hS m (by simp)
    have ih' := ih (fun m' h => hS m' (by simp [h]))
    -- does the amount allow another header?
    by_cases hstop : ∃ a, amount = some a ∧ a < 21
    · obtain ⟨a, rfl, h21⟩ := hstop
      have hb : buf ≠ [] := fun h => by have := ha h a rfl; omega
      refine ⟨[], m :: ms, st, pid, by rw [sendLoop_stop a h21]; simp, .stop _, ?_,
        fun _ => ⟨rfl, rfl⟩, fun h => absurd h hb⟩
      intro a' _; simp; omega
    · have ha21 : ∀ a, amount = some a → 21 ≤ a := by
        intro a h
        by_cases h2 : a < 21
        · exact absurd ⟨a, h, h2⟩ hstop
        · omega
      -- same target?
      by_cases hpid : buf ≠ [] ∧ pid ≠ m.pipelineId
      · refine ⟨[], m :: ms, st, pid, ?_, .stop _, ?_, fun _ => ⟨rfl, rfl⟩,
          fun h => absurd h hpid.1⟩
        · rw [sendLoop_otherPid amount buf st pid [] m ms hpid.1 hpid.2]; simp
        · intro a' _; simp; omega
      · have hp : buf ≠ [] → pid = m.pipelineId := by
          intro h
          by_cases h2 : pid = m.pipelineId
          · exact h2
          · exact absurd ⟨h, h2⟩ hpid
        by_cases hfull : m.data.length ≤ allowedLength amount m
        · have hne : buf ++ fragBytes m.objectId m.fragCounter m.data true ≠ [] := by
            intro h
            have := congrArg List.length h
            rw [List.length_append, fragBytes_length] at this
            simp at this
          obtain ⟨fs, S', st', pid', h1, h2, h3, h4, -⟩ :=
            ih' (amountLeft amount m)
              (buf ++ fragBytes m.objectId m.fragCounter m.data true)
              (if buf.isEmpty then m.streamType else st) m.pipelineId
              (fun h => absurd h hne)
          obtain ⟨hpid', hst'⟩ := h4 hne
          refine ⟨⟨m.objectId, m.fragCounter, m.fragCounter == 0, true, m.data⟩ :: fs, S', st', pid',
            ?_, ?_, ?_, ?_, ?_⟩
          · rw [sendLoop_full amount buf st pid [] m ms hm ha21 hp hfull, h1]
            simp [Fragment.wire]
          · exact .full m ms fs S' hpid'.symm h2
          · intro a h
            subst h
            have := h3 _ rfl
            have h21 := ha21 a rfl
            simp only [allowedLength] at hfull
            rw [wireOf_cons, List.length_append, Fragment.wire_length]
            dsimp only
            push_cast
            omega
          · intro hb
            refine ⟨hpid'.trans (hp hb).symm, ?_⟩
            rw [hst']
            cases buf <;> simp_all
          · intro hb m2 ms2 heq
            cases heq
            subst hb
            exact ⟨hpid', by rw [hst']; rfl, _, _, rfl, rfl, fun h => h⟩
        · -- sent in part
          cases amount with
          | none => simp [allowedLength] at hfull
          | some a =>
            simp only [allowedLength, Nat.not_le] at hfull
            have h21 := ha21 a rfl
            refine ⟨[⟨m.objectId, m.fragCounter, m.fragCounter == 0, false,
                m.data.take (a - 21).toNat⟩], _, (if buf.isEmpty then m.streamType else st), m.pipelineId,
              ?_, .part m ms (a - 21).toNat rfl hfull, ?_, ?_, ?_⟩
            · rw [sendLoop_part a buf st pid [] m ms hm h21 hp hfull]
              simp [Fragment.wire]
            · intro a' h
              cases h
              simp only [wireOf_cons, wireOf_nil, List.append_nil, Fragment.wire_length,
                List.length_take]
              push_cast
              omega
            · intro hb
              refine ⟨(hp hb).symm, ?_⟩
              cases buf <;> simp_all
            · intro hb m2 ms2 heq
              cases heq
              subst hb
              refine ⟨rfl, rfl, _, _, rfl, rfl, ?_⟩
              intro hd
              have h22 := ha rfl a rfl
              intro hc
              have := congrArg List.length hc
              simp only [List.length_take, List.length_nil] at this
              have : m.data.length ≠ 0 := fun h => hd (List.length_eq_zero_iff.mp h)
              omega

/-- The full specification of `data_to_send` with a legal amount. -/
theorem dataToSend_spec (S : List PSRPMessage) (hS : ∀ m ∈ S, m.Fits) (amount : Option Int)
    (ha : ∀ a, amount = some a → 22 ≤ a) :
    (S = [] ∧ dataToSend S amount = ([], .ok none)) ∨
    ∃ m ms f fs S' p, S = m :: ms ∧ dataToSend S amount = (S', .ok (some p)) ∧
      p.data = wireOf (f :: fs) ∧ p.pipelineId = m.pipelineId ∧ p.streamType = m.streamType ∧
      Sent p.pipelineId S (f :: fs) S' ∧
      (∀ a, amount = some a → (p.data.length : Int) ≤ a) ∧
      f.objectId = m.objectId ∧ (m.data ≠ [] → f.data ≠ []) := by
  have hg : amountBelow amount 22 = false := by
    cases amount with
    | none => rfl
    | some a => have := ha a rfl; simp [amountBelow]; omega
  obtain ⟨fs, S', st', pid', h1, h2, h3, -, h5⟩ :=
    sendLoop_spec S hS amount [] .default none (fun _ => ha)
  cases S with
  | nil =>
    left
    refine ⟨rfl, ?_⟩
    simp [dataToSend, hg, sendLoop]
  | cons m ms =>
    right
    obtain ⟨hp, hst, f, fs', rfl, hoid, hdata⟩ := h5 rfl m ms rfl
    have hne : (wireOf (f :: fs')).isEmpty = false := by
      have : (wireOf (f :: fs')).length ≠ 0 := by
        rw [wireOf_cons, List.length_append, Fragment.wire_length]; omega
      cases hw : wireOf (f :: fs') with
      | nil => rw [hw] at this; simp at this
      | cons => rfl
    refine ⟨m, ms, f, fs', S', ⟨wireOf (f :: fs'), st', pid'⟩, rfl, ?_, rfl, hp, hst, h2, ?_,
      hoid, hdata⟩
    · simp only [dataToSend, hg, h1, List.nil_append, hne]
      simp
    · intro a h
      have := h3 a h
      have := ha a h
      dsimp only
      omega

theorem Sent.fits {pid S fs S'} (h : Sent pid S fs S') (hS : ∀ m ∈ S, m.Fits) :
    ∀ f ∈ fs, f.Fits := by
  induction h with
  | stop => simp
  | full m ms fs ms' _ _ ih =>
    have hm := hS m (by simp)
    intro f hf
    rcases List.mem_cons.mp hf with rfl | hf
    · exact ⟨hm.oid, hm.fid, hm.len, rfl⟩
    · exact ih (fun m' h' => hS m' (by simp [h'])) f hf
  | part m ms n _ hn =>
    have hm := hS m (by simp)
    intro f hf
    rcases List.mem_cons.mp hf with rfl | hf
    · refine ⟨hm.oid, hm.fid, ?_, rfl⟩
      have := hm.len
      simp only [List.length_take]; omega
    · simp at hf

theorem Sent.mem {pid S fs S'} (h : Sent pid S fs S') :
    ∀ f ∈ fs, ∃ m ∈ S, m.objectId = f.objectId ∧ m.pipelineId = pid ∧
      f.fragmentId = m.fragCounter ∧ f.data <+: m.data ∧ (f.end_ = true ↔ f.data = m.data) := by
  induction h with
  | stop => simp
  | full m ms fs ms' hp _ ih =>
    intro f hf
    rcases List.mem_cons.mp hf with rfl | hf
    · exact ⟨m, by simp, rfl, hp, rfl, List.prefix_refl _, by simp⟩
    · obtain ⟨m', h1, h2⟩ := ih f hf
      exact ⟨m', by simp [h1], h2⟩
  | part m ms n hp hn =>
    intro f hf
    rcases List.mem_cons.mp hf with rfl | hf
    · refine ⟨m, by simp, rfl, hp, rfl, List.take_prefix _ _, ?_⟩
      constructor
      · intro h; cases h
      · intro h
        have := congrArg List.length h
        simp only [List.length_take] at this
        omega
    · simp at hf

end Verif
