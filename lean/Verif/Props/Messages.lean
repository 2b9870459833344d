import Verif.Proof.Messages
import Verif.Props.Events
import Verif.Props.Forms
import Verif.Props.Transport

/-!
# C84: what is sent has the layout of the protocol

Specification: `Verif/Spec/Messages.lean`, with the tables of [MS-PSRP].
-/

namespace Verif

/-- **C84** A fragment is exactly the object id, the fragment id, the flags, the length and the data, in this order, the most significant
byte of each number first. -/
theorem C84_fragment (oid fid : Nat) (data : Bytes) (last : Bool) (wire : Bytes) :
    createFragment oid fid data last = .ok wire ↔ FragmentLayout oid fid data last wire := fragment_layout

/-- **C84** A message is exactly the destination, the number of its type, the ids of the pool and of the pipeline and the data, in this
order, the least significant byte of each number first. -/
theorem C84_message (client : Bool) (t : MsgType) (data : Bytes) (rpid : UUID) (pid : Option UUID) (wire : Bytes) :
    createMessage client t data rpid pid = .ok wire ↔ MessageLayout client t data rpid pid wire := message_layout

/-- **C84** What `data_to_send` gives is a row of fragments with that layout, each with the first of the bytes that a message of the
payload's pipeline has left. -/
theorem C84_payload (buffer buffer' : List PSRPMessage) (amount : Option Int) (p : Payload)
    (hb : ∀ m ∈ buffer, m.objectId < 2 ^ 64 ∧ m.fragCounter < 2 ^ 64 ∧ m.data.length < 2 ^ 32)
    (h : dataToSend buffer amount = (buffer', .ok (some p))) : ∃ ws : List Bytes, p.data = ws.flatten ∧ ∀ w ∈ ws, ∃ m ∈ buffer,
      ∃ fid data last, FragmentLayout m.objectId fid data last w ∧ data <+: m.data ∧ m.pipelineId = p.pipelineId := by
  obtain ⟨fs, he, hf⟩ := C06_one_target buffer buffer' amount p hb h
  generalize p.data = d at he
  induction he with
  | nil => exact ⟨[], rfl, fun _ h => by cases h⟩
  | @cons f fs b bs hw _ ih =>
    obtain ⟨ws, rfl, hws⟩ := ih fun g hg => hf g (List.mem_cons_of_mem _ hg)
    refine ⟨b :: ws, rfl, fun w hm => ?_⟩
    rcases List.mem_cons.mp hm with rfl | hm
    · obtain ⟨m, hm, e, h1, h2⟩ := hf f List.mem_cons_self
      exact ⟨m, hm, f.fragmentId, f.data, f.end_, (C84_fragment ..).mp (e ▸ hw), h1, h2⟩
    · exact hws w hm

/-- **C84** (partial) The data of a message has the properties of [MS-PSRP] 2.2.2 for it, with their names, types and values, in this
order; a value has the form of C68. The object that is made for the message is new. UTF-8 is in `C71_utf8_written`.
Missing: the values that have no form (C68), and a limit of 0 in CONNECT_RUNSPACEPOOL, which is left out
(`C72_connect_zero_violated`). -/
theorem C84_body_partial (E : TextEnv) (n : Nat) (l : Letter) (H : Heap) (a k : Nat) (sh : Shape) (hs : l.shape = .ok sh)
    (fields : l.FieldsFormal E) (objects : GraphFormal E H l.objects) (fresh : ∀ b, Reach H l.objects b → b ≠ a)
    (t : MsgType) (data : Bytes) (h : messageData E n l.type (sh.outgoing H a k) = .ok (t, data)) :
    t = l.type ∧ ∃ text, MessageBodyText H l.body text ∧ data = text.flatMap utf8Char := body_written hs fields objects fresh h

/-! ### Cases -/

/-- Beside `C84_fragment`. -/
example : createFragment 7 0 [1, 2, 3] true = .ok [0, 0, 0, 0, 0, 0, 0, 7, 0, 0, 0, 0, 0, 0, 0, 0, 3, 0, 0, 0, 3, 1, 2, 3] := by
  decide

example : FragmentLayout 7 256 [9] false [0, 0, 0, 0, 0, 0, 0, 7, 0, 0, 0, 0, 0, 0, 1, 0, 0, 0, 0, 0, 1, 9] :=
  (C84_fragment ..).mp (by decide)

example : ¬ FragmentLayout 7 256 [9] false [7, 0, 0, 0, 0, 0, 0, 0, 0, 0, 0, 0, 0, 0, 1, 0, 0, 0, 0, 0, 1, 9] := fun h =>
  absurd ((C84_fragment ..).mpr h) (by decide)

/-- Beside `C84_payload`: a message that does not fit and is sent in part. -/
example : ∃ p b, dataToSend [⟨.PipelineInput, none, 1, .default, List.replicate 50 7, 0⟩] (some 30) = (b, .ok (some p)) ∧
    ∃ ws : List Bytes, p.data = ws.flatten ∧ ws ≠ [] := by
  refine ⟨_, _, rfl, ?_⟩
  obtain ⟨ws, h, _⟩ := C84_payload _ _ _ _ (by decide) (show dataToSend [⟨.PipelineInput, none, 1, .default, List.replicate 50 7, 0⟩]
    (some 30) = (_, .ok (some _)) from rfl)
  refine ⟨ws, h, ?_⟩
  rintro rfl
  exact absurd h (by decide)

/-- Beside `C84_message`. -/
example : MessageLayout true .PipelineInput [60] exRpid none
    ([2, 0, 0, 0, 2, 16, 4, 0] ++ exRpid.bytesLE ++ List.replicate 16 0 ++ [60]) := (C84_message ..).mp (by decide)

/-- Beside `C84_body_partial`: the messages of `letterExamples`. -/
theorem letters_formal : ∀ l ∈ letterExamples, l.FieldsFormal plainEnv ∧ GraphFormal plainEnv exampleHeap l.objects ∧
    (∀ b, Reach exampleHeap l.objects b → b ≠ 100) := by
  intro l hl
  have ok := letters_ok (examplePost l) (by rw [letters_posts]; exact List.mem_map.mpr ⟨l, hl, rfl⟩)
  refine ⟨?_, formal_of_ok ok.graph ?_ ?_, ok.addr⟩
  · have hf := ok.fields
    have sound : ∀ {s : PyStr}, TextOk s → Sound s := fun h => ⟨h.1, h.2.1⟩
    simp only [letterExamples, List.mem_cons, List.not_mem_nil, or_false] at hl
    rcases hl with rfl | rfl | rfl | rfl | rfl | rfl | rfl | rfl | rfl | rfl | rfl | rfl
    · exact fun v hv => (hf v hv).1
    · trivial
    · trivial
    · exact hf
    · trivial
    · trivial
    · trivial
    · trivial
    · trivial
    · trivial
    · exact fun t ht => sound (hf t ht).1
    · exact ⟨by simp, by simp⟩
  · have : ∀ l ∈ letterExamples, ∀ v ∈ l.objects, v.noDecimal = true := by decide +kernel
    exact fun p hp => noDecimal_iff.mp (this l hl _ hp)
  · intro a ha
    have hm : a ∈ [0, 1, 2, 3, 4] := reach_within (letters_graph l hl).2.2.1 (by decide +kernel) ha
    have all : ∀ a ∈ [0, 1, 2, 3, 4], (∀ v ∈ (exampleHeap a).values, v.noDecimal = true) ∧
        (match (exampleHeap a).data with | .ext p => noDecimal p | .enum p => noDecimal p | _ => true) = true := by decide +kernel
    obtain ⟨h1, h2⟩ := all a hm
    refine ⟨fun p hp => noDecimal_iff.mp (h1 _ hp), fun p hp => noDecimal_iff.mp ?_⟩
    rcases hp with hp | hp <;> (change (exampleHeap a).data = _ at hp; rw [hp] at h2; exact h2)

theorem letters_bodies : ∀ l ∈ letterExamples, ∃ sh data, l.shape = .ok sh ∧
    messageData plainEnv 8 l.type (sh.outgoing exampleHeap 100 100) = .ok (l.type, data) ∧
    ∃ text, MessageBodyText exampleHeap l.body text ∧ data = text.flatMap utf8Char := by
  intro l hl
  obtain ⟨k, _, hk⟩ := letters_size l hl
  unfold letterSize at hk
  cases hs : l.shape with
  | error e => rw [hs] at hk; cases hk
  | ok sh =>
    rw [hs] at hk
    dsimp only at hk
    cases hd : messageData plainEnv 8 l.type (sh.outgoing exampleHeap 100 100) with
    | error e => rw [hd] at hk; cases hk
    | ok q =>
      obtain ⟨t, d⟩ := q
      obtain ⟨h1, h2, h3⟩ := letters_formal l hl
      obtain ⟨rfl, h⟩ := C84_body_partial plainEnv 8 l exampleHeap 100 100 sh hs h1 h2 h3 t d hd
      exact ⟨sh, d, rfl, hd, h⟩

/-- The text of one of them. -/
example : ∃ sh, (Letter.pipelineState .Completed .nil).shape = .ok sh ∧
    messageData plainEnv 8 .PipelineState (sh.outgoing exampleHeap 100 100) = .ok (.PipelineState,
      (txt! "<Obj RefId=\"0\"><TN RefId=\"0\"><T>System.Object</T></TN><MS><I32 N=\"PipelineState\">4</I32></MS></Obj>").map fun c => UInt8.ofNat c) :=
  ⟨_, rfl, by decide +kernel⟩

end Verif
