import Verif.Proof.Bytes

/-!
# C01, C02: the fragment and message wire formats

Only `createFragment`, `unpackFragment`, `createMessage`, `unpackMessage` and the
plain data types of the model appear in the statements.
-/

namespace Verif

/-- **C01** For every object id and fragment id that fits the 8 byte fields, every
data that fits the 4 byte length field, both end flags and *whatever bytes follow*,
packing succeeds with exactly `21 + len(data)` bytes and unpacking gives everything
back, the start flag being set exactly for fragment id 0. -/
theorem C01_fragment_roundtrip (oid fid : Nat) (data rest : Bytes) (fin : Bool)
    (ho : oid < 2 ^ 64) (hf : fid < 2 ^ 64) (hd : data.length < 2 ^ 32) :
    ∃ wire, createFragment oid fid data fin = .ok wire ∧
      wire.length = 21 + data.length ∧
      unpackFragment (wire ++ rest) =
        .ok { objectId := oid, fragmentId := fid, start := decide (fid = 0), end_ := fin,
              data := data } := by
  refine ⟨_, createFragment_ok fin ho hf hd, fragBytes_length .., ?_⟩
  rw [unpackFragment_fragBytes fin rest ho hf hd]
  congr 2

example : ∃ wire, createFragment 7 300 [1, 2, 3] true = .ok wire ∧ wire.length = 24 ∧
    unpackFragment (wire ++ [9, 9]) = .ok ⟨7, 300, false, true, [1, 2, 3]⟩ :=
  C01_fragment_roundtrip 7 300 [1, 2, 3] [9, 9] true (by decide) (by decide) (by decide)

/-- **C01** Out of range ids or lengths are refused instead of being truncated. -/
theorem C01_fragment_out_of_range (oid fid : Nat) (data : Bytes) (fin : Bool)
    (h : 2 ^ 64 ≤ oid ∨ 2 ^ 64 ≤ fid ∨ 2 ^ 32 ≤ data.length) :
    createFragment oid fid data fin = .error .structError := by
  have e8 : (256 : Nat) ^ 8 = 2 ^ 64 := by decide
  have e4 : (256 : Nat) ^ 4 = 2 ^ 32 := by decide
  simp only [createFragment, packBE, bind, Except.bind, pure, Except.pure, e8, e4]
  by_cases h1 : oid < 2 ^ 64
  · by_cases h2 : fid < 2 ^ 64
    · have h3 : ¬ data.length < 2 ^ 32 := by omega
      simp [h1, h2, h3]
    · simp [h1, h2]
  · simp [h1]

example : createFragment (2 ^ 64) 0 [1] true = .error .structError :=
  C01_fragment_out_of_range _ _ _ _ (by decide)

/-- **C01** The wire form is unambiguous: two streams of one fragment and trailing
bytes that are equal carry equal fragments and equal trailing bytes. -/
theorem C01_fragment_injective (oid fid oid' fid' : Nat) (data rest data' rest' : Bytes)
    (fin fin' : Bool) (wire wire' : Bytes)
    (h : createFragment oid fid data fin = .ok wire)
    (h' : createFragment oid' fid' data' fin' = .ok wire')
    (heq : wire ++ rest = wire' ++ rest') :
    oid = oid' ∧ fid = fid' ∧ data = data' ∧ fin = fin' ∧ rest = rest' := by
  have key : ∀ {o f : Nat} {d : Bytes} {e : Bool} {w : Bytes}, createFragment o f d e = .ok w →
      o < 2 ^ 64 ∧ f < 2 ^ 64 ∧ d.length < 2 ^ 32 := by
    intro o f d e w hw
    by_cases hc : 2 ^ 64 ≤ o ∨ 2 ^ 64 ≤ f ∨ 2 ^ 32 ≤ d.length
    · rw [C01_fragment_out_of_range _ _ _ _ hc] at hw; cases hw
    · omega
  obtain ⟨a1, a2, a3⟩ := key h
  obtain ⟨b1, b2, b3⟩ := key h'
  obtain ⟨w, hw, hwl, hu⟩ := C01_fragment_roundtrip oid fid data rest fin a1 a2 a3
  obtain ⟨w', hw', hwl', hu'⟩ := C01_fragment_roundtrip oid' fid' data' rest' fin' b1 b2 b3
  rw [h] at hw; rw [h'] at hw'
  cases hw; cases hw'
  rw [heq, hu'] at hu
  simp only [Except.ok.injEq, Fragment.mk.injEq] at hu
  obtain ⟨r1, r2, -, r4, r5⟩ := hu
  refine ⟨r1.symm, r2.symm, r5.symm, r4.symm, ?_⟩
  have hl : wire.length = wire'.length := by rw [hwl, hwl', r5]
  exact (List.append_inj heq hl).2

example : ∃ w, createFragment 1 0 [5] true = .ok w ∧ w ++ [1] = w ++ [1] := ⟨_, rfl, rfl⟩

/-- **C02** For both directions, every message type, runspace pool id, optional
pipeline id other than the all-zero one, and payload that does not begin with a UTF-8
byte order mark: packing succeeds with a 40 byte header and unpacking gives everything
back. -/
theorem C02_message_roundtrip (client : Bool) (t : MsgType) (data : Bytes) (rpid : UUID)
    (pid : Option UUID) (hpid : ∀ p, pid = some p → p.bytes ≠ List.replicate 16 0)
    (hbom : ¬ [0xEF, 0xBB, 0xBF] <+: data) :
    ∃ wire, createMessage client t data rpid pid = .ok wire ∧
      wire.length = 40 + data.length ∧
      unpackMessage wire =
        .ok { destination := if client then 2 else 1, messageType := t, rpid := rpid,
              pid := pid, data := data } := by
  refine ⟨_, createMessage_ok client t data rpid pid, msgBytes_length .., ?_⟩
  rw [unpackMessage_msgBytes]
  have hb : utf8Bom.isPrefixOf data = false := by
    cases hb : utf8Bom.isPrefixOf data with
    | false => rfl
    | true => exact absurd (List.isPrefixOf_iff_prefix.mp hb) hbom
  rw [hb]
  cases pid with
  | none => simp
  | some p =>
    have : p ≠ EMPTY_UUID := by
      intro he; exact hpid p rfl (by rw [he]; rfl)
    simp [this]

/-- A concrete pipeline id for the examples. -/
def exPid : UUID := ⟨[1, 2, 3, 4, 5, 6, 7, 8, 9, 10, 11, 12, 13, 14, 15, 16], by decide⟩
/-- A concrete runspace pool id for the examples. -/
def exRpid : UUID := ⟨[16, 15, 14, 13, 12, 11, 10, 9, 8, 7, 6, 5, 4, 3, 2, 1], by decide⟩

example : ∃ wire, createMessage true .PipelineInput [60, 83, 47, 62] exRpid (some exPid) = .ok wire ∧
    wire.length = 44 ∧ unpackMessage wire =
      .ok ⟨2, .PipelineInput, exRpid, some exPid, [60, 83, 47, 62]⟩ :=
  C02_message_roundtrip true .PipelineInput [60, 83, 47, 62] exRpid (some exPid)
    (by intro p hp; cases hp; decide) (by decide)

/-- **C02** What happens for the two excluded inputs: a leading byte order mark is
dropped, the all-zero pipeline id is reported as no pipeline. -/
theorem C02_message_excluded (client : Bool) (t : MsgType) (data : Bytes) (rpid : UUID) :
    (∃ wire, createMessage client t ([0xEF, 0xBB, 0xBF] ++ data) rpid none = .ok wire ∧
      (unpackMessage wire).toOption.map Message.data = some data) ∧
    (∃ wire, createMessage client t data rpid (some EMPTY_UUID) = .ok wire ∧
      (unpackMessage wire).toOption.map Message.pid = some none) := by
  refine ⟨⟨_, createMessage_ok .., ?_⟩, ⟨_, createMessage_ok .., ?_⟩⟩
  · rw [unpackMessage_msgBytes]
    have : utf8Bom.isPrefixOf ([0xEF, 0xBB, 0xBF] ++ data) = true :=
      List.isPrefixOf_iff_prefix.mpr ⟨data, rfl⟩
    rw [this]; rfl
  · rw [unpackMessage_msgBytes]; simp [Except.toOption]

/-- **C02** The message type survives for all of the 31 defined types and no other
number is accepted as a type. -/
theorem C02_unknown_type_refused (n : Nat) (h : ∀ t : MsgType, t.value ≠ n) :
    MsgType.ofValue n = .error .valueError := by
  unfold MsgType.ofValue
  rw [List.find?_eq_none.mpr]
  intro t _
  simpa using h t

example : ∀ t : MsgType, t.value ≠ 0 := by intro t; cases t <;> decide

end Verif
