import Verif.Model.Payload

/-! # Lemmas on byte encodings, slices and the fragment/message codecs -/

namespace Verif

@[simp] theorem leEnc_length (k n : Nat) : (leEnc k n).length = k := by
  induction k generalizing n with
  | zero => rfl
  | succ k ih => simp [leEnc, ih]

@[simp] theorem beEnc_length (k n : Nat) : (beEnc k n).length = k := by
  simp [beEnc]

theorem leDec_leEnc (k n : Nat) (h : n < 256 ^ k) : leDec (leEnc k n) = n := by
  induction k generalizing n with
  | zero =>
    simp only [Nat.pow_zero] at h
    simp [leEnc, leDec]; omega
  | succ k ih =>
    have h1 : n / 256 < 256 ^ k := by
      rw [Nat.div_lt_iff_lt_mul (by decide)]
      simpa [Nat.pow_succ] using h
    simp only [leEnc, leDec, ih _ h1]
    have : (UInt8.ofNat (n % 256)).toNat = n % 256 := by
      simp [UInt8.toNat_ofNat']
    rw [this]; omega

theorem leDec_lt (b : Bytes) : leDec b < 256 ^ b.length := by
  induction b with
  | nil => simp [leDec]
  | cons x xs ih =>
    have hx : x.toNat < 256 := x.toNat_lt
    simp only [leDec, List.length_cons, Nat.pow_succ]
    omega

theorem leEnc_leDec (b : Bytes) : leEnc b.length (leDec b) = b := by
  induction b with
  | nil => rfl
  | cons x xs ih =>
    have hx : x.toNat < 256 := x.toNat_lt
    simp only [List.length_cons, leEnc, leDec]
    have h1 : (x.toNat + 256 * leDec xs) % 256 = x.toNat := by omega
    have h2 : (x.toNat + 256 * leDec xs) / 256 = leDec xs := by omega
    rw [h1, h2, ih]
    simp

theorem beDec_beEnc (k n : Nat) (h : n < 256 ^ k) : beDec (beEnc k n) = n := by
  simp [beDec, beEnc, leDec_leEnc k n h]

theorem packBE_ok {k n : Nat} (h : n < 256 ^ k) : packBE k n = .ok (beEnc k n) := by
  simp [packBE, h]

theorem packLE_ok {k n : Nat} (h : n < 256 ^ k) : packLE k n = .ok (leEnc k n) := by
  simp [packLE, h]

theorem unpackBE_beEnc {k n : Nat} (h : n < 256 ^ k) : unpackBE k (beEnc k n) = .ok n := by
  simp [unpackBE, beDec_beEnc k n h]

theorem unpackLE_leEnc {k n : Nat} (h : n < 256 ^ k) : unpackLE k (leEnc k n) = .ok n := by
  simp [unpackLE, leDec_leEnc k n h]

/-- A slice skipping a prefix of known length. -/
theorem slice_append_right {α : Type} (a b : List α) (i j : Nat) :
    slice (a ++ b) (a.length + i) (a.length + j) = slice b i j := by
  simp only [slice, List.take_length_add_append, List.drop_length_add_append]

theorem slice_zero_append {α : Type} (a b : List α) :
    slice (a ++ b) 0 a.length = a := by
  simp [slice]

/-- The middle part of a concatenation. -/
theorem slice_mid {α : Type} (a b c : List α) (i j : Nat) (hi : a.length = i)
    (hj : i + b.length = j) : slice (a ++ (b ++ c)) i j = b := by
  subst hi; subst hj
  have := slice_append_right a (b ++ c) 0 b.length
  rw [Nat.add_zero] at this
  rw [this, slice_zero_append]

theorem flags_unpack (f : Nat) (e : Bool) :
    unpackBE 1 [startEndByte f e] = .ok ((if f = 0 then 1 else 0) ||| (if e then 2 else 0)) := by
  by_cases hf : f = 0 <;> cases e <;> simp [startEndByte, hf, unpackBE, beDec, leDec]

/-- Explicit form of the fragment bytes. -/
def fragBytes (o f : Nat) (d : Bytes) (e : Bool) : Bytes :=
  beEnc 8 o ++ (beEnc 8 f ++ ([startEndByte f e] ++ (beEnc 4 d.length ++ d)))

theorem createFragment_ok {o f : Nat} {d : Bytes} (e : Bool) (ho : o < 2 ^ 64) (hf : f < 2 ^ 64)
    (hd : d.length < 2 ^ 32) : createFragment o f d e = .ok (fragBytes o f d e) := by
  have h1 : o < 256 ^ 8 := by simpa using ho
  have h2 : f < 256 ^ 8 := by simpa using hf
  have h3 : d.length < 256 ^ 4 := by simpa using hd
  simp only [createFragment, packBE_ok h1, packBE_ok h2, packBE_ok h3, bind, Except.bind, pure,
    Except.pure, fragBytes, List.append_assoc]

theorem fragBytes_length (o f : Nat) (d : Bytes) (e : Bool) :
    (fragBytes o f d e).length = 21 + d.length := by
  simp only [fragBytes, List.length_append, beEnc_length, List.length_cons, List.length_nil]
  omega

theorem unpackFragment_fragBytes {o f : Nat} {d : Bytes} (e : Bool) (rest : Bytes)
    (ho : o < 2 ^ 64) (hf : f < 2 ^ 64) (hd : d.length < 2 ^ 32) :
    unpackFragment (fragBytes o f d e ++ rest) = .ok ⟨o, f, f == 0, e, d⟩ := by
  have h1 : o < 256 ^ 8 := by simpa using ho
  have h2 : f < 256 ^ 8 := by simpa using hf
  have h3 : d.length < 256 ^ 4 := by simpa using hd
  have s1 : slice (fragBytes o f d e ++ rest) 0 8 = beEnc 8 o := by
    simpa [fragBytes] using slice_mid [] (beEnc 8 o)
      (beEnc 8 f ++ ([startEndByte f e] ++ (beEnc 4 d.length ++ (d ++ rest)))) 0 8 rfl (by simp)
  have s2 : slice (fragBytes o f d e ++ rest) 8 16 = beEnc 8 f := by
    simpa [fragBytes] using slice_mid (beEnc 8 o) (beEnc 8 f)
      ([startEndByte f e] ++ (beEnc 4 d.length ++ (d ++ rest))) 8 16 (by simp) (by simp)
  have s3 : slice (fragBytes o f d e ++ rest) 16 17 = [startEndByte f e] := by
    simpa [fragBytes] using slice_mid (beEnc 8 o ++ beEnc 8 f) [startEndByte f e]
      (beEnc 4 d.length ++ (d ++ rest)) 16 17 (by simp) (by simp)
  have s4 : slice (fragBytes o f d e ++ rest) 17 21 = beEnc 4 d.length := by
    simpa [fragBytes] using slice_mid (beEnc 8 o ++ (beEnc 8 f ++ [startEndByte f e]))
      (beEnc 4 d.length) (d ++ rest) 17 21 (by simp) (by simp)
  have s5 : slice (fragBytes o f d e ++ rest) 21 (d.length + 21) = d := by
    simpa [fragBytes] using slice_mid
      (beEnc 8 o ++ (beEnc 8 f ++ ([startEndByte f e] ++ beEnc 4 d.length))) d rest 21
      (d.length + 21) (by simp) (by omega)
  unfold unpackFragment
  rw [s1, s2, s3, s4, unpackBE_beEnc h1, unpackBE_beEnc h2, unpackBE_beEnc h3, flags_unpack]
  simp only [bind, Except.bind, pure, Except.pure, s5]
  congr 2
  · by_cases hf0 : f = 0 <;> cases e <;> simp [hf0]
  · by_cases hf0 : f = 0 <;> cases e <;> simp [hf0]

/-! ## UUIDs -/

theorem uuidSwap_length (b : Bytes) (h : b.length = 16) : (uuidSwap b).length = 16 := by
  simp [uuidSwap, h]

theorem uuidSwap_swap (b : Bytes) (h : b.length = 16) : uuidSwap (uuidSwap b) = b := by
  match b, h with
  | [a0, a1, a2, a3, a4, a5, a6, a7, a8, a9, a10, a11, a12, a13, a14, a15], _ => rfl

theorem uuidSwap_length_iff (b : Bytes) : (uuidSwap b).length = b.length := by
  simp only [uuidSwap, List.length_append, List.length_reverse, List.length_take, List.length_drop]
  omega

@[simp] theorem bytesLE_length (u : UUID) : u.bytesLE.length = 16 := uuidSwap_length _ u.len

theorem ofBytesLE_bytesLE (u : UUID) : UUID.ofBytesLE u.bytesLE = .ok u := by
  have h := uuidSwap_swap u.bytes u.len
  unfold UUID.ofBytesLE
  have hl : (uuidSwap u.bytesLE).length = 16 := by rw [UUID.bytesLE, h]; exact u.len
  rw [dif_pos hl]
  congr 1
  cases u with
  | mk b hb => simp only [UUID.bytesLE, UUID.mk.injEq]; exact h

/-! ## Message types -/

theorem MsgType.ofValue_value (t : MsgType) : MsgType.ofValue t.value = .ok t := by
  cases t <;> rfl

theorem MsgType.value_lt (t : MsgType) : t.value < 256 ^ 4 := by
  cases t <;> decide

/-- Explicit form of the message bytes. -/
def msgBytes (client : Bool) (t : MsgType) (data : Bytes) (rpid : UUID) (pid : Option UUID) : Bytes :=
  leEnc 4 (if client then 2 else 1) ++ (leEnc 4 t.value ++
    (rpid.bytesLE ++ ((pid.getD EMPTY_UUID).bytesLE ++ data)))

theorem createMessage_ok (client : Bool) (t : MsgType) (data : Bytes) (rpid : UUID)
    (pid : Option UUID) :
    createMessage client t data rpid pid = .ok (msgBytes client t data rpid pid) := by
  have h1 : (if client then 2 else 1) < 256 ^ 4 := by cases client <;> decide
  simp only [createMessage, packLE_ok h1, packLE_ok t.value_lt, bind, Except.bind, pure,
    Except.pure, msgBytes, List.append_assoc]

theorem msgBytes_length (client : Bool) (t : MsgType) (data : Bytes) (rpid : UUID)
    (pid : Option UUID) : (msgBytes client t data rpid pid).length = 40 + data.length := by
  simp only [msgBytes, List.length_append, leEnc_length, bytesLE_length]
  omega

theorem unpackMessage_msgBytes (client : Bool) (t : MsgType) (data : Bytes) (rpid : UUID)
    (pid : Option UUID) :
    unpackMessage (msgBytes client t data rpid pid) =
      .ok { destination := if client then 2 else 1, messageType := t, rpid := rpid,
            pid := if pid.getD EMPTY_UUID = EMPTY_UUID then none else some (pid.getD EMPTY_UUID),
            data := if utf8Bom.isPrefixOf data then data.drop 3 else data } := by
  have h1 : (if client then 2 else 1) < 256 ^ 4 := by cases client <;> decide
  have s1 : slice (msgBytes client t data rpid pid) 0 4 = leEnc 4 (if client then 2 else 1) :=
    slice_mid [] (leEnc 4 (if client then 2 else 1)) _ 0 4 rfl (by simp)
  have s2 : slice (msgBytes client t data rpid pid) 4 8 = leEnc 4 t.value :=
    slice_mid (leEnc 4 (if client then 2 else 1)) (leEnc 4 t.value) _ 4 8 (by simp) (by simp)
  have s3 : slice (msgBytes client t data rpid pid) 8 24 = rpid.bytesLE := by
    simpa [msgBytes] using slice_mid (leEnc 4 (if client then 2 else 1) ++ leEnc 4 t.value)
      rpid.bytesLE ((pid.getD EMPTY_UUID).bytesLE ++ data) 8 24 (by simp) (by simp)
  have s4 : slice (msgBytes client t data rpid pid) 24 40 = (pid.getD EMPTY_UUID).bytesLE := by
    simpa [msgBytes] using slice_mid
      (leEnc 4 (if client then 2 else 1) ++ (leEnc 4 t.value ++ rpid.bytesLE))
      (pid.getD EMPTY_UUID).bytesLE data 24 40 (by simp) (by simp)
  have s5 : (msgBytes client t data rpid pid).drop 40 = data := by
    have := List.drop_left' (l₁ := leEnc 4 (if client then 2 else 1) ++ (leEnc 4 t.value ++
      (rpid.bytesLE ++ (pid.getD EMPTY_UUID).bytesLE))) (l₂ := data) (i := 40) (by simp)
    simpa [msgBytes] using this
  unfold unpackMessage
  rw [s1, s2, s3, s4, s5, unpackLE_leEnc h1, unpackLE_leEnc t.value_lt]
  simp only [bind, Except.bind, pure, Except.pure, MsgType.ofValue_value, ofBytesLE_bytesLE]

end Verif
