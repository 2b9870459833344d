import Verif.Spec.Crypto
import Verif.Proof.StringEsc
import Verif.Proof.Bytes

/-! # Lemmas on keys and secure strings (C36, C37, C47, C57, C58) -/

namespace Verif

/-! ## UTF-16 -/

theorem ofNat_toNat {n : Nat} (h : n < 256) : (UInt8.ofNat n).toNat = n := by
  simp [UInt8.toNat_ofNat', Nat.mod_eq_of_lt h]

theorem unitsLE_units {us : List Nat} (h : ∀ u ∈ us, u < 0x10000) :
    unitsLE (us.flatMap unitBytesLE) = .ok us := by
  induction us with
  | nil => rfl
  | cons u us ih =>
    have hu := h u (by simp)
    simp only [List.flatMap_cons, unitBytesLE, List.cons_append, List.nil_append, unitsLE]
    have := ih fun x hx => h x (by simp [hx])
    rw [this, ofNat_toNat (by omega), ofNat_toNat (by omega)]
    simp only [Except.map, Except.ok.injEq, List.cons.injEq, and_true]
    omega

theorem decode_encode16 {s : PyStr} (h : IsText s) :
    decodeUtf16LE (encodeUtf16LE s) = .ok (decodeUnits (s.flatMap utf16)) := by
  unfold decodeUtf16LE encodeUtf16LE
  rw [unitsLE_units (textUnits_range h)]
  rfl

theorem decode_units_iff {s : PyStr} (h : IsText s) :
    decodeUnits (s.flatMap utf16) = s ↔ ¬ HasSplitPair s := by
  constructor
  · intro hd
    rw [← hd]
    exact (noSplit_decode _).1
  · exact decode_textUnits h

theorem encode16_length_even (s : PyStr) : (encodeUtf16LE s).length % 2 = 0 := by
  unfold encodeUtf16LE
  induction s.flatMap utf16 with
  | nil => rfl
  | cons u us ih => simp only [List.flatMap_cons, List.length_append, unitBytesLE, List.length_cons, List.length_nil] at *; omega

/-! ## base64 -/

theorem b64Char_range (n : Nat) (h : n < 64) : b64Char n < 128 ∧ b64Char n ≠ 61 ∧ b64Val (b64Char n) = some n := by
  revert n; decide +kernel

theorem b64Loop_char (quad left pads n : Nat) (h : n < 64) (s : PyStr) :
    b64Loop quad left pads (b64Char n :: s) =
      if quad = 0 then b64Loop 1 n 0 s
      else if quad = 1 then (b64Loop 2 (n % 16) 0 s).map (UInt8.ofNat (left * 4 + n / 16) :: ·)
      else if quad = 2 then (b64Loop 3 (n % 4) 0 s).map (UInt8.ofNat (left * 16 + n / 4) :: ·)
      else (b64Loop 0 0 0 s).map (UInt8.ofNat (left * 64 + n) :: ·) := by
  obtain ⟨_, h2, h3⟩ := b64Char_range n h
  simp only [b64Loop, h2, if_false, h3]

theorem ofNat_eq {a : UInt8} {n : Nat} (h : n = a.toNat) : UInt8.ofNat n = a := by
  subst h; simp

theorem b64Loop_0 (left pads n : Nat) (h : n < 64) (s : PyStr) :
    b64Loop 0 left pads (b64Char n :: s) = b64Loop 1 n 0 s := b64Loop_char 0 _ _ _ h _

theorem b64Loop_1 (left pads n : Nat) (h : n < 64) (s : PyStr) :
    b64Loop 1 left pads (b64Char n :: s) =
      (b64Loop 2 (n % 16) 0 s).map (UInt8.ofNat (left * 4 + n / 16) :: ·) := b64Loop_char 1 _ _ _ h _

theorem b64Loop_2 (left pads n : Nat) (h : n < 64) (s : PyStr) :
    b64Loop 2 left pads (b64Char n :: s) =
      (b64Loop 3 (n % 4) 0 s).map (UInt8.ofNat (left * 16 + n / 4) :: ·) := b64Loop_char 2 _ _ _ h _

theorem b64Loop_3 (left pads n : Nat) (h : n < 64) (s : PyStr) :
    b64Loop 3 left pads (b64Char n :: s) =
      (b64Loop 0 0 0 s).map (UInt8.ofNat (left * 64 + n) :: ·) := b64Loop_char 3 _ _ _ h _

theorem b64_loop (b : Bytes) : b64Loop 0 0 0 (b64encode b) = .ok b := by
  fun_induction b64encode b with
  | case1 => rfl
  | case2 a =>
    have ha := a.toNat_lt
    rw [b64Loop_0 _ _ _ (by omega), b64Loop_1 _ _ _ (by omega), ofNat_eq (a := a) (by omega)]
    rfl
  | case3 a b =>
    have ha := a.toNat_lt
    have hb := b.toNat_lt
    rw [b64Loop_0 _ _ _ (by omega), b64Loop_1 _ _ _ (by omega), b64Loop_2 _ _ _ (by omega),
      ofNat_eq (a := a) (by omega), ofNat_eq (a := b) (by omega)]
    rfl
  | case4 a b c bs ih =>
    have ha := a.toNat_lt
    have hb := b.toNat_lt
    have hc := c.toNat_lt
    simp only [List.cons_append, List.nil_append]
    rw [b64Loop_0 _ _ _ (by omega), b64Loop_1 _ _ _ (by omega), b64Loop_2 _ _ _ (by omega),
      b64Loop_3 _ _ _ (by omega), ih, ofNat_eq (a := a) (by omega),
      ofNat_eq (a := b) (by omega), ofNat_eq (a := c) (by omega)]
    rfl

theorem b64Char_text (n : Nat) (h : n < 64) : (65 ≤ b64Char n ∧ b64Char n ≤ 90) ∨
    (97 ≤ b64Char n ∧ b64Char n ≤ 122) ∨ (48 ≤ b64Char n ∧ b64Char n ≤ 57) ∨ b64Char n = 43 ∨
    b64Char n = 47 ∨ b64Char n = 61 := by
  unfold b64Char; repeat' split
  all_goals omega

theorem b64_text (b : Bytes) : IsBase64Text (b64encode b) := by
  fun_induction b64encode b with
  | case1 => simp [IsBase64Text]
  | case2 a =>
    have ha := a.toNat_lt
    intro c hc
    simp only [List.mem_cons, List.not_mem_nil, or_false] at hc
    rcases hc with rfl | rfl | rfl | rfl
    any_goals exact b64Char_text _ (by omega)
    all_goals omega
  | case3 a b =>
    have ha := a.toNat_lt
    have hb := b.toNat_lt
    intro c hc
    simp only [List.mem_cons, List.not_mem_nil, or_false] at hc
    rcases hc with rfl | rfl | rfl | rfl
    any_goals exact b64Char_text _ (by omega)
    all_goals omega
  | case4 a b c bs ih =>
    have ha := a.toNat_lt
    have hb := b.toNat_lt
    have hc := c.toNat_lt
    intro c hc
    simp only [List.mem_append, List.mem_cons, List.not_mem_nil, or_false] at hc
    rcases hc with (rfl | rfl | rfl | rfl) | hc
    any_goals exact b64Char_text _ (by omega)
    exact ih c hc

theorem b64_roundtrip (b : Bytes) : b64decode (b64encode b) = .ok b := by
  unfold b64decode
  rw [if_pos, b64_loop]
  rw [List.all_eq_true]
  intro c hc
  have := b64_text b c hc
  simp only [decide_eq_true_eq]; omega

/-! ## Hexadecimal -/

theorem b16_digit (n : Nat) (h : n < 16) : hexUpperVal (hexUpper n) = some n ∧ ¬ (97 ≤ hexUpper n) := by
  revert n; decide +kernel

theorem b16_upper (b : Bytes) : upperAscii (b16encode b) = b16encode b := by
  unfold upperAscii
  have : ∀ c ∈ b16encode b, (if 97 ≤ c ∧ c ≤ 122 then c - 32 else c) = id c := by
    intro c hc
    simp only [b16encode, List.mem_flatMap, hexByte, List.mem_cons, List.not_mem_nil, or_false] at hc
    obtain ⟨x, _, hc⟩ := hc
    have hx := x.toNat_lt
    rw [if_neg]; · rfl
    rcases hc with rfl | rfl
    · have := (b16_digit (x.toNat / 16) (by omega)).2; omega
    · have := (b16_digit (x.toNat % 16) (by omega)).2; omega
  rw [List.map_congr_left this, List.map_id]

theorem b16_roundtrip (b : Bytes) : b16decode (upperAscii (b16encode b)) = .ok b := by
  rw [b16_upper]
  induction b with
  | nil => rfl
  | cons x bs ih =>
    have hx := x.toNat_lt
    simp only [b16encode, List.flatMap_cons, hexByte, List.cons_append, List.nil_append, b16decode] at ih ⊢
    rw [(b16_digit (x.toNat / 16) (by omega)).1, (b16_digit (x.toNat % 16) (by omega)).1]
    simp only [ih, Except.map, Except.ok.injEq, List.cons.injEq, and_true]
    exact ofNat_eq (by omega)

/-! ## Padding -/

theorem pad_length (b : Bytes) : (pkcs7Pad b).length = b.length + (16 - b.length % 16) := by
  simp [pkcs7Pad]

theorem pad_last (b : Bytes) : (pkcs7Pad b).getLast? = some (UInt8.ofNat (16 - b.length % 16)) := by
  unfold pkcs7Pad
  rw [List.getLast?_append, List.getLast?_replicate, if_neg (by omega)]
  rfl

theorem unpad_pad (b : Bytes) : pkcs7Unpad (pkcs7Pad b) = .ok b := by
  unfold pkcs7Unpad
  rw [pad_last]
  have hn : (UInt8.ofNat (16 - b.length % 16)).toNat = 16 - b.length % 16 := ofNat_toNat (by omega)
  have hk : (pkcs7Pad b).length - (UInt8.ofNat (16 - b.length % 16)).toNat = b.length := by
    rw [hn, pad_length]; omega
  simp only [hk]
  have hd : (pkcs7Pad b).drop b.length =
      List.replicate (16 - b.length % 16) (UInt8.ofNat (16 - b.length % 16)) := by
    simp [pkcs7Pad]
  rw [if_pos]
  · simp [pkcs7Pad]
  · rw [hn, hd, pad_length]
    refine ⟨by omega, by omega, by omega, ?_⟩
    simp

theorem pad_of_unpad {b c : Bytes} (h : pkcs7Unpad b = .ok c) : b = pkcs7Pad c := by
  unfold pkcs7Unpad at h
  split at h
  · cases h
  rename_i last hl
  split at h
  · rename_i hc
    obtain ⟨h1, h2, h3, h4⟩ := hc
    cases h
    have hne : b.length ≠ 0 := by
      intro h0
      rw [List.length_eq_zero_iff.mp h0] at hl; cases hl
    have hlen : (b.take (b.length - last.toNat)).length = b.length - last.toNat := by simp
    have hmod : 16 - (b.length - last.toNat) % 16 = last.toNat := by omega
    unfold pkcs7Pad
    rw [hlen, hmod, ofNat_eq rfl]
    have hd : b.drop (b.length - last.toNat) = List.replicate last.toNat last := by
      rw [List.eq_replicate_iff]
      refine ⟨by simp; omega, ?_⟩
      intro x hx
      simpa using List.all_eq_true.mp h4 x hx
    rw [← hd, List.take_append_drop]
  · cases h

/-! ## Block chaining -/

/-- Blocks of 16 bytes. -/
def AllBlocks (ps : List Bytes) : Prop := ∀ p ∈ ps, p.length = 16

theorem chunks_flatten (n : Nat) (ps : List Bytes) (h : AllBlocks ps) (hn : ps.length ≤ n) :
    chunks n ps.flatten = ps := by
  induction ps generalizing n with
  | nil => cases n <;> rfl
  | cons p ps ih =>
    cases n with
    | zero => simp at hn
    | succ n =>
      have hp := h p (by simp)
      have hne : p ++ ps.flatten ≠ [] := by
        intro h0
        have := congrArg List.length h0
        simp [hp] at this
      rw [List.flatten_cons]
      have : chunks (n + 1) (p ++ ps.flatten) =
          (p ++ ps.flatten).take 16 :: chunks n ((p ++ ps.flatten).drop 16) := by
        cases hc : p ++ ps.flatten with
        | nil => exact absurd hc hne
        | cons => rfl
      rw [this, ← hp, List.take_left, List.drop_left,
        ih n (fun q hq => h q (by simp [hq])) (by simpa using hn)]

theorem exists_blocks (k : Nat) (b : Bytes) (h : b.length = 16 * k) :
    ∃ ps, AllBlocks ps ∧ ps.flatten = b ∧ ps.length = k := by
  induction k generalizing b with
  | zero => exact ⟨[], by simp [AllBlocks], by simpa using (List.length_eq_zero_iff.mp (by omega)).symm, rfl⟩
  | succ k ih =>
    obtain ⟨ps, h1, h2, h3⟩ := ih (b.drop 16) (by simp; omega)
    refine ⟨b.take 16 :: ps, ?_, by simp [h2], by simp [h3]⟩
    intro p hp
    rcases List.mem_cons.mp hp with rfl | hp
    · simp; omega
    · exact h1 p hp

theorem xor_length {a b : Bytes} (ha : a.length = 16) (hb : b.length = 16) : (xorBytes a b).length = 16 := by
  simp [xorBytes, ha, hb]

theorem xor_xor {a b : Bytes} (h : a.length = b.length) : xorBytes (xorBytes a b) b = a := by
  unfold xorBytes
  induction a generalizing b with
  | nil => rfl
  | cons x xs ih =>
    cases b with
    | nil => simp at h
    | cons y ys =>
      simp only [List.length_cons, Nat.add_right_cancel_iff] at h
      simp only [List.zipWith_cons_cons, ih h, UInt8.xor_assoc, UInt8.xor_self, UInt8.xor_zero]

theorem cbc_blocks {A : BlockCipher} (hA : A.Invertible) (ps : List Bytes) (h : AllBlocks ps) (prev : Bytes)
    (hv : prev.length = 16) :
    ∃ cs, AllBlocks cs ∧ cs.length = ps.length ∧ cbcEnc A prev ps = cs.flatten ∧
      cbcDec A prev cs = ps.flatten := by
  induction ps generalizing prev with
  | nil => exact ⟨[], by simp [AllBlocks], rfl, rfl, rfl⟩
  | cons p ps ih =>
    have hp := h p (by simp)
    have hx := xor_length hp hv
    obtain ⟨he, hd⟩ := hA _ hx
    obtain ⟨cs, h1, h2, h3, h4⟩ := ih (fun q hq => h q (by simp [hq])) (A.enc (xorBytes p prev)) he
    refine ⟨A.enc (xorBytes p prev) :: cs, ?_, by simp [h2], by simp [cbcEnc, h3], ?_⟩
    · intro q hq
      rcases List.mem_cons.mp hq with rfl | hq
      · exact he
      · exact h1 q hq
    · simp only [cbcDec, hd, xor_xor (hp.trans hv.symm), h4, List.flatten_cons]

theorem flatten_length {ps : List Bytes} (h : AllBlocks ps) : ps.flatten.length = 16 * ps.length := by
  induction ps with
  | nil => rfl
  | cons p ps ih =>
    have := ih fun q hq => h q (by simp [hq])
    have := h p (by simp)
    simp only [List.flatten_cons, List.length_append, List.length_cons]; omega

theorem cbc_roundtrip {A : BlockCipher} (hA : A.Invertible) {b : Bytes} (h : b.length % 16 = 0) :
    ∃ c, cipherEncrypt A b = .ok c ∧ c.length = b.length ∧ cipherDecrypt A c = .ok b := by
  obtain ⟨ps, h1, rfl, h3⟩ := exists_blocks (b.length / 16) b (by omega)
  obtain ⟨cs, c1, c2, c3, c4⟩ := cbc_blocks hA ps h1 zeroIV (by simp [zeroIV])
  have hl := flatten_length h1
  have hc := flatten_length c1
  refine ⟨cs.flatten, ?_, by omega, ?_⟩
  · unfold cipherEncrypt
    rw [if_pos h, chunks_flatten _ ps h1 (by omega), c3]
  · unfold cipherDecrypt
    rw [if_pos (by omega), chunks_flatten _ cs c1 (by omega), c4]

/-! ## The providers -/

theorem remoting_roundtrip {A : BlockCipher} (hA : A.Invertible) {s : PyStr} (h : IsText s) :
    ∃ t, remotingEncrypt (some A) s = .ok t ∧ IsBase64Text t ∧
      remotingDecrypt (some A) t = .ok (decodeUnits (s.flatMap utf16)) := by
  obtain ⟨c, h1, h2, h3⟩ := cbc_roundtrip hA (b := pkcs7Pad (encodeUtf16LE s)) (by rw [pad_length]; omega)
  refine ⟨b64encode c, by simp [remotingEncrypt, h1, Except.map], b64_text c, ?_⟩
  simp only [remotingDecrypt, b64_roundtrip, bind, Except.bind, h3, unpad_pad, decode_encode16 h]

/-! ## Public keys -/

theorem modulusBytes_eq (n : Nat) :
    modulusBytes n = if n = 0 then [] else UInt8.ofNat (n % 256) :: modulusBytes (n / 256) := by
  rw [modulusBytes]
  have h1 : n &&& 0xFF = n % 256 := Nat.and_two_pow_sub_one_eq_mod n 8
  have h2 : n >>> 8 = n / 256 := Nat.shiftRight_eq_div_pow n 8
  rw [h1, h2]

theorem modulusLoop_eq (shift acc : Nat) (bs : Bytes) :
    modulusLoop shift acc bs = acc + 256 ^ shift * leDec bs := by
  induction bs generalizing shift acc with
  | nil => simp [modulusLoop, leDec]
  | cons b bs ih =>
    have hp : 2 ^ (8 * shift) = 256 ^ shift := by rw [Nat.pow_mul]
    rw [modulusLoop, ih, leDec, Nat.shiftLeft_eq, hp, Nat.pow_succ 256 shift, Nat.mul_add, ← Nat.add_assoc,
      Nat.mul_comm b.toNat, Nat.mul_assoc]

theorem leDec_modulus (n : Nat) : leDec (modulusBytes n) = n := by
  induction n using Nat.strongRecOn with
  | ind n ih =>
    rw [modulusBytes_eq]
    by_cases h : n = 0
    · simp [h, leDec]
    · rw [if_neg h, leDec, ih (n / 256) (by omega), ofNat_toNat (by omega)]
      omega

theorem modulus_length (n : Nat) (k : Nat) (hl : 256 ^ k ≤ n) (hu : n < 256 ^ (k + 1)) :
    (modulusBytes n).length = k + 1 := by
  induction k generalizing n with
  | zero =>
    rw [modulusBytes_eq, if_neg (by simp at hl; omega), modulusBytes_eq, if_pos (by simp at hu; omega)]
    rfl
  | succ k ih =>
    have hpos : 0 < 256 ^ (k + 1) := Nat.pow_pos (by omega)
    rw [modulusBytes_eq, if_neg (by omega), List.length_cons, ih]
    · rw [Nat.le_div_iff_mul_le (by omega), ← Nat.pow_succ]; exact hl
    · rw [Nat.div_lt_iff_lt_mul (by omega), ← Nat.pow_succ]; exact hu

theorem publicKey_ok {e n : Nat} (he : e < 2 ^ 32) :
    publicKeyBlob e n = .ok (publicKeyHeader ++ leEnc 4 e ++ modulusBytes n) := by
  simp [publicKeyBlob, packLE_ok (k := 4) (n := e) (by simpa using he)]

theorem readPublicKey_blob {e n : Nat} (he : e < 2 ^ 32) :
    readPublicKey (publicKeyHeader ++ leEnc 4 e ++ modulusBytes n) = .ok (e, n) := by
  unfold readPublicKey
  have h1 : slice (publicKeyHeader ++ leEnc 4 e ++ modulusBytes n) 16 20 = leEnc 4 e := by
    rw [List.append_assoc]
    exact slice_mid _ _ _ _ _ rfl (by simp)
  have h2 : (publicKeyHeader ++ leEnc 4 e ++ modulusBytes n).drop 20 = modulusBytes n :=
    List.drop_left' (by simp [publicKeyHeader])
  rw [h1, unpackLE_leEnc (by simpa using he), h2, modulusLoop_eq, leDec_modulus]
  simp

theorem sessionKey_roundtrip {rsa : Nat → Nat → Bytes → Except Err Bytes}
    {rsaDec : Bytes → Except Err Bytes} {e n : Nat} {key c : Bytes} (he : e < 2 ^ 32)
    (h1 : rsa e n key = .ok c) (h2 : rsaDec c = .ok key) :
    ∃ m r, clientKeyMessage e n = .ok m ∧ serverKeyMessage rsa key m = .ok r ∧
      receivedSessionKey rsaDec r = .ok key := by
  refine ⟨_, b64encode (sessionKeyHeader ++ c.reverse), by rw [clientKeyMessage, publicKey_ok he]; rfl, ?_, ?_⟩
  · simp only [serverKeyMessage, b64_roundtrip, encryptSessionKey, readPublicKey_blob he, h1]
    rfl
  · simp only [receivedSessionKey, b64_roundtrip, decryptSessionKey]
    rw [List.drop_left' (by simp [sessionKeyHeader]), List.reverse_reverse, h2]

end Verif
