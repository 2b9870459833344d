import Verif.Proof.Crypto

/-! # C36, C37, C47, C57, C58: session keys and secure strings -/

namespace Verif

/-- A toy block cipher. -/
def exampleCipher (k : UInt8) : BlockCipher :=
  ⟨fun b => (b.map (· ^^^ k)).reverse, fun b => (b.map (· ^^^ k)).reverse⟩

theorem exampleCipher_invertible (k : UInt8) : (exampleCipher k).Invertible := by
  intro b hb
  refine ⟨by simp [exampleCipher, hb], ?_⟩
  simp only [exampleCipher, List.map_reverse, List.reverse_reverse, List.map_map]
  have : ((· ^^^ k) ∘ (· ^^^ k) : UInt8 → UInt8) = id := by
    funext x; simp [UInt8.xor_assoc]
  rw [this, List.map_id]

/-! ## C47: padding -/

/-- C47: padding then unpadding gives back the bytes, and the padded length is the next larger
multiple of the block size. -/
theorem C47 (b : Bytes) :
    pkcs7Unpad (pkcs7Pad b) = .ok b ∧ (pkcs7Pad b).length % 16 = 0 ∧
      b.length < (pkcs7Pad b).length ∧ (pkcs7Pad b).length ≤ b.length + 16 := by
  refine ⟨unpad_pad b, ?_, ?_, ?_⟩ <;> rw [pad_length] <;> omega

/-- C47: nothing but padded bytes is unpadded, everything else is refused. -/
theorem C47_exact (p b : Bytes) : pkcs7Unpad p = .ok b ↔ p = pkcs7Pad b :=
  ⟨pad_of_unpad, by rintro rfl; exact unpad_pad b⟩

/-- C47: refusal is a `ValueError`. -/
theorem C47_refused (p : Bytes) (h : ∀ b, p ≠ pkcs7Pad b) : pkcs7Unpad p = .error .valueError := by
  cases hu : pkcs7Unpad p with
  | ok b => exact absurd (pad_of_unpad hu) (h b)
  | error e =>
    unfold pkcs7Unpad at hu
    repeat' split at hu
    all_goals cases hu; try rfl

example : pkcs7Pad [1, 2, 3] = [1, 2, 3, 13, 13, 13, 13, 13, 13, 13, 13, 13, 13, 13, 13, 13] := by decide
example : ∀ b, ([1, 2, 3] : Bytes) ≠ pkcs7Pad b := by
  intro b h
  have := congrArg List.length h
  rw [pad_length] at this
  simp at this; omega

/-! ## C36: secure strings -/

/-- C36: before the key exchange a secure string made from plain text cannot be serialized, and one
that was received cannot be decrypted. -/
theorem C36_missing (text : PyStr) :
    SecureString.serialize ⟨text, none⟩ (remotingProvider none) = .error .missingCipher ∧
    (SecureString.deserialize text (remotingProvider none)).decrypt = .error .missingCipher := ⟨rfl, rfl⟩

/-- C36: with a session key every text can be serialized, as base64, and what the peer decrypts is
the text. Partial: the text has no character written as two surrogates, see `C36_exact`. -/
theorem C36_partial (A : BlockCipher) (hA : A.Invertible) (text : PyStr) (h : IsText text)
    (hp : ¬ HasSplitPair text) :
    ∃ t, SecureString.serialize ⟨text, none⟩ (remotingProvider (some A)) = .ok t ∧ IsBase64Text t ∧
      (SecureString.deserialize t (remotingProvider (some A))).decrypt = .ok text := by
  obtain ⟨t, h1, h2, h3⟩ := remoting_roundtrip hA h
  rw [(decode_units_iff h).mpr hp] at h3
  exact ⟨t, by simp [SecureString.serialize, SecureString.forRemoting, remotingProvider, h1, Except.map,
    SecureString.str], h2, h3⟩

/-- C36: every text can be serialized, and it is decrypted to itself exactly if it has no character
written as two surrogates. -/
theorem C36_exact (A : BlockCipher) (hA : A.Invertible) (text : PyStr) (h : IsText text) :
    ∃ t, SecureString.serialize ⟨text, none⟩ (remotingProvider (some A)) = .ok t ∧ IsBase64Text t ∧
      ((SecureString.deserialize t (remotingProvider (some A))).decrypt = .ok text ↔ ¬ HasSplitPair text) := by
  obtain ⟨t, h1, h2, h3⟩ := remoting_roundtrip hA h
  refine ⟨t, by simp [SecureString.serialize, SecureString.forRemoting, remotingProvider, h1, Except.map,
    SecureString.str], h2, ?_⟩
  rw [← decode_units_iff h]
  simp only [SecureString.deserialize, SecureString.decrypt, remotingProvider, h3, Except.ok.injEq]

/-- C36 fails for a character written as two surrogates: it is decrypted to one character. -/
theorem C36_violated (A : BlockCipher) (hA : A.Invertible) :
    ∃ t, SecureString.serialize ⟨[0xD83D, 0xDE00], none⟩ (remotingProvider (some A)) = .ok t ∧
      (SecureString.deserialize t (remotingProvider (some A))).decrypt = .ok [0x1F600] := by
  obtain ⟨t, h1, _, h3⟩ := remoting_roundtrip hA (s := [0xD83D, 0xDE00]) (by simp [IsText])
  exact ⟨t, by simp [SecureString.serialize, SecureString.forRemoting, remotingProvider, h1, Except.map,
    SecureString.str], h3⟩

/-- C36: a secure string made from plain text is read without a provider, and never shows its text. -/
theorem C36_plain (text : PyStr) : (⟨text, none⟩ : SecureString).decrypt = .ok text ∧
    (⟨text, none⟩ : SecureString).str = lit "System.Security.SecureString" := ⟨rfl, rfl⟩

/-- C36: base64 that was cut off is refused: characters of the alphabet that are not a multiple of four. -/
theorem C36_truncated (s : PyStr) (hs : ∀ c ∈ s, (b64Val c).isSome) (hl : s.length % 4 ≠ 0) :
    b64decode s = .error .valueError := by
  have key : ∀ (s : PyStr) (quad left : Nat), quad < 4 → (∀ c ∈ s, (b64Val c).isSome) → (quad + s.length) % 4 ≠ 0 →
      b64Loop quad left 0 s = .error .valueError := by
    intro s
    induction s with
    | nil =>
      intro quad left hq _ h
      have : quad ≠ 0 := by simp at h; omega
      simp [b64Loop, this]
    | cons c s ih =>
      intro quad left hq hs h
      obtain ⟨v, hv⟩ := Option.isSome_iff_exists.mp (hs c (by simp))
      have hc : c ≠ 61 := by rintro rfl; simp [b64Val] at hv
      have hs' : ∀ c ∈ s, (b64Val c).isSome := fun c h => hs c (by simp [h])
      simp only [List.length_cons] at h
      unfold b64Loop
      rw [if_neg hc, hv]
      dsimp only
      split
      · exact ih 1 v (by omega) hs' (by omega)
      · split
        · rw [ih 2 _ (by omega) hs' (by omega)]; rfl
        · split
          · rw [ih 3 _ (by omega) hs' (by omega)]; rfl
          · rw [ih 0 _ (by omega) hs' (by omega)]; rfl
  unfold b64decode
  split
  · exact key s 0 0 (by omega) hs (by omega)
  · rfl

example : b64decode (lit "QUJDR") = .error .valueError :=
  C36_truncated _ (by decide +kernel) (by decide +kernel)

/-- C36: a key of 16, 24 or 32 bytes is used from then on, any other key is refused and the one in
use stays. -/
theorem C36_register (aes : Bytes → BlockCipher) (c : Option BlockCipher) (key : Bytes) :
    (key.length ∈ [16, 24, 32] → registerKey aes c key = (some (aes key), .ok ())) ∧
    (key.length ∉ [16, 24, 32] → registerKey aes c key = (c, .error .valueError)) := by
  constructor <;> intro h <;> unfold registerKey
  · rw [if_pos (by simpa using h)]
  · rw [if_neg (by simpa using h)]

/-- A text with a character outside the basic plane, a lone surrogate and a zero. -/
def exampleSecret : PyStr := lit "pass" ++ [0, 0x1F600, 0xD801, 0x20AC]

example : IsText exampleSecret ∧ ¬ HasSplitPair exampleSecret := by
  have h : IsText exampleSecret := by unfold IsText; decide +kernel
  exact ⟨h, (decode_units_iff h).mp (by decide +kernel)⟩
example : SecureString.serialize ⟨lit "hi", none⟩ (remotingProvider (some (exampleCipher 0x5A))) =
    .ok (lit "VlZWVlZWVlZWVlZWWjNaMg==") := by decide +kernel

/-! ## C37: the key exchange -/

/-- C37: the server reads from the client's public key blob the exponent and the modulus the client
generated. -/
theorem C37_public (e n : Nat) (he : e < 2 ^ 32) :
    ∃ blob, publicKeyBlob e n = .ok blob ∧ readPublicKey blob = .ok (e, n) :=
  ⟨_, publicKey_ok he, readPublicKey_blob he⟩

/-- C37: an exponent that does not fit the blob is refused. -/
theorem C37_refused (e n : Nat) (he : 2 ^ 32 ≤ e) : publicKeyBlob e n = .error .structError := by
  have : ¬ e < 256 ^ 4 := by simpa using he
  simp [publicKeyBlob, packLE, this]

/-- C37: the blob of a key of 2048 bits, the size its header tells, has 276 bytes. -/
theorem C37_length (e n : Nat) (he : e < 2 ^ 32) (hl : 2 ^ 2047 ≤ n) (hu : n < 2 ^ 2048) (blob : Bytes)
    (hb : publicKeyBlob e n = .ok blob) : blob.length = 276 := by
  rw [publicKey_ok he] at hb
  cases hb
  have h1 : (256 : Nat) ^ 255 ≤ 2 ^ 2047 := by
    rw [show (256 : Nat) = 2 ^ 8 from rfl, ← Nat.pow_mul]; exact Nat.pow_le_pow_right (by omega) (by omega)
  have h2 : (256 : Nat) ^ (255 + 1) = 2 ^ 2048 := by
    rw [show (256 : Nat) = 2 ^ 8 from rfl, ← Nat.pow_mul]
  have := modulus_length n 255 (Nat.le_trans h1 hl) (by rw [h2]; exact hu)
  simp [this, publicKeyHeader]

/-- C37: whenever RSA decrypts what it encrypted, the client gets the session key of the server from
the two messages. -/
theorem C37_exchange (rsa : Nat → Nat → Bytes → Except Err Bytes) (rsaDec : Bytes → Except Err Bytes)
    (e n : Nat) (key c : Bytes) (he : e < 2 ^ 32) (h1 : rsa e n key = .ok c) (h2 : rsaDec c = .ok key) :
    ∃ m r, clientKeyMessage e n = .ok m ∧ serverKeyMessage rsa key m = .ok r ∧
      receivedSessionKey rsaDec r = .ok key := sessionKey_roundtrip he h1 h2

/-- C37: after the exchange of a key of 32 bytes each side decrypts what the other encrypts. -/
theorem C37_shared (aes : Bytes → BlockCipher) (hA : ∀ k, (aes k).Invertible)
    (rsa : Nat → Nat → Bytes → Except Err Bytes) (rsaDec : Bytes → Except Err Bytes)
    (e n : Nat) (key c : Bytes) (he : e < 2 ^ 32) (h1 : rsa e n key = .ok c) (h2 : rsaDec c = .ok key)
    (hk : key.length = 32) (text : PyStr) (h : IsText text) (hp : ¬ HasSplitPair text) :
    ∃ m r k, clientKeyMessage e n = .ok m ∧ serverKeyMessage rsa key m = .ok r ∧
      receivedSessionKey rsaDec r = .ok k ∧
      ∃ t, SecureString.serialize ⟨text, none⟩ (remotingProvider (registerKey aes none key).1) = .ok t ∧
        SecureString.serialize ⟨text, none⟩ (remotingProvider (registerKey aes none k).1) = .ok t ∧
        (SecureString.deserialize t (remotingProvider (registerKey aes none key).1)).decrypt = .ok text ∧
        (SecureString.deserialize t (remotingProvider (registerKey aes none k).1)).decrypt = .ok text := by
  obtain ⟨m, r, g1, g2, g3⟩ := C37_exchange rsa rsaDec e n key c he h1 h2
  obtain ⟨t, t1, _, t2⟩ := C36_partial (aes key) (hA key) text h hp
  have hr : (registerKey aes none key).1 = some (aes key) := by
    rw [(C36_register aes none key).1 (by simp [hk])]
  exact ⟨m, r, key, g1, g2, g3, t, by rw [hr]; exact t1, by rw [hr]; exact t1, by rw [hr]; exact t2,
    by rw [hr]; exact t2⟩

/-- A toy asymmetric encryption: the key with the exponent in front of it. -/
def exampleRsa (e _n : Nat) (key : Bytes) : Except Err Bytes := .ok (UInt8.ofNat e :: key)
example : exampleRsa 65537 11 [7, 8] = .ok [1, 7, 8] ∧
    (fun c : Bytes => (.ok c.tail : Except Err Bytes)) [1, 7, 8] = .ok [7, 8] := ⟨by decide, rfl⟩
example : publicKeyBlob 65537 0x010203 =
    .ok (publicKeyHeader ++ [1, 0, 1, 0, 3, 2, 1]) := by
  rw [publicKey_ok (by decide)]
  simp [modulusBytes_eq, leEnc]
example : ∀ k : Bytes, (exampleCipher (k.headD 0)).Invertible := fun _ => exampleCipher_invertible _

/-! ## C57: passing secure strings on -/

/-- C57: a secure string that was received is sent again with the text it was received with, whatever
provider is used for sending. Partial: only a peer with the same session key can decrypt it, see
`C57_violated`. -/
theorem C57_partial (A : BlockCipher) (hA : A.Invertible) (text t : PyStr) (h : IsText text)
    (hp : ¬ HasSplitPair text)
    (ht : SecureString.serialize ⟨text, none⟩ (remotingProvider (some A)) = .ok t) :
    (SecureString.deserialize t (remotingProvider (some A))).serialize (remotingProvider (some A)) = .ok t ∧
    (SecureString.deserialize t (remotingProvider (some A))).decrypt = .ok text := by
  obtain ⟨t', h1, _, h3⟩ := C36_partial A hA text h hp
  rw [ht] at h1
  cases h1
  exact ⟨rfl, h3⟩

/-- C57 fails: a secure string received over one session and sent over another one with a different
key is sent as it was, and the peer decrypts something else. It is also sent when the other session
has no key at all. -/
theorem C57_violated :
    ∃ (A B : BlockCipher) (text t : PyStr), A.Invertible ∧ B.Invertible ∧
      SecureString.serialize ⟨text, none⟩ (remotingProvider (some A)) = .ok t ∧
      (SecureString.deserialize t (remotingProvider (some A))).decrypt = .ok text ∧
      (SecureString.deserialize t (remotingProvider (some A))).serialize (remotingProvider (some B)) = .ok t ∧
      (SecureString.deserialize t (remotingProvider (some B))).decrypt ≠ .ok text ∧
      (SecureString.deserialize t (remotingProvider (some A))).serialize (remotingProvider none) = .ok t :=
  ⟨exampleCipher 0x5A, exampleCipher 0, lit "hi", lit "VlZWVlZWVlZWVlZWWjNaMg==",
    exampleCipher_invertible _, exampleCipher_invertible _, by decide +kernel, by decide +kernel, rfl,
    by decide +kernel, rfl⟩

/-! ## C58: local secure strings -/

/-- C58: a text encrypted by the local provider is decrypted to itself, in any case of its digits, if
data protection is undone by its inverse. Partial: the text has no character written as two
surrogates, see `C58_exact`. -/
theorem C58_partial (protect : Option ((Bytes → Bytes) × (Bytes → Bytes)))
    (hi : ∀ f g, protect = some (f, g) → ∀ b, g (f b) = b) (text : PyStr) (h : IsText text)
    (hp : ¬ HasSplitPair text) :
    localDecrypt (protect.map Prod.snd) (localEncrypt (protect.map Prod.fst) text) = .ok text := by
  have hd : decodeUtf16LE (encodeUtf16LE text) = .ok text := by
    rw [decode_encode16 h, (decode_units_iff h).mpr hp]
  cases protect with
  | none => simp only [localDecrypt, localEncrypt, Option.map_none, b16_roundtrip, bind, Except.bind, hd]
  | some fg =>
    obtain ⟨f, g⟩ := fg
    simp only [localDecrypt, localEncrypt, Option.map_some, b16_roundtrip, bind, Except.bind, hi f g rfl, hd]

/-- C58: without data protection a text is decrypted to itself exactly if it has no character written
as two surrogates. -/
theorem C58_exact (text : PyStr) (h : IsText text) :
    localDecrypt none (localEncrypt none text) = .ok text ↔ ¬ HasSplitPair text := by
  rw [← decode_units_iff h]
  simp only [localDecrypt, localEncrypt, b16_roundtrip, bind, Except.bind, decode_encode16 h,
    Except.ok.injEq]

/-- C58 fails for a character written as two surrogates. -/
theorem C58_violated : localDecrypt none (localEncrypt none [0xD83D, 0xDE00]) = .ok [0x1F600] := by
  decide +kernel

/-- C58: digits may come in lower case, as PowerShell writes them. -/
theorem C58_case (unprotect : Option (Bytes → Bytes)) (t : PyStr) :
    localDecrypt unprotect (upperAscii t) = localDecrypt unprotect t := by
  unfold localDecrypt
  have : upperAscii (upperAscii t) = upperAscii t := by
    simp only [upperAscii, List.map_map]
    refine List.map_congr_left fun c _ => ?_
    simp only [Function.comp]
    by_cases hc : 97 ≤ c ∧ c ≤ 122
    · simp only [hc, and_self, if_true]; rw [if_neg (by omega)]
    · simp only [hc, if_false]
  rw [this]

example : localEncrypt none (lit "hi") = lit "68006900" ∧
    localDecrypt none (lit "4d0069006a00") = .ok (lit "Mij") := by decide +kernel

end Verif
