import Verif.Model.StringEsc

/-!
# Session keys and secure strings

Models /repo/src/psrpcore/_crypto.py, the secure string of
/repo/src/psrpcore/types/_primitive.py:1159-1239, its serialization
(/repo/src/psrpcore/types/_serializer.py:772-777, 994-995), the local crypto provider of
/repo/src/psrpcore/_clixml_shell.py:121-144 and the key exchange as the two pools do it.

AES on one block, RSA with PKCS1v15 padding and the Windows data protection are parameters; base64,
hexadecimal, UTF-16, PKCS7 and CBC are modelled.
-/

namespace Verif

/-! ## Text to bytes -/

/-- The two bytes of a code unit, little endian (/repo/src/psrpcore/_crypto.py:128, 134). -/
def unitBytesLE (u : Nat) : Bytes := [UInt8.ofNat (u % 256), UInt8.ofNat (u / 256)]

/-- `value.encode("utf-16-le", errors="surrogatepass")`, /repo/src/psrpcore/_crypto.py:134. -/
def encodeUtf16LE (s : PyStr) : Bytes := (s.flatMap utf16).flatMap unitBytesLE

/-- The code units of little endian bytes; an odd byte is an error
(/repo/src/psrpcore/_crypto.py:128). -/
def unitsLE : Bytes → Except Err (List Nat)
  | [] => .ok []
  | [_] => .error .unicodeError
  | a :: b :: bs => (unitsLE bs).map ((a.toNat + 256 * b.toNat) :: ·)

/-- `b_dec.decode("utf-16-le", errors="surrogatepass")`, /repo/src/psrpcore/_crypto.py:128. -/
def decodeUtf16LE (b : Bytes) : Except Err PyStr := (unitsLE b).map decodeUnits

/-! ## base64 and hexadecimal -/

/-- A character of the base64 alphabet (`base64.b64encode`, /repo/src/psrpcore/_crypto.py:142). -/
def b64Char (n : Nat) : Nat :=
  if n < 26 then 65 + n
  else if n < 52 then 71 + n
  else if n < 62 then n - 4
  else if n = 62 then 43 else 47

/-- `base64.b64encode(b).decode()`, /repo/src/psrpcore/_crypto.py:142,
/repo/src/psrpcore/_client.py:186, /repo/src/psrpcore/_server.py:400. -/
def b64encode : Bytes → PyStr
  | [] => []
  | [a] => [b64Char (a.toNat / 4), b64Char (a.toNat % 4 * 16), 61, 61]
  | [a, b] => [b64Char (a.toNat / 4), b64Char (a.toNat % 4 * 16 + b.toNat / 16),
      b64Char (b.toNat % 16 * 4), 61]
  | a :: b :: c :: bs => [b64Char (a.toNat / 4), b64Char (a.toNat % 4 * 16 + b.toNat / 16),
      b64Char (b.toNat % 16 * 4 + c.toNat / 64), b64Char (c.toNat % 64)] ++ b64encode bs

/-- The value of a character of the base64 alphabet (`base64.b64decode`,
/repo/src/psrpcore/_crypto.py:120). -/
def b64Val (c : Nat) : Option Nat :=
  if 65 ≤ c ∧ c ≤ 90 then some (c - 65)
  else if 97 ≤ c ∧ c ≤ 122 then some (c - 71)
  else if 48 ≤ c ∧ c ≤ 57 then some (c + 4)
  else if c = 43 then some 62
  else if c = 47 then some 63
  else none

/-- The loop of `binascii.a2b_base64` behind `base64.b64decode`
(/repo/src/psrpcore/_crypto.py:120): `quad` characters of the current group of four were read,
`left` are their bits that are not yet output, `pads` counts the padding. Other characters are
skipped. -/
def b64Loop (quad left pads : Nat) : PyStr → Except Err Bytes
  | [] => if quad = 0 then .ok [] else .error .valueError
  | c :: s =>
    if c = 61 then
      if 2 ≤ quad ∧ 4 ≤ quad + (pads + 1) then .ok []
      else b64Loop quad left (if 2 ≤ quad then pads + 1 else pads) s
    else match b64Val c with
      | none => b64Loop quad left pads s
      | some v =>
        if quad = 0 then b64Loop 1 v 0 s
        else if quad = 1 then (b64Loop 2 (v % 16) 0 s).map (UInt8.ofNat (left * 4 + v / 16) :: ·)
        else if quad = 2 then (b64Loop 3 (v % 4) 0 s).map (UInt8.ofNat (left * 16 + v / 4) :: ·)
        else (b64Loop 0 0 0 s).map (UInt8.ofNat (left * 64 + v) :: ·)

/-- `base64.b64decode(s)` of a `str`, /repo/src/psrpcore/_crypto.py:120,
/repo/src/psrpcore/_events.py:430, 894. -/
def b64decode (s : PyStr) : Except Err Bytes :=
  if s.all (· < 128) then b64Loop 0 0 0 s else .error .valueError

/-- `base64.b16encode(b).decode()`, /repo/src/psrpcore/_clixml_shell.py:144. -/
def b16encode (b : Bytes) : PyStr := b.flatMap fun x => hexByte x.toNat

/-- The value of a hexadecimal digit of `base64.b16decode`, which has to be upper case
(/repo/src/psrpcore/_clixml_shell.py:128). -/
def hexUpperVal (c : Nat) : Option Nat :=
  if 48 ≤ c ∧ c ≤ 57 then some (c - 48) else if 65 ≤ c ∧ c ≤ 70 then some (c - 55) else none

/-- `base64.b16decode(s)`, /repo/src/psrpcore/_clixml_shell.py:128: two digits for each byte. -/
def b16decode : PyStr → Except Err Bytes
  | [] => .ok []
  | [_] => .error .valueError
  | a :: b :: s =>
    match hexUpperVal a, hexUpperVal b with
    | some x, some y => (b16decode s).map (UInt8.ofNat (16 * x + y) :: ·)
    | _, _ => .error .valueError

/-! ## Padding and block chaining -/

/-- The padder of `PKCS7(128)`, /repo/src/psrpcore/_crypto.py:114, 136-137. -/
def pkcs7Pad (b : Bytes) : Bytes :=
  b ++ List.replicate (16 - b.length % 16) (UInt8.ofNat (16 - b.length % 16))

/-- The unpadder of `PKCS7(128)`, /repo/src/psrpcore/_crypto.py:114, 125-126. -/
def pkcs7Unpad (b : Bytes) : Except Err Bytes :=
  match b.getLast? with
  | none => .error .valueError
  | some last =>
    if b.length % 16 = 0 ∧ 1 ≤ last.toNat ∧ last.toNat ≤ 16 ∧
        (b.drop (b.length - last.toNat)).all (· == last) then
      .ok (b.take (b.length - last.toNat))
    else .error .valueError

/-- A block cipher with a key: AES on blocks of 16 bytes
(`algorithms.AES`, /repo/src/psrpcore/_crypto.py:148). -/
structure BlockCipher where
  enc : Bytes → Bytes
  dec : Bytes → Bytes

/-- The blocks of some bytes; the first argument bounds their number (/repo/src/psrpcore/_crypto.py:123, 140). -/
def chunks : Nat → Bytes → List Bytes
  | 0, _ => []
  | _ + 1, [] => []
  | n + 1, b => b.take 16 :: chunks n (b.drop 16)

/-- Exclusive or of two blocks (`modes.CBC`, /repo/src/psrpcore/_crypto.py:149). -/
def xorBytes (a b : Bytes) : Bytes := List.zipWith (· ^^^ ·) a b

/-- CBC encryption of blocks after the block `prev` (/repo/src/psrpcore/_crypto.py:149). -/
def cbcEnc (A : BlockCipher) : Bytes → List Bytes → Bytes
  | _, [] => []
  | prev, p :: ps => A.enc (xorBytes p prev) ++ cbcEnc A (A.enc (xorBytes p prev)) ps

/-- CBC decryption of blocks after the block `prev` (/repo/src/psrpcore/_crypto.py:149). -/
def cbcDec (A : BlockCipher) : Bytes → List Bytes → Bytes
  | _, [] => []
  | prev, c :: cs => xorBytes (A.dec c) prev ++ cbcDec A c cs

/-- The zero initialization vector, /repo/src/psrpcore/_crypto.py:149. -/
def zeroIV : Bytes := List.replicate 16 0

/-- `encryptor.update(b) + encryptor.finalize()`, /repo/src/psrpcore/_crypto.py:139-140. -/
def cipherEncrypt (A : BlockCipher) (b : Bytes) : Except Err Bytes :=
  if b.length % 16 = 0 then .ok (cbcEnc A zeroIV (chunks b.length b)) else .error .valueError

/-- `decryptor.update(b) + decryptor.finalize()`, /repo/src/psrpcore/_crypto.py:122-123. -/
def cipherDecrypt (A : BlockCipher) (b : Bytes) : Except Err Bytes :=
  if b.length % 16 = 0 then .ok (cbcDec A zeroIV (chunks b.length b)) else .error .valueError

/-! ## Crypto providers -/

/-- `PSRemotingCrypto.encrypt`, /repo/src/psrpcore/_crypto.py:130-142; the provider is its cipher. -/
def remotingEncrypt (cipher : Option BlockCipher) (value : PyStr) : Except Err PyStr :=
  match cipher with
  | none => .error .missingCipher
  | some A => (cipherEncrypt A (pkcs7Pad (encodeUtf16LE value))).map b64encode

/-- `PSRemotingCrypto.decrypt`, /repo/src/psrpcore/_crypto.py:116-128. -/
def remotingDecrypt (cipher : Option BlockCipher) (value : PyStr) : Except Err PyStr :=
  match cipher with
  | none => .error .missingCipher
  | some A => do
    let b_enc ← b64decode value
    let b_padded ← cipherDecrypt A b_enc
    let b_dec ← pkcs7Unpad b_padded
    decodeUtf16LE b_dec

/-- `PSRemotingCrypto.register_key`, /repo/src/psrpcore/_crypto.py:144-150: the cipher afterwards.
AES takes keys of 128, 192 or 256 bits. -/
def registerKey (aes : Bytes → BlockCipher) (cipher : Option BlockCipher) (key : Bytes) :
    Option BlockCipher × Except Err Unit :=
  if key.length = 16 ∨ key.length = 24 ∨ key.length = 32 then (some (aes key), .ok ())
  else (cipher, .error .valueError)

/-- `LocalCryptoProvider.encrypt`, /repo/src/psrpcore/_clixml_shell.py:135-144; `protect` is
`crypt_protect_data`, which only Windows has. -/
def localEncrypt (protect : Option (Bytes → Bytes)) (value : PyStr) : PyStr :=
  b16encode (match protect with
    | none => encodeUtf16LE value
    | some f => f (encodeUtf16LE value))

/-- `LocalCryptoProvider.decrypt`, /repo/src/psrpcore/_clixml_shell.py:124-133. -/
def localDecrypt (unprotect : Option (Bytes → Bytes)) (value : PyStr) : Except Err PyStr := do
  let b ← b16decode (upperAscii value)
  match unprotect with
  | none => decodeUtf16LE b
  | some f => decodeUtf16LE (f b)

/-! ## Secure strings -/

/-- A `PSCryptoProvider`, /repo/src/psrpcore/types/_base.py:799-830. -/
structure CryptoProvider where
  encrypt : PyStr → Except Err PyStr
  decrypt : PyStr → Except Err PyStr

/-- The `PSRemotingCrypto` of a pool as a provider, /repo/src/psrpcore/_crypto.py:109-150. -/
def remotingProvider (cipher : Option BlockCipher) : CryptoProvider :=
  ⟨remotingEncrypt cipher, remotingDecrypt cipher⟩

/-- `PSSecureString`, /repo/src/psrpcore/types/_primitive.py:1198-1206; its members are not modelled.
The provider is that of the pool as it is when the string is decrypted. -/
structure SecureString where
  value : PyStr
  cipher : Option CryptoProvider := none

/-- `PSSecureString.decrypt`, /repo/src/psrpcore/types/_primitive.py:1208-1218. -/
def SecureString.decrypt (s : SecureString) : Except Err PyStr :=
  match s.cipher with
  | some c => c.decrypt s.value
  | none => .ok s.value

/-- `PSSecureString.__str__`, /repo/src/psrpcore/types/_primitive.py:1223-1224. -/
def SecureString.str (s : SecureString) : PyStr :=
  if s.cipher.isSome then s.value else lit "System.Security.SecureString"

/-- `PSSecureString.ToPSObjectForRemoting`, /repo/src/psrpcore/types/_primitive.py:1226-1239. -/
def SecureString.forRemoting (s : SecureString) (c : CryptoProvider) : Except Err SecureString :=
  if s.cipher.isSome then .ok s
  else match c.encrypt s.value with
    | .ok v => .ok ⟨v, some c⟩
    | .error e => .error e

/-- The text of the `SS` element, /repo/src/psrpcore/types/_serializer.py:772-777. -/
def SecureString.serialize (s : SecureString) (c : CryptoProvider) : Except Err PyStr :=
  (s.forRemoting c).map SecureString.str

/-- Reading an `SS` element, /repo/src/psrpcore/types/_serializer.py:994-995. -/
def SecureString.deserialize (text : PyStr) (c : CryptoProvider) : SecureString := ⟨text, some c⟩

/-! ## The key exchange -/

/-- The loop over the modulus, /repo/src/psrpcore/_crypto.py:35-40. -/
def modulusBytes (n : Nat) : Bytes :=
  if n = 0 then [] else UInt8.ofNat (n &&& 0xFF) :: modulusBytes (n >>> 8)
termination_by n
decreasing_by rw [Nat.shiftRight_eq_div_pow]; omega

/-- The header of a public key blob, /repo/src/psrpcore/_crypto.py:43. -/
def publicKeyHeader : Bytes :=
  [0x06, 0x02, 0x00, 0x00, 0x00, 0xa4, 0x00, 0x00, 0x52, 0x53, 0x41, 0x31, 0x00, 0x08, 0x00, 0x00]

/-- The public key bytes of `create_keypair` for the exponent and modulus that were generated,
/repo/src/psrpcore/_crypto.py:32-45. -/
def publicKeyBlob (e n : Nat) : Except Err Bytes :=
  match packLE 4 e with
  | .error x => .error x
  | .ok exponent => .ok (publicKeyHeader ++ exponent ++ modulusBytes n)

/-- The loop over the bytes of the modulus, /repo/src/psrpcore/_crypto.py:68-72. -/
def modulusLoop (shift modulus : Nat) : Bytes → Nat
  | [] => modulus
  | b :: bs => modulusLoop (shift + 1) (modulus + b.toNat <<< (8 * shift)) bs

/-- The public numbers `encrypt_session_key` reads from a blob, /repo/src/psrpcore/_crypto.py:66-72. -/
def readPublicKey (blob : Bytes) : Except Err (Nat × Nat) :=
  match unpackLE 4 (slice blob 16 20) with
  | .error x => .error x
  | .ok e => .ok (e, modulusLoop 0 0 (blob.drop 20))

/-- The header of an encrypted session key, /repo/src/psrpcore/_crypto.py:80. -/
def sessionKeyHeader : Bytes :=
  [0x01, 0x02, 0x00, 0x00, 0x10, 0x66, 0x00, 0x00, 0x00, 0xa4, 0x00, 0x00]

/-- `encrypt_session_key`, /repo/src/psrpcore/_crypto.py:48-82; `rsa e n` encrypts for the public key
of the numbers `e` and `n`, or refuses them. -/
def encryptSessionKey (rsa : Nat → Nat → Bytes → Except Err Bytes) (blob key : Bytes) : Except Err Bytes :=
  match readPublicKey blob with
  | .error x => .error x
  | .ok (e, n) => (rsa e n key).map fun c => sessionKeyHeader ++ c.reverse

/-- `decrypt_session_key`, /repo/src/psrpcore/_crypto.py:85-106; `rsaDec` decrypts with the private
key. -/
def decryptSessionKey (rsaDec : Bytes → Except Err Bytes) (encrypted : Bytes) : Except Err Bytes :=
  rsaDec (encrypted.drop 12).reverse

/-- What the client puts into its `PublicKey` message, /repo/src/psrpcore/_client.py:185-188. -/
def clientKeyMessage (e n : Nat) : Except Err PyStr := (publicKeyBlob e n).map b64encode

/-- What the server answers with in its `EncryptedSessionKey` message,
/repo/src/psrpcore/_events.py:891-894, /repo/src/psrpcore/_server.py:392-402. -/
def serverKeyMessage (rsa : Nat → Nat → Bytes → Except Err Bytes) (key : Bytes) (msg : PyStr) :
    Except Err PyStr :=
  match b64decode msg with
  | .error x => .error x
  | .ok blob => (encryptSessionKey rsa blob key).map b64encode

/-- What the client registers with its provider, /repo/src/psrpcore/_events.py:427-430,
/repo/src/psrpcore/_client.py:327-335. -/
def receivedSessionKey (rsaDec : Bytes → Except Err Bytes) (msg : PyStr) : Except Err Bytes :=
  match b64decode msg with
  | .error x => .error x
  | .ok enc => decryptSessionKey rsaDec enc

end Verif
