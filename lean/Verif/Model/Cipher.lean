import Verif.Model.Stream
import Verif.Py.Text
/-
Model of kdf_options/ and cipher/.
-/
namespace OSK

/-- Block ciphers used from `cryptography`. -/
inductive SymAlg where
  | aes | tripleDes
  deriving DecidableEq, Repr

/-- Modes of operation used from `cryptography`. -/
inductive SymMode where
  | ctr | cbc
  deriving DecidableEq, Repr

/-- What the cipher layer takes from the packages `bcrypt` and `cryptography`.  Nothing is assumed about
these functions here; laws that theorems need are hypotheses (`Spec.CryptoLaws`). -/
structure Crypto where
  /-- `bcrypt.kdf(password, salt, desired_key_bytes, rounds, ignore_few_rounds=True)` -/
  bcryptKdf : (password salt : Bytes) → (desired : Nat) → (rounds : Int) → Except Exn Bytes
  /-- `e = Cipher(alg(key), mode(iv)).encryptor(); e.update(data) + e.finalize()` -/
  symEnc : SymAlg → SymMode → (key iv data : Bytes) → Except Exn Bytes
  /-- the same with `.decryptor()` -/
  symDec : SymAlg → SymMode → (key iv data : Bytes) → Except Exn Bytes
  /-- `aead.AESGCM(key).encrypt(iv, data, None)` -/
  gcmEnc : (key iv data : Bytes) → Except Exn Bytes
  /-- `aead.AESGCM(key).decrypt(iv, data, None)` -/
  gcmDec : (key iv data : Bytes) → Except Exn Bytes
  /-- `Cipher(ChaCha20(key, nonce), mode=None).encryptor()` (and `.decryptor()`, which is the same): the
  key stream that successive `update` calls consume, or the exception for bad arguments -/
  chacha : (key nonce : Bytes) → Except Exn (Nat → UInt8)
  /-- `Poly1305.generate_tag(key, data)` -/
  poly1305 : (key data : Bytes) → Bytes

/-! ### Key derivation functions -/

/-- The classes in `_KDF_MAPPING` (kdf_options/factory.py:12-15). -/
inductive KdfCls where
  | none | bcrypt
  deriving DecidableEq, Repr

/-- A key derivation options object: its class and `self.data`. -/
structure KdfOptions where
  cls : KdfCls
  data : VDict
  deriving DecidableEq, Repr

/-- `_KDF_MAPPING` (kdf_options/factory.py:12-15) -/
def kdfMapping : List (Str × KdfCls) := [(py! "none", .none), (py! "bcrypt", .bcrypt)]

/-- `get_kdf_options_class` (kdf_options/factory.py:18-34).  Simplification: as in `lookupType`. -/
def getKdfClass (t : Val) : Except Exn KdfCls :=
  match t with
  | .str s =>
    match dget kdfMapping s with
    | some c => .ok c
    | .none => .error (.keyError (some s))
  | _ => .error (.keyError .none)

/-- `FORMAT_INSTRUCTIONS_DICT` (kdf_options/none.py:39-49, kdf_options/bcrypt_options.py:71-85) -/
def kdfFmt : KdfCls → FDict
  | .none => []
  | .bcrypt => [(py! "salt", .pascal .bytes), (py! "rounds", .struct fmtBEI)]

/-- `kdf_class(values)` (pascal_style_byte_stream.py:463-465, 480-484) -/
def newKdf (c : KdfCls) (d : VDict) : Eff KdfOptions := do
  checkDict d (kdfFmt c)
  pure ⟨c, d⟩

/-- `SALT_LENGTH` (kdf_options/bcrypt_options.py:30-34) -/
def bcryptSaltLength : Nat := 16
/-- `ROUNDS` (kdf_options/bcrypt_options.py:36-40) -/
def bcryptRounds : Int := 16

/-- `generate_options()` without keyword arguments (kdf_options/none.py:51-61,
kdf_options/bcrypt_options.py:87-113); `tokenBytes` is `secrets.token_bytes`. -/
def generateKdf (tokenBytes : Nat → Bytes) : KdfCls → Eff KdfOptions
  | .none => newKdf .none []
  | .bcrypt => newKdf .bcrypt
      [(py! "salt", .bytes (tokenBytes bcryptSaltLength)), (py! "rounds", .int bcryptRounds)]

/-- `derive_key` (kdf_options/none.py:24-37, kdf_options/bcrypt_options.py:42-69). -/
def deriveKey (cr : Crypto) (o : KdfOptions) (passphrase : Str) (length : Nat) : Except Exn Bytes :=
  match o.cls with
  | .none => .ok []
  | .bcrypt => do
    let password ← strEncode passphrase
    let salt ← getItem o.data (py! "salt")
    let rounds ← getItem o.data (py! "rounds")
    match salt, rounds with
    | .bytes s, .int r => cr.bcryptKdf password s length r
    | _, _ => .error .typeError

/-! ### Ciphers -/

/-- The classes in `_CIPHER_MAPPING` (cipher/factory.py:16-29). -/
inductive CipherCls where
  | none
  | tripleDesCbc
  | aes128Ctr | aes192Ctr | aes256Ctr
  | aes128Cbc | aes192Cbc | aes256Cbc
  | aes128Gcm | aes256Gcm
  | chacha20Poly1305
  deriving DecidableEq, Repr

/-- `_CIPHER_MAPPING` (cipher/factory.py:16-29) -/
def cipherMapping : List (Str × CipherCls) :=
  [(py! "none", .none),
   (py! "3des-cbc", .tripleDesCbc),
   (py! "aes128-ctr", .aes128Ctr),
   (py! "aes192-ctr", .aes192Ctr),
   (py! "aes256-ctr", .aes256Ctr),
   (py! "aes128-cbc", .aes128Cbc),
   (py! "aes192-cbc", .aes192Cbc),
   (py! "aes256-cbc", .aes256Cbc),
   (py! "rijndael-cbc@lysator.liu.se", .aes256Cbc),
   (py! "aes128-gcm@openssh.com", .aes128Gcm),
   (py! "aes256-gcm@openssh.com", .aes256Gcm),
   (py! "chacha20-poly1305@openssh.com", .chacha20Poly1305)]

/-- `get_cipher_class` (cipher/factory.py:32-47).  Simplification: as in `lookupType`. -/
def getCipherClass (t : Val) : Except Exn CipherCls :=
  match t with
  | .str s =>
    match dget cipherMapping s with
    | some c => .ok c
    | .none => .error (.keyError (some s))
  | _ => .error (.keyError .none)

namespace CipherCls

/-- `BLOCK_SIZE` (cipher/none.py:53-59; cipher/confidentiality.py:90-94, 219-223;
cipher/integrity.py:67-71, 142-147) -/
def blockSize : CipherCls → Nat
  | .none => 8
  | .tripleDesCbc => 8
  | .aes128Ctr | .aes192Ctr | .aes256Ctr | .aes128Cbc | .aes192Cbc | .aes256Cbc => 16
  | .aes128Gcm | .aes256Gcm => 16
  | .chacha20Poly1305 => 8

/-- `KEY_LENGTH` (cipher/confidentiality.py:126-130, 139-143, 152-156, 179-183, 192-196, 205-209,
241-246; cipher/integrity.py:106-110, 119-123, 149-156); `NoneCipher` has none. -/
def keyLength : CipherCls → Nat
  | .none => 0
  | .tripleDesCbc => 24
  | .aes128Ctr => 16
  | .aes192Ctr => 24
  | .aes256Ctr => 32
  | .aes128Cbc => 16
  | .aes192Cbc => 24
  | .aes256Cbc => 32
  | .aes128Gcm => 16
  | .aes256Gcm => 32
  | .chacha20Poly1305 => 64

/-- `IV_LENGTH` (cipher/common.py:93-99 by default the block size; cipher/integrity.py:54-59,
158-167); `NoneCipher` has none. -/
def ivLength : CipherCls → Nat
  | .none => 0
  | .aes128Gcm | .aes256Gcm => 12
  | .chacha20Poly1305 => 0
  | c => c.blockSize

/-- `issubclass(cls, ConfidentialityIntegrityCipher)` (cipher/integrity.py:48, 100, 113, 126) -/
def isIntegrity : CipherCls → Bool
  | .aes128Gcm | .aes256Gcm | .chacha20Poly1305 => true
  | _ => false

/-- `TAG_LENGTH` (cipher/integrity.py:61-65, 169-173); only the integrity ciphers have one. -/
def tagLength : CipherCls → Nat
  | .aes128Gcm | .aes256Gcm => 16
  | .chacha20Poly1305 => 16
  | _ => 0

/-- `ALGORITHM` and `MODE` of the confidentiality-only ciphers (cipher/confidentiality.py:96-103,
110-117, 163-170, 225-232) with their base classes (120, 133, 146, 173, 186, 199, 235). -/
def sym : CipherCls → Option (SymAlg × SymMode)
  | .tripleDesCbc => some (.tripleDes, .cbc)
  | .aes128Ctr | .aes192Ctr | .aes256Ctr => some (.aes, .ctr)
  | .aes128Cbc | .aes192Cbc | .aes256Cbc => some (.aes, .cbc)
  | _ => Option.none

end CipherCls

/-! #### ChaCha20-Poly1305 -/

/-- `CHACHA20_KEY_LENGTH` = `KEY_LENGTH // 2` (cipher/integrity.py:175-182) -/
def chachaKeyLength : Nat := CipherCls.chacha20Poly1305.keyLength / 2
/-- `CHACHA20_INITIAL_COUNTER_NONCE` (cipher/integrity.py:186-199) -/
def chachaNonce : Bytes := List.replicate 16 0
/-- `CHACHA20_CIPHER_TEXT_BLOCK_SIZE` (cipher/integrity.py:208-217) -/
def chachaBlock : Nat := 64
/-- `POLY1305_KEY_LENGTH` (cipher/integrity.py:222-229) -/
def polyKeyLength : Nat := 32

/-- `context.update(data)` of a stream cipher whose context has consumed `pos` bytes of key stream. -/
def streamUpdate (ks : Nat → UInt8) : Nat → Bytes → Bytes
  | _, [] => []
  | pos, x :: t => (x ^^^ ks pos) :: streamUpdate ks (pos + 1) t

/-- `ChaCha20Poly1305Cipher.encrypt_with_key_iv` (cipher/integrity.py:237-275) -/
def chachaEncrypt (cr : Crypto) (plain key : Bytes) : Except Exn Bytes := do
  let ks ← cr.chacha (sliceTo key chachaKeyLength) chachaNonce
  let polyKey := sliceTo (streamUpdate ks 0 (List.replicate chachaBlock 0)) polyKeyLength
  let c := streamUpdate ks chachaBlock plain
  let tag := cr.poly1305 polyKey c
  pure (c ++ tag)

/-- `ChaCha20Poly1305Cipher.decrypt_with_key_iv` (cipher/integrity.py:277-316).
`Poly1305.verify_tag` raises `InvalidSignature` unless the given tag is the computed one. -/
def chachaDecrypt (cr : Crypto) (cipher key : Bytes) : Except Exn Bytes := do
  let k := sliceTo key chachaKeyLength
  let c := sliceTo cipher (-(CipherCls.chacha20Poly1305.tagLength : Int))
  let tag := sliceFrom cipher (-(CipherCls.chacha20Poly1305.tagLength : Int))
  let ks ← cr.chacha k chachaNonce
  let polyKey := sliceTo (streamUpdate ks 0 (List.replicate chachaBlock 0)) polyKeyLength
  if cr.poly1305 polyKey c ≠ tag then .error .invalidSignature
  else pure (streamUpdate ks chachaBlock c)

/-! #### Dispatch -/

/-- `encrypt_with_key_iv` (cipher/confidentiality.py:58-69; cipher/integrity.py:73-84, 237-275) -/
def encryptWithKeyIv (cr : Crypto) (c : CipherCls) (plain key iv : Bytes) : Except Exn Bytes :=
  match c with
  | .none => .ok plain
  | .aes128Gcm | .aes256Gcm => cr.gcmEnc key iv plain
  | .chacha20Poly1305 => chachaEncrypt cr plain key
  | c =>
    match c.sym with
    | some (alg, mode) => cr.symEnc alg mode key iv plain
    | Option.none => .error .notImplementedError

/-- `decrypt_with_key_iv` (cipher/confidentiality.py:71-82; cipher/integrity.py:86-97, 277-316) -/
def decryptWithKeyIv (cr : Crypto) (c : CipherCls) (cipher key iv : Bytes) : Except Exn Bytes :=
  match c with
  | .none => .ok cipher
  | .aes128Gcm | .aes256Gcm => cr.gcmDec key iv cipher
  | .chacha20Poly1305 => chachaDecrypt cr cipher key
  | c =>
    match c.sym with
    | some (alg, mode) => cr.symDec alg mode key iv cipher
    | Option.none => .error .notImplementedError

/-- `kdf_result[:KEY_LENGTH]`, `kdf_result[-IV_LENGTH:]` (cipher/common.py:165-166, 179-180).  `-0` is
`0`, so with `IV_LENGTH` 0 the second slice is everything. -/
def splitKeyIv (c : CipherCls) (r : Bytes) : Bytes × Bytes :=
  (sliceTo r c.keyLength, sliceFrom r (-(c.ivLength : Int)))

/-- `encrypt` (cipher/none.py:13-31, cipher/common.py:156-168) -/
def encrypt (cr : Crypto) (c : CipherCls) (o : KdfOptions) (passphrase : Str) (plain : Bytes) :
    Except Exn Bytes :=
  match c with
  | .none => .ok plain
  | c => do
    let r ← deriveKey cr o passphrase (c.keyLength + c.ivLength)
    encryptWithKeyIv cr c plain (splitKeyIv c r).1 (splitKeyIv c r).2

/-- `decrypt` (cipher/none.py:33-51, cipher/common.py:170-186) -/
def decrypt (cr : Crypto) (c : CipherCls) (o : KdfOptions) (passphrase : Str) (cipher : Bytes) :
    Except Exn Bytes :=
  match c with
  | .none => .ok cipher
  | c => do
    let r ← deriveKey cr o passphrase (c.keyLength + c.ivLength)
    decryptWithKeyIv cr c cipher (splitKeyIv c r).1 (splitKeyIv c r).2

end OSK
