import Verif.Model.Cipher
/-
Specification of the ciphers of the key file format, and the laws of the cryptographic functions.
-/
namespace OSK
namespace Spec

/-- What the theorems about encrypted key files assume of `bcrypt` and `cryptography`.  Every theorem that
needs it takes this as a hypothesis; `toyCrypto_laws` below shows that it can be met. -/
structure CryptoLaws (cr : Crypto) : Prop where
  /-- decryption undoes encryption -/
  sym_inv : ∀ {alg mode key iv x y}, cr.symEnc alg mode key iv x = .ok y →
    cr.symDec alg mode key iv y = .ok x
  /-- block and counter modes without padding keep the length -/
  sym_length : ∀ {alg mode key iv x y}, cr.symEnc alg mode key iv x = .ok y → y.length = x.length
  /-- authenticated decryption undoes authenticated encryption -/
  gcm_inv : ∀ {key iv x y}, cr.gcmEnc key iv x = .ok y → cr.gcmDec key iv y = .ok x
  /-- Galois/counter mode appends a 16-byte tag -/
  gcm_length : ∀ {key iv x y}, cr.gcmEnc key iv x = .ok y → y.length = x.length + 16
  /-- a Poly1305 tag has 16 bytes -/
  poly_length : ∀ key x, (cr.poly1305 key x).length = 16
  /-- the key derivation function gives as many bytes as it is asked for -/
  kdf_length : ∀ {p s n r k}, cr.bcryptKdf p s n r = .ok k → k.length = n
  /-- no cipher accepts the empty key -/
  sym_empty : ∀ alg mode iv x, ∃ m, cr.symEnc alg mode [] iv x = .error (.valueError m)
  gcm_empty : ∀ iv x, ∃ m, cr.gcmEnc [] iv x = .error (.valueError m)
  chacha_empty : ∀ n, ∃ m, cr.chacha [] n = .error (.valueError m)

/-- A cipher of the key file format: sizes in bytes of block, key, initialisation vector and tag, and how
the cryptographic functions are used with a key and an initialisation vector. -/
structure Suite where
  block : Nat
  key : Nat
  iv : Nat
  tag : Nat
  enc : Crypto → (key iv plain : Bytes) → Except Exn Bytes
  dec : Crypto → (key iv cipher : Bytes) → Except Exn Bytes

/-- `a` xor the key stream bytes from position `pos` on -/
def xorStream (ks : Nat → UInt8) (pos : Nat) (a : Bytes) : Bytes :=
  a.mapIdx (fun i x => x ^^^ ks (pos + i))

/-- The one-time Poly1305 key: the first 32 bytes of key stream block 0. -/
def oneTimeKey (ks : Nat → UInt8) : Bytes := (List.range 32).map ks

/-- PROTOCOL.chacha20poly1305 with nonce and counter zero, for a packet without the encrypted length: the
text is encrypted from key stream block 1 on; the tag is that of the encrypted text. -/
def chachaSeal (cr : Crypto) (key _iv plain : Bytes) : Except Exn Bytes :=
  match cr.chacha (key.take 32) (List.replicate 16 0) with
  | .error e => .error e
  | .ok ks => .ok (xorStream ks 64 plain ++ cr.poly1305 (oneTimeKey ks) (xorStream ks 64 plain))

/-- The reverse: nothing is returned unless the last 16 bytes are the tag of the rest. -/
def chachaOpen (cr : Crypto) (key _iv cipher : Bytes) : Except Exn Bytes :=
  match cr.chacha (key.take 32) (List.replicate 16 0) with
  | .error e => .error e
  | .ok ks =>
    if cr.poly1305 (oneTimeKey ks) (cipher.take (cipher.length - 16)) = cipher.drop (cipher.length - 16)
    then .ok (xorStream ks 64 (cipher.take (cipher.length - 16)))
    else .error .invalidSignature

/-- AES in counter mode -/
def aesCtr (key : Nat) : Suite :=
  ⟨16, key, 16, 0, fun cr => cr.symEnc .aes .ctr, fun cr => cr.symDec .aes .ctr⟩
/-- AES in cipher block chaining mode -/
def aesCbc (key : Nat) : Suite :=
  ⟨16, key, 16, 0, fun cr => cr.symEnc .aes .cbc, fun cr => cr.symDec .aes .cbc⟩
/-- AES in Galois/counter mode -/
def aesGcm (key : Nat) : Suite := ⟨16, key, 12, 16, Crypto.gcmEnc, Crypto.gcmDec⟩

/-- The ciphers of the format other than `none` (the table in OpenSSH's cipher.c). -/
def suites : List (Str × Suite) :=
  [(py! "3des-cbc", ⟨8, 24, 8, 0, fun cr => cr.symEnc .tripleDes .cbc, fun cr => cr.symDec .tripleDes .cbc⟩),
   (py! "aes128-ctr", aesCtr 16),
   (py! "aes192-ctr", aesCtr 24),
   (py! "aes256-ctr", aesCtr 32),
   (py! "aes128-cbc", aesCbc 16),
   (py! "aes192-cbc", aesCbc 24),
   (py! "aes256-cbc", aesCbc 32),
   (py! "rijndael-cbc@lysator.liu.se", aesCbc 32),
   (py! "aes128-gcm@openssh.com", aesGcm 16),
   (py! "aes256-gcm@openssh.com", aesGcm 32),
   (py! "chacha20-poly1305@openssh.com", ⟨8, 64, 0, 16, chachaSeal, chachaOpen⟩)]

/-- Options of the `bcrypt` key derivation function. -/
def bcryptOptions (salt : Bytes) (rounds : Int) : KdfOptions :=
  ⟨.bcrypt, [(py! "salt", .bytes salt), (py! "rounds", .int rounds)]⟩

/-! A concrete instance of the laws. -/

/-- A repeating key, for the toy ciphers below. -/
def toyStream (key iv : Bytes) (i : Nat) : UInt8 :=
  (key ++ iv)[i % (key ++ iv).length]?.getD 0

/-- Toy functions with the shapes of the real ones. -/
def toyCrypto : Crypto where
  bcryptKdf p s n r :=
    if 0 < r then .ok ((List.range n).map (fun i => toyStream p s i)) else .error (.valueError "rounds")
  symEnc _ _ key iv x := if key = [] then .error (.valueError "key") else .ok (xorStream (toyStream key iv) 0 x)
  symDec _ _ key iv x := if key = [] then .error (.valueError "key") else .ok (xorStream (toyStream key iv) 0 x)
  gcmEnc key iv x := if key = [] then .error (.valueError "key") else
    .ok (xorStream (toyStream key iv) 0 x ++ List.replicate 16 (UInt8.ofNat x.length))
  gcmDec key iv x := if key = [] then .error (.valueError "key") else
    let y := x.take (x.length - 16)
    if x.drop (x.length - 16) = List.replicate 16 (UInt8.ofNat y.length)
    then .ok (xorStream (toyStream key iv) 0 y) else .error .invalidTag
  chacha key nonce := if key = [] then .error (.valueError "key") else .ok (toyStream key nonce)
  poly1305 key x := List.replicate 16 (UInt8.ofNat (key.length + x.length))

theorem xorStream_length (ks : Nat → UInt8) (pos : Nat) (a : Bytes) : (xorStream ks pos a).length = a.length := by
  unfold xorStream
  rw [List.length_mapIdx]

theorem xorStream_cons (ks : Nat → UInt8) (pos : Nat) (x : UInt8) (a : Bytes) :
    xorStream ks pos (x :: a) = (x ^^^ ks pos) :: xorStream ks (pos + 1) a := by
  unfold xorStream
  rw [List.mapIdx_cons]
  congr 1
  congr 1
  funext i x
  congr 2
  omega

theorem xorStream_twice (ks : Nat → UInt8) (a : Bytes) : ∀ pos, xorStream ks pos (xorStream ks pos a) = a := by
  induction a with
  | nil => intro pos; rfl
  | cons x t ih =>
    intro pos
    rw [xorStream_cons, xorStream_cons, ih, UInt8.xor_assoc, UInt8.xor_self, UInt8.xor_zero]

theorem toyCrypto_laws : CryptoLaws toyCrypto where
  sym_inv := by
    intro alg mode key iv x y h
    simp only [toyCrypto] at h ⊢
    split at h
    · cases h
    · rename_i hk
      cases h
      rw [if_neg hk, xorStream_twice]
  sym_length := by
    intro alg mode key iv x y h
    simp only [toyCrypto] at h
    split at h
    · cases h
    · cases h
      exact xorStream_length _ _ _
  gcm_inv := by
    intro key iv x y h
    simp only [toyCrypto] at h ⊢
    split at h
    · cases h
    · rename_i hk
      cases h
      simp [hk, xorStream_length, xorStream_twice]
  gcm_length := by
    intro key iv x y h
    simp only [toyCrypto] at h
    split at h
    · cases h
    · cases h
      simp [xorStream_length]
  poly_length := by intro key x; simp [toyCrypto]
  kdf_length := by
    intro p s n r k h
    simp only [toyCrypto] at h
    split at h
    · cases h; simp
    · cases h
  sym_empty := fun _ _ _ _ => ⟨"key", rfl⟩
  gcm_empty := fun _ _ => ⟨"key", rfl⟩
  chacha_empty := fun _ => ⟨"key", rfl⟩

end Spec
end OSK
