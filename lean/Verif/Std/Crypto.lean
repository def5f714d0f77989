import Verif.Std.Des
import Verif.Std.Bcrypt
import Verif.Model.Cipher
/-
The functions of the packages `cryptography` and `bcrypt` that the code uses, as the standards define them.
-/
namespace OSK.Std

/-- The sizes of blocks. -/
def blockLength : SymAlg → Nat
  | .aes => 16
  | .tripleDes => 8

/-- `AES(key)`, `TripleDES(key)` with a mode: the sizes of the keys.  Shorter keys of triple DES repeat. -/
def keyAllowed : SymAlg → Nat → Bool
  | .aes, n => n == 16 || n == 24 || n == 32
  | .tripleDes, n => n == 8 || n == 16 || n == 24

def tdesKeys (key : Bytes) : List (List Bool) × List (List Bool) × List (List Bool) :=
  let key := key ++ key ++ key
  (desKeys (key.take 8), desKeys ((key.drop 8).take 8), desKeys ((key.drop 16).take 8))

def encBlock (alg : SymAlg) (key : Bytes) : Bytes → Bytes :=
  match alg with
  | .aes => aesEncBlock (aesKeys key)
  | .tripleDes => tdesEncBlock (tdesKeys key).1 (tdesKeys key).2.1 (tdesKeys key).2.2

def decBlock (alg : SymAlg) (key : Bytes) : Bytes → Bytes :=
  match alg with
  | .aes => aesDecBlock (aesKeys key)
  | .tripleDes => tdesDecBlock (tdesKeys key).1 (tdesKeys key).2.1 (tdesKeys key).2.2

/-- Triple DES has no counter mode here (`UnsupportedAlgorithm`, for which `Exn` has no name; the code does not use it). -/
def symCrypt (enc : Bool) (alg : SymAlg) (mode : SymMode) (key iv b : Bytes) : Except Exn Bytes :=
  if ¬ keyAllowed alg key.length then .error (.valueError "Invalid key size")
  else if iv.length ≠ blockLength alg then .error (.valueError "Invalid IV or nonce size")
  else
    match mode, alg with
    | .cbc, alg =>
      if b.length % blockLength alg ≠ 0 then
        .error (.valueError "The length of the provided data is not a multiple of the block length.")
      else if enc then .ok (cbcEnc (blockLength alg) (encBlock alg key) (b.length / blockLength alg) iv b)
      else .ok (cbcDec (blockLength alg) (decBlock alg key) (b.length / blockLength alg) iv b)
    | .ctr, .aes => .ok (ctrCrypt (encBlock .aes key) iv b)
    | .ctr, .tripleDes => .error .notImplementedError

/-- `AESGCM(key)` and the nonce. -/
def gcmAllowed (key iv : Bytes) : Bool := keyAllowed .aes key.length && decide (8 ≤ iv.length) && decide (iv.length ≤ 128)

def gcmEnc (key iv b : Bytes) : Except Exn Bytes :=
  if ¬ gcmAllowed key iv then .error (.valueError "AESGCM key must be 128, 192, or 256 bits.")
  else
    let c := gcmCrypt (encBlock .aes key) iv b
    .ok (c ++ gcmTag (encBlock .aes key) iv c)

def gcmDec (key iv b : Bytes) : Except Exn Bytes :=
  if ¬ gcmAllowed key iv then .error (.valueError "AESGCM key must be 128, 192, or 256 bits.")
  else if b.length < 16 then .error .invalidTag
  else
    let c := b.take (b.length - 16)
    if b.drop (b.length - 16) ≠ gcmTag (encBlock .aes key) iv c then .error .invalidTag
    else .ok (gcmCrypt (encBlock .aes key) iv c)

/-- `bcrypt.kdf` (the checks of its arguments, then `bcrypt_pbkdf`) -/
def bcryptKdf (password salt : Bytes) (n : Nat) (rounds : Int) : Except Exn Bytes :=
  if password.length = 0 ∨ salt.length = 0 then .error (.valueError "password and salt must not be empty")
  else if n = 0 ∨ 512 < n then .error (.valueError "desired_key_bytes must be 1-512")
  else if rounds < 1 then .error (.valueError "rounds must be 1 or more")
  else .ok (bcryptPbkdf password salt n rounds.toNat)

/-- The key stream of `ChaCha20(key, nonce)`. -/
def chacha (key nonce : Bytes) : Except Exn (Nat → UInt8) :=
  if key.length ≠ 32 then .error (.valueError "Invalid key size")
  else if nonce.length ≠ 16 then .error (.valueError "nonce must be 128-bits (16 bytes)")
  else .ok (fun i => (chachaBlock key nonce (i / 64)).getD (i % 64) 0)

/-- All of them. -/
def crypto : Crypto where
  bcryptKdf := bcryptKdf
  symEnc := symCrypt true
  symDec := symCrypt false
  gcmEnc := gcmEnc
  gcmDec := gcmDec
  chacha := chacha
  poly1305 := poly1305

end OSK.Std
