import Verif.Model.Generate
import Verif.Std.Ec
import Verif.Std.Ed25519
import Mathlib.Data.Nat.Prime.Basic

/-!
What `cryptography` (version 3, with OpenSSL 1.1.1) and PyNaCl check when they make key objects from numbers or bytes. The
conversions in key_params/ (rsa.py:81-87, 234-250; dss.py:84-94, 225-239; ed25519.py:104-121, 147-150, 301-332,
361-368; ecdsa.py:141-152, 308-317) rely on these checks and make none of their own.
-/

namespace OSK.Std

/-- `RSAPublicNumbers(e, n).public_key()`: `_check_public_key_components` -/
def rsaPublic (e n : Int) : Except Exn Unit :=
  if n < 3 then .error (.valueError "n must be >= 3.")
  else if e < 3 ∨ e ≥ n then .error (.valueError "e must be >= 3 and < n.")
  else if e % 2 = 0 then .error (.valueError "e must be odd.")
  else .ok ()

/-- `rsa_crt_dmp1(d, p)`, which is `d % (p - 1)` rounding down. Simplification: `OverflowError` stands for
`ZeroDivisionError`; both are `ArithmeticError`. -/
def rsaCrtDmp1 (d p : Int) : Except Exn Int :=
  if p = 1 then .error .overflowError else .ok (d.fmod (p - 1))

/-- `RSAPrivateNumbers(…).private_key()`: `_check_private_key_components`, then the conversion of the numbers, which
refuses negative ones, and then `RSA_check_key`. Simplification: OpenSSL's tests of primality are probabilistic. -/
def rsaPrivate (p q d dmp1 dmq1 iqmp e n : Int) : Except Exn Unit :=
  if n < 3 then .error (.valueError "modulus must be >= 3.")
  else if p ≥ n then .error (.valueError "p must be < modulus.")
  else if q ≥ n then .error (.valueError "q must be < modulus.")
  else if dmp1 ≥ n then .error (.valueError "dmp1 must be < modulus.")
  else if dmq1 ≥ n then .error (.valueError "dmq1 must be < modulus.")
  else if iqmp ≥ n then .error (.valueError "iqmp must be < modulus.")
  else if d ≥ n then .error (.valueError "private_exponent must be < modulus.")
  else if e < 3 ∨ e ≥ n then .error (.valueError "public_exponent must be >= 3 and < modulus.")
  else if e % 2 = 0 then .error (.valueError "public_exponent must be odd.")
  else if dmp1 % 2 = 0 then .error (.valueError "dmp1 must be odd.")
  else if dmq1 % 2 = 0 then .error (.valueError "dmq1 must be odd.")
  else if p * q ≠ n then .error (.valueError "p*q must equal modulus.")
  else if p < 0 ∨ q < 0 ∨ d < 0 ∨ dmp1 < 0 ∨ dmq1 < 0 ∨ iqmp < 0 then .error .overflowError
  else if p.toNat.Prime ∧ q.toNat.Prime ∧ d * e % Int.lcm (p - 1) (q - 1) = 1 ∧
      dmp1 = d % (p - 1) ∧ dmq1 = d % (q - 1) ∧ iqmp < p ∧ iqmp * q % p = 1 then .ok ()
  else .error (.valueError "Invalid private key")

/-- `int.bit_length` -/
def bits (i : Int) : Nat := if i = 0 then 0 else i.natAbs.log2 + 1

/-- `_check_dsa_parameters` -/
def dsaParameters (p q g : Int) : Except Exn Unit :=
  if bits p ∉ [1024, 2048, 3072, 4096] then
    .error (.valueError "p must be exactly 1024, 2048, 3072, or 4096 bits long")
  else if bits q ∉ [160, 224, 256] then .error (.valueError "q must be exactly 160, 224, or 256 bits long")
  else if ¬(1 < g ∧ g < p) then .error (.valueError "g, p don't satisfy 1 < g < p.")
  else .ok ()

/-- `DSAPublicNumbers(y, DSAParameterNumbers(p, q, g)).public_key()` -/
def dsaPublic (p q g y : Int) : Except Exn Unit := do
  dsaParameters p q g
  if q < 0 ∨ y < 0 then .error .overflowError else .ok ()

/-- `DSAPrivateNumbers(x, DSAPublicNumbers(y, …)).private_key()`: `_check_dsa_private_numbers` -/
def dsaPrivate (p q g y x : Int) : Except Exn Unit := do
  dsaParameters p q g
  if x ≤ 0 ∨ x ≥ q then .error (.valueError "x must be > 0 and < q.")
  else if y ≠ powMod p.toNat g.toNat x.toNat then .error (.valueError "y must be equal to (g ** x % p).")
  else .ok ()

/-- `EllipticCurvePrivateNumbers(d, EllipticCurvePublicNumbers(x, y, curve)).private_key()`: `EC_KEY_check_key` -/
def ecPrivate (name : Str) (x y : Nat) (d : Int) : Except Exn Unit :=
  match groupByName name with
  | none => .error (.valueError "unknown curve")
  | some g =>
    if d < 0 then .error .overflowError
    else if d < g.order ∧ g.public d.toNat = some (x, y) then .ok ()
    else .error (.valueError "Invalid EC key.")

/-- The constructors of Ed25519 keys, public and private, of both libraries -/
def edKey (b : Bytes) : Except Exn Unit :=
  if b.length = 32 then .ok () else .error (.valueError "An Ed25519 key is 32 bytes long")

/-- `get_curve_for_oid(…).name` -/
def curveName (oid : Str) : Str :=
  if oid = py! "1.2.840.10045.3.1.7" then py! "secp256r1"
  else if oid = py! "1.3.132.0.34" then py! "secp384r1"
  else if oid = py! "1.3.132.0.35" then py! "secp521r1"
  else []

/-- Both libraries, the second if it is installed. -/
def lib (nacl : Bool) : Lib where
  nacl := nacl
  rsaPublic := rsaPublic
  rsaPrivate := rsaPrivate
  rsaCrtDmp1 := rsaCrtDmp1
  dsaPublic := dsaPublic
  dsaPrivate := dsaPrivate
  edPublicOf := edPublicOf
  edPublic := edKey
  edPrivate := edKey
  verifyKey := edKey
  signingKey := edKey
  curveName := curveName
  decodePoint := decodePoint
  encodePoint := encodePoint
  ecPrivate := ecPrivate

/-- `ec.generate_private_key(curve)` with the private value that OpenSSL chose: the public point is computed from
it. -/
def ecGenerate (choice : Str → Nat) (name : Str) : Except Exn (Nat × Nat × Int) :=
  match groupByName name with
  | none => .error (.valueError "unknown curve")
  | some g =>
    match g.public (choice name) with
    | some (x, y) => .ok (x, y, choice name)
    | none => .error (.valueError "point at infinity")

end OSK.Std
