import Verif.Spec.Checks

/-!
Points of the three elliptic curves of `ecdsa.py`, as `EllipticCurvePublicKey.from_encoded_point` reads
them (ecdsa.py:149, 186 and 313). The curves are P-256, P-384 and P-521 of SP 800-186 section 3.2.1, all
of the form `y² = x³ - 3x + b` over a prime field.
-/

namespace OSK.Std

/-- A curve `y² = x³ - 3x + b` over the integers modulo `p`, whose field elements take `size` bytes. -/
structure Curve where
  p : Nat
  b : Nat
  size : Nat

/-- P-256 (SP 800-186 section 3.2.1.3), object identifier 1.2.840.10045.3.1.7 -/
def p256 : Curve where
  p := 2 ^ 256 - 2 ^ 224 + 2 ^ 192 + 2 ^ 96 - 1
  b := 0x5ac635d8aa3a93e7b3ebbd55769886bc651d06b0cc53b0f63bce3c3e27d2604b
  size := 32

/-- P-384 (SP 800-186 section 3.2.1.4), object identifier 1.3.132.0.34 -/
def p384 : Curve where
  p := 2 ^ 384 - 2 ^ 128 - 2 ^ 96 + 2 ^ 32 - 1
  b := 0xb3312fa7e23ee7e4988e056be3f82d19181d9c6efe8141120314088f5013875ac656398d8a2ed19d2a85c8edd3ec2aef
  size := 48

/-- P-521 (SP 800-186 section 3.2.1.5), object identifier 1.3.132.0.35 -/
def p521 : Curve where
  p := 2 ^ 521 - 1
  b := 0x51953eb9618e1c9a1f929a21a0b68540eea2da725b99b315f3b8b489918ef109e156193951ec7e937b1652c0bd3bb1bf073573df883d2c34f1ef451fd46b503f00
  size := 66

/-- Square and multiply: `acc · a ^ e` modulo `m`, with as many steps as the exponent has bits. -/
def powModAux (m : Nat) : Nat → Nat → Nat → Nat → Nat
  | 0, _, _, acc => acc
  | k + 1, a, e, acc => powModAux m k (a * a % m) (e / 2) (if e % 2 = 1 then acc * a % m else acc)

/-- `a ^ e` modulo `m` -/
def powMod (m a e : Nat) : Nat := powModAux m (e.log2 + 1) (a % m) e (1 % m)

namespace Curve

/-- The right-hand side of the equation, reduced. -/
def rhs (c : Curve) (x : Nat) : Nat := (x * x * x + (c.p - 3) * x + c.b) % c.p

/-- The candidate for a square root that is computed for primes of the form `4k + 3`. -/
def root (c : Curve) (a : Nat) : Nat := powMod c.p a ((c.p + 1) / 4)

/-- Reading an encoded point. `from_encoded_point` refuses empty data and first bytes other than 2, 3 and
4 before it calls OpenSSL; `ec_GFp_simple_oct2point` (crypto/ec/ecp_oct.c) then demands the exact length
and coordinates below the prime, tests the equation, and finds the second coordinate of a compressed point
as `ec_GFp_simple_set_compressed_coordinates` does, which refuses the odd root if the root is zero. -/
def decode (c : Curve) : Bytes → Option (Nat × Nat)
  | [] => none
  | form :: t =>
    if form = 4 then
      if t.length = 2 * c.size then
        let x := beNat (t.take c.size)
        let y := beNat (t.drop c.size)
        if x < c.p ∧ y < c.p ∧ y * y % c.p = c.rhs x then some (x, y) else none
      else none
    else if form = 2 ∨ form = 3 then
      if t.length = c.size ∧ beNat t < c.p then
        let r := c.root (c.rhs (beNat t))
        if r * r % c.p = c.rhs (beNat t) then
          if r % 2 = form.toNat % 2 then some (beNat t, r)
          else if r = 0 then none
          else some (beNat t, c.p - r)
        else none
      else none
    else none

/-- `public_bytes(Encoding.X962, PublicFormat.UncompressedPoint)` (ecdsa.py:133, 271 and 299) -/
def encode (c : Curve) (x y : Nat) : Bytes := 4 :: (natToBE c.size x ++ natToBE c.size y)

end Curve

/-- `get_curve_for_oid` for the object identifiers of `ecdsa.py` -/
def curveByOid (oid : Str) : Option Curve :=
  if oid = py! "1.2.840.10045.3.1.7" then some p256
  else if oid = py! "1.3.132.0.34" then some p384
  else if oid = py! "1.3.132.0.35" then some p521
  else none

/-- `EllipticCurvePublicKey.from_encoded_point`; `ecdsa.py` has no other object identifiers. -/
def decodePoint (oid : Str) (q : Bytes) : Except Exn (Nat × Nat) :=
  match curveByOid oid with
  | some c =>
    match c.decode q with
    | some xy => .ok xy
    | none => .error (.valueError "invalid point")
  | none => .error (.valueError "unknown curve")

/-- Whether `from_encoded_point` accepts the bytes. -/
def validPoint (oid : Str) (q : Bytes) : Bool := (decodePoint oid q).toBool

/-- `public_bytes` for the curve with the name that `cryptography` gives it -/
def encodePoint (name : Str) (x y : Nat) : Bytes :=
  if name = py! "secp256r1" then p256.encode x y
  else if name = py! "secp384r1" then p384.encode x y
  else if name = py! "secp521r1" then p521.encode x y
  else []

end OSK.Std
