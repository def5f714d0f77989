import Verif.Std.Curves

/-!
The groups of the three elliptic curves of `ecdsa.py` and the public points of private keys, as
`ec.generate_private_key` (ecdsa.py:266-268) and `EllipticCurvePrivateNumbers.private_key` (ecdsa.py:312-317)
use them. OpenSSL computes in other coordinates and in constant time; the sums are the same.
-/

namespace OSK.Std

namespace Curve

/-- The inverse of a number that is not divisible by the prime. -/
def inv (c : Curve) (a : Nat) : Nat := powMod c.p a (c.p - 2)

/-- The sum of two points on a line of slope `l` through the first of them (SEC 1 section 2.2.1). -/
def third (c : Curve) (x₁ y₁ x₂ l : Nat) : Nat × Nat :=
  let x := (l * l + (c.p - x₁) + (c.p - x₂)) % c.p
  (x, (l * (x₁ + (c.p - x)) + (c.p - y₁)) % c.p)

/-- The sum of two points, where `none` is the point at infinity (SEC 1 section 2.2.1). -/
def add (c : Curve) : Option (Nat × Nat) → Option (Nat × Nat) → Option (Nat × Nat)
  | none, q => q
  | some p, none => some p
  | some (x₁, y₁), some (x₂, y₂) =>
    if x₁ = x₂ then
      if (y₁ + y₂) % c.p = 0 then none
      else some (c.third x₁ y₁ x₂ ((3 * x₁ * x₁ + (c.p - 3)) * c.inv (2 * y₁) % c.p))
    else some (c.third x₁ y₁ x₂ ((y₂ + (c.p - y₁)) * c.inv (x₂ + (c.p - x₁)) % c.p))

/-- Double and add: `acc + d · p`, with as many steps as the number has bits. -/
def mulAux (c : Curve) : Nat → Nat → Option (Nat × Nat) → Option (Nat × Nat) → Option (Nat × Nat)
  | 0, _, _, acc => acc
  | k + 1, d, p, acc => c.mulAux k (d / 2) (c.add p p) (if d % 2 = 1 then c.add acc p else acc)

/-- `d · p` -/
def mul (c : Curve) (d : Nat) (p : Option (Nat × Nat)) : Option (Nat × Nat) := c.mulAux (d.log2 + 1) d p none

end Curve

/-- A curve with its base point and the order of that (SP 800-186 section 3.2.1) -/
structure Group where
  curve : Curve
  gx : Nat
  gy : Nat
  order : Nat

/-- P-256 -/
def g256 : Group where
  curve := p256
  gx := 0x6b17d1f2e12c4247f8bce6e563a440f277037d812deb33a0f4a13945d898c296
  gy := 0x4fe342e2fe1a7f9b8ee7eb4a7c0f9e162bce33576b315ececbb6406837bf51f5
  order := 0xffffffff00000000ffffffffffffffffbce6faada7179e84f3b9cac2fc632551

/-- P-384 -/
def g384 : Group where
  curve := p384
  gx := 0xaa87ca22be8b05378eb1c71ef320ad746e1d3b628ba79b9859f741e082542a385502f25dbf55296c3a545e3872760ab7
  gy := 0x3617de4a96262c6f5d9e98bf9292dc29f8f41dbd289a147ce9da3113b5f0b8c00a60b1ce1d7e819d7a431d7c90ea0e5f
  order := 0xffffffffffffffffffffffffffffffffffffffffffffffffc7634d81f4372ddf581a0db248b0a77aecec196accc52973

/-- P-521 -/
def g521 : Group where
  curve := p521
  gx := 0xc6858e06b70404e9cd9e3ecb662395b4429c648139053fb521f828af606b4d3dbaa14b5e77efe75928fe1dc127a2ffa8de3348b3c1856a429bf97e7e31c2e5bd66
  gy := 0x11839296a789a3bc0045c8a5fb42c7d1bd998f54449579b446817afbd17273e662c97ee72995ef42640c550b9013fad0761353c7086a272c24088be94769fd16650
  order := 0x1fffffffffffffffffffffffffffffffffffffffffffffffffffffffffffffffffa51868783bf2f966b7fcc0148f709a5d03bb5c9b8899c47aebb6fb71e91386409

/-- The public point of a private key. -/
def Group.public (g : Group) (d : Nat) : Option (Nat × Nat) := g.curve.mul d (some (g.gx, g.gy))

/-- The group of the curve with the name that `cryptography` gives it -/
def groupByName (name : Str) : Option Group :=
  if name = py! "secp256r1" then some g256
  else if name = py! "secp384r1" then some g384
  else if name = py! "secp521r1" then some g521
  else none

end OSK.Std
