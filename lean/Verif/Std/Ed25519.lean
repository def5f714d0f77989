import Verif.Std.Curves
import Verif.Std.Modes
import Verif.Std.Sha512

/-!
Ed25519 public keys (RFC 8032 section 5.1), as `Ed25519PrivateKey.public_key` and `nacl.signing.SigningKey` compute
them (ed25519.py:253-258, 289-294, 315-319 and 353-355).
-/

namespace OSK.Std

/-- The prime `2²⁵⁵ - 19` -/
def edP : Nat := 2 ^ 255 - 19

/-- The coefficient `d` of the curve `-x² + y² = 1 + d·x²·y²`, which is `-121665/121666` -/
def edD : Nat := (edP - 121665) * powMod edP 121666 (edP - 2) % edP

/-- A point in extended coordinates: `x = X/Z`, `y = Y/Z`, `x·y = T/Z` -/
structure EdPoint where
  (X Y Z T : Nat)

/-- The sum of two points (RFC 8032 section 5.1.4) -/
def edAdd (p q : EdPoint) : EdPoint :=
  let a := (p.Y + (edP - p.X)) * (q.Y + (edP - q.X)) % edP
  let b := (p.Y + p.X) * (q.Y + q.X) % edP
  let c := p.T * 2 * edD * q.T % edP
  let d := p.Z * 2 * q.Z % edP
  let e := b + (edP - a)
  let f := d + (edP - c)
  let g := d + c
  let h := b + a
  ⟨e * f % edP, g * h % edP, f * g % edP, e * h % edP⟩

/-- Double and add, with as many steps as the first number says -/
def edMulAux : Nat → Nat → EdPoint → EdPoint → EdPoint
  | 0, _, _, acc => acc
  | k + 1, s, p, acc => edMulAux k (s / 2) (edAdd p p) (if s % 2 = 1 then edAdd acc p else acc)

/-- The base point (RFC 8032 section 5.1) -/
def edBase : EdPoint :=
  let x := 15112221349535400772501151409588531511454012693041857206046113283949847762202
  let y := 46316835694926478169428394003475163141307993866256225615783033603165251855960
  ⟨x, y, 1, x * y % edP⟩

/-- The encoding of a point: the second coordinate with the parity of the first in the highest bit (section 5.1.2) -/
def edEncode (p : EdPoint) : Bytes :=
  let i := powMod edP p.Z (edP - 2)
  let x := p.X * i % edP
  let y := p.Y * i % edP
  (natToBE 32 (y + 2 ^ 255 * (x % 2))).reverse

/-- The secret scalar of the first half of the hash: bits 0, 1, 2 and 255 cleared, bit 254 set (section 5.1.5) -/
def edScalar (h : Bytes) : Nat := leNat (h.take 32) % 2 ^ 254 / 8 * 8 + 2 ^ 254

/-- The public key of a private key (section 5.1.5) -/
def edPublicOf (seed : Bytes) : Bytes := edEncode (edMulAux 256 (edScalar (sha512 seed)) edBase ⟨0, 1, 1, 0⟩)

end OSK.Std
