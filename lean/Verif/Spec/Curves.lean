import Verif.Spec.TwosComplement
import Mathlib.Data.Int.ModEq
/-
Points on the three elliptic curves (SP 800-186 section 3.2.1) and their encodings (SEC 1 section 2.3.3),
independently of the way in which they are decoded.
-/
namespace OSK.Spec

/-- A curve: object identifier, prime, the coefficient `b`, the number of bytes of a coordinate, and the order of the
group. -/
structure Nist where
  oid : Str
  p : Nat
  b : Nat
  size : Nat
  order : Nat

/-- The curves of the key types, with the numbers as the standard prints them. -/
def nistCurves : List Nist :=
  [⟨py! "1.2.840.10045.3.1.7",
    0xffffffff00000001000000000000000000000000ffffffffffffffffffffffff,
    0x5ac635d8aa3a93e7b3ebbd55769886bc651d06b0cc53b0f63bce3c3e27d2604b, 32,
    0xffffffff00000000ffffffffffffffffbce6faada7179e84f3b9cac2fc632551⟩,
   ⟨py! "1.3.132.0.34",
    0xfffffffffffffffffffffffffffffffffffffffffffffffffffffffffffffffeffffffff0000000000000000ffffffff,
    0xb3312fa7e23ee7e4988e056be3f82d19181d9c6efe8141120314088f5013875ac656398d8a2ed19d2a85c8edd3ec2aef, 48,
    0xffffffffffffffffffffffffffffffffffffffffffffffffc7634d81f4372ddf581a0db248b0a77aecec196accc52973⟩,
   ⟨py! "1.3.132.0.35",
    0x1ffffffffffffffffffffffffffffffffffffffffffffffffffffffffffffffffffffffffffffffffffffffffffffffffffffffffffffffffffffffffffffffffff,
    0x51953eb9618e1c9a1f929a21a0b68540eea2da725b99b315f3b8b489918ef109e156193951ec7e937b1652c0bd3bb1bf073573df883d2c34f1ef451fd46b503f00, 66,
    0x1fffffffffffffffffffffffffffffffffffffffffffffffffffffffffffffffffa51868783bf2f966b7fcc0148f709a5d03bb5c9b8899c47aebb6fb71e91386409⟩]

/-- `(x, y)` is a point of the curve `y² = x³ - 3x + b` over the integers modulo `p`. -/
def OnCurve (c : Nist) (x y : Nat) : Prop :=
  x < c.p ∧ y < c.p ∧ (y : Int) ^ 2 ≡ (x : Int) ^ 3 - 3 * x + c.b [ZMOD c.p]

/-- `q` encodes the coordinates: both of them after 04, or the first after 02 or 03 for an even or odd second one. -/
inductive PointBytes (c : Nist) (x y : Nat) : Bytes → Prop
  | whole {X Y : Bytes} : X.length = c.size → Y.length = c.size → digitSum X = x → digitSum Y = y →
      PointBytes c x y (4 :: (X ++ Y))
  | compressed {X : Bytes} : X.length = c.size → digitSum X = x →
      PointBytes c x y ((if y % 2 = 0 then 2 else 3) :: X)

/-- `q` encodes a point of the curve. -/
def Point (c : Nist) (q : Bytes) : Prop := ∃ x y, OnCurve c x y ∧ PointBytes c x y q

/-- OpenSSH 9.6 takes `q` as a point: it reads no compressed points (sshbuf-getput-crypto.c, get_ec) and refuses
coordinates that have no more than half the bits of the order or are not less than the order less one (sshkey.c,
sshkey_ec_validate_public). -/
def SshPoint (c : Nist) (q : Bytes) : Prop := ∃ x y, OnCurve c x y ∧ PointBytes c x y q ∧ q.head? = some 4 ∧
  2 ^ ((c.order.log2 + 1) / 2) ≤ x ∧ 2 ^ ((c.order.log2 + 1) / 2) ≤ y ∧ x < c.order - 1 ∧ y < c.order - 1

end OSK.Spec
