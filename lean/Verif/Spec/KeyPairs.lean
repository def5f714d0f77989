import Verif.Std.Ed25519
import Verif.Spec.Generate
import Verif.Spec.Curves
import Mathlib.Algebra.Field.ZMod
import Mathlib.AlgebraicGeometry.EllipticCurve.Affine.Point
/-
What it means that the values of a private key belong together, per key type.
-/
namespace OSK.Spec

/-- RSA (RFC 8017 section 3.2): two odd primes whose product is the modulus, exponents that undo each other, and the inverse
of the second prime modulo the first. -/
structure RsaPair (p q d iqmp e n : Int) : Prop where
  first : 2 < p ∧ p.toNat.Prime
  second : 2 < q ∧ q.toNat.Prime
  modulus : n = p * q
  publicExponent : 1 < e ∧ e < n
  privateExponent : 0 < d ∧ d < n
  undo₁ : d * e ≡ 1 [ZMOD p - 1]
  undo₂ : d * e ≡ 1 [ZMOD q - 1]
  inverse : 0 ≤ iqmp ∧ iqmp < p ∧ iqmp * q ≡ 1 [ZMOD p]

/-- `2 ^ (n - 1) ≤ i < 2 ^ n` -/
def HasBits (n : Nat) (i : Int) : Prop := 2 ^ (n - 1) ≤ i ∧ i < 2 ^ n

/-- DSA (FIPS 186-4 section 4.1): the public value is a power of the generator with the private value as exponent. The sizes
are those that `cryptography` allows. -/
structure DsaPair (p q g y x : Int) : Prop where
  sizeP : ∃ n ∈ [1024, 2048, 3072, 4096], HasBits n p
  sizeQ : ∃ n ∈ [160, 224, 256], HasBits n q
  generator : 1 < g ∧ g < p
  privateValue : 0 < x ∧ x < q
  publicValue : 0 ≤ y ∧ y < p ∧ y ≡ g ^ x.toNat [ZMOD p]

/-- The base points of the curves of `nistCurves`, in this order (SP 800-186 section 3.2.1) -/
def basePoints : List (Nat × Nat) :=
  [(0x6b17d1f2e12c4247f8bce6e563a440f277037d812deb33a0f4a13945d898c296,
    0x4fe342e2fe1a7f9b8ee7eb4a7c0f9e162bce33576b315ececbb6406837bf51f5),
   (0xaa87ca22be8b05378eb1c71ef320ad746e1d3b628ba79b9859f741e082542a385502f25dbf55296c3a545e3872760ab7,
    0x3617de4a96262c6f5d9e98bf9292dc29f8f41dbd289a147ce9da3113b5f0b8c00a60b1ce1d7e819d7a431d7c90ea0e5f),
   (0xc6858e06b70404e9cd9e3ecb662395b4429c648139053fb521f828af606b4d3dbaa14b5e77efe75928fe1dc127a2ffa8de3348b3c1856a429bf97e7e31c2e5bd66,
    0x11839296a789a3bc0045c8a5fb42c7d1bd998f54449579b446817afbd17273e662c97ee72995ef42640c550b9013fad0761353c7086a272c24088be94769fd16650)]

/-- The curve `y² = x³ - 3x + b` in Mathlib's form -/
def Nist.weierstrass (c : Nist) : WeierstrassCurve.Affine (ZMod c.p) := ⟨0, 0, 0, -3, c.b⟩

/-- `(x, y)` is `d` times the base point `g`, in the group of the curve. -/
def Multiple (c : Nist) (g : Nat × Nat) (d x y : Nat) : Prop :=
  x < c.p ∧ y < c.p ∧ ∃ (_ : Fact c.p.Prime) (hg : c.weierstrass.Nonsingular g.1 g.2) (h : c.weierstrass.Nonsingular x y),
    d • WeierstrassCurve.Affine.Point.some _ _ hg = .some _ _ h

/-- ECDSA (SEC 1 section 3.2.1): `q` encodes the point that the private value gives. -/
def EcPair (c : Nist) (g : Nat × Nat) (q : Bytes) (d : Int) : Prop :=
  0 < d ∧ d < c.order ∧ ∃ x y, Multiple c g d.toNat x y ∧ PointBytes c x y q

/-- The values of a private key of a plain type belong together. -/
def BelongTogether (t : PlainType) (v : VDict) : Prop :=
  match t with
  | .rsa => ∃ p q d iqmp e n : Int, RsaPair p q d iqmp e n ∧ dget v (py! "p") = some (.int p)
      ∧ dget v (py! "q") = some (.int q) ∧ dget v (py! "d") = some (.int d) ∧ dget v (py! "iqmp") = some (.int iqmp)
      ∧ dget v (py! "e") = some (.int e) ∧ dget v (py! "n") = some (.int n)
  | .dss => ∃ p q g y x : Int, DsaPair p q g y x ∧ dget v (py! "p") = some (.int p)
      ∧ dget v (py! "q") = some (.int q) ∧ dget v (py! "g") = some (.int g) ∧ dget v (py! "y") = some (.int y)
      ∧ dget v (py! "x") = some (.int x)
  | .ed25519 => ∃ seed : Bytes, seed.length = 32 ∧ dget v (py! "public") = some (.bytes (Std.edPublicOf seed))
      ∧ dget v (py! "private_public") = some (.bytes (seed ++ Std.edPublicOf seed))
  | .ec256 => ec 0
  | .ec384 => ec 1
  | .ec521 => ec 2
where
  /-- for the curve at this place of the lists -/
  ec (i : Nat) : Prop := ∃ c g q d, nistCurves[i]? = some c ∧ basePoints[i]? = some g ∧ EcPair c g q d
      ∧ dget v (py! "q") = some (.bytes q) ∧ dget v (py! "d") = some (.int d)

/-- What is asked of generators: the numbers of a generated key belong together. -/
structure Generates (gen : Gen) : Prop where
  rsa : ∀ {e size k}, gen.rsa e size = .ok k → RsaPair k.p k.q k.d k.iqmp k.e k.n
  dsa : ∀ {size k}, gen.dsa size = .ok k → DsaPair k.p k.q k.g k.y k.x
  ed : ∀ {b}, gen.ed25519 = .ok b → b.length = 32
  ec : ∀ {t : PlainType} {name ident oid c g x y d}, t.curve = some (name, ident, oid) → gen.ec name = .ok (x, y, d) →
    (c, g) ∈ nistCurves.zip basePoints → c.oid = oid → 0 < d ∧ d < c.order ∧ Multiple c g d.toNat x y

end OSK.Spec
