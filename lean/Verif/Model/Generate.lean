import Verif.Model.Convert
import Verif.Model.KeyList
/-
Model of `generate_private_params` in key_params/, of `PublicPrivateKeyPair.generate` and of
`generate_options` with keyword arguments.
-/
namespace OSK

/-- What `private_numbers()` of an RSA private key gives. -/
structure RsaNumbers where
  (p q d dmp1 dmq1 iqmp e n : Int)
  deriving DecidableEq, Repr

/-- What `private_numbers()` of a DSA private key gives. -/
structure DsaNumbers where
  (p q g y x : Int)
  deriving DecidableEq, Repr

/-- The key generators of `cryptography`: the key they return, or the exception they raise. -/
structure Gen where
  /-- `rsa.generate_private_key(public_exponent, key_size)` -/
  rsa : (publicExponent keySize : Val) → Except Exn RsaNumbers
  /-- `dsa.generate_private_key(key_size)` -/
  dsa : (keySize : Nat) → Except Exn DsaNumbers
  /-- `Ed25519PrivateKey.generate()`: the private bytes -/
  ed25519 : Except Exn Bytes
  /-- `ec.generate_private_key(curve)`: the coordinates of the public point and the private value -/
  ec : (curve : Str) → Except Exn (Nat × Nat × Int)

/-- `RSAPrivateKeyParams.PUBLIC_EXPONENT` (rsa.py:142-150) -/
def rsaPublicExponent : Int := 65537
/-- `RSAPrivateKeyParams.KEY_SIZE` (rsa.py:154-162) -/
def rsaKeySize : Int := 4096
/-- `DSSPrivateKeyParams.KEY_SIZE` (dss.py:152-160) -/
def dssKeySize : Nat := 1024

/-- `kwargs[k] if k in kwargs else default` (rsa.py:187, 190; bcrypt_options.py:104-111) -/
def kwarg (kwargs : VDict) (k : Str) (default : Val) : Val :=
  match dget kwargs k with
  | some v => v
  | none => default

/-- The class whose `generate_private_params` a class uses (common.py:176-195, rsa.py:166-203,
dss.py:164-193, ed25519.py:230-264, ecdsa.py:240-275, sk.py:140-145). -/
def generateDef : Cls → Option Cls
  | .privateKeyParams => some .privateKeyParams
  | .rsaPriv => some .rsaPriv
  | .dssPriv => some .dssPriv
  | .ed25519Priv => some .ed25519Priv
  | .ecdsaPriv => some .ecdsaPriv
  | .skPriv => some .skPriv
  | _ => none

/-- The body of `RSAPrivateKeyParams.generate_private_params` (rsa.py:185-203) -/
def generateRsa (ext : Ext) (gen : Gen) (c : Cls) (kwargs : VDict) : Eff Params := do
  let k ← Eff.lift (gen.rsa (kwarg kwargs (py! "e") (.int rsaPublicExponent))
    (kwarg kwargs (py! "key_size") (.int rsaKeySize)))
  instantiate ext c [(py! "n", .int k.n), (py! "e", .int k.e), (py! "d", .int k.d), (py! "iqmp", .int k.iqmp),
    (py! "p", .int k.p), (py! "q", .int k.q)]

/-- The body of `DSSPrivateKeyParams.generate_private_params` (dss.py:181-193) -/
def generateDss (ext : Ext) (gen : Gen) (c : Cls) : Eff Params := do
  let k ← Eff.lift (gen.dsa dssKeySize)
  instantiate ext c [(py! "p", .int k.p), (py! "q", .int k.q), (py! "g", .int k.g), (py! "y", .int k.y),
    (py! "x", .int k.x)]

/-- The body of `Ed25519PrivateKeyParams.generate_private_params` (ed25519.py:247-264) -/
def generateEd25519 (ext : Ext) (lib : Lib) (gen : Gen) (c : Cls) : Eff Params := do
  let private_ ← Eff.lift gen.ed25519
  let public_ := lib.edPublicOf private_
  instantiate ext c [(py! "public", .bytes public_), (py! "private_public", .bytes (private_ ++ public_))]

/-- The body of `ECDSAPrivateKeyParams.generate_private_params` for a class other than
`ECDSAPrivateKeyParams` itself (ecdsa.py:266-275) -/
def generateEcdsa (ext : Ext) (lib : Lib) (gen : Gen) (c : Cls) : Eff Params := do
  let curve := lib.curveName (curveOf c).2
  let (x, y, d) ← Eff.lift (gen.ec curve)
  instantiate ext c [(py! "identifier", .str (curveOf c).1), (py! "q", .bytes (lib.encodePoint curve x y)),
    (py! "d", .int d)]

/-- `cls.generate_private_params(**kwargs)`.  Simplification: a class that has no such method (which the
factory for private classes does not return) gives `TypeError` instead of `AttributeError`. -/
def generateParams (ext : Ext) (lib : Lib) (gen : Gen) (c : Cls) (kwargs : VDict) : Eff Params :=
  match c.resolve generateDef with
  | some .rsaPriv => generateRsa ext gen c kwargs
  | some .dssPriv => generateDss ext gen c
  | some .ed25519Priv => generateEd25519 ext lib gen c
  -- ecdsa.py:261-264
  | some .ecdsaPriv => generateEcdsa ext lib gen (if c = .ecdsaPriv then .ec256Priv else c)
  -- sk.py:145
  | some .skPriv => Eff.throw .notImplementedError
  -- common.py:195
  | some .privateKeyParams => instantiate ext c []
  | _ => Eff.throw .typeError

/-- `PublicPrivateKeyPair.generate` (private_key_list.py:48-85) -/
def generate (ext : Ext) (lib : Lib) (gen : Gen) (keyType comment : Str) (kwargs : VDict) : Eff Pair := do
  let c ← Eff.lift (getPrivateClass (.str keyType))
  let p ← generateParams ext lib gen c kwargs
  generatePair ext keyType comment p.data

/-- `generate_options(**kwargs)` (kdf_options/none.py:51-61, kdf_options/bcrypt_options.py:87-113);
`tokenBytes` is `secrets.token_bytes`, whose argument may be any object here. -/
def generateKdfWith (tokenBytes : Val → Except Exn Bytes) (kwargs : VDict) : KdfCls → Eff KdfOptions
  | .none => newKdf .none []
  | .bcrypt => do
    let salt ← Eff.lift (tokenBytes (kwarg kwargs (py! "salt_length") (.int bcryptSaltLength)))
    newKdf .bcrypt
      [(py! "salt", .bytes salt), (py! "rounds", kwarg kwargs (py! "rounds") (.int bcryptRounds))]

end OSK
