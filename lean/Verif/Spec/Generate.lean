import Verif.Model.Generate
import Verif.Spec.Convert
import Verif.Spec.Text
/-
What key generation should ask of the library, written out per key type.
-/
namespace OSK.Spec

/-- The private key object that the library is asked to generate for a key type.  RSA keys have the public
exponent and size given, by default 65537 and 4096 bits; DSS keys have 1024 bits; elliptic curve keys are
on the curve of the key type. -/
def asked (gen : Gen) (kwargs : VDict) : PlainType → Except Exn KeyObj
  | .rsa =>
    match gen.rsa ((dget kwargs (py! "e")).getD (.int 65537)) ((dget kwargs (py! "key_size")).getD (.int 4096)) with
    | .ok k => .ok (.rsaPrivate k.p k.q k.d k.dmp1 k.dmq1 k.iqmp k.e k.n)
    | .error e => .error e
  | .dss =>
    match gen.dsa 1024 with
    | .ok k => .ok (.dsaPrivate k.p k.q k.g k.y k.x)
    | .error e => .error e
  | .ed25519 =>
    match gen.ed25519 with
    | .ok b => .ok (.edPrivate b)
    | .error e => .error e
  | .ec256 => onCurve (py! "secp256r1")
  | .ec384 => onCurve (py! "secp384r1")
  | .ec521 => onCurve (py! "secp521r1")
where
  /-- an elliptic curve key -/
  onCurve (name : Str) : Except Exn KeyObj :=
    match gen.ec name with
    | .ok (x, y, d) => .ok (.ecPrivate name x y d)
    | .error e => .error e

/-- What is assumed of `cryptography` in the theorems about generation: object identifiers name the curves
they name, Ed25519 keys have 32 bytes, and generated points are on the curve. -/
structure GenLaws (ext : Ext) (lib : Lib) (gen : Gen) : Prop where
  curve : ∀ {t : PlainType} {name ident oid}, t.curve = some (name, ident, oid) → lib.curveName oid = name
  ed : ∀ {b}, gen.ed25519 = .ok b → b.length = 32 ∧ (lib.edPublicOf b).length = 32
  point : ∀ {t : PlainType} {name ident oid x y d}, t.curve = some (name, ident, oid) →
    gen.ec name = .ok (x, y, d) → ext.validPoint oid (lib.encodePoint name x y) = true

/-- The names of the key types of security keys. -/
def securityKeyTypes : List Str := [py! "sk-ecdsa-sha2-nistp256@openssh.com", py! "sk-ssh-ed25519@openssh.com"]

/-- The value takes at most `n` bytes in a length-prefixed field of its kind; integers are not negative. -/
def FitsIn (n : Nat) : Val → Prop
  | .bytes b => b.length ≤ n
  | .int i => 0 ≤ i ∧ 2 * i < (256 : Int) ^ n
  | .str s => ∃ cs, s = strOf cs ∧ (utf8 cs).length ≤ n
  | _ => False

end OSK.Spec
