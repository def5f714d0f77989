import Verif.Model.Convert
/-
What the conversions between parameter objects and key objects of other packages should compute,
written out per key type, without class hierarchy.
-/
namespace OSK.Spec

/-- The public key object of a private key object; public key objects are their own public key. -/
def publicObject (lib : Lib) : KeyObj → KeyObj
  | .rsaPrivate _ _ _ _ _ _ e n => .rsaPublic e n
  | .dsaPrivate p q g y _ => .dsaPublic p q g y
  | .edPrivate raw => .edPublic (lib.edPublicOf raw)
  | .ecPrivate curve x y _ => .ecPublic curve x y
  | .signingKey seed => .verifyKey (lib.edPublicOf seed)
  | o => o

/-- The plain key types with, for elliptic curve keys, the names of the curve in `cryptography` and in
OpenSSH. -/
inductive PlainType where
  | rsa | dss | ed25519 | ec256 | ec384 | ec521
  deriving DecidableEq, Repr

/-- OpenSSH's name of the key type. -/
def PlainType.name : PlainType → Str
  | .rsa => py! "ssh-rsa"
  | .dss => py! "ssh-dss"
  | .ed25519 => py! "ssh-ed25519"
  | .ec256 => py! "ecdsa-sha2-nistp256"
  | .ec384 => py! "ecdsa-sha2-nistp384"
  | .ec521 => py! "ecdsa-sha2-nistp521"

/-- `cryptography`'s name of the curve, OpenSSH's name of the curve, object identifier. -/
def PlainType.curve : PlainType → Option (Str × Str × Str)
  | .ec256 => some (py! "secp256r1", py! "nistp256", py! "1.2.840.10045.3.1.7")
  | .ec384 => some (py! "secp384r1", py! "nistp384", py! "1.3.132.0.34")
  | .ec521 => some (py! "secp521r1", py! "nistp521", py! "1.3.132.0.35")
  | _ => none

/-- The parameter values of the public key in a key object, if it is a key of the given type. -/
def publicValues (lib : Lib) (t : PlainType) (o : KeyObj) : Option VDict :=
  match t, publicObject lib o with
  | .rsa, .rsaPublic e n => some [(py! "e", .int e), (py! "n", .int n)]
  | .dss, .dsaPublic p q g y =>
    some [(py! "p", .int p), (py! "q", .int q), (py! "g", .int g), (py! "y", .int y)]
  | .ed25519, .edPublic b => some [(py! "public", .bytes b)]
  | .ed25519, .bytes b => some [(py! "public", .bytes b)]
  | .ed25519, .verifyKey b => if lib.nacl then some [(py! "public", .bytes b)] else none
  | t, .ecPublic curve x y =>
    match t.curve with
    | some (name, ident, _) =>
      if curve = name then
        some [(py! "identifier", .str ident), (py! "q", .bytes (lib.encodePoint curve x y))]
      else none
    | none => none
  | _, _ => none

/-- The parameter values of the private key in a key object, if it is a private key of the given type. -/
def privateValues (lib : Lib) (t : PlainType) (o : KeyObj) : Option VDict :=
  match t, o with
  | .rsa, .rsaPrivate p q d _ _ iqmp e n =>
    some [(py! "n", .int n), (py! "e", .int e), (py! "d", .int d), (py! "iqmp", .int iqmp),
      (py! "p", .int p), (py! "q", .int q)]
  | .dss, .dsaPrivate p q g y x =>
    some [(py! "p", .int p), (py! "q", .int q), (py! "g", .int g), (py! "y", .int y), (py! "x", .int x)]
  | .ed25519, .edPrivate b =>
    some [(py! "public", .bytes (lib.edPublicOf b)), (py! "private_public", .bytes (b ++ lib.edPublicOf b))]
  | .ed25519, .bytes b =>
    some [(py! "public", .bytes (lib.edPublicOf b)), (py! "private_public", .bytes (b ++ lib.edPublicOf b))]
  | .ed25519, .signingKey b =>
    if lib.nacl then
      some [(py! "public", .bytes (lib.edPublicOf b)), (py! "private_public", .bytes (b ++ lib.edPublicOf b))]
    else none
  | t, .ecPrivate curve x y d =>
    match t.curve with
    | some (name, ident, _) =>
      if curve = name then
        some [(py! "identifier", .str ident), (py! "q", .bytes (lib.encodePoint curve x y)), (py! "d", .int d)]
      else none
    | none => none
  | _, _ => none

/-- The parameter values for a public or private key. -/
def values (lib : Lib) (kind : Kind) (t : PlainType) (o : KeyObj) : Option VDict :=
  match kind with
  | .pub => publicValues lib t o
  | .priv => privateValues lib t o

/-- The exception with which the library refuses a byte string as an Ed25519 private key, where that
matters: when a private key is made from a `bytes` object. -/
def refusal (lib : Lib) (kind : Kind) (t : PlainType) (o : KeyObj) : Option Exn :=
  match kind, t, o with
  | .priv, .ed25519, .bytes b =>
    match lib.edPrivate b with
    | .ok _ => none
    | .error e => some e
  | _, _, _ => none

/-- The classes of key objects of a key type. -/
def objClasses (lib : Lib) : Kind → PlainType → List ObjCls
  | .pub, .rsa => [.rsaPublicKey]
  | .priv, .rsa => [.rsaPrivateKey]
  | .pub, .dss => [.dsaPublicKey]
  | .priv, .dss => [.dsaPrivateKey]
  | .pub, .ed25519 => [.ed25519PublicKey, .bytes] ++ if lib.nacl then [.verifyKey] else []
  | .priv, .ed25519 => [.ed25519PrivateKey, .bytes] ++ if lib.nacl then [.signingKey] else []
  | .pub, _ => [.ecPublicKey]
  | .priv, _ => [.ecPrivateKey]

/-- The classes of public key objects.  (`bytes` from a private class holds a private key.) -/
def isPublicCls : ObjCls → Bool
  | .rsaPublicKey | .dsaPublicKey | .ed25519PublicKey | .ecPublicKey | .verifyKey => true
  | _ => false

/-- The classes of security keys and certificates: kind, name of the key type, and the plain type on which
it is based. -/
def derivedTypes : List (Kind × Str × PlainType) :=
  [(.pub, py! "sk-ecdsa-sha2-nistp256@openssh.com", .ec256), (.priv, py! "sk-ecdsa-sha2-nistp256@openssh.com", .ec256),
   (.pub, py! "sk-ssh-ed25519@openssh.com", .ed25519), (.priv, py! "sk-ssh-ed25519@openssh.com", .ed25519),
   (.pub, py! "ssh-rsa-cert-v01@openssh.com", .rsa), (.pub, py! "ssh-dss-cert-v01@openssh.com", .dss),
   (.pub, py! "ssh-ed25519-cert-v01@openssh.com", .ed25519),
   (.pub, py! "ecdsa-sha2-nistp256-cert-v01@openssh.com", .ec256),
   (.pub, py! "ecdsa-sha2-nistp384-cert-v01@openssh.com", .ec384),
   (.pub, py! "ecdsa-sha2-nistp521-cert-v01@openssh.com", .ec521),
   (.pub, py! "sk-ssh-ed25519-cert-v01@openssh.com", .ed25519),
   (.pub, py! "sk-ecdsa-sha2-nistp256-cert-v01@openssh.com", .ec256)]

/-- The object holds a private key. -/
def isPrivateObj : KeyObj → Bool
  | .rsaPrivate .. | .dsaPrivate .. | .edPrivate _ | .ecPrivate .. | .signingKey _ => true
  | _ => false

/-- A key object that the library itself would construct: its constructor accepts the numbers, and the
redundant ones agree with the others. -/
def Genuine (lib : Lib) : KeyObj → Prop
  | .rsaPublic e n => lib.rsaPublic e n = .ok ()
  | .rsaPrivate p q d dmp1 dmq1 iqmp e n =>
    lib.rsaPrivate p q d dmp1 dmq1 iqmp e n = .ok ()
    ∧ lib.rsaCrtDmp1 d p = .ok dmp1 ∧ lib.rsaCrtDmp1 d q = .ok dmq1
  | .dsaPublic p q g y => lib.dsaPublic p q g y = .ok ()
  | .dsaPrivate p q g y x => lib.dsaPrivate p q g y x = .ok ()
  | .edPublic b => lib.edPublic b = .ok ()
  | .edPrivate b => b.length = 32 ∧ lib.edPrivate b = .ok ()
  | .signingKey b => b.length = 32 ∧ lib.signingKey b = .ok ()
  | .bytes b => b.length = 32
  | .verifyKey b => lib.verifyKey b = .ok ()
  | .ecPublic curve x y => PointGenuine lib curve x y
  | .ecPrivate curve x y d => PointGenuine lib curve x y ∧ lib.ecPrivate curve x y d = .ok ()
  | .other => True
where
  /-- the encoding of the point can be decoded -/
  PointGenuine (lib : Lib) (curve : Str) (x y : Nat) : Prop :=
    ∀ t ident oid, PlainType.curve t = some (curve, ident, oid) →
      lib.curveName oid = curve ∧ lib.decodePoint oid (lib.encodePoint curve x y) = .ok (x, y)

end OSK.Spec
