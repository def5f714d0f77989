import Verif.Model.Key
/-
Model of the conversions between parameter objects and key objects of other packages
(`convert_from`, `convert_to`, `conversion_functions` in key_params/).
-/
namespace OSK

/-! ### Key objects of other packages -/

/-- The classes of key objects that occur in `conversion_functions`; `other` is any other class. -/
inductive ObjCls where
  | rsaPublicKey | rsaPrivateKey            -- cryptography.hazmat.primitives.asymmetric.rsa
  | dsaPublicKey | dsaPrivateKey            -- … dsa
  | ed25519PublicKey | ed25519PrivateKey    -- … ed25519
  | ecPublicKey | ecPrivateKey              -- … ec
  | bytes
  | verifyKey | signingKey                  -- nacl.signing
  | other
  deriving DecidableEq, Repr

/-- A key object, given by what its accessors return.  Simplifications: an object is an instance of
exactly one of the classes in `ObjCls`; the numbers of a key are those it was constructed from. -/
inductive KeyObj where
  /-- `public_numbers()` is `(e, n)` -/
  | rsaPublic (e n : Int)
  /-- `private_numbers()` -/
  | rsaPrivate (p q d dmp1 dmq1 iqmp e n : Int)
  | dsaPublic (p q g y : Int)
  | dsaPrivate (p q g y x : Int)
  /-- raw public bytes -/
  | edPublic (raw : Bytes)
  /-- raw private bytes -/
  | edPrivate (raw : Bytes)
  /-- `curve.name` and the affine coordinates -/
  | ecPublic (curve : Str) (x y : Nat)
  | ecPrivate (curve : Str) (x y : Nat) (d : Int)
  | bytes (b : Bytes)
  /-- `bytes(key_object)` -/
  | verifyKey (b : Bytes)
  /-- `bytes(key_object)`, the seed -/
  | signingKey (seed : Bytes)
  | other
  deriving DecidableEq, Repr

/-- `type(key_object)` -/
def KeyObj.cls : KeyObj → ObjCls
  | .rsaPublic .. => .rsaPublicKey
  | .rsaPrivate .. => .rsaPrivateKey
  | .dsaPublic .. => .dsaPublicKey
  | .dsaPrivate .. => .dsaPrivateKey
  | .edPublic _ => .ed25519PublicKey
  | .edPrivate _ => .ed25519PrivateKey
  | .ecPublic .. => .ecPublicKey
  | .ecPrivate .. => .ecPrivateKey
  | .bytes _ => .bytes
  | .verifyKey _ => .verifyKey
  | .signingKey _ => .signingKey
  | .other => .other

/-- What the conversions take from `cryptography` and `nacl`.  The functions that construct key objects
are given by the exception they raise on bad arguments, if any. -/
structure Lib where
  /-- `import nacl.signing` succeeds -/
  nacl : Bool
  /-- `RSAPublicNumbers(e, n).public_key()` -/
  rsaPublic : (e n : Int) → Except Exn Unit
  /-- `RSAPrivateNumbers(p, q, d, dmp1, dmq1, iqmp, RSAPublicNumbers(e, n)).private_key()` -/
  rsaPrivate : (p q d dmp1 dmq1 iqmp e n : Int) → Except Exn Unit
  /-- `rsa_crt_dmp1(private_exponent, p)` -/
  rsaCrtDmp1 : (d p : Int) → Except Exn Int
  /-- `DSAPublicNumbers(y, DSAParameterNumbers(p, q, g)).public_key()` -/
  dsaPublic : (p q g y : Int) → Except Exn Unit
  /-- `DSAPrivateNumbers(x, DSAPublicNumbers(…)).private_key()` -/
  dsaPrivate : (p q g y x : Int) → Except Exn Unit
  /-- the public key bytes of the Ed25519 private key bytes -/
  edPublicOf : Bytes → Bytes
  /-- `Ed25519PublicKey.from_public_bytes(b)` -/
  edPublic : Bytes → Except Exn Unit
  /-- `Ed25519PrivateKey.from_private_bytes(b)` -/
  edPrivate : Bytes → Except Exn Unit
  /-- `nacl.signing.VerifyKey(b)` -/
  verifyKey : Bytes → Except Exn Unit
  /-- `nacl.signing.SigningKey(b)` -/
  signingKey : Bytes → Except Exn Unit
  /-- `get_curve_for_oid(ObjectIdentifier(oid)).name` -/
  curveName : (oid : Str) → Str
  /-- `EllipticCurvePublicKey.from_encoded_point(get_curve_for_oid(ObjectIdentifier(oid))(), q)`: the
  coordinates of the point -/
  decodePoint : (oid : Str) → Bytes → Except Exn (Nat × Nat)
  /-- `public_bytes(Encoding.X962, PublicFormat.UncompressedPoint)` -/
  encodePoint : (curve : Str) → (x y : Nat) → Bytes
  /-- `EllipticCurvePrivateNumbers(d, public_numbers).private_key()` -/
  ecPrivate : (curve : Str) → (x y : Nat) → (d : Int) → Except Exn Unit

/-! ### Subclasses and abstract classes -/

namespace Cls

/-- The parameter classes in the order in which they are defined when the package is imported:
`key_params/__init__.py` imports `cert` first, which imports `common`, `dss`, `ecdsa`, `ed25519`, `rsa`
and `sk` in this order (cert.py:13-22). -/
def definitionOrder : List Cls :=
  [.pascalStyleDict, .publicKeyParams, .privateKeyParams, .dssPub, .dssPriv, .ecdsaPub, .ecdsaPriv,
   .ec256Pub, .ec256Priv, .ec384Pub, .ec384Priv, .ec521Pub, .ec521Priv, .ed25519Pub, .ed25519Priv,
   .rsaPub, .rsaPriv, .skPub, .skPriv, .skEc256Pub, .skEc256Priv, .skEd25519Pub, .skEd25519Priv,
   .certPub, .certRsa, .certEd25519, .certDss, .certEc256, .certEc384, .certEc521, .certSkEd25519,
   .certSkEc256]

/-- `cls.__subclasses__()`: the direct subclasses in order of definition. -/
def subclasses (c : Cls) : List Cls := definitionOrder.filter (fun d => d.bases.contains c)

/-- The methods that are abstract somewhere. -/
inductive AbstractMethod where
  | getFormatInstructionsDict | generatePrivateParams
  | getCurveIdentifier | getCurveName | getCurveOid
  | getSkBasePublicKeyClass | getCertBasePublicKeyClass
  deriving DecidableEq, Repr

/-- Whether the definition of a method in a class is abstract; `none` if the class does not define it
(pascal_style_byte_stream.py:469-474; common.py:175-195; rsa.py:50, 136, 166; dss.py:50, 146, 164;
ed25519.py:42, 199, 230; ecdsa.py:49-94, 234-275, 332-348, 362-378, 392-408; sk.py:72-86, 133-145,
173-175, 197-199; cert.py:220-226, 249-256 and the `get_cert_base_public_key_class` methods). -/
def abstractDef : AbstractMethod → Cls → Option Bool
  | .getFormatInstructionsDict, c =>
    match c with
    | .pascalStyleDict => some true
    | .rsaPub | .rsaPriv | .dssPub | .dssPriv | .ed25519Pub | .ed25519Priv | .ecdsaPub | .ecdsaPriv
    | .skPub | .skPriv | .certPub => some false
    | _ => none
  | .generatePrivateParams, c =>
    match c with
    | .privateKeyParams => some true
    | .rsaPriv | .dssPriv | .ed25519Priv | .ecdsaPriv | .skPriv => some false
    | _ => none
  | .getCurveIdentifier, c | .getCurveName, c | .getCurveOid, c =>
    match c with
    | .ecdsaPub => some true
    | .ec256Pub | .ec384Pub | .ec521Pub => some false
    | _ => none
  | .getSkBasePublicKeyClass, c =>
    match c with
    | .skPub => some true
    | .skEc256Pub | .skEd25519Pub => some false
    | _ => none
  | .getCertBasePublicKeyClass, c =>
    match c with
    | .certPub => some true
    | .certRsa | .certEd25519 | .certDss | .certEc256 | .certEc384 | .certEc521 | .certSkEd25519
    | .certSkEc256 => some false
    | _ => none

/-- `utils.is_abstract` (utils.py:9-14): some method resolves to an abstract definition. -/
def isAbstract (c : Cls) : Bool :=
  [AbstractMethod.getFormatInstructionsDict, .generatePrivateParams, .getCurveIdentifier, .getCurveName,
   .getCurveOid, .getSkBasePublicKeyClass, .getCertBasePublicKeyClass].any
    (fun m => c.resolve (abstractDef m) == some true)

/-- The class whose `conversion_functions` a class uses (common.py:101-115; rsa.py:56-100, 205-261;
dss.py:56-101, 195-246; ed25519.py:76-161, 266-377; ecdsa.py:108-159, 277-324). -/
def conversionDef : Cls → Option Cls
  | .publicKeyParams => some .publicKeyParams
  | .rsaPub => some .rsaPub
  | .rsaPriv => some .rsaPriv
  | .dssPub => some .dssPub
  | .dssPriv => some .dssPriv
  | .ed25519Pub => some .ed25519Pub
  | .ed25519Priv => some .ed25519Priv
  | .ecdsaPub => some .ecdsaPub
  | .ecdsaPriv => some .ecdsaPriv
  | _ => none

/-- The definition of `conversion_functions` that `cls.conversion_functions()` runs. -/
def conversionOf (c : Cls) : Cls := (c.resolve conversionDef).getD .publicKeyParams

end Cls

/-- `get_curve_name` as defined per class (ecdsa.py:70-75, 338-342, 368-372, 398-402) -/
def curveNameDef : Cls → Option Str
  | .ecdsaPub => some []
  | .ec256Pub => some (py! "secp256r1")
  | .ec384Pub => some (py! "secp384r1")
  | .ec521Pub => some (py! "secp521r1")
  | _ => none

/-- `cls.CURVE_NAME` -/
def curveNameOf (c : Cls) : Str := (c.resolve curveNameDef).getD []

/-! ### `conversion_functions` -/

/-- The keys of the dictionary returned by the definition of `conversion_functions` in a class, in
order (rsa.py:95-100, 256-261; dss.py:96-101, 241-246; ed25519.py:123-161, 334-377; ecdsa.py:154-159,
319-324). -/
def candidates (lib : Lib) : Cls → List ObjCls
  | .rsaPub => [.rsaPublicKey]
  | .rsaPriv => [.rsaPrivateKey]
  | .dssPub => [.dsaPublicKey]
  | .dssPriv => [.dsaPrivateKey]
  | .ed25519Pub => [.ed25519PublicKey, .bytes] ++ if lib.nacl then [.verifyKey] else []
  | .ed25519Priv => [.ed25519PrivateKey, .bytes] ++ if lib.nacl then [.signingKey] else []
  | .ecdsaPub => [.ecPublicKey]
  | .ecdsaPriv => [.ecPrivateKey]
  | _ => []

/-- `{'public': public_bytes, 'private_public': private_bytes + public_bytes}` (ed25519.py:296-299,
320-323, 356-359) -/
def edPrivateValues (private_ public_ : Bytes) : VDict :=
  [(py! "public", .bytes public_), (py! "private_public", .bytes (private_ ++ public_))]

/-- The functions `object_to_mapping` of the class defining `conversion_functions`, called on `c`
(rsa.py:72-79, 221-232; dss.py:72-82, 211-223; ed25519.py:94-102, 111-116, 140-145, 284-299, 310-323,
351-359; ecdsa.py:128-139, 293-306).  The outer `none` is "not an instance of any candidate class". -/
def objectToMapping (lib : Lib) (c : Cls) : Cls → KeyObj → Option (Except Exn (Option VDict))
  | .rsaPub, .rsaPublic e n => some (.ok (some [(py! "e", .int e), (py! "n", .int n)]))
  | .rsaPriv, .rsaPrivate p q d _ _ iqmp e n =>
    some (.ok (some [(py! "n", .int n), (py! "e", .int e), (py! "d", .int d), (py! "iqmp", .int iqmp),
      (py! "p", .int p), (py! "q", .int q)]))
  | .dssPub, .dsaPublic p q g y =>
    some (.ok (some [(py! "p", .int p), (py! "q", .int q), (py! "g", .int g), (py! "y", .int y)]))
  | .dssPriv, .dsaPrivate p q g y x =>
    some (.ok (some [(py! "p", .int p), (py! "q", .int q), (py! "g", .int g), (py! "y", .int y),
      (py! "x", .int x)]))
  | .ed25519Pub, .edPublic raw => some (.ok (some [(py! "public", .bytes raw)]))
  | .ed25519Pub, .bytes b => some (.ok (some [(py! "public", .bytes b)]))
  | .ed25519Pub, .verifyKey b =>
    if lib.nacl then some (.ok (some [(py! "public", .bytes b)])) else none
  | .ed25519Priv, .edPrivate raw => some (.ok (some (edPrivateValues raw (lib.edPublicOf raw))))
  | .ed25519Priv, .bytes b =>
    some (match lib.edPrivate b with
      | .ok _ => .ok (some (edPrivateValues b (lib.edPublicOf b)))
      | .error e => .error e)
  | .ed25519Priv, .signingKey seed =>
    if lib.nacl then some (.ok (some (edPrivateValues seed (lib.edPublicOf seed)))) else none
  | .ecdsaPub, .ecPublic curve x y =>
    some (.ok (if curve ≠ curveNameOf c then none
      else some [(py! "identifier", .str (curveOf c).1), (py! "q", .bytes (lib.encodePoint curve x y))]))
  | .ecdsaPriv, .ecPrivate curve x y d =>
    some (.ok (if curve ≠ curveNameOf c then none
      else some [(py! "identifier", .str (curveOf c).1), (py! "q", .bytes (lib.encodePoint curve x y)),
        (py! "d", .int d)]))
  | _, _ => none

/-! ### `convert_from` -/

/-- `{k: params_dict[k] for k in cls.FORMAT_INSTRUCTIONS_DICT}` (common.py:92-95) -/
def selectFields (d : VDict) : List Str → Except Exn VDict
  | [] => .ok []
  | k :: t =>
    match getItem d k with
    | .error e => .error e
    | .ok v =>
      match selectFields d t with
      | .error e => .error e
      | .ok r => .ok ((k, v) :: r)

/-- `cls(params)`: an abstract class cannot be instantiated (`TypeError`). -/
def instantiate (ext : Ext) (c : Cls) (d : VDict) : Eff Params :=
  if c.isAbstract then Eff.throw .typeError else newParams ext c d

/-- The search of the subclasses (common.py:83-90), given `convert_from` of the subclasses. -/
def trySubclasses (rec : Cls → Eff Params) : List Cls → Eff (Option VDict)
  | [] => pure none
  | s :: t => do
    let r ← Eff.tryCatch (do let p ← rec s; pure (some p.data))
      (fun e => if e.isValueError then some (pure none) else none)
    match r with
    | some d => pure (some d)
    | none => trySubclasses rec t

/-- `PublicKeyParams.convert_from` (common.py:55-99), given `convert_from` of the subclasses. -/
def convertFromBase (lib : Lib) (ext : Ext) (rec : Cls → Eff Params) (c : Cls) (o : KeyObj) :
    Eff Params := do
  let own ← Eff.lift ((objectToMapping lib c c.conversionOf o).getD (.ok none))
  let m ← match own with
    | some d => pure (some d)
    | none => trySubclasses rec c.subclasses
  match m with
  | some d => do
    let sel ← Eff.lift (selectFields d (dkeys (formatOf c)))
    instantiate ext c sel
  | none => Eff.throw (.valueError "key_object is not of a supported type")

/-- The first loop of `ECDSAPublicKeyParams.convert_from` (ecdsa.py:99-105): the first subclass that is
not abstract and does not raise `ValueError`. -/
def tryConcrete (rec : Cls → Eff Params) : List Cls → Eff (Option Params)
  | [] => pure none
  | s :: t =>
    if s.isAbstract then tryConcrete rec t
    else do
      let r ← Eff.tryCatch (do let p ← rec s; pure (some p))
        (fun e => if e.isValueError then some (pure none) else none)
      match r with
      | some p => pure (some p)
      | none => tryConcrete rec t

/-- `ECDSAPublicKeyParams.convert_from` (ecdsa.py:96-106).  `super().convert_from` is
`PublicKeyParams.convert_from`: no other class defines the method. -/
def convertFromEcdsa (lib : Lib) (ext : Ext) (rec : Cls → Eff Params) (c : Cls) (o : KeyObj) :
    Eff Params := do
  let first ← if c.isAbstract then tryConcrete rec c.subclasses else pure none
  match first with
  | some p => pure p
  | none => convertFromBase lib ext rec c o

/-- `cls.convert_from(key_object)` with bounded depth of the class hierarchy. -/
def convertFromFuel (lib : Lib) (ext : Ext) : Nat → Cls → KeyObj → Eff Params
  | 0, _, _ => Eff.throw .recursionError
  | n + 1, c, o =>
    if c.isSubclass .ecdsaPub then
      convertFromEcdsa lib ext (fun s => convertFromFuel lib ext n s o) c o
    else convertFromBase lib ext (fun s => convertFromFuel lib ext n s o) c o

/-- `cls.convert_from(key_object)` (common.py:55-99, ecdsa.py:96-106).  The hierarchy below
`PublicKeyParams` is five classes deep (`C62_depth`). -/
def convertFrom (lib : Lib) (ext : Ext) (c : Cls) (o : KeyObj) : Eff Params :=
  convertFromFuel lib ext 6 c o

/-! ### `convert_to` -/

/-- A value used as an `int` argument of a constructor of `cryptography` (`TypeError` otherwise). -/
def intArg (d : VDict) (k : Str) : Except Exn Int :=
  match getItem d k with
  | .error e => .error e
  | .ok (.int i) => .ok i
  | .ok _ => .error .typeError

/-- A value used as a `bytes` argument (`TypeError` otherwise).  Simplification: other bytes-like
objects are not considered. -/
def bytesArg (d : VDict) (k : Str) : Except Exn Bytes :=
  match getItem d k with
  | .error e => .error e
  | .ok (.bytes b) => .ok b
  | .ok _ => .error .typeError

/-- The functions `mapping_to_object` of the class defining `conversion_functions`, called on `c`
(rsa.py:81-87, 234-250; dss.py:84-94, 225-239; ed25519.py:104-109, 118-121, 147-150, 301-308, 325-332,
361-368; ecdsa.py:141-152, 308-317).  Simplifications: where the code passes a value that is not `bytes`
to `bytes(…)`, the model raises `TypeError`; if several values are bad, a `TypeError` may be raised
before the exception for another value instead of after it. -/
def mappingToObject (lib : Lib) (c : Cls) (d : VDict) : Cls → ObjCls → Except Exn KeyObj
  | .rsaPub, .rsaPublicKey => do
    let e ← intArg d (py! "e")
    let n ← intArg d (py! "n")
    lib.rsaPublic e n
    pure (.rsaPublic e n)
  | .rsaPriv, .rsaPrivateKey => do
    let p ← intArg d (py! "p")
    let q ← intArg d (py! "q")
    let x ← intArg d (py! "d")
    let dmp1 ← lib.rsaCrtDmp1 x p
    let dmq1 ← lib.rsaCrtDmp1 x q
    let iqmp ← intArg d (py! "iqmp")
    let e ← intArg d (py! "e")
    let n ← intArg d (py! "n")
    lib.rsaPrivate p q x dmp1 dmq1 iqmp e n
    pure (.rsaPrivate p q x dmp1 dmq1 iqmp e n)
  | .dssPub, .dsaPublicKey => do
    let y ← intArg d (py! "y")
    let p ← intArg d (py! "p")
    let q ← intArg d (py! "q")
    let g ← intArg d (py! "g")
    lib.dsaPublic p q g y
    pure (.dsaPublic p q g y)
  | .dssPriv, .dsaPrivateKey => do
    let x ← intArg d (py! "x")
    let y ← intArg d (py! "y")
    let p ← intArg d (py! "p")
    let q ← intArg d (py! "q")
    let g ← intArg d (py! "g")
    lib.dsaPrivate p q g y x
    pure (.dsaPrivate p q g y x)
  | .ed25519Pub, .ed25519PublicKey => do
    let b ← bytesArg d (py! "public")
    lib.edPublic b
    pure (.edPublic b)
  | .ed25519Pub, .bytes => do
    let b ← bytesArg d (py! "public")
    pure (.bytes b)
  | .ed25519Pub, .verifyKey => do
    let b ← bytesArg d (py! "public")
    lib.verifyKey b
    pure (.verifyKey b)
  | .ed25519Priv, .ed25519PrivateKey => do
    let b ← bytesArg d (py! "private_public")
    lib.edPrivate (sliceTo b ed25519KeySize)
    pure (.edPrivate (sliceTo b ed25519KeySize))
  | .ed25519Priv, .bytes => do
    let b ← bytesArg d (py! "private_public")
    pure (.bytes (sliceTo b ed25519KeySize))
  | .ed25519Priv, .signingKey => do
    let b ← bytesArg d (py! "private_public")
    lib.signingKey (sliceTo b ed25519KeySize)
    pure (.signingKey (sliceTo b ed25519KeySize))
  | .ecdsaPub, .ecPublicKey => do
    let i ← getItem d (py! "identifier")
    if i ≠ .str (curveOf c).1 then
      throw (.valueError "The curve identifier encoded in the public key does not correspond to the key type")
    let q ← bytesArg d (py! "q")
    let (x, y) ← lib.decodePoint (curveOf c).2 q
    pure (.ecPublic (lib.curveName (curveOf c).2) x y)
  | .ecdsaPriv, .ecPrivateKey => do
    let x ← intArg d (py! "d")
    let q ← bytesArg d (py! "q")
    let (px, py) ← lib.decodePoint (curveOf c).2 q
    lib.ecPrivate (lib.curveName (curveOf c).2) px py x
    pure (.ecPrivate (lib.curveName (curveOf c).2) px py x)
  | _, _ => .error .notImplementedError

/-- A destination class, given by which of the candidate classes are its subclasses. -/
abbrev Dest := ObjCls → Bool

/-- The candidate classes considered by `convert_to`, each with the class on which
`conversion_functions` was called (common.py:141-145). -/
def convertCandidates (lib : Lib) (c : Cls) : List (Cls × ObjCls) :=
  ((c.mro.takeWhile (fun s => s.isSubclass .publicKeyParams)).flatMap (fun s =>
    (candidates lib s.conversionOf).map (fun k => (s, k))))

/-- `params.convert_to(destination_class)` (common.py:117-154); `none` is a `destination_class` that is
not a class. -/
def convertTo (lib : Lib) (p : Params) (dest : Option Dest) : Except Exn KeyObj :=
  match dest with
  | none => .error (.valueError "destination_class must be a class")
  | some dst =>
    match (convertCandidates lib p.cls).find? (fun sk => dst sk.2) with
    | some (s, k) => mappingToObject lib s p.data s.conversionOf k
    | none => .error (.valueError "Converting this parameters object is not supported")

end OSK
