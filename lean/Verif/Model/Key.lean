import Verif.Model.Cert
import Verif.Py.Base64
import Verif.Py.Text
/-
Model of key.py, of the parameter objects' construction and checking, and of the certificate methods
that involve other keys.
-/
namespace OSK

/-- What the key layer takes from outside the repository. -/
structure Ext where
  /-- `EllipticCurvePublicKey.from_encoded_point(curve, point)` does not raise `ValueError`; the curve
  is given by its OID.  (For a `bytes` point, `ValueError` is the only exception.) -/
  validPoint : Str → Bytes → Bool
  /-- `str(v)` for values that are not `str` -/
  pyRepr : Val → Str

/-- A parameters object: its class and `self.data`. -/
structure Params where
  cls : Cls
  data : VDict
  deriving DecidableEq, Repr

/-- `PublicKey` / `PrivateKey` (key.py:339, 381) -/
inductive Kind where
  | pub | priv
  deriving DecidableEq, Repr

/-- A `Key` object (key.py:125-147). -/
structure Key where
  kind : Kind
  header : VDict
  params : Params
  footer : VDict
  clear : VDict
  deriving DecidableEq, Repr

/-- `HEADER_FORMAT_INSTRUCTIONS_DICT` (key.py:344-357, 386-396) -/
def headerFmt : Kind → FDict
  | .pub => [(py! "key_type", .pascal .string)]
  | .priv => [(py! "key_type", .pascal .string)]

/-- `FOOTER_FORMAT_INSTRUCTIONS_DICT` (key.py:359-370, 398-408) -/
def footerFmt : Kind → FDict
  | .pub => []
  | .priv => [(py! "comment", .pascal .string)]

/-- The parameters class for a key type (key.py:99-103, 378, 415-419, 439). -/
def paramsClass : Kind → Val → Except Exn Cls
  | .pub => getPublicClass
  | .priv => getPrivateClass

/-! ### `check_params_are_valid` -/

/-- A call of another class's `check_params_are_valid`. -/
inductive CheckCall where
  /-- `super().check_params_are_valid()` -/
  | super
  /-- `c.check_params_are_valid(self)` -/
  | unbound (c : Cls)
  deriving DecidableEq, Repr

/-- The calls with which the body of `check_params_are_valid` starts in the classes that define it,
for an object of class `T`.  In all of them these calls come first, unconditionally; what follows is
`localCheck`. -/
def checkCalls (T : Cls) : Cls → Option (List CheckCall)
  -- pascal_style_byte_stream.py:480-484
  | .pascalStyleDict => some []
  -- ed25519.py:70
  | .ed25519Pub => some [.super]
  -- ed25519.py:217-218
  | .ed25519Priv => some [.unbound .ed25519Pub, .unbound .privateKeyParams]
  -- ecdsa.py:174
  | .ecdsaPub => some [.super]
  -- sk.py:88-90
  | .skPub => some [.super, .unbound (skBase T)]
  -- cert.py:571-572
  | .certPub => some [.super, .unbound (certBase T)]
  | _ => none

/-- First class in a list of classes that defines `check_params_are_valid`. -/
def firstChecker (T : Cls) (l : List Cls) : Option Cls := l.find? (fun D => (checkCalls T D).isSome)

/-- The classes whose `localCheck` runs, in order, when the method defined in `D` runs on an object of
class `T`.  `super()` continues in the MRO of `T` after `D`; an unbound call starts at the first
definition in the MRO of the named class. -/
def checkPlanFuel : Nat → Cls → Cls → List Cls
  | 0, _, _ => []
  | n + 1, T, D =>
    ((checkCalls T D).getD []).flatMap (fun call =>
      match call with
      | .super =>
        match firstChecker T ((T.mro.dropWhile (fun c => c ≠ D)).drop 1) with
        | some D' => checkPlanFuel n T D'
        | none => []
      | .unbound c =>
        match firstChecker T c.mro with
        | some D' => checkPlanFuel n T D'
        | none => []) ++ [D]

/-- The classes whose `localCheck` runs for `self.check_params_are_valid()`. -/
def checkPlan (T : Cls) : List Cls :=
  match firstChecker T T.mro with
  | some D => checkPlanFuel 16 T D
  | none => []

/-- `get_key_size` of Ed25519 (ed25519.py:48-53) -/
def ed25519KeySize : Nat := 32

/-- `get_curve_identifier` and `get_curve_oid` as defined per class (ecdsa.py:55-62, 83-89, 332-348,
362-378, 392-408). -/
def curveDef : Cls → Option (Str × Str)
  | .ecdsaPub => some ([], [])
  | .ec256Pub => some (py! "nistp256", py! "1.2.840.10045.3.1.7")
  | .ec384Pub => some (py! "nistp384", py! "1.3.132.0.34")
  | .ec521Pub => some (py! "nistp521", py! "1.3.132.0.35")
  | _ => none

/-- `self.CURVE_IDENTIFIER`, `self.CURVE_OID` -/
def curveOf (T : Cls) : Str × Str := (T.resolve curveDef).getD ([], [])

/-- `get_signature_key` (cert.py:536-550), given `PublicKey.from_bytes`. -/
def getSignatureKeyWith (ca : Bytes → Eff Key) (d : VDict) : Eff Key := do
  let v ← Eff.lift (getItem d (py! "signature_key"))
  let b ← Eff.lift (asBuffer v)
  let k ← ca b
  if k.params.cls.isSubclass .certPub then Eff.warn .caIsCert
  pure k

/-- `try: x  except EOFError: warnings.warn(w)` with the result discarded. -/
def eofWarns {α : Type} (x : Eff α) (w : Warning) : Eff Unit :=
  Eff.tryCatch (do let _ ← x; pure ()) (fun e => if e.isEOFError then some (Eff.warn w) else none)

/-- `isinstance(v, bytes)` / `type(v) == bytes` for an entry that may be missing. -/
def bytesOf? (d : VDict) (k : Str) : Option Bytes :=
  match dget d k with
  | some (.bytes b) => some b
  | _ => none

/-- cert.py:574-578 -/
def certTypeCheck (d : VDict) : Eff Unit :=
  if dhas d (py! "type") then
    Eff.tryCatch (do let _ ← Eff.lift (getType d); pure ())
      (fun e => if e.isValueError then some (Eff.warn .certType) else none)
  else pure ()

/-- cert.py:580-585 -/
def certPrincipalsCheck (d : VDict) : Eff Unit :=
  if (bytesOf? d (py! "valid_principals")).isSome then
    eofWarns (Eff.lift (getValidPrincipals d)) .certPrincipals
  else pure ()

/-- cert.py:587-592 and 594-599 -/
def certOptionsCheck (d : VDict) (param : Str) (w : Warning) : Eff Unit :=
  if (bytesOf? d param).isSome then eofWarns (getOptionValues d param) w else pure ()

/-- cert.py:601-605 -/
def certCaCheck (ca : Bytes → Eff Key) (d : VDict) : Eff Unit :=
  if (bytesOf? d (py! "signature_key")).isSome then
    Eff.tryCatch (do let _ ← getSignatureKeyWith ca d; pure ())
      (fun e => if e.isValueError || e.isEOFError || e = .typeError then some (Eff.warn .caInvalid)
        else none)
  else pure ()

/-- Own part of `CertPublicKeyParams.check_params_are_valid` (cert.py:574-605). -/
def certLocalCheck (ca : Bytes → Eff Key) (d : VDict) : Eff Unit := do
  certTypeCheck d
  certPrincipalsCheck d
  certOptionsCheck d (py! "critical_options") .certCriticalOptions
  certOptionsCheck d (py! "extensions") .certExtensions
  certCaCheck ca d

/-- Own part of `Ed25519PublicKeyParams.check_params_are_valid` (ed25519.py:71-74). -/
def ed25519PubLocalCheck (d : VDict) : Eff Unit :=
  match bytesOf? d (py! "public") with
  | none => pure ()
  | some p => if p.length ≠ ed25519KeySize then Eff.warn .ed25519PublicLength else pure ()

/-- Own part of `Ed25519PrivateKeyParams.check_params_are_valid` (ed25519.py:219-228). -/
def ed25519PrivLocalCheck (d : VDict) : Eff Unit :=
  match bytesOf? d (py! "private_public"), bytesOf? d (py! "public") with
  | some pp, some p => do
    if pp.drop ed25519KeySize ≠ p then Eff.warn .ed25519PublicMismatch
    if (pp.drop ed25519KeySize).length ≠ ed25519KeySize then Eff.warn .ed25519PrivateLength
  | _, _ => pure ()

/-- Own part of `ECDSAPublicKeyParams.check_params_are_valid` (ecdsa.py:175-194). -/
def ecdsaLocalCheck (ext : Ext) (T : Cls) (d : VDict) : Eff Unit :=
  match dget d (py! "identifier") with
  | none => pure ()
  | some i => do
    if Val.str (curveOf T).1 ≠ i then Eff.warn .curveIdentifier
    match bytesOf? d (py! "q") with
    | none => pure ()
    | some q => if ext.validPoint (curveOf T).2 q then pure () else Eff.warn .notOnCurve

/-- What the body of `check_params_are_valid` defined in class `D` does after its initial calls. -/
def localCheck (ext : Ext) (ca : Bytes → Eff Key) (T : Cls) (d : VDict) : Cls → Eff Unit
  -- pascal_style_byte_stream.py:481-484
  | .pascalStyleDict => checkDict d (formatOf T)
  | .ed25519Pub => ed25519PubLocalCheck d
  | .ed25519Priv => ed25519PrivLocalCheck d
  | .ecdsaPub => ecdsaLocalCheck ext T d
  -- sk.py:88-90
  | .skPub => pure ()
  | .certPub => certLocalCheck ca d
  | _ => pure ()

/-- Run a list of checks in order. -/
def runChecks (f : Cls → Eff Unit) : List Cls → Eff Unit
  | [] => pure ()
  | D :: t => do
    f D
    runChecks f t

/-- `cls(params)` (pascal_style_byte_stream.py:463-465), given `PublicKey.from_bytes`. -/
def newParamsWith (ext : Ext) (ca : Bytes → Eff Key) (c : Cls) (d : VDict) : Eff Params := do
  runChecks (localCheck ext ca c d) (checkPlan c)
  pure ⟨c, d⟩

/-! ### `Key` -/

/-- `Key.__init__` (key.py:125-147), given `PublicKey.from_bytes`. -/
def mkKeyWith (ext : Ext) (ca : Bytes → Eff Key) (kind : Kind) (header params footer : VDict)
    (clear : Option VDict) : Eff Key := do
  checkDict header (headerFmt kind)
  let t ← Eff.lift (getItem header (py! "key_type"))
  let c ← Eff.lift (paramsClass kind t)
  let p ← newParamsWith ext ca c params
  checkDict footer (footerFmt kind)
  pure ⟨kind, header, p, footer, clear.getD []⟩

/-- The reading part of `from_byte_stream` (key.py:168-179) with `create_key_params_dict`
(key.py:99-103, 415-419). -/
def readKey (kind : Kind) : SM (VDict × VDict × VDict) := do
  let header ← readDict (headerFmt kind)
  let t ← SM.lift (getItem header (py! "key_type"))
  let c ← SM.lift (paramsClass kind t)
  let params ← readDict (formatOf c)
  let footer ← readDict (footerFmt kind)
  pure (header, params, footer)

/-- `from_byte_stream` (key.py:149-181): outcome and stream afterwards. -/
def fromByteStreamWith (ext : Ext) (ca : Bytes → Eff Key) (kind : Kind) (clear : Option VDict)
    (s : Stream) : Eff Key × Stream :=
  match readKey kind s with
  | (.error e, s') => (Eff.throw e, s')
  | (.ok (header, params, footer), s') => (mkKeyWith ext ca kind header params footer clear, s')

/-- `from_bytes` (key.py:183-215), given `PublicKey.from_bytes` for nested keys. -/
def fromBytesWith (ext : Ext) (ca : Bytes → Eff Key) (kind : Kind) (b : Bytes) (clear : Option VDict) :
    Eff Key := do
  let r := fromByteStreamWith ext ca kind clear (Stream.of b)
  let k ← r.1
  let remainder := r.2.rest
  if 0 < remainder.length then
    Eff.warn .excessBytes
    pure { k with clear := dset k.clear (py! "remainder") (.bytes remainder) }
  else pure k

/-- `PublicKey.from_bytes` on which nested certificate authority keys may go `fuel - 1` levels deep;
going deeper is the outcome `RecursionError`. -/
def pubFromBytesFuel (ext : Ext) : Nat → Bytes → Eff Key
  | 0, _ => Eff.throw .recursionError
  | n + 1, b => fromBytesWith ext (pubFromBytesFuel ext n) .pub b none

/-- `PublicKey.from_bytes(b)` as called on certificate authority keys.  The nesting can never be deeper
than the number of bytes (`C52_nesting_bounded`).  Simplification: the interpreter's recursion limit
is not modelled here (C92 is about it). -/
def caFromBytes (ext : Ext) (b : Bytes) : Eff Key := pubFromBytesFuel ext (b.length + 1) b

/-- `cls(params)` -/
def newParams (ext : Ext) (c : Cls) (d : VDict) : Eff Params := newParamsWith ext (caFromBytes ext) c d

/-- `PublicKey(header, params, footer, clear)`, `PrivateKey(…)` (key.py:125-147) -/
def mkKey (ext : Ext) (kind : Kind) (header params footer : VDict) (clear : Option VDict) : Eff Key :=
  mkKeyWith ext (caFromBytes ext) kind header params footer clear

/-- `from_byte_stream` (key.py:149-181) -/
def fromByteStream (ext : Ext) (kind : Kind) (clear : Option VDict) (s : Stream) : Eff Key × Stream :=
  fromByteStreamWith ext (caFromBytes ext) kind clear s

/-- `from_bytes` (key.py:183-215) -/
def fromBytes (ext : Ext) (kind : Kind) (b : Bytes) (clear : Option VDict) : Eff Key :=
  fromBytesWith ext (caFromBytes ext) kind b clear

/-- `from_string` (key.py:217-254) -/
def fromString (ext : Ext) (kind : Kind) (s : Str) : Eff Key := do
  let keySplit := splitSpaceMax 2 s
  let typeClear ← Eff.lift (listGet keySplit 0)
  let b64 ← Eff.lift (listGet keySplit 1)
  let comment := if keySplit.length = 3 then keySplit.getD 2 [] else []
  let b ← Eff.lift (b64decodeStr b64)
  let k ← fromBytes ext kind b
    (some [(py! "key_type", .str typeClear), (py! "comment", .str comment)])
  let t ← Eff.lift (getItem k.header (py! "key_type"))
  if t ≠ .str typeClear then Eff.warn .clearTypeMismatch
  pure k

/-- The class whose format `pack_public_bytes` uses: the first one in the MRO that is not a private
class (key.py:271-279). -/
def firstPublicClass (c : Cls) : Cls :=
  (c.mro.find? (fun x => !(x.isSubclass .privateKeyParams))).getD .publicKeyParams

/-- `pack_public_bytes` (key.py:256-291) -/
def packPublicBytes (k : Key) : Except Exn Bytes :=
  written do
    writeDict (headerFmt .pub) k.header
    writeDict (formatOf (firstPublicClass k.params.cls)) k.params.data
    writeDict (footerFmt .pub) k.footer

/-- `pack_private_bytes` (key.py:441-466) -/
def packPrivateBytes (k : Key) : Except Exn Bytes :=
  written do
    writeDict (headerFmt .priv) k.header
    writeDict (formatOf k.params.cls) k.params.data
    writeDict (footerFmt .priv) k.footer

/-- `str(v)` -/
def pyStr (ext : Ext) : Val → Str
  | .str s => s
  | v => ext.pyRepr v

/-- What `pack_public_string` appends for the comment of a dictionary (key.py:320-323). -/
def commentText (ext : Ext) (use : Bool) (d : VDict) : Str :=
  if use then
    match dget d (py! "comment") with
    | some c => py! " " ++ pyStr ext c
    | none => []
  else []

/-- `pack_public_string` (key.py:293-327) -/
def packPublicString (ext : Ext) (k : Key) (useFooterComment useClearComment : Bool) : Except Exn Str := do
  let t ← getItem k.header (py! "key_type")
  let b ← packPublicBytes k
  let text := pyStr ext t ++ py! " " ++ b64encodeStr b
  let text := text ++ commentText ext useFooterComment k.footer
  let text := text ++ commentText ext useClearComment k.clear
  pure (text ++ py! "\n")

/-- `Key.__eq__` (key.py:329-336).  Parameter objects are `UserDict`s, whose equality compares the
entries only, not the class. -/
def Key.eq (a b : Key) : Bool :=
  a.kind = b.kind && deq a.header b.header && deq a.params.data b.params.data
    && deq a.footer b.footer && deq a.clear b.clear

/-- `get_signature_key` (cert.py:536-550) -/
def getSignatureKey (ext : Ext) (d : VDict) : Eff Key := getSignatureKeyWith (caFromBytes ext) d

/-- `set_signature_key` (cert.py:552-568): outcome and the dict afterwards. -/
def setSignatureKey (d : VDict) (k : Key) : Except Exn Unit × VDict :=
  if k.params.cls.isSubclass .certPub then
    (.error (.valueError "The certificate authority must not be a certificate"), d)
  else
    match packPublicBytes k with
    | .ok b => (.ok (), dset d (py! "signature_key") (.bytes b))
    | .error e => (.error e, d)

end OSK
