import Verif.Model.Cli
import Verif.Model.Generate
import Verif.Model.Json
/-
The model under a warning filter.  Python's warning filter decides for each call of `warnings.warn`
whether it raises the warning as an exception (action `error`, e.g. `python -W error`) or goes on
(every other action).  The definitions below are those of the other model files that can warn,
repeated word for word (tools/filtered_model.py writes and checks this file); here `Eff.warn` is
`OSK.Filtered.Eff.warn`.
-/
namespace OSK

/-- The warning filter: the warnings whose action is `error`. -/
class Filter where
  raises : Warning → Bool

namespace Filtered
variable [Filter]

/-- `warnings.warn(w)` (CPython Lib/warnings.py: `if action == "error": raise message`). -/
def Eff.warn (w : Warning) : Eff Unit :=
  if Filter.raises w then Eff.throw (.userWarning w) else OSK.Eff.warn w

/-! ### From Model/Stream.lean -/

/-- One iteration of `check_dict_matches_format_instructions_dict`
(pascal_style_byte_stream.py:434-459). -/
def checkField (d : VDict) (k : Str) (fi : FI) : Eff Unit :=
  match dget d k with
  | none => Eff.warn (.missing k)
  | some v =>
    match fi with
    | .struct f =>
      match structPack f v with
      | .ok _ => pure ()
      | .error .structError => Eff.warn (.shouldBeFormatted k)
      | .error e => Eff.throw e
    | .pascal p => if p.matchesVal v then pure () else Eff.warn (.shouldBeOfClass k)
    | .pascalSized p _ => if p.matchesVal v then pure () else Eff.warn (.shouldBeOfClass k)
    | .unrecognised => Eff.throw (.valueError "format instruction is not recognised")

/-- `check_dict_matches_format_instructions_dict` (pascal_style_byte_stream.py:410-459). -/
def checkDict (d : VDict) : FDict → Eff Unit
  | [] => pure ()
  | (k, fi) :: t => do
    checkField d k fi
    checkDict d t

/-! ### From Model/Cert.lean -/

/-- The loop of `_get_option_values_dict` (cert.py:355-363).  Records read under `optionFmt` always
have a `str` option and a value, so the last case is not reachable. -/
def collectOptions (param : Str) : VDict → List VDict → Eff VDict
  | acc, [] => pure acc
  | acc, r :: t =>
    match dget r (py! "option"), dget r (py! "value") with
    | some (.str o), some v => do
      if dhas acc o then Eff.warn (.duplicateOption o param)
      collectOptions param (dset acc o v) t
    | _, _ => Eff.throw .typeError

/-- `_get_option_values_dict` (cert.py:346-363) -/
def getOptionValues (d : VDict) (param : Str) : Eff VDict := do
  let v ← Eff.lift (getItem d param)
  let b ← Eff.lift (asBuffer v)
  let l ← Eff.lift (readRepeatedly optionFmt (Stream.of b)).1
  collectOptions param [] l

/-- `_get_option_from_param` (cert.py:365-380); `get_critical_option` and `get_extension_value`
(cert.py:382-416) are this with `'critical_options'` and `'extensions'`. -/
def getOption (d : VDict) (param : Str) (o : OptArg) : Eff (Option Val) := do
  Eff.lift (optionGuard d o)
  let m ← getOptionValues d param
  pure (findOption o.key m)

/-- `_set_option_for_param` (cert.py:450-470); `set_critical_option` and `set_extension_value`
(cert.py:472-510) are this with `'critical_options'` and `'extensions'`.  Result: outcome (with
warnings) and the dict afterwards. -/
def setOption (d : VDict) (param : Str) (o : OptArg) (v : Val) : Eff Unit × VDict :=
  let x : Eff Bytes := do
    Eff.lift (optionGuard d o)
    let m ← getOptionValues d param
    Eff.lift (packOptions (dset m o.key v) .bytes)
  match x.res with
  | .ok b => (⟨x.log, .ok ()⟩, dset d param (.bytes b))
  | .error e => (⟨x.log, .error e⟩, d)

/-! ### From Model/Key.lean -/

/-- `get_signature_key` (cert.py:536-550), given `PublicKey.from_bytes`. -/
def getSignatureKeyWith (ca : Bytes → Eff Key) (d : VDict) : Eff Key := do
  let v ← Eff.lift (getItem d (py! "signature_key"))
  let b ← Eff.lift (asBuffer v)
  let k ← ca b
  if k.params.cls.isSubclass .certPub then Eff.warn .caIsCert
  pure k

/-- `try: x  except EOFError: warnings.warn(w)` with the result discarded. -/
def eofWarns {α : Type} (x : Eff α) (w : Warning) : Eff Unit :=
  Eff.tryCatch (do let _ ← x; pure ()) (fun e => if e.isEOFError then some (Eff.warn w) else none)

/-- cert.py:574-578 -/
def certTypeCheck (d : VDict) : Eff Unit :=
  if dhas d (py! "type") then
    Eff.tryCatch (do let _ ← Eff.lift (getType d); pure ())
      (fun e => if e.isValueError then some (Eff.warn .certType) else none)
  else pure ()

/-- cert.py:580-585 -/
def certPrincipalsCheck (d : VDict) : Eff Unit :=
  if (bytesOf? d (py! "valid_principals")).isSome then
    eofWarns (Eff.lift (getValidPrincipals d)) .certPrincipals
  else pure ()

/-- cert.py:587-592 and 594-599 -/
def certOptionsCheck (d : VDict) (param : Str) (w : Warning) : Eff Unit :=
  if (bytesOf? d param).isSome then eofWarns (getOptionValues d param) w else pure ()

/-- cert.py:601-605 -/
def certCaCheck (ca : Bytes → Eff Key) (d : VDict) : Eff Unit :=
  if (bytesOf? d (py! "signature_key")).isSome then
    Eff.tryCatch (do let _ ← getSignatureKeyWith ca d; pure ())
      (fun e => if e.isValueError || e.isEOFError || e = .typeError then some (Eff.warn .caInvalid)
        else none)
  else pure ()

/-- Own part of `CertPublicKeyParams.check_params_are_valid` (cert.py:574-605). -/
def certLocalCheck (ca : Bytes → Eff Key) (d : VDict) : Eff Unit := do
  certTypeCheck d
  certPrincipalsCheck d
  certOptionsCheck d (py! "critical_options") .certCriticalOptions
  certOptionsCheck d (py! "extensions") .certExtensions
  certCaCheck ca d

/-- Own part of `Ed25519PublicKeyParams.check_params_are_valid` (ed25519.py:71-74). -/
def ed25519PubLocalCheck (d : VDict) : Eff Unit :=
  match bytesOf? d (py! "public") with
  | none => pure ()
  | some p => if p.length ≠ ed25519KeySize then Eff.warn .ed25519PublicLength else pure ()

/-- Own part of `Ed25519PrivateKeyParams.check_params_are_valid` (ed25519.py:219-228). -/
def ed25519PrivLocalCheck (d : VDict) : Eff Unit :=
  match bytesOf? d (py! "private_public"), bytesOf? d (py! "public") with
  | some pp, some p => do
    if pp.drop ed25519KeySize ≠ p then Eff.warn .ed25519PublicMismatch
    if (pp.drop ed25519KeySize).length ≠ ed25519KeySize then Eff.warn .ed25519PrivateLength
  | _, _ => pure ()

/-- Own part of `ECDSAPublicKeyParams.check_params_are_valid` (ecdsa.py:175-194). -/
def ecdsaLocalCheck (ext : Ext) (T : Cls) (d : VDict) : Eff Unit :=
  match dget d (py! "identifier") with
  | none => pure ()
  | some i => do
    if Val.str (curveOf T).1 ≠ i then Eff.warn .curveIdentifier
    match bytesOf? d (py! "q") with
    | none => pure ()
    | some q => if ext.validPoint (curveOf T).2 q then pure () else Eff.warn .notOnCurve

/-- What the body of `check_params_are_valid` defined in class `D` does after its initial calls. -/
def localCheck (ext : Ext) (ca : Bytes → Eff Key) (T : Cls) (d : VDict) : Cls → Eff Unit
  -- pascal_style_byte_stream.py:481-484
  | .pascalStyleDict => checkDict d (formatOf T)
  | .ed25519Pub => ed25519PubLocalCheck d
  | .ed25519Priv => ed25519PrivLocalCheck d
  | .ecdsaPub => ecdsaLocalCheck ext T d
  -- sk.py:88-90
  | .skPub => pure ()
  | .certPub => certLocalCheck ca d
  | _ => pure ()

/-- `cls(params)` (pascal_style_byte_stream.py:463-465), given `PublicKey.from_bytes`. -/
def newParamsWith (ext : Ext) (ca : Bytes → Eff Key) (c : Cls) (d : VDict) : Eff Params := do
  runChecks (localCheck ext ca c d) (checkPlan c)
  pure ⟨c, d⟩

/-- `Key.__init__` (key.py:125-147), given `PublicKey.from_bytes`. -/
def mkKeyWith (ext : Ext) (ca : Bytes → Eff Key) (kind : Kind) (header params footer : VDict)
    (clear : Option VDict) : Eff Key := do
  checkDict header (headerFmt kind)
  let t ← Eff.lift (getItem header (py! "key_type"))
  let c ← Eff.lift (paramsClass kind t)
  let p ← newParamsWith ext ca c params
  checkDict footer (footerFmt kind)
  pure ⟨kind, header, p, footer, clear.getD []⟩

/-- `from_byte_stream` (key.py:149-181): outcome and stream afterwards. -/
def fromByteStreamWith (ext : Ext) (ca : Bytes → Eff Key) (kind : Kind) (clear : Option VDict)
    (s : Stream) : Eff Key × Stream :=
  match readKey kind s with
  | (.error e, s') => (Eff.throw e, s')
  | (.ok (header, params, footer), s') => (mkKeyWith ext ca kind header params footer clear, s')

/-- `from_bytes` (key.py:183-215), given `PublicKey.from_bytes` for nested keys. -/
def fromBytesWith (ext : Ext) (ca : Bytes → Eff Key) (kind : Kind) (b : Bytes) (clear : Option VDict) :
    Eff Key := do
  let r := fromByteStreamWith ext ca kind clear (Stream.of b)
  let k ← r.1
  let remainder := r.2.rest
  if 0 < remainder.length then
    Eff.warn .excessBytes
    pure { k with clear := dset k.clear (py! "remainder") (.bytes remainder) }
  else pure k

/-- `PublicKey.from_bytes` on which nested certificate authority keys may go `fuel - 1` levels deep;
going deeper is the outcome `RecursionError`. -/
def pubFromBytesFuel (ext : Ext) : Nat → Bytes → Eff Key
  | 0, _ => Eff.throw .recursionError
  | n + 1, b => fromBytesWith ext (pubFromBytesFuel ext n) .pub b none

/-- `PublicKey.from_bytes(b)` as called on certificate authority keys.  The nesting can never be deeper
than the number of bytes (`C52_nesting_bounded`).  Simplification: the interpreter's recursion limit
is not modelled here (C92 is about it). -/
def caFromBytes (ext : Ext) (b : Bytes) : Eff Key := pubFromBytesFuel ext (b.length + 1) b

/-- `cls(params)` -/
def newParams (ext : Ext) (c : Cls) (d : VDict) : Eff Params := newParamsWith ext (caFromBytes ext) c d

/-- `PublicKey(header, params, footer, clear)`, `PrivateKey(…)` (key.py:125-147) -/
def mkKey (ext : Ext) (kind : Kind) (header params footer : VDict) (clear : Option VDict) : Eff Key :=
  mkKeyWith ext (caFromBytes ext) kind header params footer clear

/-- `from_byte_stream` (key.py:149-181) -/
def fromByteStream (ext : Ext) (kind : Kind) (clear : Option VDict) (s : Stream) : Eff Key × Stream :=
  fromByteStreamWith ext (caFromBytes ext) kind clear s

/-- `from_bytes` (key.py:183-215) -/
def fromBytes (ext : Ext) (kind : Kind) (b : Bytes) (clear : Option VDict) : Eff Key :=
  fromBytesWith ext (caFromBytes ext) kind b clear

/-- `from_string` (key.py:217-254) -/
def fromString (ext : Ext) (kind : Kind) (s : Str) : Eff Key := do
  let keySplit := splitSpaceMax 2 s
  let typeClear ← Eff.lift (listGet keySplit 0)
  let b64 ← Eff.lift (listGet keySplit 1)
  let comment := if keySplit.length = 3 then keySplit.getD 2 [] else []
  let b ← Eff.lift (b64decodeStr b64)
  let k ← fromBytes ext kind b
    (some [(py! "key_type", .str typeClear), (py! "comment", .str comment)])
  let t ← Eff.lift (getItem k.header (py! "key_type"))
  if t ≠ .str typeClear then Eff.warn .clearTypeMismatch
  pure k

/-- `get_signature_key` (cert.py:536-550) -/
def getSignatureKey (ext : Ext) (d : VDict) : Eff Key := getSignatureKeyWith (caFromBytes ext) d

/-! ### From Model/Cipher.lean -/

/-- `kdf_class(values)` (pascal_style_byte_stream.py:463-465, 480-484) -/
def newKdf (c : KdfCls) (d : VDict) : Eff KdfOptions := do
  checkDict d (kdfFmt c)
  pure ⟨c, d⟩

/-- `generate_options()` without keyword arguments (kdf_options/none.py:51-61,
kdf_options/bcrypt_options.py:87-113); `tokenBytes` is `secrets.token_bytes`. -/
def generateKdf (tokenBytes : Nat → Bytes) : KdfCls → Eff KdfOptions
  | .none => newKdf .none []
  | .bcrypt => newKdf .bcrypt
      [(py! "salt", .bytes (tokenBytes bcryptSaltLength)), (py! "rounds", .int bcryptRounds)]

/-! ### From Model/KeyList.lean -/

/-- The loop over the public keys (private_key_list.py:249-256). -/
def readPublicKeys (ext : Ext) : Nat → Stream → Eff (List Key × Stream)
  | 0, s => pure ([], s)
  | n + 1, s => do
    let (v, s) ← onStream (readFI (.pascal .bytes)) s
    let b ← Eff.lift (asBytes v)
    let k ← fromBytes ext .pub b none
    let (ks, s) ← readPublicKeys ext n s
    pure (k :: ks, s)

/-- The key types of pair `i` are compared (private_key_list.py:308-313). -/
def checkPairType (i : Nat) (pub priv : Key) : Eff Unit := do
  let a ← Eff.lift (getItem pub.header (py! "key_type"))
  let b ← Eff.lift (getItem priv.header (py! "key_type"))
  if a ≠ b then Eff.warn (.pairTypeMismatch i) else pure ()

/-- The common parameter values of pair `i` are compared (private_key_list.py:314-326). -/
def checkPairValues (i : Nat) (pub priv : Key) : Eff Unit :=
  if !(commonValuesAgree pub.params.data priv.params.data) then Eff.warn (.pairValueMismatch i)
  else pure ()

/-- The loop over the private keys (private_key_list.py:300-326), from index `i` on; the given public
keys are `public_key_list[i:]`, of which there are as many as `range(num_keys)` has elements left. -/
def readPairs (ext : Ext) : List Key → Nat → Stream → Eff (List Pair × Stream)
  | [], _, s => pure ([], s)
  | pub :: pubs, i, s => do
    let r := fromByteStream ext .priv none s
    let priv ← r.1
    checkPairType i pub priv
    checkPairValues i pub priv
    let (ps, s) ← readPairs ext pubs (i + 1) r.2
    pure (⟨pub, priv⟩ :: ps, s)

/-- private_key_list.py:296-298 -/
def checkCheckInts (h : VDict) : Eff Unit := do
  let a ← Eff.lift (getItem h (py! "check_int_1"))
  let b ← Eff.lift (getItem h (py! "check_int_2"))
  if a ≠ b then Eff.warn .checkNumbers else pure ()

/-- private_key_list.py:330-338 -/
def checkPadding (block : Nat) (whole padding : Bytes) : Eff Unit :=
  if whole.length % block ≠ 0 || !(startsWith (paddingBytes block) padding) then Eff.warn .padding
  else pure ()

/-- From the decrypted private bytes on (private_key_list.py:289-338): pairs, header and padding. -/
def readPrivateSection (ext : Ext) (c : CipherCls) (pubs : List Key) (plain : Bytes) :
    Eff (List Pair × VDict × Bytes) := do
  let (dh, s) ← onStream (readDict decipherHeaderFmt) (Stream.of plain)
  checkCheckInts dh
  let (pairs, s) ← readPairs ext pubs 0 s
  let (padding, s) ← onStream (bytesIORead (-1)) s
  checkPadding c.blockSize s.buf padding
  pure (pairs, dh, padding)

/-- The body of the `try` statement in `from_bytes` (private_key_list.py:235-338), followed by the
`return` statement (346-355). -/
def listFromBytesBody (ext : Ext) (cr : Crypto) (inp : Inputs) (b : Bytes) (passphrase : Option Str) :
    Eff KeyList := do
  let (header, s) ← onStream (readDict listHeaderFmt) (Stream.of b)
  let magic ← Eff.lift (getItem header (py! "auth_magic"))
  if magic ≠ .bytes authMagic then Eff.throw (.valueError "Not an openssh-key-v1 key")
  else
    let nv ← Eff.lift (getItem header (py! "num_keys"))
    let n ← Eff.lift (asInt nv)
    if n < 0 then Eff.throw (.valueError "Cannot parse negative number of keys")
    else
      let (pubs, s) ← readPublicKeys ext n.toNat s
      let (cv, s) ← onStream (readFI (.pascal .bytes)) s
      let cipherBytes ← Eff.lift (asBytes cv)
      let kdf ← Eff.lift (getItem header (py! "kdf"))
      let kdfClass ← Eff.lift (getKdfClass kdf)
      let ov ← Eff.lift (getItem header (py! "kdf_options"))
      let ob ← Eff.lift (asBytes ov)
      let (od, _) ← onStream (readDict (kdfFmt kdfClass)) (Stream.of ob)
      let options ← newKdf kdfClass od
      let cv ← Eff.lift (getItem header (py! "cipher"))
      let cipherClass ← Eff.lift (getCipherClass cv)
      let pass ← choosePassphrase inp (kdfClass = .none) passphrase
      let (cipherBytes, _) ← readTag cipherClass cipherBytes s
      let options' ← newKdf kdfClass options.data
      let plain ← Eff.lift (decrypt cr cipherClass options' pass cipherBytes)
      let (pairs, dh, padding) ← readPrivateSection ext cipherClass pubs plain
      pure ⟨pairs, some b, some header, some cipherBytes, some options, some plain, some dh, some padding⟩

/-- `PrivateKeyList.from_bytes` (private_key_list.py:204-355) -/
def listFromBytes (ext : Ext) (cr : Crypto) (inp : Inputs) (b : Bytes) (passphrase : Option Str) :
    Eff KeyList :=
  Eff.tryCatch (listFromBytesBody ext cr inp b passphrase) (fun e => some (Eff.throw (listExcept e)))

/-- The key derivation options to pack (private_key_list.py:512-516). -/
def chooseKdfOptions (inp : Inputs) (options : Option KdfOptions) (kdf : Val) (retain : Bool) :
    Eff VDict :=
  match retain, options with
  | true, some o => pure o.data
  | _, _ => do
    let c ← Eff.lift (getKdfClass kdf)
    let o ← generateKdf inp.tokenBytes c
    pure o.data

/-- `pack_bytes` (private_key_list.py:470-599) -/
def packKeyList (cr : Crypto) (inp : Inputs) (self : KeyList) (passphrase : Option Str)
    (indices : Option (List Int)) (override retain : Bool) : Eff Bytes := do
  let cipher := (listCipherKdf self.header).1
  let kdf := (listCipherKdf self.header).2
  let options ← chooseKdfOptions inp self.kdfOptions kdf retain
  let indices := indices.getD (allIndices self.pairs.length)
  let kdfClass ← Eff.lift (getKdfClass kdf)
  let optionBytes ← Eff.lift (written (writeDict (kdfFmt kdfClass) options))
  let (_, ws) ← onStream (writeDict listHeaderFmt (listHeader cipher kdf optionBytes indices.length))
    Stream.new
  let ws ← writePublicKeys self.pairs override indices ws
  let plain ← writePrivateSection inp self.pairs indices cipher
  let pass ← choosePassphrase inp (kdf = .str (py! "none")) passphrase
  let c ← Eff.lift (getCipherClass cipher)
  let o ← newKdf kdfClass options
  let cipherBytes ← Eff.lift (encrypt cr c o pass plain)
  let ws ← writeCipherBytes c cipherBytes ws
  pure ws.buf

/-- `PrivateKeyList.from_string` (private_key_list.py:379-416) -/
def listFromString (ext : Ext) (cr : Crypto) (inp : Inputs) (s : Str) (passphrase : Option Str) :
    Eff KeyList := do
  let lines := splitLines s
  let first ← Eff.lift (pyIndex lines 0)
  -- `or` does not evaluate `key_lines[-1]` if the first line is wrong
  if first ≠ pemHeader then Eff.throw (.valueError "Not an openssh private key")
  else
    let last ← Eff.lift (pyIndex lines (-1))
    if last ≠ pemFooter then Eff.throw (.valueError "Not an openssh private key")
    else
      let b64 := strJoin [] (slice lines 1 (-1))
      let b ← Eff.lift (b64decodeStr b64)
      listFromBytes ext cr inp b passphrase

/-- `pack_string` (private_key_list.py:601-655) -/
def packListString (cr : Crypto) (inp : Inputs) (self : KeyList) (passphrase : Option Str)
    (indices : Option (List Int)) (override retain : Bool) : Eff Str := do
  let text := pemHeader ++ py! "\n"
  let b ← packKeyList cr inp self passphrase indices override retain
  let b64 := b64encodeStr b
  let wrapped := strJoin (py! "\n") (wrapText b64)
  let text := text ++ wrapped
  let text := text ++ (py! "\n" ++ pemFooter ++ py! "\n")
  pure text

/-- `PublicPrivateKeyPair.generate` (private_key_list.py:48-85); `params` is the contents of the object
that `generate_private_params` returned. -/
def generatePair (ext : Ext) (keyType comment : Str) (params : VDict) : Eff Pair := do
  let _ ← Eff.lift (getPrivateClass (.str keyType))
  let priv ← mkKey ext .priv [(py! "key_type", .str keyType)] params [(py! "comment", .str comment)] none
  let pub ← mkKey ext .pub [(py! "key_type", .str keyType)] params [] none
  pure ⟨pub, priv⟩

/-! ### From Model/Convert.lean -/

/-- `cls(params)`: an abstract class cannot be instantiated (`TypeError`). -/
def instantiate (ext : Ext) (c : Cls) (d : VDict) : Eff Params :=
  if c.isAbstract then Eff.throw .typeError else newParams ext c d

/-- `PublicKeyParams.convert_from` (common.py:55-99), given `convert_from` of the subclasses. -/
def convertFromBase (lib : Lib) (ext : Ext) (rec : Cls → Eff Params) (c : Cls) (o : KeyObj) :
    Eff Params := do
  let own ← Eff.lift ((objectToMapping lib c c.conversionOf o).getD (.ok none))
  let m ← match own with
    | some d => pure (some d)
    | none => trySubclasses rec c.subclasses
  match m with
  | some d => do
    let sel ← Eff.lift (selectFields d (dkeys (formatOf c)))
    instantiate ext c sel
  | none => Eff.throw (.valueError "key_object is not of a supported type")

/-- `ECDSAPublicKeyParams.convert_from` (ecdsa.py:96-106).  `super().convert_from` is
`PublicKeyParams.convert_from`: no other class defines the method. -/
def convertFromEcdsa (lib : Lib) (ext : Ext) (rec : Cls → Eff Params) (c : Cls) (o : KeyObj) :
    Eff Params := do
  let first ← if c.isAbstract then tryConcrete rec c.subclasses else pure none
  match first with
  | some p => pure p
  | none => convertFromBase lib ext rec c o

/-- `cls.convert_from(key_object)` with bounded depth of the class hierarchy. -/
def convertFromFuel (lib : Lib) (ext : Ext) : Nat → Cls → KeyObj → Eff Params
  | 0, _, _ => Eff.throw .recursionError
  | n + 1, c, o =>
    if c.isSubclass .ecdsaPub then
      convertFromEcdsa lib ext (fun s => convertFromFuel lib ext n s o) c o
    else convertFromBase lib ext (fun s => convertFromFuel lib ext n s o) c o

/-- `cls.convert_from(key_object)` (common.py:55-99, ecdsa.py:96-106).  The hierarchy below
`PublicKeyParams` is five classes deep (`C62_depth`). -/
def convertFrom (lib : Lib) (ext : Ext) (c : Cls) (o : KeyObj) : Eff Params :=
  convertFromFuel lib ext 6 c o

/-! ### From Model/Generate.lean -/

/-- The body of `RSAPrivateKeyParams.generate_private_params` (rsa.py:185-203) -/
def generateRsa (ext : Ext) (gen : Gen) (c : Cls) (kwargs : VDict) : Eff Params := do
  let k ← Eff.lift (gen.rsa (kwarg kwargs (py! "e") (.int rsaPublicExponent))
    (kwarg kwargs (py! "key_size") (.int rsaKeySize)))
  instantiate ext c [(py! "n", .int k.n), (py! "e", .int k.e), (py! "d", .int k.d), (py! "iqmp", .int k.iqmp),
    (py! "p", .int k.p), (py! "q", .int k.q)]

/-- The body of `DSSPrivateKeyParams.generate_private_params` (dss.py:181-193) -/
def generateDss (ext : Ext) (gen : Gen) (c : Cls) : Eff Params := do
  let k ← Eff.lift (gen.dsa dssKeySize)
  instantiate ext c [(py! "p", .int k.p), (py! "q", .int k.q), (py! "g", .int k.g), (py! "y", .int k.y),
    (py! "x", .int k.x)]

/-- The body of `Ed25519PrivateKeyParams.generate_private_params` (ed25519.py:247-264) -/
def generateEd25519 (ext : Ext) (lib : Lib) (gen : Gen) (c : Cls) : Eff Params := do
  let private_ ← Eff.lift gen.ed25519
  let public_ := lib.edPublicOf private_
  instantiate ext c [(py! "public", .bytes public_), (py! "private_public", .bytes (private_ ++ public_))]

/-- The body of `ECDSAPrivateKeyParams.generate_private_params` for a class other than
`ECDSAPrivateKeyParams` itself (ecdsa.py:266-275) -/
def generateEcdsa (ext : Ext) (lib : Lib) (gen : Gen) (c : Cls) : Eff Params := do
  let curve := lib.curveName (curveOf c).2
  let (x, y, d) ← Eff.lift (gen.ec curve)
  instantiate ext c [(py! "identifier", .str (curveOf c).1), (py! "q", .bytes (lib.encodePoint curve x y)),
    (py! "d", .int d)]

/-- `cls.generate_private_params(**kwargs)`.  Simplification: a class that has no such method (which the
factory for private classes does not return) gives `TypeError` instead of `AttributeError`. -/
def generateParams (ext : Ext) (lib : Lib) (gen : Gen) (c : Cls) (kwargs : VDict) : Eff Params :=
  match c.resolve generateDef with
  | some .rsaPriv => generateRsa ext gen c kwargs
  | some .dssPriv => generateDss ext gen c
  | some .ed25519Priv => generateEd25519 ext lib gen c
  -- ecdsa.py:261-264
  | some .ecdsaPriv => generateEcdsa ext lib gen (if c = .ecdsaPriv then .ec256Priv else c)
  -- sk.py:145
  | some .skPriv => Eff.throw .notImplementedError
  -- common.py:195
  | some .privateKeyParams => instantiate ext c []
  | _ => Eff.throw .typeError

/-- `PublicPrivateKeyPair.generate` (private_key_list.py:48-85) -/
def generate (ext : Ext) (lib : Lib) (gen : Gen) (keyType comment : Str) (kwargs : VDict) : Eff Pair := do
  let c ← Eff.lift (getPrivateClass (.str keyType))
  let p ← generateParams ext lib gen c kwargs
  generatePair ext keyType comment p.data

/-- `generate_options(**kwargs)` (kdf_options/none.py:51-61, kdf_options/bcrypt_options.py:87-113);
`tokenBytes` is `secrets.token_bytes`, whose argument may be any object here. -/
def generateKdfWith (tokenBytes : Val → Except Exn Bytes) (kwargs : VDict) : KdfCls → Eff KdfOptions
  | .none => newKdf .none []
  | .bcrypt => do
    let salt ← Eff.lift (tokenBytes (kwarg kwargs (py! "salt_length") (.int bcryptSaltLength)))
    newKdf .bcrypt
      [(py! "salt", .bytes salt), (py! "rounds", kwarg kwargs (py! "rounds") (.int bcryptRounds))]

/-! ### From Model/Cli.lean -/

/-- One line of a public key file (__main__.py:31-34), with its number. -/
def cliLine (ext : Ext) (i : Nat) (line : Str) : Eff (Option Key) :=
  Eff.tryCatch (do let k ← fromString ext .pub line; pure (some k))
    (fun e => if e.isValueError || e = .notImplementedError || e.isEOFError then
        some (do Eff.warn (.couldNotParseLine i); pure none)
      else none)

/-- The loop over the lines (__main__.py:30-34), from line `i` on. -/
def cliLines (ext : Ext) : Nat → List Str → Eff (List Key)
  | _, [] => pure []
  | i, l :: t => do
    let k ← cliLine ext i l
    let ks ← cliLines ext (i + 1) t
    pure (k.toList ++ ks)

/-- __main__.py:23-34 -/
def cliParse (ext : Ext) (cr : Crypto) (inp : Inputs) (contents : Str) (passphrase : Option Str) :
    Eff CliResult :=
  if startsWith contents pemHeader then do
    let l ← listFromString ext cr inp contents passphrase
    pure (.keyList l)
  else do
    let ks ← cliLines ext 0 (splitLines contents)
    pure (.publicKeys ks)

/-! ### From Model/Json.lean -/

/-- __main__.py:19-45: what is printed. -/
def cliMain (ext : Ext) (cr : Crypto) (inp : Inputs) (maxDigits : Nat) (file : Bytes) (passphrase : Option Str) :
    Eff Str := do
  let contents ← Eff.lift (readText file)
  let r ← cliParse ext cr inp contents passphrase
  let out ← Eff.lift (render ext maxDigits r)
  pure (out ++ py! "\n")

end Filtered
end OSK
