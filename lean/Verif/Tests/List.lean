import Verif.Model.UserList
import Verif.Spec.Cipher
import Verif.Tests.Key
/-
The tests of tests/test_private_key_list.py and tests/test_kdf.py, on the model.  `secrets` is given fixed
values, and where a passphrase is used the cryptographic functions are toy ones; the
properties C25-C27, C42 and C104 are about all values and about the real functions.
-/
namespace OSK
open Spec

/-- What the tests patch `getpass` with, and numbers from `secrets`. -/
def tInputs : Inputs := ⟨.ok (py! "passphrase"), 305419896, fun n => List.replicate n 7⟩

/-- `BCRYPT_OPTIONS_TEST` (test_private_key_list.py:96-99) -/
def tBcrypt : VDict :=
  [(py! "rounds", .int 16), (py! "salt", .bytes [140, 99, 109, 232, 158, 7, 72, 253, 115, 217, 91, 61, 13, 73, 61, 232])]

/-- Cryptographic functions that cost nothing: everything is combined with the first byte of the key, and the tag is
the length. -/
def testCrypto : Crypto where
  bcryptKdf p s n r :=
    if 0 < r then .ok ((p ++ s).take 1 ++ List.replicate (n - 1) 5) else .error (.valueError "rounds")
  symEnc _ _ key _ x := .ok (x.map (fun b => b ^^^ key.headD 0))
  symDec _ _ key _ x := .ok (x.map (fun b => b ^^^ key.headD 0))
  gcmEnc key _ x := .ok (x.map (fun b => b ^^^ key.headD 0) ++ List.replicate 16 (UInt8.ofNat x.length))
  gcmDec key _ x :=
    if x.drop (x.length - 16) = List.replicate 16 (UInt8.ofNat (x.length - 16))
    then .ok ((x.take (x.length - 16)).map (fun b => b ^^^ key.headD 0)) else .error .invalidTag
  chacha _ _ := .ok (fun _ => 0)
  poly1305 _ _ := List.replicate 16 0

/-- The key pairs of the tests. -/
def tRsaPublicKey : Key := ⟨.pub, tRsaHeader, ⟨.rsaPub, tRsaPublic⟩, [], []⟩
/-- The key pairs of the tests. -/
def tRsaPrivateKey : Key := ⟨.priv, tRsaHeader, ⟨.rsaPriv, tRsaPrivate⟩, tFooter, []⟩
/-- The key pairs of the tests. -/
def tPair0 : Pair := ⟨tPublicKey, tPrivateKey⟩
/-- The key pairs of the tests. -/
def tPair1 : Pair := ⟨tRsaPublicKey, tRsaPrivateKey⟩

/-- The number of calls of `getpass`. -/
def prompts (l : List Event) : Nat := (l.filter (fun e => decide (e = .prompt))).length

/-- `correct_kdf_options_bytes` (test_private_key_list.py:102-115) -/
def tOptionBytes (kdf : Str) (options : VDict) : Except Exn Bytes := do
  let k ← getKdfClass (.str kdf)
  written (writeDict (kdfFmt k) options)

/-- `correct_header` (test_private_key_list.py:71-93) -/
def tHeader (cipher kdf : Str) (optionBytes : Bytes) (n : Int) : VDict :=
  [(py! "auth_magic", .bytes (pb! "openssh-key-v1" ++ [0])), (py! "cipher", .str cipher), (py! "kdf", .str kdf),
   (py! "kdf_options", .bytes optionBytes), (py! "num_keys", .int n)]

/-- The check numbers (test_private_key_list.py:118-130). -/
def tCheck (a b : Int) : VDict := [(py! "check_int_1", .int a), (py! "check_int_2", .int b)]

/-- `correct_decipher_bytes_padding` (test_private_key_list.py:133-139) -/
def tPad (block length : Nat) : Bytes := (List.range ((block - length % block) % block)).map (fun i => UInt8.ofNat (i + 1))

/-- A test file, taken apart. -/
structure TFile where
  whole : Bytes
  header : VDict
  cipherBytes : Bytes
  plain : Bytes
  padding : Bytes

/-- Header, public keys, check numbers, private keys, padding, encryption: the body that the `from_bytes` tests
share (e.g. test_private_key_list.py:258-293), with `correct_cipher_bytes` (142-175).  `pad` gets the correct
padding. -/
def tFile (cr : Crypto) (cipher kdf : Str) (options : VDict) (pubs : List Bytes) (check : VDict) (privs : List Bytes)
    (pad : Bytes → Bytes) : Except Exn TFile := do
  let ob ← tOptionBytes kdf options
  let header := tHeader cipher kdf ob pubs.length
  let hb ← written (writeDict listHeaderFmt header)
  let pb ← written (pubs.forM (fun p => writeFI (.pascal .bytes) (.bytes p)))
  let cb ← written (writeDict decipherHeaderFmt check)
  let c ← getCipherClass (.str cipher)
  let plain := cb ++ privs.flatten
  let padding := pad (tPad c.blockSize plain.length)
  let plain := plain ++ padding
  let k ← getKdfClass (.str kdf)
  let o ← (newKdf k options).res
  let enc ← encrypt cr c o (py! "passphrase") plain
  let n := enc.length - c.tagLength
  let eb ← written (do
    if c.isIntegrity then
      writeFI (.pascal .bytes) (.bytes (enc.take n))
      bytesIOWrite (enc.drop n)
    else writeFI (.pascal .bytes) (.bytes enc))
  pure ⟨hb ++ pb ++ eb, header, enc, plain, padding⟩

/-- `private_key_list_from_bytes_test_assertions` (test_private_key_list.py:178-222) -/
def fromBytesAssertions (cr : Crypto) (f : Except Exn TFile) (pass : Option Str) (calls : Nat) (pairs : List Pair)
    (check options : VDict) : Bool :=
  match f with
  | .error _ => false
  | .ok f =>
    let r := listFromBytes tExt cr tInputs f.whole pass
    match r.res with
    | .error _ => false
    | .ok l =>
      decide (prompts r.log = calls) && decide (r.log.length = calls) && decide (l.byteString = some f.whole) &&
      (match l.header with | some h => deq h f.header | none => false) && decide (l.cipherBytes = some f.cipherBytes) &&
      pairsEq l.pairs pairs && (match l.kdfOptions with | some o => deq o.data options | none => false) &&
      decide (l.decipherBytes = some f.plain) &&
      (match l.decipherHeader with | some h => deq h check | none => false) &&
      decide (l.decipherPadding = some f.padding)

/-- `with pytest.warns(UserWarning, match=…)` around `from_bytes`. -/
def fromBytesWarns (f : Except Exn TFile) (w : Warning) : Bool :=
  match f with
  | .error _ => false
  | .ok f => warns (listFromBytes tExt testCrypto tInputs f.whole none) w

/-- A call of `pack_bytes`: the list, and the arguments. -/
structure Pack where
  list : KeyList
  passphrase : Option Str := none
  indices : Option (List Int) := none
  override : Bool := false
  retain : Bool := false

/-- `private_key_list_pack_bytes_test_assertions` (test_private_key_list.py:1218-1310), on the bytes. -/
def packAssertions (cr : Crypto) (b : Bytes) (cipher kdf : Str) (pairs : List Pair) (options : VDict) : Bool :=
  let r : SM Bool := do
    let ob ← SM.lift (tOptionBytes kdf options)
    let h ← readDict listHeaderFmt
    let okPubs ← pairs.mapM (fun p => do
      let v ← readFI (.pascal .bytes)
      let b ← SM.lift (asBytes v)
      let inner : SM Bool := do
        let h ← readDict (headerFmt .pub)
        let c ← SM.lift (getPublicClass ((dget p.pub.header (py! "key_type")).getD (.other 0)))
        let d ← readDict (formatOf c)
        let f ← readDict (footerFmt .pub)
        let rest ← bytesIORead (-1)
        pure (deq h p.pub.header && deq d p.pub.params.data && deq f p.pub.footer && decide (rest = []))
      SM.lift (inner (Stream.of b)).1)
    let v ← readFI (.pascal .bytes)
    let cb ← SM.lift (asBytes v)
    let c ← SM.lift (getCipherClass (.str cipher))
    let tag ← if c.isIntegrity then readFixed c.tagLength else pure []
    let k ← SM.lift (getKdfClass (.str kdf))
    let o ← SM.lift (newKdf k options).res
    let plain ← SM.lift (decrypt cr c o (py! "passphrase") (cb ++ tag))
    let inner : SM Bool := do
      let a ← readFI (.struct fmtBEI)
      let b ← readFI (.struct fmtBEI)
      let okPrivs ← pairs.mapM (fun p => do
        let h ← readDict (headerFmt .priv)
        let c ← SM.lift (getPrivateClass ((dget p.priv.header (py! "key_type")).getD (.other 0)))
        let d ← readDict (formatOf c)
        let f ← readDict (footerFmt .priv)
        pure (deq h p.priv.header && deq d p.priv.params.data && deq f p.priv.footer))
      let rest ← bytesIORead (-1)
      pure (decide (a = b) && okPrivs.all id && decide (plain.length % c.blockSize = 0)
        && startsWith ((List.range c.blockSize).map (fun i => UInt8.ofNat (i + 1))) rest)
    let okPlain ← SM.lift (inner (Stream.of plain)).1
    let rest ← bytesIORead (-1)
    pure (deq h (tHeader cipher kdf ob pairs.length) && okPubs.all id && okPlain && decide (rest = []))
  match (r (Stream.of b)).1 with
  | .ok x => x
  | .error _ => false

/-- A `pack_bytes` test: the calls of `getpass` while packing, and the assertions. -/
def packTest (cr : Crypto) (p : Pack) (calls : Nat) (cipher kdf : Str) (pairs : List Pair) (options : VDict) : Bool :=
  let r := packKeyList cr tInputs p.list p.passphrase p.indices p.override p.retain
  match r.res with
  | .error _ => false
  | .ok b => decide (prompts r.log = calls) && packAssertions cr b cipher kdf pairs options

/-- `private_key_list_pack_string_test_assertions` (test_private_key_list.py:1892-1902) -/
def packStringTest (cr : Crypto) (p : Pack) (calls : Nat) (cipher kdf : Str) (pairs : List Pair) (options : VDict) : Bool :=
  let r := packListString cr tInputs p.list p.passphrase p.indices p.override p.retain
  match r.res with
  | .error _ => false
  | .ok s =>
    let lines := splitLines s
    decide (prompts r.log = calls) && decide (lines[0]? = some pemHeader) && decide (lines.getLast? = some pemFooter) &&
      match b64decodeStr (strJoin [] (lines.tail.dropLast)) with
      | .ok b => packAssertions cr b cipher kdf pairs options
      | .error _ => false

/-- The options with which a list of keys was packed, read back with `from_bytes(pack_bytes).kdf_options`; the
number of calls of `getpass` while reading. -/
def generatedOptions (cr : Crypto) (p : Pack) : Option (VDict × Nat) :=
  match (packKeyList cr tInputs p.list p.passphrase p.indices p.override p.retain).res with
  | .error _ => none
  | .ok b =>
    let r := listFromBytes tExt cr tInputs b none
    match r.res with
    | .ok l => l.kdfOptions.map (fun o => (o.data, prompts r.log))
    | .error _ => none

/-- A test that packs with generated options, reads them back, and asserts that they are not the given ones; the
calls of `getpass` are those of both. -/
def packGenerated (cr : Crypto) (p : Pack) (packCalls readCalls : Nat) (cipher kdf : Str) (pairs : List Pair) (text : Bool) : Bool :=
  match generatedOptions cr p with
  | none => false
  | some (o, n) =>
    decide (n = readCalls) && (if text then packStringTest cr p packCalls cipher kdf pairs o
      else packTest cr p packCalls cipher kdf pairs o) && !(deq o tBcrypt)

/-- `isinstance(e, IndexError)` -/
def isIndexError : Exn → Bool
  | .indexError => true
  | _ => false

/-- test_private_key_list.py:28-32 -/
theorem C115_list_public_private_key_pair_generate :
    (match (generatePair tExt (py! "ssh-rsa") [] tRsaPrivate).res with
     | .ok p => decide (p.priv.params.cls = .rsaPriv) && decide (p.pub.params.cls = .rsaPub) &&
        decide (dget p.priv.footer (py! "comment") = some (.str []))
     | .error _ => false) = true := by
  decide +kernel

/-- test_private_key_list.py:35-39 -/
theorem C115_list_public_private_key_pair_generate_comment :
    (match (generatePair tExt (py! "ssh-rsa") (py! "comment") tRsaPrivate).res with
     | .ok p => decide (p.priv.params.cls = .rsaPriv) && decide (p.pub.params.cls = .rsaPub) &&
        decide (dget p.priv.footer (py! "comment") = some (.str (py! "comment")))
     | .error _ => false) = true := by
  decide +kernel

/-- test_private_key_list.py:54-61 -/
theorem C115_list_header_format_instructions_dict :
    listHeaderFmt = [(py! "auth_magic", .struct fmt15s), (py! "cipher", .pascal .string), (py! "kdf", .pascal .string),
      (py! "kdf_options", .pascal .bytes), (py! "num_keys", .struct fmtBEi)] := by
  decide +kernel

/-- test_private_key_list.py:64-68 -/
theorem C115_list_decipher_bytes_format_instructions_dict :
    decipherHeaderFmt = [(py! "check_int_1", .struct fmtBEI), (py! "check_int_2", .struct fmtBEI)] := by
  decide +kernel

/-- test_private_key_list.py:225-239 -/
theorem C115_list_from_bytes_invalid_auth_magic :
    (written (writeDict listHeaderFmt [(py! "auth_magic", .bytes (pb! "not_openssh_key")), (py! "cipher", .str (py! "none")),
      (py! "kdf", .str (py! "none")), (py! "kdf_options", .bytes []), (py! "num_keys", .int 0)])).bind
        (fun b => (listFromBytes tExt testCrypto tInputs b none).res.map (fun _ => ())) =
      .error (.valueError "Not an openssh-key-v1 key") := by
  decide +kernel

/-- test_private_key_list.py:242-255 -/
theorem C115_list_from_bytes_negative_num_keys :
    (written (writeDict listHeaderFmt (tHeader (py! "none") (py! "none") [] (-1)))).bind
        (fun b => (listFromBytes tExt testCrypto tInputs b none).res.map (fun _ => ())) =
      .error (.valueError "Cannot parse negative number of keys") := by
  decide +kernel

/-- test_private_key_list.py:258-308 -/
theorem C115_list_from_bytes_one_key_none :
    fromBytesAssertions testCrypto (tFile testCrypto (py! "none") (py! "none") [] [tEdPubBytes]
      (tCheck 77 77) [tEdPrivBytes] id) none 0 [tPair0] (tCheck 77 77) [] := by
  decide +kernel

/-- test_private_key_list.py:311-361 -/
theorem C115_list_from_bytes_one_key_bcrypt_aes256ctr :
    fromBytesAssertions testCrypto (tFile testCrypto (py! "aes256-ctr") (py! "bcrypt") tBcrypt [tEdPubBytes]
      (tCheck 77 77) [tEdPrivBytes] id) none 1 [tPair0] (tCheck 77 77) tBcrypt := by
  decide +kernel

/-- test_private_key_list.py:364-414 -/
theorem C115_list_from_bytes_one_key_bcrypt_aes256gcm :
    fromBytesAssertions testCrypto (tFile testCrypto (py! "aes256-gcm@openssh.com") (py! "bcrypt") tBcrypt [tEdPubBytes]
      (tCheck 77 77) [tEdPrivBytes] id) none 1 [tPair0] (tCheck 77 77) tBcrypt := by
  decide +kernel

/-- test_private_key_list.py:417-469 -/
theorem C115_list_from_bytes_two_keys_bcrypt_aes256ctr :
    fromBytesAssertions testCrypto (tFile testCrypto (py! "aes256-ctr") (py! "bcrypt") tBcrypt [tEdPubBytes, tRsaPubBytes]
      (tCheck 77 77) [tEdPrivBytes, tRsaPrivBytes] id) none 1 [tPair0, tPair1] (tCheck 77 77) tBcrypt := by
  decide +kernel

/-- test_private_key_list.py:472-524 -/
theorem C115_list_from_bytes_two_keys_bcrypt_aes256gcm :
    fromBytesAssertions testCrypto (tFile testCrypto (py! "aes256-gcm@openssh.com") (py! "bcrypt") tBcrypt [tEdPubBytes, tRsaPubBytes]
      (tCheck 77 77) [tEdPrivBytes, tRsaPrivBytes] id) none 1 [tPair0, tPair1] (tCheck 77 77) tBcrypt := by
  decide +kernel

/-- test_private_key_list.py:527-574 -/
theorem C115_list_from_bytes_one_key_none_extra_bytes_public_key :
    fromBytesWarns (tFile testCrypto (py! "none") (py! "none") [] [tEdPubBytes ++ [0]] (tCheck 77 77) [tEdPrivBytes]
      id) .excessBytes ∧
    (match (tFile testCrypto (py! "none") (py! "none") [] [tEdPubBytes ++ [0]] (tCheck 77 77) [tEdPrivBytes] id).bind
        (fun f => (listFromBytes tExt testCrypto tInputs f.whole none).res) with
     | .ok l => l.pairs.map (fun p => dget p.pub.clear (py! "remainder"))
     | .error _ => []) = [some (.bytes [0])] := by
  decide +kernel

/-- test_private_key_list.py:577-624 -/
theorem C115_list_from_bytes_one_key_none_bad_decipher_bytes_header :
    fromBytesWarns (tFile testCrypto (py! "none") (py! "none") [] [tEdPubBytes] (tCheck 77 76) [tEdPrivBytes]
      id) .checkNumbers := by
  decide +kernel

/-- test_private_key_list.py:669-708 -/
theorem C115_list_from_bytes_one_key_none_inconsistent_key_types :
    fromBytesWarns (tFile testCrypto (py! "none") (py! "none") [] [tEdPubBytes] (tCheck 77 77) [tRsaPrivBytes]
      id) (.pairTypeMismatch 0) := by
  decide +kernel

/-- The public key with all bits of the parameter inverted (test_private_key_list.py:726-745). -/
def tOtherPubBytes : Bytes :=
  tEdPubBytes.take 19 ++ (tEdPubBytes.drop 19).map (fun x => x ^^^ 255)

/-- test_private_key_list.py:711-771 -/
theorem C115_list_from_bytes_one_key_none_inconsistent_key_params :
    fromBytesWarns (tFile testCrypto (py! "none") (py! "none") [] [tOtherPubBytes] (tCheck 77 77) [tEdPrivBytes]
      id) (.pairValueMismatch 0) := by
  decide +kernel

/-- test_private_key_list.py:774-817 -/
theorem C115_list_from_bytes_one_key_none_unexpected_padding_bytes :
    fromBytesWarns (tFile testCrypto (py! "none") (py! "none") [] [tEdPubBytes] (tCheck 77 77) [tEdPrivBytes]
      (fun p => p.map (fun x => x ^^^ 255))) .padding := by
  decide +kernel

/-- test_private_key_list.py:820-860 -/
theorem C115_list_from_bytes_one_key_none_excess_padding_bytes :
    fromBytesWarns (tFile testCrypto (py! "none") (py! "none") [] [tEdPubBytes] (tCheck 77 77) [tEdPrivBytes]
      (fun p => p ++ p)) .padding := by
  decide +kernel

/-- test_private_key_list.py:863-899 -/
theorem C115_list_from_bytes_one_key_none_no_padding_bytes :
    fromBytesWarns (tFile testCrypto (py! "none") (py! "none") [] [tEdPubBytes] (tCheck 77 77) [tEdPrivBytes]
      (fun _ => [])) .padding := by
  decide +kernel

/-- test_private_key_list.py:902-943 -/
theorem C115_list_from_bytes_one_key_none_insufficient_padding_bytes :
    fromBytesWarns (tFile testCrypto (py! "none") (py! "none") [] [tEdPubBytes] (tCheck 77 77) [tEdPrivBytes]
      (fun p => p.dropLast)) .padding := by
  decide +kernel

/-- test_private_key_list.py:946-996 -/
theorem C115_list_from_bytes_passphrase :
    fromBytesAssertions testCrypto (tFile testCrypto (py! "aes256-ctr") (py! "bcrypt") tBcrypt [tEdPubBytes]
      (tCheck 77 77) [tEdPrivBytes] id) (some (py! "passphrase")) 0 [tPair0] (tCheck 77 77) tBcrypt := by
  decide +kernel

/-- test_private_key_list.py:999-1029 -/
theorem C115_list_from_string :
    (match (packKeyList testCrypto tInputs (listFromList [tPair0] (py! "none") (py! "none") none) none none false false).res with
     | .ok b =>
        let s := pemHeader ++ py! "\n" ++ ((wrapText (b64encodeStr b)).map (fun l => l ++ py! "\n")).flatten ++ py! "\n" ++ pemFooter
        let r := listFromString tExt testCrypto tInputs s none
        (match r.res with
         | .ok l => KeyList.eq l (listFromList [tPair0] (py! "none") (py! "none") none) && decide (prompts r.log = 0)
         | .error _ => false)
     | .error _ => false) = true := by
  decide +kernel

/-- test_private_key_list.py:1032-1037 -/
theorem C115_list_from_string_incorrect_header :
    (listFromString tExt testCrypto tInputs (py! "not an openssh private key\n" ++ pemFooter) none).res =
      .error (.valueError "Not an openssh private key") := by
  decide +kernel

/-- test_private_key_list.py:1040-1045 -/
theorem C115_list_from_string_incorrect_footer :
    (listFromString tExt testCrypto tInputs (pemHeader ++ py! "\nnot an openssh private key") none).res =
      .error (.valueError "Not an openssh private key") := by
  decide +kernel

/-- test_private_key_list.py:1048-1092 -/
theorem C115_list_from_string_passphrase :
    (match (packKeyList testCrypto tInputs (listFromList [tPair0] (py! "aes256-ctr") (py! "bcrypt") (some (bcryptOptions [1, 2, 3] 16))) (some (py! "passphrase")) none false false).res with
     | .ok b =>
        let s := pemHeader ++ py! "\n" ++ ((wrapText (b64encodeStr b)).map (fun l => l ++ py! "\n")).flatten ++ py! "\n" ++ pemFooter
        let r := listFromString tExt testCrypto tInputs s (some (py! "passphrase"))
        (match r.res with
         | .ok l => KeyList.eq l (listFromList [tPair0] (py! "aes256-ctr") (py! "bcrypt") (some (bcryptOptions [1, 2, 3] 16))) && decide (prompts r.log = 0)
         | .error _ => false)
     | .error _ => false) = true := by
  decide +kernel

/-- test_private_key_list.py:1095-1116 -/
theorem C115_list_from_list_one_key :
    (match listFromItems [.pair (.key tPublicKey) (.key tPrivateKey)] (py! "none") (py! "none") none with
     | .ok l => decide (l.header = some [(py! "cipher", .str (py! "none")), (py! "kdf", .str (py! "none"))]) && decide (l.kdfOptions.map KdfOptions.data = some []) && decide (l.pairs = [tPair0])
     | .error _ => false) = true := by
  decide +kernel

/-- test_private_key_list.py:1119-1153 -/
theorem C115_list_from_list_two_keys :
    (match listFromItems [.pair (.key tPublicKey) (.key tPrivateKey), .pair (.key tRsaPublicKey) (.key tRsaPrivateKey)] (py! "none") (py! "none") none with
     | .ok l => decide (l.header = some [(py! "cipher", .str (py! "none")), (py! "kdf", .str (py! "none"))]) && decide (l.kdfOptions.map KdfOptions.data = some []) && decide (l.pairs = [tPair0, tPair1])
     | .error _ => false) = true := by
  decide +kernel

/-- test_private_key_list.py:1156-1182 -/
theorem C115_list_from_list_bcrypt_aes256_ctr :
    (match listFromItems [.pair (.key tPublicKey) (.key tPrivateKey)] (py! "aes256-ctr") (py! "bcrypt") (some ⟨.bcrypt, tBcrypt⟩) with
     | .ok l => decide (l.header = some [(py! "cipher", .str (py! "aes256-ctr")), (py! "kdf", .str (py! "bcrypt"))]) && decide (l.kdfOptions.map KdfOptions.data = some tBcrypt) && decide (l.pairs = [tPair0])
     | .error _ => false) = true := by
  decide +kernel

/-- test_private_key_list.py:1185-1196 -/
theorem C115_list_from_list_invalid_private_key :
    listFromItems [.pair (.key tPublicKey) .other] (py! "none") (py! "none") none = .error (.valueError "Not a key pair") := by
  decide +kernel

/-- test_private_key_list.py:1199-1210 -/
theorem C115_list_from_list_invalid_public_key :
    listFromItems [.pair .other (.key tPrivateKey)] (py! "none") (py! "none") none = .error (.valueError "Not a key pair") := by
  decide +kernel

/-- test_private_key_list.py:1213-1215 -/
theorem C115_list_from_list_invalid_key_pair :
    listFromItems [.other] (py! "none") (py! "none") none = .error (.valueError "Not a key pair") := by
  decide +kernel

/-! ### test_kdf.py -/

/-- test_kdf.py:9-10 -/
theorem C115_kdf_factory_none :
    getKdfClass (.str (py! "none")) = .ok .none := by
  decide +kernel

/-- test_kdf.py:13-14 -/
theorem C115_kdf_factory_bcrypt :
    getKdfClass (.str (py! "bcrypt")) = .ok .bcrypt := by
  decide +kernel

/-- test_kdf.py:17-18 -/
theorem C115_kdf_none_format_instructions_dict :
    kdfFmt .none = [] := by
  decide +kernel

/-- test_kdf.py:21-22 -/
theorem C115_kdf_none_generate_options :
    (generateKdf tInputs.tokenBytes .none).res = .ok ⟨.none, []⟩ := by
  decide +kernel

/-- test_kdf.py:25-29 -/
theorem C115_kdf_bcrypt_format_instructions_dict :
    kdfFmt .bcrypt = [(py! "salt", .pascal .bytes), (py! "rounds", .struct fmtBEI)] := by
  decide +kernel

/-- test_kdf.py:32-41 -/
theorem C115_kdf_bcrypt_generate_options (tok : Nat → Bytes) :
    (generateKdf tok .bcrypt).log = [] ∧
      (generateKdf tok .bcrypt).res = .ok ⟨.bcrypt, [(py! "salt", .bytes (tok 16)), (py! "rounds", .int 16)]⟩ := by
  exact ⟨rfl, rfl⟩

/-- test_kdf.py:70-72 -/
theorem C115_kdf_none (cr : Crypto) :
    deriveKey cr ⟨.none, []⟩ (py! "abcd") 0 = .ok [] := by
  rfl

/-- test_kdf.py:75-90 -/
theorem C115_kdf_bcrypt_calls_lib (cr : Crypto) :
    deriveKey cr ⟨.bcrypt, [(py! "salt", .bytes [0]), (py! "rounds", .int 1)]⟩ (py! "abcd") 48 =
      cr.bcryptKdf (pb! "abcd") [0] 48 1 := by
  rfl

end OSK
