import Verif.Spec.FileGrammar
/-
Which keys OpenSSH 9.6 reads, independently of the code of the package: private key files (sshkey.c:
private2_uudecode, private2_decrypt, private2_check_padding, sshkey_parse_private2, sshkey_private_deserialize),
public keys and certificates (sshkey_from_blob_internal, cert_parse).  Private key files that hold certificates are
left out, and so are limits on sizes, checks of the numbers themselves and of signatures: these are the
predicates `limits` below.
-/
namespace OSK.Spec

/-! ### Strings and names -/

/-- The name `n` is written as `raw`: OpenSSH drops a zero at the end of a string (sshbuf_get_cstring). -/
def CName (n raw : Str) : Prop := raw = n ∨ raw = n ++ [0]

/-- The text `s` is written as `raw`: likewise, and there is no other zero. -/
def CText (s raw : Bytes) : Prop := 0 ∉ s ∧ (raw = s ∨ raw = s ++ [0])

/-- Short names of key types, taken in any case (`shortname` in sshkey.c).  There are none for certificates, and
those for elliptic curves do not tell the curve and are refused later. -/
def shortNames : List (Str × Str) :=
  [(py! "ssh-rsa", py! "rsa"), (py! "ssh-dss", py! "dsa"), (py! "ssh-ed25519", py! "ed25519"),
   (py! "sk-ssh-ed25519@openssh.com", py! "ed25519-sk")]

/-- Names of signature algorithms that are taken as names of the key type. -/
def signatureNames : List (Str × Str) :=
  [(py! "ssh-rsa", py! "rsa-sha2-256"), (py! "ssh-rsa", py! "rsa-sha2-512"),
   (py! "ssh-rsa-cert-v01@openssh.com", py! "rsa-sha2-256-cert-v01@openssh.com"),
   (py! "ssh-rsa-cert-v01@openssh.com", py! "rsa-sha2-512-cert-v01@openssh.com")]

/-- In lower case (ASCII). -/
def lowerCase (s : Str) : Str := s.map (fun c => if 65 ≤ c ∧ c ≤ 90 then c + 32 else c)

/-- OpenSSH takes `n` as the name of the key type `t` (sshkey_type_from_name). -/
inductive SshNames : Str → Str → Prop
  | own {t : Str} : SshNames t t
  | signature {t n : Str} : (t, n) ∈ signatureNames → SshNames t n
  | short {t n : Str} : (t, lowerCase n) ∈ shortNames → SshNames t n

/-! ### Keys -/

/-- Text is bytes to OpenSSH. -/
def withBytes (fmt : FDict) : FDict :=
  fmt.map (fun kf => (kf.1, if kf.2 = .pascal .string then .pascal .bytes else kf.2))

/-- No number is negative. -/
def Unsigned (d : VDict) : Prop := ∀ n i, dget d n = some (.int i) → 0 ≤ i

/-- `w` is a key of type `t`, which is written as `name`, with the values `d` (text as bytes).  An elliptic curve key
names its curve and has a point on it; Ed25519 keys have 32 bytes, and 64 with the secret (that these end with
the public key is not checked). -/
structure SshValues (ext : Ext) (kind : Kind) (t name : Str) (d : VDict) (w : Bytes) : Prop where
  names : ∃ n, SshNames t n ∧ CName n name
  layout : ∃ fmt wt wp, fieldsOf kind t = some fmt ∧ Encodes (.pascal .string) wt (.str name) ∧
    EncodesAll (withBytes fmt) wp d ∧ w = wt ++ wp
  texts : ∀ fmt k b, fieldsOf kind t = some fmt → (k, .pascal .string) ∈ fmt → dget d k = some (.bytes b) → ∃ s, CText s b
  unsigned : Unsigned d
  curve : ∀ c oid, (t, c, oid) ∈ curveTable →
    (∃ b, dget d (py! "identifier") = some (.bytes b) ∧ CText (c.map UInt8.ofNat) b) ∧
    ∃ q, dget d (py! "q") = some (.bytes q) ∧ ext.validPoint oid q = true
  edPublic : t ∈ ed25519Table → ∃ p, dget d (py! "public") = some (.bytes p) ∧ p.length = 32
  edPrivate : kind = .priv → t = py! "ssh-ed25519" →
    ∃ s, dget d (py! "private_public") = some (.bytes s) ∧ s.length = 64

/-- The texts of a key, which are UTF-8: `r` has them as bytes, `d` as text. -/
inductive Texts : FDict → VDict → VDict → Prop
  | nil : Texts [] [] []
  | text {k : Str} {cs : List Char} {t : FDict} {r d : VDict} : Texts t r d →
      Texts ((k, .pascal .string) :: t) ((k, .bytes (utf8 cs)) :: r) ((k, .str (strOf cs)) :: d)
  | other {k : Str} {fi : FI} {v : Val} {t : FDict} {r d : VDict} : fi ≠ .pascal .string → Texts t r d →
      Texts ((k, fi) :: t) ((k, v) :: r) ((k, v) :: d)

/-! ### Private key files -/

/-- The key in a file: its type; the name of the type, the values and the comment as written. -/
structure SshKey where
  type : Str
  pubName : Str
  pub : VDict
  privName : Str
  priv : VDict
  comment : Bytes

/-- The ciphers, except `none`: no longer `rijndael-cbc@lysator.liu.se`. -/
def SshCipher (n : Str) (su : Suite) : Prop := (n, su) ∈ suites ∧ n ≠ py! "rijndael-cbc@lysator.liu.se"

/-- Block size and tag size. -/
def SshSizes (f : KeyFile) (block tag : Nat) : Prop :=
  (CName (py! "none") (strOf f.cipher) ∧ block = 8 ∧ tag = 0) ∨
  ∃ n su, SshCipher n su ∧ CName n (strOf f.cipher) ∧ block = su.block ∧ tag = su.tag

/-- `bcrypt` with the salt and rounds in the file gives `n` bytes for a passphrase that is not empty. -/
def SshDerives (cr : Crypto) (pass : List Char) (f : KeyFile) (n : Nat) (r : Bytes) : Prop :=
  CName (py! "bcrypt") (strOf f.kdf) ∧ pass ≠ [] ∧ ∃ salt rounds w x, BcryptField salt rounds w ∧ f.options = w ++ x ∧
    cr.bcryptKdf (utf8 pass) salt n rounds = .ok r

/-- The encrypted section is decrypted to `plain`.  For the cipher `none` a key derivation function is used, but what it
gives (8 bytes) is not. -/
inductive SshOpens (cr : Crypto) (pass : List Char) (f : KeyFile) : Bytes → Prop
  | clear : CName (py! "none") (strOf f.cipher) → CName (py! "none") (strOf f.kdf) → SshOpens cr pass f f.body
  | derived {r : Bytes} : CName (py! "none") (strOf f.cipher) → SshDerives cr pass f 8 r → SshOpens cr pass f f.body
  | cipher {n : Str} {su : Suite} {r plain : Bytes} : SshCipher n su → CName n (strOf f.cipher) →
      SshDerives cr pass f (su.key + su.iv) r →
      su.dec cr (r.take su.key) (r.drop su.key) (f.body ++ f.tag) = .ok plain → SshOpens cr pass f plain

/-- The public values are the same in both keys (text: up to a zero at the end). -/
def SshSame (t : Str) (pub priv : VDict) : Prop :=
  ∀ fmt n fi v, publicFields t = some fmt → (n, fi) ∈ fmt → dget pub n = some v →
    if fi = .pascal .string then ∃ s b b', v = .bytes b ∧ dget priv n = some (.bytes b') ∧ CText s b ∧ CText s b'
    else dget priv n = some v

/-- OpenSSH reads the file `b`, which has the fields `f`, as `key`, with `pad` bytes of padding: exactly one key; nothing
after the file; a whole number of blocks, at least one; the two check numbers are equal; nothing after the public key;
no zero byte in the comment, except at its end; the padding is 1, 2, 3, …, however long. -/
structure SshReads (ext : Ext) (limits : Bytes → SshKey → Prop) (cr : Crypto) (pass : List Char) (b : Bytes) (f : KeyFile)
    (key : SshKey) (pad : Nat) : Prop where
  lays : f.Lays b
  limits : limits b key
  sizes : ∃ block, SshSizes f block f.tag.length ∧ block ≤ f.body.length ∧ f.body.length % block = 0
  pub : ∃ w, SshValues ext .pub key.type key.pubName key.pub w ∧ f.pubs = [w]
  plain : ∃ c w wc, c.length = 4 ∧ SshValues ext .priv key.type key.privName key.priv w ∧ Prefixed 4 key.comment wc ∧
    (c ++ c ++ w ++ wc ++ countUp pad).length = f.body.length ∧ SshOpens cr pass f (c ++ c ++ w ++ wc ++ countUp pad)
  comment : ∃ s, CText s key.comment
  same : SshSame key.type key.pub key.priv

/-- White space in C. -/
def cSpaces : Str := [0x09, 0x0a, 0x0b, 0x0c, 0x0d, 0x20]

/-- OpenSSH reads the text `s` as the bytes `b`: the two marker lines, each with its line feed, and between them base64 with
white space anywhere; whatever comes after is ignored. -/
def SshText (s : Str) (b : Bytes) (after : Str) : Prop :=
  ∃ mid, s = beginMarker ++ [0x0a] ++ mid ++ [0x0a] ++ endMarker ++ [0x0a] ++ after ∧
    mid.filter (fun c => decide (c ∉ cSpaces)) = base64Text b

end OSK.Spec
