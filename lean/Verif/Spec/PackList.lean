import Verif.Spec.Pack
import Verif.Spec.KeyList
/-
What packing a key list writes, and in which order things can fail.
-/
namespace OSK.Spec

/-! ### Keys -/

/-- `w` is the public bytes of a key: type and public fields. -/
def PublicBytes (k : Key) (w : Bytes) : Prop :=
  ∃ t fmt wt wp, dget k.header (py! "key_type") = some (.str t) ∧ publicFields t = some fmt ∧
    Stores (.pascal .string) (.str t) wt ∧ StoresAll k.params.data fmt wp ∧ w = wt ++ wp

/-- The first public field that is missing or refused gives this exception. -/
def PublicRefused (k : Key) (e : Exn) : Prop :=
  ∃ t fmt, dget k.header (py! "key_type") = some (.str t) ∧ publicFields t = some fmt ∧ RefusesAt k.params.data fmt e

/-- `w` is the private bytes of a key: type, private fields and comment. -/
def PrivateBytes (k : Key) (w : Bytes) : Prop :=
  ∃ t fmt wt wp wc, dget k.header (py! "key_type") = some (.str t) ∧ privateFields t = some fmt ∧
    Stores (.pascal .string) (.str t) wt ∧ StoresAll k.params.data fmt wp ∧
    StoresAll k.footer [(py! "comment", .pascal .string)] wc ∧ w = wt ++ wp ++ wc

/-- The first private field, or else the comment, that is missing or refused gives this exception. -/
def PrivateRefused (k : Key) (e : Exn) : Prop :=
  ∃ t fmt, dget k.header (py! "key_type") = some (.str t) ∧ privateFields t = some fmt ∧
    (RefusesAt k.params.data fmt e ∨
      (∃ wp, StoresAll k.params.data fmt wp) ∧ RefusesAt k.footer [(py! "comment", .pascal .string)] e)

/-- The key that the public bytes are taken from. -/
def publicOf (override : Bool) (p : Pair) : Key := if override then p.priv else p.pub

/-- The first index that does not exist, or whose public bytes cannot be packed or are too long. -/
inductive PublicsFail (l : List Pair) (override : Bool) : List Int → Exn → Prop
  | index {i : Int} {t : List Int} : (∀ p, ¬ At l i p) → PublicsFail l override (i :: t) .indexError
  | key {i : Int} {t : List Int} {p : Pair} {e : Exn} :
      At l i p → PublicRefused (publicOf override p) e → PublicsFail l override (i :: t) e
  | long {i : Int} {t : List Int} {p : Pair} {w : Bytes} :
      At l i p → PublicBytes (publicOf override p) w → 2 ^ 32 ≤ w.length → PublicsFail l override (i :: t) .overflowError
  | later {i : Int} {t : List Int} {p : Pair} {w : Bytes} {e : Exn} :
      At l i p → PublicBytes (publicOf override p) w → w.length < 2 ^ 32 → PublicsFail l override t e →
      PublicsFail l override (i :: t) e

/-- The first selected pair whose private key cannot be packed. -/
inductive PrivatesFail : List Pair → Exn → Prop
  | key {p : Pair} {t : List Pair} {e : Exn} : PrivateRefused p.priv e → PrivatesFail (p :: t) e
  | later {p : Pair} {t : List Pair} {w : Bytes} {e : Exn} :
      PrivateBytes p.priv w → PrivatesFail t e → PrivatesFail (p :: t) e

/-! ### Options -/

/-- What the header says cipher and key derivation function are; `none` unless both are there. -/
def Named (self : KeyList) (cipher kdf : Val) : Prop :=
  (∃ h, self.header = some h ∧ dget h (py! "cipher") = some cipher ∧ dget h (py! "kdf") = some kdf) ∨
  ((∀ h, self.header = some h → dget h (py! "cipher") = none ∨ dget h (py! "kdf") = none) ∧
    cipher = .str (py! "none") ∧ kdf = .str (py! "none"))

/-- The key derivation functions and the fields of their options. -/
def kdfFields : List (Str × FDict) :=
  [(py! "none", []),
   (py! "bcrypt", [(py! "salt", .pascal .bytes), (py! "rounds", .struct ⟨true, [.int 4 false]⟩)])]

/-- Fresh options: none, or 16 random bytes and 16 rounds. -/
def freshOptions (inp : Inputs) (kdf : Str) : VDict :=
  if kdf = py! "bcrypt" then [(py! "salt", .bytes (inp.tokenBytes 16)), (py! "rounds", .int 16)] else []

/-- The options to pack: those of the list if it has some and they are to be retained, otherwise fresh ones. -/
def OptionsFor (inp : Inputs) (self : KeyList) (retain : Bool) (kdf : Str) (opts : VDict) : Prop :=
  (∃ o, retain = true ∧ self.kdfOptions = some o ∧ opts = o.data) ∨
  ((retain = false ∨ self.kdfOptions = none) ∧ opts = freshOptions inp kdf)

/-- The key derivation function is known and the options can be written. -/
def Optioned (inp : Inputs) (self : KeyList) (retain : Bool) (cipher : Val) (kdf : Str) (opts : VDict) (ob : Bytes) :
    Prop :=
  Named self cipher (.str kdf) ∧ OptionsFor inp self retain kdf opts ∧
    ∃ fmt, (kdf, fmt) ∈ kdfFields ∧ StoresAll opts fmt ob

/-- How many pairs are to be packed. -/
def countOf (self : KeyList) (indices : Option (List Int)) : Nat :=
  match indices with
  | none => self.pairs.length
  | some l => l.length

/-- The indices of all pairs to be packed. -/
def indicesOf (self : KeyList) (indices : Option (List Int)) : List Int :=
  match indices with
  | none => (List.range self.pairs.length).map Int.ofNat
  | some l => l

/-- And the header can be written. -/
def Headed (inp : Inputs) (self : KeyList) (indices : Option (List Int)) (retain : Bool) (cipher : List Char) (kdf : Str)
    (opts : VDict) (ob : Bytes) : Prop :=
  Optioned inp self retain (.str (strOf cipher)) kdf opts ob ∧ (utf8 cipher).length < 2 ^ 32 ∧ ob.length < 2 ^ 32 ∧
    countOf self indices < 2 ^ 31

/-- And the public keys. -/
def Fronted (inp : Inputs) (self : KeyList) (indices : Option (List Int)) (override retain : Bool) (cipher : List Char)
    (kdf : Str) (opts : VDict) (ob : Bytes) (sel : List Pair) (pubs : List Bytes) : Prop :=
  Headed inp self indices retain cipher kdf opts ob ∧ Selection self.pairs indices sel ∧
    List.Forall₂ (fun p w => PublicBytes (publicOf override p) w ∧ w.length < 2 ^ 32) sel pubs

/-- And the private keys, for a known cipher: everything but the encryption. -/
def Prepared (inp : Inputs) (self : KeyList) (indices : Option (List Int)) (override retain : Bool)
    (cipher : List Char) (kdf : Str) (opts : VDict) (ob : Bytes) (pubs : List Bytes) (plain : Bytes) : Prop :=
  ∃ sel privs sizes, Fronted inp self indices override retain cipher kdf opts ob sel pubs ∧
    List.Forall₂ (fun p w => PrivateBytes p.priv w) sel privs ∧ cipherSizes (strOf cipher) = some sizes ∧
    Section inp.checkInt privs sizes.1 plain

/-- The name in the exception for an unknown name; names that are not text are not shown. -/
def nameIn : Val → Option Str
  | .str s => some s
  | _ => none

/-- What can fail before the encryption, each only after all above it succeeded. -/
inductive Unprepared (inp : Inputs) (self : KeyList) (indices : Option (List Int)) (override retain : Bool) : Exn → Prop
  /-- unknown key derivation function -/
  | kdf {cipher kdf : Val} : Named self cipher kdf → (∀ f ∈ kdfFields, kdf ≠ .str f.1) →
      Unprepared inp self indices override retain (.keyError (nameIn kdf))
  /-- options of the list that cannot be written -/
  | options {cipher : Val} {kdf : Str} {opts : VDict} {fmt : FDict} {e : Exn} :
      Named self cipher (.str kdf) → OptionsFor inp self retain kdf opts → (kdf, fmt) ∈ kdfFields →
      RefusesAt opts fmt e → Unprepared inp self indices override retain e
  /-- a cipher name that cannot be written -/
  | cipher {cipher : Val} {kdf : Str} {opts : VDict} {ob : Bytes} {e : Exn} :
      Optioned inp self retain cipher kdf opts ob → Refuses (.pascal .string) cipher e →
      Unprepared inp self indices override retain e
  /-- options that are too long -/
  | longOptions {cipher : List Char} {kdf : Str} {opts : VDict} {ob : Bytes} :
      Optioned inp self retain (.str (strOf cipher)) kdf opts ob → (utf8 cipher).length < 2 ^ 32 → 2 ^ 32 ≤ ob.length →
      Unprepared inp self indices override retain .overflowError
  /-- too many keys -/
  | count {cipher : List Char} {kdf : Str} {opts : VDict} {ob : Bytes} :
      Optioned inp self retain (.str (strOf cipher)) kdf opts ob → (utf8 cipher).length < 2 ^ 32 → ob.length < 2 ^ 32 →
      2 ^ 31 ≤ countOf self indices → Unprepared inp self indices override retain .structError
  /-- an index or a public key -/
  | publics {cipher : List Char} {kdf : Str} {opts : VDict} {ob : Bytes} {e : Exn} :
      Headed inp self indices retain cipher kdf opts ob → PublicsFail self.pairs override (indicesOf self indices) e →
      Unprepared inp self indices override retain e
  /-- a private key -/
  | privates {cipher : List Char} {kdf : Str} {opts : VDict} {ob : Bytes} {sel : List Pair} {pubs : List Bytes} {e : Exn} :
      Fronted inp self indices override retain cipher kdf opts ob sel pubs → PrivatesFail sel e →
      Unprepared inp self indices override retain e
  /-- an unknown cipher -/
  | unknown {cipher : List Char} {kdf : Str} {opts : VDict} {ob : Bytes} {sel : List Pair} {pubs privs : List Bytes} :
      Fronted inp self indices override retain cipher kdf opts ob sel pubs →
      List.Forall₂ (fun p w => PrivateBytes p.priv w) sel privs → cipherSizes (strOf cipher) = none →
      Unprepared inp self indices override retain (.keyError (some (strOf cipher)))

/-! ### Encryption -/

/-- The passphrase: empty without key derivation, the given one, or the outcome of the prompt. -/
def passphraseFor (inp : Inputs) (kdf : Str) (passphrase : Option Str) : Except Exn Str :=
  if kdf = py! "none" then .ok []
  else match passphrase with
    | some p => .ok p
    | none => inp.answer

/-- Outcome of deriving `n` bytes from a passphrase: nothing without key derivation; text without UTF-8 form is
refused. -/
inductive DerivesKey (cr : Crypto) (kdf : Str) (opts : VDict) (n : Nat) : Str → Except Exn Bytes → Prop
  | none {p : Str} : kdf = py! "none" → DerivesKey cr kdf opts n p (.ok [])
  | surrogate {p : Str} : kdf = py! "bcrypt" → (∀ cs, p ≠ strOf cs) → DerivesKey cr kdf opts n p (.error .unicodeEncodeError)
  | bcrypt {cs : List Char} {salt : Bytes} {rounds : Int} : kdf = py! "bcrypt" →
      dget opts (py! "salt") = some (.bytes salt) → dget opts (py! "rounds") = some (.int rounds) →
      DerivesKey cr kdf opts n (strOf cs) (cr.bcryptKdf (utf8 cs) salt n rounds)

/-- Outcome of the encryption: body and tag. -/
inductive Encrypts (cr : Crypto) (cipher kdf : Str) (opts : VDict) (p : Str) (plain : Bytes) : Except Exn (Bytes × Bytes) → Prop
  | clear : cipher = py! "none" → Encrypts cr cipher kdf opts p plain (.ok (plain, []))
  | noKey {su : Suite} {e : Exn} : (cipher, su) ∈ suites → DerivesKey cr kdf opts (su.key + su.iv) p (.error e) →
      Encrypts cr cipher kdf opts p plain (.error e)
  | refused {su : Suite} {r : Bytes} {e : Exn} : (cipher, su) ∈ suites → DerivesKey cr kdf opts (su.key + su.iv) p (.ok r) →
      su.enc cr (r.take su.key) (r.drop su.key) plain = .error e → Encrypts cr cipher kdf opts p plain (.error e)
  | sealed {su : Suite} {r body tag : Bytes} : (cipher, su) ∈ suites → DerivesKey cr kdf opts (su.key + su.iv) p (.ok r) →
      su.enc cr (r.take su.key) (r.drop su.key) plain = .ok (body ++ tag) → tag.length = su.tag →
      Encrypts cr cipher kdf opts p plain (.ok (body, tag))

/-- Outcome of the rest, once everything is prepared. -/
inductive Finishes (cr : Crypto) (inp : Inputs) (passphrase : Option Str) (cipher : List Char) (kdf : Str) (opts : VDict)
    (ob : Bytes) (pubs : List Bytes) (plain : Bytes) : Except Exn Bytes → Prop
  /-- nothing was entered -/
  | noPassphrase {e : Exn} : passphraseFor inp kdf passphrase = .error e →
      Finishes cr inp passphrase cipher kdf opts ob pubs plain (.error e)
  | encryption {p : Str} {e : Exn} : passphraseFor inp kdf passphrase = .ok p →
      Encrypts cr (strOf cipher) kdf opts p plain (.error e) →
      Finishes cr inp passphrase cipher kdf opts ob pubs plain (.error e)
  | long {p : Str} {body tag : Bytes} : passphraseFor inp kdf passphrase = .ok p →
      Encrypts cr (strOf cipher) kdf opts p plain (.ok (body, tag)) → 2 ^ 32 ≤ body.length →
      Finishes cr inp passphrase cipher kdf opts ob pubs plain (.error .overflowError)
  | file {p : Str} {ks : List Char} {body tag w : Bytes} : passphraseFor inp kdf passphrase = .ok p →
      Encrypts cr (strOf cipher) kdf opts p plain (.ok (body, tag)) → kdf = strOf ks →
      (KeyFile.mk cipher ks ob pubs body tag).Lays w →
      Finishes cr inp passphrase cipher kdf opts ob pubs plain (.ok w)

end OSK.Spec
