import Verif.Spec.StrictFile
import Verif.Spec.OpenSSHPublic
/-
What OpenSSH asks for beyond a key, certificate or file being in order (Spec/Strict.lean, Spec/StrictFile.lean).
-/
namespace OSK.Spec

/-- There is no zero character, except perhaps at the end. -/
def ZeroFree (s : Str) : Prop := 0 ∉ s.dropLast

/-- No number is negative, and no text has a zero character, except perhaps at its end. -/
structure ValuesForSsh (d : VDict) : Prop where
  unsigned : Unsigned d
  texts : ∀ n s, dget d n = some (.str s) → ZeroFree s

/-- The list `kl`, read from a file that `post` comes after, is one that OpenSSH reads with the passphrase `pass`: nothing
comes after the file; it holds one key; no zero character in the comment, except perhaps at its end; the cipher is not
`rijndael-cbc@lysator.liu.se`; if there is a cipher, there is a key derivation function; if there is a key derivation
function, the passphrase is not empty, and the function works even if there is no cipher. -/
structure FileForSsh (cr : Crypto) (pass : List Char) (post : Bytes) (kl : KeyList) : Prop where
  post : post = []
  key : ∃ p, kl.pairs = [p] ∧ ValuesForSsh p.priv.params.data ∧
    ∀ s, dget p.priv.footer (py! "comment") = some (.str s) → ZeroFree s
  cipher : ∀ h c, kl.header = some h → dget h (py! "cipher") = some (.str c) →
    c ≠ py! "rijndael-cbc@lysator.liu.se" ∧ (c ≠ py! "none" → dget h (py! "kdf") ≠ some (.str (py! "none")))
  kdf : ∀ h, kl.header = some h → dget h (py! "kdf") ≠ some (.str (py! "none")) → pass ≠ []
  derives : ∀ h salt rounds, kl.header = some h → dget h (py! "cipher") = some (.str (py! "none")) →
    kl.kdfOptions = some (bcryptOptions salt rounds) → ∃ r, cr.bcryptKdf (utf8 pass) salt 8 rounds = .ok r

/-- What OpenSSH asks for of the values of a certificate in order: whole lists; at most 256 principals, without zero
characters, except perhaps at the end; and an authority with such values. -/
structure CertForSsh (d : VDict) : Prop where
  principals : ∃ b l, dget d (py! "valid_principals") = some (.bytes b) ∧ Records [(py! "principal", .pascal .string)] b l [] ∧
    l.length ≤ 256 ∧ ∀ r ∈ l, ∀ s, dget r (py! "principal") = some (.str s) → ZeroFree s
  options : ∀ n ∈ [py! "critical_options", py! "extensions"], ∃ b l, dget d n = some (.bytes b) ∧
    Records [(py! "option", .pascal .string), (py! "value", .pascal .bytes)] b l []
  authority : ∀ a t p, dget d (py! "signature_key") = some (.bytes a) → KeyIn .pub a t p [] [] → ValuesForSsh p

/-- What OpenSSH asks for of a public key or certificate in order. -/
structure PublicForSsh (k : Key) : Prop where
  values : ValuesForSsh k.params.data
  cert : ∀ t, dget k.header (py! "key_type") = some (.str t) → isCertType t = true → CertForSsh k.params.data

/-- Decryption gives as many bytes as were encrypted. -/
structure DecryptLengths (cr : Crypto) : Prop where
  sym : ∀ {alg mode key iv x y}, cr.symDec alg mode key iv y = .ok x → y.length = x.length
  gcm : ∀ {key iv x y}, cr.gcmDec key iv y = .ok x → y.length = x.length + 16

end OSK.Spec
