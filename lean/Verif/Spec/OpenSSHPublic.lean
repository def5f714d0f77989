import Verif.Spec.OpenSSH
/-
Which public keys, certificates and public key lines OpenSSH 9.6 reads, independently of the code of the package
(sshkey.c: sshkey_from_blob_internal, cert_parse, sshkey_read).  Limits on sizes, checks of the numbers themselves
and the check of the signature are the predicate `limits`.
-/
namespace OSK.Spec

/-- The key of a certificate's authority: its type; the name of the type and the values as written. -/
structure SshAuthority where
  type : Str
  name : Str
  values : VDict

/-- A public key or certificate: its type; the name of the type and the values as written; the authority. -/
structure SshPublicKey where
  type : Str
  name : Str
  values : VDict
  authority : Option SshAuthority

/-- The values `d` of a certificate are those of one that OpenSSH reads: for a user or a host; at most 256 principals, whole
and without zero bytes, except at the end; whole options; and the authority is a key and not a certificate. -/
structure SshCert (ext : Ext) (d : VDict) (au : SshAuthority) : Prop where
  type : dget d (py! "type") = some (.int 1) ∨ dget d (py! "type") = some (.int 2)
  principals : ∃ b l, dget d (py! "valid_principals") = some (.bytes b) ∧
    Records [(py! "principal", .pascal .bytes)] b l [] ∧ l.length ≤ 256 ∧
    ∀ r ∈ l, ∃ x s, r = [(py! "principal", .bytes x)] ∧ CText s x
  options : ∀ n ∈ [py! "critical_options", py! "extensions"], ∃ b l, dget d n = some (.bytes b) ∧
    Records [(py! "option", .pascal .bytes), (py! "value", .pascal .bytes)] b l []
  authority : isCertType au.type = false ∧
    ∃ a, dget d (py! "signature_key") = some (.bytes a) ∧ SshValues ext .pub au.type au.name au.values a

/-- OpenSSH reads `b` as a public key or a certificate. -/
structure SshPublic (ext : Ext) (limits : Bytes → Prop) (b : Bytes) (key : SshPublicKey) : Prop where
  limits : limits b
  values : SshValues ext .pub key.type key.name key.values b
  cert : if isCertType key.type = true then ∃ au, key.authority = some au ∧ SshCert ext key.values au
    else key.authority = none

/-- A space or a tab. -/
def blanks : Str := [0x20, 0x09]

/-- The parts of a line that OpenSSH reads as the public key `b` of type `t`: perhaps blanks; `a`, which names the type, but
not by a short name; blanks; `w`, which is base64 with any other white space in it; and then nothing, or a blank and
the comment (and the line feed, if there is one). -/
structure SshLine (s : Str) (t : Str) (b : Bytes) (lead a sep w tail : Str) : Prop where
  eq : s = lead ++ a ++ sep ++ w ++ tail
  lead : ∀ c ∈ lead, c ∈ blanks
  name : a = t ∨ (t, a) ∈ signatureNames
  sep : sep ≠ [] ∧ ∀ c ∈ sep, c ∈ blanks
  word : (∀ c ∈ w, c ∉ blanks) ∧ w.filter (fun c => decide (c ∉ cSpaces)) = base64Text b
  tail : tail = [] ∨ ∃ c x, c ∈ blanks ∧ tail = c :: x
  line : 0 ∉ s ∧ 0x0a ∉ s.dropLast

end OSK.Spec
