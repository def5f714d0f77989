import Verif.Spec.Tables
import Verif.Spec.Format
import Verif.Model.Key
/-
What the parameters of a key are checked for, by key type name.
-/
namespace OSK.Spec

/-- Key types on elliptic curves, with the curve's name in the key (RFC 5656 section 6.1, `[identifier]`) and
the curve's object identifier (RFC 5656 section 10.1). -/
def curveTable : List (Str × Str × Str) :=
  [(py! "ecdsa-sha2-nistp256", py! "nistp256", py! "1.2.840.10045.3.1.7"),
   (py! "ecdsa-sha2-nistp384", py! "nistp384", py! "1.3.132.0.34"),
   (py! "ecdsa-sha2-nistp521", py! "nistp521", py! "1.3.132.0.35"),
   (py! "sk-ecdsa-sha2-nistp256@openssh.com", py! "nistp256", py! "1.2.840.10045.3.1.7"),
   (py! "ecdsa-sha2-nistp256-cert-v01@openssh.com", py! "nistp256", py! "1.2.840.10045.3.1.7"),
   (py! "ecdsa-sha2-nistp384-cert-v01@openssh.com", py! "nistp384", py! "1.3.132.0.34"),
   (py! "ecdsa-sha2-nistp521-cert-v01@openssh.com", py! "nistp521", py! "1.3.132.0.35"),
   (py! "sk-ecdsa-sha2-nistp256-cert-v01@openssh.com", py! "nistp256", py! "1.2.840.10045.3.1.7")]

/-- Key types that hold an Ed25519 public key (RFC 8709 section 4: 32 bytes). -/
def ed25519Table : List Str :=
  [py! "ssh-ed25519", py! "sk-ssh-ed25519@openssh.com", py! "ssh-ed25519-cert-v01@openssh.com",
   py! "sk-ssh-ed25519-cert-v01@openssh.com"]

/-- Fields of a key type, public or private. -/
def fieldsOf : Kind → Str → Option FDict
  | .pub => publicFields
  | .priv => privateFields

/-- A field of the format is missing or has a value that cannot be stored in it. -/
inductive FieldFault (fmt : FDict) (d : VDict) : Warning → Prop
  | missing {k : Str} {fi : FI} : (k, fi) ∈ fmt → dget d k = none → FieldFault fmt d (.missing k)
  | unformatted {k : Str} {f : SFmt} {v : Val} : (k, .struct f) ∈ fmt → dget d k = some v →
      ¬ HasClass (.struct f) v → FieldFault fmt d (.shouldBeFormatted k)
  | otherClass {k : Str} {p : Prim} {v : Val} : (k, .pascal p) ∈ fmt → dget d k = some v →
      ¬ HasClass (.pascal p) v → FieldFault fmt d (.shouldBeOfClass k)

/-- What is wrong with the key material (not with the form of the values). -/
inductive MaterialFault (ext : Ext) (kind : Kind) (t : Str) (d : VDict) : Warning → Prop
  /-- The key names another curve than the key type. -/
  | curve {name oid : Str} {v : Val} : (t, name, oid) ∈ curveTable →
      dget d (py! "identifier") = some v → v ≠ .str name → MaterialFault ext kind t d .curveIdentifier
  /-- The point is not on the curve of the key type. -/
  | point {name oid : Str} {v : Val} {q : Bytes} : (t, name, oid) ∈ curveTable →
      dget d (py! "identifier") = some v → dget d (py! "q") = some (.bytes q) →
      ext.validPoint oid q = false → MaterialFault ext kind t d .notOnCurve
  /-- The public key has not 32 bytes. -/
  | edLength {p : Bytes} : t ∈ ed25519Table → dget d (py! "public") = some (.bytes p) →
      p.length ≠ 32 → MaterialFault ext kind t d .ed25519PublicLength
  /-- What follows the 32-byte secret is not the public key. -/
  | edMismatch {p pp : Bytes} : kind = .priv → t = py! "ssh-ed25519" →
      dget d (py! "public") = some (.bytes p) → dget d (py! "private_public") = some (.bytes pp) →
      pp.drop 32 ≠ p → MaterialFault ext kind t d .ed25519PublicMismatch
  /-- What follows the 32-byte secret has not 32 bytes. -/
  | edPrivate {p pp : Bytes} : kind = .priv → t = py! "ssh-ed25519" →
      dget d (py! "public") = some (.bytes p) → dget d (py! "private_public") = some (.bytes pp) →
      (pp.drop 32).length ≠ 32 → MaterialFault ext kind t d .ed25519PrivateLength

end OSK.Spec
