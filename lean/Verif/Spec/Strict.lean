import Verif.Spec.Grammar
/-
Which keys are in order, beyond having the layout of their type: their key material is what the type says, and a
certificate's own fields are.
-/
namespace OSK.Spec

/-- The key material is what the type says: the curve and a point on it; 32 bytes of an Ed25519 public key; an Ed25519
private key of 64 bytes that ends with the public key. -/
structure MaterialInOrder (ext : Ext) (kind : Kind) (t : Str) (d : VDict) : Prop where
  curve : ∀ name oid, (t, name, oid) ∈ curveTable → dget d (py! "identifier") = some (.str name) ∧
    ∃ q, dget d (py! "q") = some (.bytes q) ∧ ext.validPoint oid q = true
  ed25519 : t ∈ ed25519Table → ∃ x, dget d (py! "public") = some (.bytes x) ∧ x.length = 32
  secret : kind = .priv → t = py! "ssh-ed25519" → ∃ s x, s.length = 32 ∧ x.length = 32 ∧
    dget d (py! "private_public") = some (.bytes (s ++ x)) ∧ dget d (py! "public") = some (.bytes x)

/-- A list of options names no option twice. -/
def NoneTwice (l : List VDict) : Prop :=
  ∀ o, l.countP (fun r => decide (dget r (py! "option") = some (.str o))) ≤ 1

/-- The certificate's own fields are in order: it is for users or hosts; its lists consist of whole records, after which the
data may still end before a part of a record; no option is given twice; the authority's key is a key in order, with
nothing after it, and not a certificate. -/
structure CertInOrder (ext : Ext) (d : VDict) : Prop where
  type : dget d (py! "type") = some (.int 1) ∨ dget d (py! "type") = some (.int 2)
  lists : ∀ e ∈ recordFields, ∃ b l r, dget d e.1 = some (.bytes b) ∧ Records e.2 b l r ∧ FailsAt (CutOff true) e.2 r ∧
    (e.1 ≠ py! "valid_principals" → NoneTwice l)
  authority : ∃ a t p, dget d (py! "signature_key") = some (.bytes a) ∧ KeyIn .pub a t p [] [] ∧ isCertType t = false ∧
    MaterialInOrder ext .pub t p

end OSK.Spec
