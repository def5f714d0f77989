import Verif.Spec.Checks
import Verif.Spec.TwosComplement
import Verif.Spec.Text
/-
The grammar of keys, independently of the reading functions: which byte strings are values of a field, of a
list of fields, of a repeated record, and what can be wrong with a byte string that is not.
-/
namespace OSK.Spec

/-- `w` encodes the value `v` of a field (RFC 4251 section 5: `string`, `mpint`, `byte`, `uint32`,
`uint64`; the `mpint` need not be the shortest form). -/
inductive Encodes : FI → Bytes → Val → Prop
  | bytes {b w : Bytes} : Prefixed 4 b w → Encodes (.pascal .bytes) w (.bytes b)
  | text {cs : List Char} {w : Bytes} : Prefixed 4 (utf8 cs) w → Encodes (.pascal .string) w (.str (strOf cs))
  | mpint {b w : Bytes} : Prefixed 4 b w → Encodes (.pascal .mpint) w (.int (tcVal b))
  | uint {w : Bytes} : Encodes (.struct ⟨true, [.int w.length false]⟩) w (.int (digitSum w))

/-- `w` encodes the values of a list of fields, one after another. -/
inductive EncodesAll : FDict → Bytes → VDict → Prop
  | nil : EncodesAll [] [] []
  | cons {k : Str} {fi : FI} {t : FDict} {w w' : Bytes} {v : Val} {d : VDict} :
      Encodes fi w v → EncodesAll t w' d → EncodesAll ((k, fi) :: t) (w ++ w') ((k, v) :: d)

/-- The data `r` ends inside a field that starts at its beginning; `true` if nothing at all is left where the
length prefix, the contents or the number should start. -/
inductive CutOff : Bool → FI → Bytes → Prop
  | length {p : Prim} {r : Bytes} : r.length < 4 → CutOff r.isEmpty (.pascal p) r
  | contents {p : Prim} {l r : Bytes} : l.length = 4 → r.length < digitSum l → CutOff r.isEmpty (.pascal p) (l ++ r)
  | uint {n : Nat} {r : Bytes} : r.length < n → CutOff r.isEmpty (.struct ⟨true, [.int n false]⟩) r

/-- The data `r` starts with a complete text field that is not UTF-8. -/
inductive NotText : FI → Bytes → Prop
  | mk {b w r : Bytes} : Prefixed 4 b w → (∀ cs, b ≠ utf8 cs) → NotText (.pascal .string) (w ++ r)

/-- Reading the fields goes well up to a field of which `P` says what is wrong. -/
inductive FailsAt (P : FI → Bytes → Prop) : FDict → Bytes → Prop
  | here {k : Str} {fi : FI} {t : FDict} {r : Bytes} : P fi r → FailsAt P ((k, fi) :: t) r
  | later {k : Str} {fi : FI} {t : FDict} {w r : Bytes} {v : Val} :
      Encodes fi w v → FailsAt P t r → FailsAt P ((k, fi) :: t) (w ++ r)

/-- `b` is a number of records `l`, followed by `r`. -/
inductive Records (fmt : FDict) : Bytes → List VDict → Bytes → Prop
  | done {r : Bytes} : Records fmt r [] r
  | more {w b : Bytes} {d : VDict} {l : List VDict} {r : Bytes} :
      EncodesAll fmt w d → Records fmt b l r → Records fmt (w ++ b) (d :: l) r

/-- The fields after the key's own: in a private key, the comment. -/
def afterFields : Kind → FDict
  | .pub => []
  | .priv => [(py! "comment", .pascal .string)]

/-- `b` is a key of type `t` with values `p`, followed by `f` (the comment of a private key), followed by
`rest`. -/
structure KeyIn (kind : Kind) (b : Bytes) (t : Str) (p f : VDict) (rest : Bytes) : Prop where
  layout : ∃ fmt wt wp wf, fieldsOf kind t = some fmt ∧ Encodes (.pascal .string) wt (.str t) ∧
    EncodesAll fmt wp p ∧ EncodesAll (afterFields kind) wf f ∧ b = wt ++ wp ++ wf ++ rest

/-- Something is wrong with `b` as a key: with its type string, or with its fields. -/
inductive KeyFails (P : FI → Bytes → Prop) (kind : Kind) : Bytes → Prop
  | type {b : Bytes} : P (.pascal .string) b → KeyFails P kind b
  | fields {t : Str} {fmt : FDict} {wt r : Bytes} : Encodes (.pascal .string) wt (.str t) →
      fieldsOf kind t = some fmt → FailsAt P (fmt ++ afterFields kind) r → KeyFails P kind (wt ++ r)

/-- The fields of a certificate that are themselves lists of records, with the form of a record. -/
def recordFields : List (Str × FDict) :=
  [(py! "valid_principals", [(py! "principal", .pascal .string)]),
   (py! "critical_options", [(py! "option", .pascal .string), (py! "value", .pascal .bytes)]),
   (py! "extensions", [(py! "option", .pascal .string), (py! "value", .pascal .bytes)])]

/-- One of the lists of records of a certificate has a record with text that is not UTF-8. -/
def RecordNotText (p : VDict) : Prop :=
  ∃ e ∈ recordFields, ∃ b l r, dget p e.1 = some (.bytes b) ∧ Records e.2 b l r ∧ FailsAt NotText e.2 r

/-- `b` names a key type that is not supported; or it is a certificate, otherwise readable, whose
authority's key does. -/
inductive UnknownKey : Kind → Bytes → Prop
  | type {kind : Kind} {t : Str} {wt r : Bytes} : Encodes (.pascal .string) wt (.str t) →
      fieldsOf kind t = none → UnknownKey kind (wt ++ r)
  | authority {kind : Kind} {b a : Bytes} {t : Str} {p f : VDict} {rest : Bytes} : KeyIn kind b t p f rest →
      isCertType t = true → ¬ RecordNotText p → dget p (py! "signature_key") = some (.bytes a) →
      UnknownKey .pub a → UnknownKey kind b

/-- The key parses: it is laid out as a key of a supported type and, if it is a certificate, the texts in its
lists are UTF-8 and its authority's key is not of an unsupported type. -/
def Acceptable (t : Str) (p : VDict) : Prop :=
  isCertType t = true → ¬ RecordNotText p ∧
    ∀ a, dget p (py! "signature_key") = some (.bytes a) → ¬ UnknownKey .pub a

end OSK.Spec
