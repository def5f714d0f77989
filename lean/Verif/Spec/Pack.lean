import Verif.Spec.Grammar
import Verif.Spec.Canonical
/-
What is written for a value of a field, and why a value is refused.
-/
namespace OSK.Spec

/-- `w` is written for the value. -/
inductive Stores : FI → Val → Bytes → Prop
  | bytes {b w : Bytes} : Prefixed 4 b w → Stores (.pascal .bytes) (.bytes b) w
  | text {cs : List Char} {w : Bytes} : Prefixed 4 (utf8 cs) w → Stores (.pascal .string) (.str (strOf cs)) w
  | mpint {i : Int} {b w : Bytes} : ¬ NeedsSignByte i → IsShortestTC b i → Prefixed 4 b w →
      Stores (.pascal .mpint) (.int i) w
  | uint {w : Bytes} : Stores (.struct ⟨true, [.int w.length false]⟩) (.int (digitSum w)) w

/-- The value is refused, with this exception. -/
inductive Refuses : FI → Val → Exn → Prop
  /-- of the wrong class -/
  | notBytes {v : Val} : (∀ b, v ≠ .bytes b) →
      Refuses (.pascal .bytes) v (.valueError "value must be a bytes instance for bytes format instruction")
  | notText {v : Val} : (∀ s, v ≠ .str s) →
      Refuses (.pascal .string) v (.valueError "value must be a str instance for string format instruction")
  | notInt {v : Val} : (∀ i, v ≠ .int i) →
      Refuses (.pascal .mpint) v (.valueError "value must be an int instance for mpint format instruction")
  /-- text with a surrogate, which has no UTF-8 form -/
  | surrogate {s : Str} : (∀ cs, s ≠ strOf cs) → Refuses (.pascal .string) (.str s) .unicodeEncodeError
  /-- too long -/
  | longBytes {b : Bytes} : 2 ^ 32 ≤ b.length → Refuses (.pascal .bytes) (.bytes b) .overflowError
  | longText {cs : List Char} : 2 ^ 32 ≤ (utf8 cs).length → Refuses (.pascal .string) (.str (strOf cs)) .overflowError
  | longInt {i : Int} {b : Bytes} : IsShortestTC b i → 2 ^ 32 ≤ b.length → Refuses (.pascal .mpint) (.int i) .overflowError
  /-- the numbers that the code cannot write (C05) -/
  | signByte {i : Int} : NeedsSignByte i → Refuses (.pascal .mpint) (.int i) .overflowError
  /-- no unsigned number of this width -/
  | range {n : Nat} {v : Val} : (∀ i : Nat, v = .int i → 256 ^ n ≤ i) →
      Refuses (.struct ⟨true, [.int n false]⟩) v .structError

/-- `w` is written for the values of a list of fields. -/
inductive StoresAll (d : VDict) : FDict → Bytes → Prop
  | nil : StoresAll d [] []
  | cons {k : Str} {fi : FI} {t : FDict} {v : Val} {w w' : Bytes} :
      dget d k = some v → Stores fi v w → StoresAll d t w' → StoresAll d ((k, fi) :: t) (w ++ w')

/-- Fields are written up to the first one that is missing or refused. -/
inductive RefusesAt (d : VDict) : FDict → Exn → Prop
  | missing {k : Str} {fi : FI} {t : FDict} : dget d k = none → RefusesAt d ((k, fi) :: t) (.keyError (some k))
  | here {k : Str} {fi : FI} {t : FDict} {v : Val} {e : Exn} :
      dget d k = some v → Refuses fi v e → RefusesAt d ((k, fi) :: t) e
  | later {k : Str} {fi : FI} {t : FDict} {v : Val} {w : Bytes} {e : Exn} :
      dget d k = some v → Stores fi v w → RefusesAt d t e → RefusesAt d ((k, fi) :: t) e

end OSK.Spec
