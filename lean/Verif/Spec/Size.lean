import Verif.Spec.KeyList
import Verif.Spec.PemText
/-
The sizes of packed key files.
-/
namespace OSK.Spec

/-- The least multiple of `block` that is not less than `n`. -/
def IsRoundUp (block n m : Nat) : Prop := m % block = 0 ∧ n ≤ m ∧ m < n + block

/-- The number of bytes that the options take for this key derivation function. -/
inductive OptionSize (inp : Inputs) (self : KeyList) (retain : Bool) : Str → Nat → Prop
  | none : OptionSize inp self retain (py! "none") 0
  | bcrypt {salt : Bytes} {rounds : Nat} : Uses inp self retain salt rounds → OptionSize inp self retain (py! "bcrypt") (4 + salt.length + 4)

/-- The number of bytes of a key file: magic, names and options, number of keys, public keys of these sizes, a private section of that
size, and the tag. -/
def fileSize (cipher kdf options : Nat) (pubs : List Nat) (plain tag : Nat) : Nat :=
  15 + (4 + cipher) + (4 + kdf) + (4 + options) + 4 + (pubs.map (4 + ·)).sum + (4 + plain) + tag

/-- The number of characters of the text of `n` bytes: two marker lines, and lines of base64 with up to 70 characters. -/
def textSize (n : Nat) : Nat :=
  (35 + 1) + ((n + 2) / 3 * 4 + ((n + 2) / 3 * 4 + 69) / 70) + (33 + 1)

end OSK.Spec
