import Verif.Spec.TwosComplement
import Verif.Spec.Text
import Verif.Spec.Cipher
/-
The key file format (OpenSSH's PROTOCOL.key), independently of the code.
-/
namespace OSK.Spec

/-- The 15 bytes `openssh-key-v1` and a zero byte. -/
def magic : Bytes := [111, 112, 101, 110, 115, 115, 104, 45, 107, 101, 121, 45, 118, 49, 0]

/-- Block size and tag size, in bytes, of a cipher of the format. -/
def cipherSizes (name : Str) : Option (Nat × Nat) :=
  if name = py! "none" then some (8, 0) else (dget suites name).map (fun su => (su.block, su.tag))

/-- The fields of a key file. -/
structure KeyFile where
  cipher : List Char
  kdf : List Char
  options : Bytes
  pubs : List Bytes
  body : Bytes
  tag : Bytes

/-- `w` is the length-prefixed byte strings one after another. -/
def FieldsIn : List Bytes → Bytes → Prop
  | [], w => w = []
  | b :: t, w => ∃ x y, Prefixed 4 b x ∧ FieldsIn t y ∧ w = x ++ y

/-- `w` is everything before the encrypted section: magic, cipher name, key derivation function name and
options, number of keys (at most `2^31 - 1`), and the public keys. -/
def KeyFile.Front (f : KeyFile) (w : Bytes) : Prop :=
  ∃ wc wk wo wn wp, Prefixed 4 (utf8 f.cipher) wc ∧ Prefixed 4 (utf8 f.kdf) wk ∧ Prefixed 4 f.options wo ∧
    wn.length = 4 ∧ digitSum wn = f.pubs.length ∧ f.pubs.length < 2 ^ 31 ∧ FieldsIn f.pubs wp ∧
    w = magic ++ wc ++ wk ++ wo ++ wn ++ wp

/-- `w` is the file: the front, the length-prefixed encrypted section, and the tag. -/
def KeyFile.Lays (f : KeyFile) (w : Bytes) : Prop :=
  ∃ front wb, f.Front front ∧ Prefixed 4 f.body wb ∧ w = front ++ wb ++ f.tag

/-- `n` consecutive bytes `1, 2, …, n`. -/
def countUp (n : Nat) : Bytes := (List.range n).map (fun i => UInt8.ofNat (i + 1))

/-- The decrypted section: the check number twice (4 bytes, big-endian), the packed keys, and padding
`1, 2, …, k` to a whole number of blocks. -/
def Section (check : Nat) (keys : List Bytes) (block : Nat) (plain : Bytes) : Prop :=
  ∃ c k, c.length = 4 ∧ digitSum c = check ∧ k < block ∧ plain.length % block = 0 ∧
    plain = c ++ c ++ keys.flatten ++ countUp k

end OSK.Spec
