import Mathlib.Data.List.Forall2
import Verif.Model.KeyList
import Verif.Spec.KeyFile
import Verif.Spec.Tables
/-
What the warnings of a key list mean.
-/
namespace OSK.Spec

/-- The key types of a pair are different. -/
def TypesDiffer (p : Pair) : Prop :=
  dget p.pub.header (py! "key_type") ≠ dget p.priv.header (py! "key_type")

/-- Some value that both keys of a pair have is different. -/
def ValuesDiffer (p : Pair) : Prop :=
  ∃ n a b, dget p.pub.params.data n = some a ∧ dget p.priv.params.data n = some b ∧ a ≠ b

/-- The bytes of each private key parse, on their own, as that key, and contain nothing else. -/
def KeysAt (ext : Ext) : List Pair → List Bytes → Prop
  | [], ws => ws = []
  | p :: ps, ws => ∃ w t, ws = w :: t ∧ (fromBytes ext .priv w none).res = .ok p.priv ∧
    p.priv.clear = [] ∧ KeysAt ext ps t

/-- The section is a whole number of blocks and the bytes after the last key are an initial segment of
`1, 2, …, block`. -/
def GoodPadding (block : Nat) (plain pad : Bytes) : Prop :=
  plain.length % block = 0 ∧ pad <+: countUp block

/-- `a` is `l[i]` in Python: a negative index counts from the end. -/
def At {α : Type} (l : List α) (i : Int) (a : α) : Prop :=
  ∃ n : Nat, l[n]? = some a ∧ (i = n ∨ i = (n : Int) - l.length)

/-- `sel` is `[l[i] for i in I]`. -/
def Selects {α : Type} (l : List α) (I : List Int) (sel : List α) : Prop := List.Forall₂ (At l) I sel

/-- What `include_indices` selects; everything if it is not given. -/
def Selection {α : Type} (l : List α) (I : Option (List Int)) (sel : List α) : Prop :=
  match I with
  | none => sel = l
  | some I => Selects l I sel

/-- The passphrase that was given, or the one entered at the prompt. -/
def Enters (inp : Inputs) (passphrase : Option Str) (p : Str) : Prop :=
  passphrase = some p ∨ (passphrase = none ∧ inp.answer = .ok p)

/-- `k'` is the public key for the key (public or private) `k`: same type, the documented public values and
no other entries, no footer and no remainder. -/
def SamePublic (k k' : Key) : Prop :=
  k'.kind = .pub ∧ k'.footer = [] ∧ k'.clear = [] ∧
  ∃ t fields, dget k.header (py! "key_type") = some (.str t) ∧ publicFields t = some fields ∧
    k'.header = [(py! "key_type", .str t)] ∧ getPublicClass (.str t) = .ok k'.params.cls ∧
    dkeys k'.params.data = dkeys fields ∧
    (∀ n ∈ dkeys fields, dget k'.params.data n = dget k.params.data n)

/-- The options of the `bcrypt` key derivation function in a key file: the length-prefixed salt, and the
number of rounds (4 bytes, big-endian). -/
def BcryptField (salt : Bytes) (rounds : Nat) (w : Bytes) : Prop :=
  ∃ a b, Prefixed 4 salt a ∧ b.length = 4 ∧ digitSum b = rounds ∧ w = a ++ b

/-- Body and tag of the file are the encryption of `plain` with the file's cipher, under the key and
initialisation vector that `bcrypt` gives for passphrase, salt and rounds. -/
def Sealed (cr : Crypto) (f : KeyFile) (pass : List Char) (salt : Bytes) (rounds : Nat) (plain : Bytes) : Prop :=
  ∃ su r, (strOf f.cipher, su) ∈ suites ∧ cr.bcryptKdf (utf8 pass) salt (su.key + su.iv) rounds = .ok r ∧
    r.length = su.key + su.iv ∧ su.enc cr (r.take su.key) (r.drop su.key) plain = .ok (f.body ++ f.tag)

/-- The encrypted section of the file holds `plain`: in the clear with cipher `none`, otherwise sealed with
the passphrase given or entered and the salt and rounds that are in the file. -/
def Encloses (cr : Crypto) (inp : Inputs) (passphrase : Option Str) (f : KeyFile) (plain : Bytes) : Prop :=
  (strOf f.cipher = py! "none" ∧ f.body = plain ∧ f.tag = []) ∨
  (strOf f.kdf = py! "bcrypt" ∧ ∃ pass salt rounds, Enters inp passphrase (strOf pass) ∧
    BcryptField salt rounds f.options ∧ Sealed cr f pass salt rounds plain)

/-- What the list's header says cipher and key derivation function are; `none` unless both are there. -/
def Names (self : KeyList) (cipher kdf : Str) : Prop :=
  (∃ h, self.header = some h ∧ dget h (py! "cipher") = some (.str cipher) ∧
    dget h (py! "kdf") = some (.str kdf)) ∨
  ((∀ h, self.header = some h → dget h (py! "cipher") = none ∨ dget h (py! "kdf") = none) ∧
    cipher = py! "none" ∧ kdf = py! "none")

/-- The salt and rounds that `pack_bytes` uses: with `retain_kdf_options_if_present` those that the list
has, otherwise fresh ones. -/
def Uses (inp : Inputs) (self : KeyList) (retain : Bool) (salt : Bytes) (rounds : Nat) : Prop :=
  (∃ o, retain = true ∧ self.kdfOptions = some o ∧ dget o.data (py! "salt") = some (.bytes salt) ∧
    dget o.data (py! "rounds") = some (.int rounds)) ∨
  ((retain = false ∨ self.kdfOptions = none) ∧ salt = inp.tokenBytes 16 ∧ rounds = 16)

/-- Everything is there to encrypt with: without a key derivation function nothing is needed, and only the
cipher `none` works; with `bcrypt` salt, rounds and a passphrase are needed, and then the cipher must
accept the derived key and every whole number of blocks. -/
def Ready (cr : Crypto) (inp : Inputs) (self : KeyList) (passphrase : Option Str) (retain : Bool)
    (cipher kdf : Str) : Prop :=
  (cipher = py! "none" ∧ kdf = py! "none") ∨
  (kdf = py! "bcrypt" ∧ ∃ salt rounds, Uses inp self retain salt rounds ∧ salt.length + 8 < 2 ^ 32 ∧
    rounds < 2 ^ 32 ∧
    ((cipher = py! "none" ∧ ∃ pass, Enters inp passphrase pass) ∨
    ∃ pass su r, Enters inp passphrase (strOf pass) ∧ (cipher, su) ∈ suites ∧
      cr.bcryptKdf (utf8 pass) salt (su.key + su.iv) rounds = .ok r ∧
      ∀ plain : Bytes, plain.length % su.block = 0 →
        ∃ y, su.enc cr (r.take su.key) (r.drop su.key) plain = .ok y))

end OSK.Spec
