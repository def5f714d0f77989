import Verif.Spec.Grammar
import Verif.Spec.KeyList
import Verif.Spec.PemText
/-
The grammar of key files and of their text form, independently of the reading functions.
-/
namespace OSK.Spec

/-- `k` is the key at the beginning of `b`, and `rest` comes after it. -/
def KeyReads (kind : Kind) (b : Bytes) (k : Key) (rest : Bytes) : Prop :=
  ∃ t, KeyIn kind b t k.params.data k.footer rest ∧ Acceptable t k.params.data ∧ k.kind = kind ∧
    k.header = [(py! "key_type", .str t)] ∧ paramsClass kind (.str t) = .ok k.params.cls

/-- `k` is the key in `b`; what comes after it is kept as the remainder. -/
def KeyBlob (b : Bytes) (k : Key) : Prop :=
  ∃ rest, KeyReads .pub b k rest ∧ k.clear = if rest = [] then [] else [(py! "remainder", .bytes rest)]

/-- `b` is the private keys one after another, followed by `pad`. -/
inductive KeysIn : List Key → Bytes → Bytes → Prop
  | nil {pad : Bytes} : KeysIn [] pad pad
  | cons {k : Key} {ks : List Key} {b rest pad : Bytes} : KeyReads .priv b k rest → k.clear = [] →
      KeysIn ks rest pad → KeysIn (k :: ks) b pad

/-- The key derivation function is one of the two that there are, and what it needs is in the file and comes
from the user; anything after the options is ignored. -/
inductive KdfGiven (inp : Inputs) (passphrase : Option Str) (f : KeyFile) : KdfOptions → Prop
  | none : strOf f.kdf = py! "none" → KdfGiven inp passphrase f ⟨.none, []⟩
  | bcrypt {salt w r : Bytes} {rounds : Nat} {p : Str} : strOf f.kdf = py! "bcrypt" → BcryptField salt rounds w →
      f.options = w ++ r → Enters inp passphrase p → KdfGiven inp passphrase f (bcryptOptions salt rounds)

/-- The `n` bytes that the key derivation function gives; without one, no bytes. -/
inductive Derives (cr : Crypto) (inp : Inputs) (passphrase : Option Str) (n : Nat) : KdfOptions → Bytes → Prop
  | none : Derives cr inp passphrase n ⟨.none, []⟩ []
  | bcrypt {salt r : Bytes} {rounds : Nat} {pass : List Char} : Enters inp passphrase (strOf pass) →
      cr.bcryptKdf (utf8 pass) salt n rounds = .ok r → Derives cr inp passphrase n (bcryptOptions salt rounds) r

/-- The encrypted section decrypts to `plain`. -/
inductive Opens (cr : Crypto) (inp : Inputs) (passphrase : Option Str) (f : KeyFile) (o : KdfOptions) : Bytes → Prop
  | none : strOf f.cipher = py! "none" → Opens cr inp passphrase f o (f.body ++ f.tag)
  | cipher {su : Suite} {r plain : Bytes} : (strOf f.cipher, su) ∈ suites →
      Derives cr inp passphrase (su.key + su.iv) o r →
      su.dec cr (r.take su.key) (r.drop su.key) (f.body ++ f.tag) = .ok plain → Opens cr inp passphrase f o plain

/-- `b` is a key file that holds the key list `kl`, perhaps followed by something else: a file with a known
cipher and a tag of its size, with a usable key derivation function, each public key a key, and an
encrypted section that decrypts to two numbers of 4 bytes, as many private keys as there are public
ones, and anything as padding. -/
structure FileReads (cr : Crypto) (inp : Inputs) (passphrase : Option Str) (b : Bytes) (kl : KeyList) : Prop where
  parts : ∃ (f : KeyFile) (w post plain c1 c2 keys pad : Bytes) (o : KdfOptions) (block : Nat),
    b = w ++ post ∧ f.Lays w ∧ cipherSizes (strOf f.cipher) = some (block, f.tag.length) ∧
    KdfGiven inp passphrase f o ∧ Opens cr inp passphrase f o plain ∧
    plain = c1 ++ c2 ++ keys ∧ c1.length = 4 ∧ c2.length = 4 ∧
    List.Forall₂ (fun b p => KeyBlob b p.pub) f.pubs kl.pairs ∧ KeysIn (kl.pairs.map Pair.priv) keys pad ∧
    kl.byteString = some b ∧
    kl.header = some [(py! "auth_magic", .bytes magic), (py! "cipher", .str (strOf f.cipher)),
      (py! "kdf", .str (strOf f.kdf)), (py! "kdf_options", .bytes f.options), (py! "num_keys", .int f.pubs.length)] ∧
    kl.cipherBytes = some (f.body ++ f.tag) ∧ kl.kdfOptions = some o ∧ kl.decipherBytes = some plain ∧
    kl.decipherHeader = some [(py! "check_int_1", .int (digitSum c1)), (py! "check_int_2", .int (digitSum c2))] ∧
    kl.decipherPadding = some pad

/-- `s` has these lines: a line ends with one of the characters that end lines, or with CR LF; the last one may
end with the text, unless it is empty. -/
inductive LinesOf : List Str → Str → Prop
  | nil : LinesOf [] []
  | last {l : Str} : l ≠ [] → (∀ c ∈ l, c ∉ lineBoundaries) → LinesOf [l] l
  | crlf {l s : Str} {ls : List Str} : (∀ c ∈ l, c ∉ lineBoundaries) → LinesOf ls s →
      LinesOf (l :: ls) (l ++ [0x0d, 0x0a] ++ s)
  | cons {l s : Str} {ls : List Str} {e : Nat} : (∀ c ∈ l, c ∉ lineBoundaries) → e ∈ lineBoundaries →
      ¬ (e = 0x0d ∧ ∃ t, s = 0x0a :: t) → LinesOf ls s → LinesOf (l :: ls) (l ++ [e] ++ s)

/-- The line's first word, second word, and everything after the second space (nothing, if there is none). -/
inductive Words : Str → Str → Str → Str → Prop
  | two {a w : Str} : 0x20 ∉ a → 0x20 ∉ w → Words (a ++ 0x20 :: w) a w []
  | three {a w c : Str} : 0x20 ∉ a → 0x20 ∉ w → Words (a ++ 0x20 :: (w ++ 0x20 :: c)) a w c

/-- What a key read from a line has in the clear: the first word, the comment, and the bytes after the key. -/
def lineClear (a c : Str) (rest : Bytes) : VDict :=
  [(py! "key_type", .str a), (py! "comment", .str c)] ++ if rest = [] then [] else [(py! "remainder", .bytes rest)]

end OSK.Spec
