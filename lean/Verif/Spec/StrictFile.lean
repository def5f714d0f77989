import Verif.Spec.Strict
import Verif.Spec.FileGrammar
/-
Which key files are in order: beyond what is needed to read one, nothing in it is worth a warning.
-/
namespace OSK.Spec

/-- `k` is the key at the beginning of `b`, it is in order, and `rest` comes after it. -/
def KeyInOrder (ext : Ext) (kind : Kind) (b : Bytes) (k : Key) (rest : Bytes) : Prop :=
  ∃ t, KeyIn kind b t k.params.data k.footer rest ∧ MaterialInOrder ext kind t k.params.data ∧
    (isCertType t = true → CertInOrder ext k.params.data) ∧ k.kind = kind ∧ k.header = [(py! "key_type", .str t)] ∧
    paramsClass kind (.str t) = .ok k.params.cls ∧ k.clear = []

/-- `b` is the private keys one after another, all of them in order, followed by `pad`. -/
inductive KeysInOrder (ext : Ext) : List Key → Bytes → Bytes → Prop
  | nil {pad : Bytes} : KeysInOrder ext [] pad pad
  | cons {k : Key} {ks : List Key} {b rest pad : Bytes} : KeyInOrder ext .priv b k rest →
      KeysInOrder ext ks rest pad → KeysInOrder ext (k :: ks) b pad

/-- The two keys of a pair have the same type, and the same values where they have both. -/
structure PairInOrder (p : Pair) : Prop where
  type : p.pub.header = p.priv.header
  values : ∀ n x y, dget p.pub.params.data n = some x → dget p.priv.params.data n = some y → x = y

/-- `b` is a key file in order, perhaps followed by `post`, that holds the key list `kl`: a file with a known cipher
and a tag of its size, with a usable key derivation function, each public key a key in order and nothing else,
and an encrypted section that decrypts to twice the same number of 4 bytes, the private keys, in order and agreeing with
the public ones, and 1, 2, 3, … up to the end of the block. -/
structure FileInOrder (ext : Ext) (cr : Crypto) (inp : Inputs) (passphrase : Option Str) (b post : Bytes) (kl : KeyList) :
    Prop where
  parts : ∃ (f : KeyFile) (w c keys : Bytes) (o : KdfOptions) (block pad : Nat),
    b = w ++ post ∧ f.Lays w ∧ cipherSizes (strOf f.cipher) = some (block, f.tag.length) ∧
    KdfGiven inp passphrase f o ∧ Opens cr inp passphrase f o (c ++ c ++ keys) ∧ c.length = 4 ∧
    List.Forall₂ (fun b p => KeyInOrder ext .pub b p.pub []) f.pubs kl.pairs ∧
    KeysInOrder ext (kl.pairs.map Pair.priv) keys (countUp pad) ∧
    pad ≤ block ∧ (c ++ c ++ keys).length % block = 0 ∧ (∀ p ∈ kl.pairs, PairInOrder p) ∧
    kl.byteString = some b ∧
    kl.header = some [(py! "auth_magic", .bytes magic), (py! "cipher", .str (strOf f.cipher)),
      (py! "kdf", .str (strOf f.kdf)), (py! "kdf_options", .bytes f.options), (py! "num_keys", .int f.pubs.length)] ∧
    kl.cipherBytes = some (f.body ++ f.tag) ∧ kl.kdfOptions = some o ∧ kl.decipherBytes = some (c ++ c ++ keys) ∧
    kl.decipherHeader = some [(py! "check_int_1", .int (digitSum c)), (py! "check_int_2", .int (digitSum c))] ∧
    kl.decipherPadding = some (countUp pad)

end OSK.Spec
