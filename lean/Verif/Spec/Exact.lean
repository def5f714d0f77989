import Verif.Spec.PackList
import Verif.Spec.Canonical
import Verif.Spec.FileGrammar
/-
Which key files have the one form that packing gives: every number in its shortest form, no bytes that nothing asks for, and the least
padding.
-/
namespace OSK.Spec

/-- Encryption undoes decryption: a text that decrypts is the encryption of what it decrypts to. -/
structure ReverseLaws (cr : Crypto) : Prop where
  sym : ∀ {alg mode key iv x y}, cr.symDec alg mode key iv y = .ok x → cr.symEnc alg mode key iv x = .ok y
  gcm : ∀ {key iv x y}, cr.gcmDec key iv y = .ok x → cr.gcmEnc key iv x = .ok y

/-- `w` encodes the value `v` of a field in the shortest form; it is none of the numbers that cannot be written (C05). -/
inductive Tight : FI → Bytes → Val → Prop
  | bytes {b w : Bytes} : Prefixed 4 b w → Tight (.pascal .bytes) w (.bytes b)
  | text {cs : List Char} {w : Bytes} : Prefixed 4 (utf8 cs) w → Tight (.pascal .string) w (.str (strOf cs))
  | mpint {b w : Bytes} : Prefixed 4 b w → Minimal b → ¬ NeedsSignByte (tcVal b) → Tight (.pascal .mpint) w (.int (tcVal b))
  | uint {w : Bytes} : Tight (.struct ⟨true, [.int w.length false]⟩) w (.int (digitSum w))

/-- The same for a list of fields, one after another. -/
inductive TightAll : FDict → Bytes → VDict → Prop
  | nil : TightAll [] [] []
  | cons {k : Str} {fi : FI} {t : FDict} {w w' : Bytes} {v : Val} {d : VDict} :
      Tight fi w v → TightAll t w' d → TightAll ((k, fi) :: t) (w ++ w') ((k, v) :: d)

/-- `b` is the key `k`, of this kind, and nothing else: type, fields, and the comment of a private key. -/
def KeyTight (kind : Kind) (b : Bytes) (k : Key) : Prop :=
  ∃ t fmt wt wp wf, k.header = [(py! "key_type", .str t)] ∧ fieldsOf kind t = some fmt ∧ Tight (.pascal .string) wt (.str t) ∧
    TightAll fmt wp k.params.data ∧ TightAll (afterFields kind) wf k.footer ∧ b = wt ++ wp ++ wf

/-- The options of the key derivation function, and nothing after them; the passphrase comes from the user. -/
inductive OptionsTight (inp : Inputs) (passphrase : Option Str) (f : KeyFile) : KdfOptions → Prop
  | none : strOf f.kdf = py! "none" → f.options = [] → OptionsTight inp passphrase f ⟨.none, []⟩
  | bcrypt {salt : Bytes} {rounds : Nat} {p : Str} : strOf f.kdf = py! "bcrypt" → BcryptField salt rounds f.options →
      Enters inp passphrase p → OptionsTight inp passphrase f (bcryptOptions salt rounds)

/-- `b` is a key file with the keys of `kl`, and nothing else: the options, the public keys and the private keys have the one form that
they are written in, both check numbers are `check`, and the padding is less than a block. -/
structure FileTight (cr : Crypto) (inp : Inputs) (passphrase : Option Str) (check : Nat) (b : Bytes) (kl : KeyList) : Prop where
  parts : ∃ (f : KeyFile) (o : KdfOptions) (plain : Bytes) (privs : List Bytes) (block : Nat),
    f.Lays b ∧ cipherSizes (strOf f.cipher) = some (block, f.tag.length) ∧ OptionsTight inp passphrase f o ∧
    List.Forall₂ (fun b p => KeyTight .pub b p.pub) f.pubs kl.pairs ∧
    List.Forall₂ (fun b p => KeyTight .priv b p.priv) privs kl.pairs ∧
    Opens cr inp passphrase f o plain ∧ Section check privs block plain

end OSK.Spec
