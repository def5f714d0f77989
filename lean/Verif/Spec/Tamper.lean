import Verif.Spec.StrictFile
import Verif.Std.Crypto
/-
Key files that somebody has changed.
-/
namespace OSK.Spec

/-- Two byte strings of the same length, xor'ed. -/
def xorB (a b : Bytes) : Bytes := List.zipWith (· ^^^ ·) a b

/-- Reading the file with this passphrase gives `kl`; it neither fails nor warns. -/
def ReadsQuietly (ext : Ext) (cr : Crypto) (inp : Inputs) (passphrase : Option Str) (b : Bytes) (kl : KeyList) : Prop :=
  (listFromBytes ext cr inp b passphrase).res = .ok kl ∧ ∀ w, .warn w ∉ (listFromBytes ext cr inp b passphrase).log

/-- The name of the cipher in the header of a list. -/
def HasCipher (kl : KeyList) (name : Str) : Prop := ∃ h, kl.header = some h ∧ dget h (py! "cipher") = some (.str name)

/-- Two lists that were read have the same cipher, options of the key derivation function, and encrypted section. -/
def SameSealed (kl kl' : KeyList) : Prop :=
  (∃ name, HasCipher kl name ∧ HasCipher kl' name) ∧ kl.kdfOptions = kl'.kdfOptions ∧ kl.cipherBytes = kl'.cipherBytes

def counterCiphers : List Str := [py! "aes128-ctr", py! "aes192-ctr", py! "aes256-ctr"]

/-- Counter mode xors a key stream: what is xor'ed to the encrypted bytes is xor'ed to the decrypted ones. -/
structure CounterMode (cr : Crypto) : Prop where
  length : ∀ {key iv x y}, cr.symDec .aes .ctr key iv x = .ok y → x.length = y.length
  xor : ∀ {key iv x y d}, cr.symDec .aes .ctr key iv x = .ok y → d.length = x.length →
    cr.symDec .aes .ctr key iv (xorB x d) = .ok (xorB y d)

/-- The byte string with `d` xor'ed to it from position `pos` on. -/
def changeAt (pos : Nat) (d b : Bytes) : Bytes := b.take pos ++ xorB ((b.drop pos).take d.length) d ++ b.drop (pos + d.length)

/-- The pair with another value of `private_public` in the private key (Ed25519: the secret and the public key). -/
def withSecret (p : Pair) (s : Bytes) : Pair :=
  { p with priv := { p.priv with params := ⟨p.priv.params.cls, dset p.priv.params.data (py! "private_public") (.bytes s)⟩ } }

/-- `tag` is the tag of `body` under the bytes `r` that were derived (key and initialisation vector). -/
inductive Tagged : Str → Bytes → Bytes → Bytes → Prop
  | gcm128 {r body : Bytes} : Tagged (py! "aes128-gcm@openssh.com") r body
      (Std.gcmTag (Std.encBlock .aes (r.take 16)) (r.drop 16) body)
  | gcm256 {r body : Bytes} : Tagged (py! "aes256-gcm@openssh.com") r body
      (Std.gcmTag (Std.encBlock .aes (r.take 32)) (r.drop 32) body)
  | chacha {r body : Bytes} {ks : Nat → UInt8} : Std.crypto.chacha (r.take 32) (List.replicate 16 0) = .ok ks →
      Tagged (py! "chacha20-poly1305@openssh.com") r body (Std.crypto.poly1305 (oneTimeKey ks) body)

/-- Bytes of key and initialisation vector of the ciphers with a tag. -/
def taggedCiphers : List (Str × Nat) :=
  [(py! "aes128-gcm@openssh.com", 28), (py! "aes256-gcm@openssh.com", 44), (py! "chacha20-poly1305@openssh.com", 64)]

end OSK.Spec
