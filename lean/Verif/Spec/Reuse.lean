import Verif.Spec.Tamper
import Verif.Spec.PackList
/-
Two key files that are encrypted with the same key.
-/
namespace OSK.Spec

/-- The ciphers that xor a stream of bytes to what is encrypted. -/
def streamCiphers : List Str :=
  counterCiphers ++ [py! "aes128-gcm@openssh.com", py! "aes256-gcm@openssh.com", py! "chacha20-poly1305@openssh.com"]

/-- They do so: what two byte strings differ by is what their encrypted forms differ by. -/
def XorsStream (cr : Crypto) : Prop :=
  ∀ name su, (name, su) ∈ suites → name ∈ streamCiphers → ∀ key iv x y c d, su.enc cr key iv x = .ok c → su.enc cr key iv y = .ok d →
    xorB (c.take x.length) (d.take y.length) = xorB x y

/-- The last bytes of two files, and what is in the first of them, xor'ed together. -/
def steal (plain b b' : Bytes) : Bytes :=
  xorB (xorB (b.drop (b.length - plain.length)) (b'.drop (b'.length - plain.length))) plain

end OSK.Spec
