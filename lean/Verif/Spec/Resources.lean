import Mathlib.Data.Nat.Size
import Verif.Spec.KeyFile
import Verif.Spec.KeyList
/-
How much room the result of parsing takes, and what parsing looks at.
-/
namespace OSK.Spec

/-- The number of octets that the magnitude of a number takes. -/
def octets (n : Nat) : Nat := (Nat.size n + 7) / 8

/-- The size of a value: bytes, characters, or octets of a number. -/
def valueSize : Val → Nat
  | .bytes b => b.length
  | .str s => s.length
  | .int i => octets i.natAbs
  | _ => 0

/-- The size of all values of a dict. -/
def dictSize (d : VDict) : Nat := (d.map (fun e => valueSize e.2)).sum

/-- The size of all that a key object holds: type, values, comment and what came with the key. -/
def keySize (k : Key) : Nat := dictSize k.header + dictSize k.params.data + dictSize k.footer + dictSize k.clear

/-- The size of all keys of a list. -/
def pairsSize (ps : List Pair) : Nat := (ps.map (fun p => keySize p.pub + keySize p.priv)).sum

/-- A meter: `n` units of work.  The event stands for a unit; reading keys never asks for a passphrase. -/
def tick (n : Nat) : Eff Unit := ⟨List.replicate n .prompt, .ok ()⟩

/-- `PublicKey.from_bytes` with a meter that counts the bytes given to it, here and for the nested authorities. -/
def meteredFuel (ext : Ext) : Nat → Bytes → Eff Key
  | 0, _ => Eff.throw .recursionError
  | n + 1, b => do
    tick b.length
    fromBytesWith ext (meteredFuel ext n) .pub b none

/-- The metered form of parsing a public key. -/
def metered (ext : Ext) (b : Bytes) : Eff Key := meteredFuel ext (b.length + 1) b

/-- The number of bytes that the parsing functions are given in all. -/
def workOf (ext : Ext) (b : Bytes) : Nat := (metered ext b).log.count .prompt

/-- The run without the meter. -/
def unmetered {α : Type} (x : Eff α) : Eff α := ⟨x.log.filter (fun v => v ≠ .prompt), x.res⟩

/-- Two cryptographic libraries are the same, except perhaps for key derivations other than this one. -/
structure SameBut (password salt : Bytes) (length : Nat) (rounds : Int) (cr cr' : Crypto) : Prop where
  sym : cr.symDec = cr'.symDec
  gcm : cr.gcmDec = cr'.gcmDec
  chacha : cr.chacha = cr'.chacha
  poly : cr.poly1305 = cr'.poly1305
  kdf : cr.bcryptKdf password salt length rounds = cr'.bcryptKdf password salt length rounds

end OSK.Spec
