import Verif.Spec.Clear
/-
Cryptographic functions with another key derivation function.
-/
namespace OSK.Spec

/-- The same functions except for the key derivation function. -/
def withKdf (cr : Crypto) (kdf : Bytes → Bytes → Nat → Int → Except Exn Bytes) : Crypto := { cr with bcryptKdf := kdf }

end OSK.Spec
