import Verif.Lemmas.ReadmeDecrypt
import Verif.Lemmas.KernelRfl
import Verif.Model.KeyList
/-
What is read from the private key file of the README.
-/
namespace OSK
open Spec

/-- The public part of the key. -/
def readmePublic : Bytes :=
  [208, 150, 127, 205, 2, 75, 142, 254, 41, 193, 209, 112, 0, 189, 207, 227, 246, 232, 145, 201, 132, 245, 158, 172, 76, 224, 156, 47, 50, 105, 56, 82]
/-- The secret part of the key. -/
def readmeSecret : Bytes :=
  [153, 8, 59, 35, 7, 185, 55, 48, 195, 235, 92, 14, 228, 193, 26, 212, 18, 166, 5, 136, 118, 174, 158, 57, 194, 56, 26, 184, 146, 98, 48, 140]

/-- The pair of keys in the file. -/
def readmePair : Pair :=
  ⟨⟨.pub, [(py! "key_type", .str (py! "ssh-ed25519"))], ⟨.ed25519Pub, [(py! "public", .bytes readmePublic)]⟩, [], []⟩,
   ⟨.priv, [(py! "key_type", .str (py! "ssh-ed25519"))],
    ⟨.ed25519Priv, [(py! "public", .bytes readmePublic), (py! "private_public", .bytes (readmeSecret ++ readmePublic))]⟩,
    [(py! "comment", .str (py! "my_comment"))], []⟩⟩

theorem readme_pairs (ext : Ext) {cr : Crypto} (h : Deciphers cr) (inp : Inputs) :
    KeyList.pairs <$> listFromString ext cr inp (readmeFile.map UInt8.toNat) (some (py! "secret_passphrase")) =
      ⟨[], .ok [readmePair]⟩ := by
  rw [deciphers_eq h]
  kernel_rfl

end OSK
