import Verif.Spec.FileGrammar
/-
The part of a key file that stands in the clear.
-/
namespace OSK.Spec

/-- The options in the file are such as the key derivation function asks for. -/
def KdfUsable (f : KeyFile) : Prop :=
  strOf f.kdf = py! "none" ∨
    (strOf f.kdf = py! "bcrypt" ∧ ∃ salt rounds w r, BcryptField salt rounds w ∧ f.options = w ++ r)

/-- The file begins with these fields, up to the encrypted section (not the tag), and they are in order: the cipher is known, the key
derivation function has its options, and each public key is a key. -/
structure ClearPart (b : Bytes) (f : KeyFile) : Prop where
  layout : f.tag = [] ∧ ∃ w post, f.Lays w ∧ b = w ++ post
  cipher : (cipherSizes (strOf f.cipher)).isSome
  kdf : KdfUsable f
  pubs : ∀ p ∈ f.pubs, ∃ k, KeyBlob p k

/-- Two key lists have the same bytes, header, encrypted bytes, options and public keys. -/
def SameClear (kl kl' : KeyList) : Prop :=
  kl.byteString = kl'.byteString ∧ kl.header = kl'.header ∧ kl.cipherBytes = kl'.cipherBytes ∧ kl.kdfOptions = kl'.kdfOptions ∧
    kl.pairs.map Pair.pub = kl'.pairs.map Pair.pub

end OSK.Spec
