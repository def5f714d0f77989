import Verif.Spec.Reuse
/-
Key files that are encrypted in cipher block chaining mode.
-/
namespace OSK.Spec

/-- The ciphers in cipher block chaining mode, and the sizes of their blocks. -/
def chainCiphers : List (Str × Nat) :=
  [(py! "3des-cbc", 8), (py! "aes128-cbc", 16), (py! "aes192-cbc", 16), (py! "aes256-cbc", 16), (py! "rijndael-cbc@lysator.liu.se", 16)]

/-- The bytes `i`, …, `i + n - 1`. -/
def bytesAt (i n : Nat) (b : Bytes) : Bytes := (b.drop i).take n

/-- The same ciphers with their algorithm and the length of their keys. -/
def chainKeys : List (Str × SymAlg × Nat) :=
  [(py! "3des-cbc", .tripleDes, 24), (py! "aes128-cbc", .aes, 16), (py! "aes192-cbc", .aes, 24), (py! "aes256-cbc", .aes, 32),
   (py! "rijndael-cbc@lysator.liu.se", .aes, 32)]

/-- The first block of what cipher block chaining decrypts, with a key of `n` bytes and an initialisation vector after it in `r`. -/
def firstPlain (alg : SymAlg) (n : Nat) (r c : Bytes) : Bytes := xorB (Std.decBlock alg (r.take n) (c.take (Std.blockLength alg))) (r.drop n)

/-- The first block that it encrypts to. -/
def firstSealed (alg : SymAlg) (n : Nat) (r x : Bytes) : Bytes := Std.encBlock alg (r.take n) (xorB (x.take (Std.blockLength alg)) (r.drop n))

end OSK.Spec
