import Verif.Std.Aes
import Verif.Py.Int
/-
Modes of operation: CBC and CTR (NIST SP 800-38A), GCM (SP 800-38D).
-/
namespace OSK.Std

/-- CBC without padding: `m` blocks of `n` bytes. -/
def cbcEnc (n : Nat) (E : Bytes → Bytes) : Nat → Bytes → Bytes → Bytes
  | 0, _, _ => []
  | m + 1, prev, b =>
    let c := E (xorBytes (b.take n) prev)
    c ++ cbcEnc n E m c (b.drop n)

def cbcDec (n : Nat) (D : Bytes → Bytes) : Nat → Bytes → Bytes → Bytes
  | 0, _, _ => []
  | m + 1, prev, b => xorBytes (D (b.take n)) prev ++ cbcDec n D m (b.take n) (b.drop n)

/-- A number from bytes, the least significant one first. -/
def leNat (b : Bytes) : Nat := beNat b.reverse

/-- The key stream for `m` blocks: the counter is all of the block. -/
def ctrStream (E : Bytes → Bytes) : Nat → Nat → Bytes
  | 0, _ => []
  | m + 1, c => E (natToBE 16 (c % 2 ^ 128)) ++ ctrStream E m (c + 1)

def ctrCrypt (E : Bytes → Bytes) (iv b : Bytes) : Bytes := xorBytes b (ctrStream E ((b.length + 15) / 16) (beNat iv))

/-- The product of two blocks in the field of GCM (SP 800-38D, 6.3): `m` more bits of `x`, whose first one is the most significant of
128. -/
def gcmMulBits (x : Nat) : Nat → Nat → Nat → Nat
  | 0, z, _ => z
  | m + 1, z, v =>
    gcmMulBits x m (if x.testBit m then z ^^^ v else z) (if v % 2 = 1 then (v / 2) ^^^ (0xe1 * 2 ^ 120) else v / 2)

def gcmMul (x y : Nat) : Nat := gcmMulBits x 128 0 y

/-- `GHASH` of `m` blocks. -/
def ghash (h : Nat) : Nat → Nat → Bytes → Nat
  | 0, y, _ => y
  | m + 1, y, b => ghash h m (gcmMul (y ^^^ beNat (b.take 16)) h) (b.drop 16)

/-- Zeros up to a whole number of blocks. -/
def pad16 (b : Bytes) : Bytes := b ++ List.replicate ((16 - b.length % 16) % 16) 0

/-- The counter block before the first one (7.1, step 2). -/
def gcmStart (h : Nat) (iv : Bytes) : Nat :=
  if iv.length = 12 then beNat iv * 2 ^ 32 + 1
  else
    let s := pad16 iv ++ natToBE 16 (8 * iv.length)
    ghash h (s.length / 16) 0 s

/-- The key stream: only the last 32 bits count. -/
def gcmStream (E : Bytes → Bytes) : Nat → Nat → Bytes
  | 0, _ => []
  | m + 1, c => E (natToBE 16 c) ++ gcmStream E m (c / 2 ^ 32 * 2 ^ 32 + (c + 1) % 2 ^ 32)

/-- The text, encrypted or decrypted. -/
def gcmCrypt (E : Bytes → Bytes) (iv b : Bytes) : Bytes :=
  xorBytes b ((gcmStream E ((b.length + 15) / 16 + 1) (gcmStart (beNat (E (List.replicate 16 0))) iv)).drop 16)

/-- The tag of an encrypted text, without additional data. -/
def gcmTag (E : Bytes → Bytes) (iv c : Bytes) : Bytes :=
  let h := beNat (E (List.replicate 16 0))
  let s := pad16 c ++ natToBE 16 (8 * c.length)
  let t := ghash h (s.length / 16) 0 s
  xorBytes (natToBE 16 t) (E (natToBE 16 (gcmStart h iv)))

end OSK.Std
