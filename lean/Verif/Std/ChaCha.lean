import Verif.Std.Modes
/-
ChaCha20 and Poly1305 (RFC 8439).
-/
namespace OSK.Std

def rotl32 (x n : UInt32) : UInt32 := (x <<< n) ||| (x >>> (32 - n))

/-- A quarter round on four words of the state (2.1, 2.2). -/
def quarter (a b c d : Nat) (s : Array UInt32) : Array UInt32 :=
  let x := s.getD a 0 + s.getD b 0
  let w := rotl32 (s.getD d 0 ^^^ x) 16
  let z := s.getD c 0 + w
  let y := rotl32 (s.getD b 0 ^^^ z) 12
  let x := x + y
  let w := rotl32 (w ^^^ x) 8
  let z := z + w
  let y := rotl32 (y ^^^ z) 7
  (((s.setIfInBounds a x).setIfInBounds b y).setIfInBounds c z).setIfInBounds d w

/-- Two rounds (2.3). -/
def doubleRound (s : Array UInt32) : Array UInt32 :=
  let s := quarter 3 7 11 15 (quarter 2 6 10 14 (quarter 1 5 9 13 (quarter 0 4 8 12 s)))
  quarter 3 4 9 14 (quarter 2 7 8 13 (quarter 1 6 11 12 (quarter 0 5 10 15 s)))

def doubleRounds : Nat → Array UInt32 → Array UInt32
  | 0, s => s
  | n + 1, s => doubleRounds n (doubleRound s)

def leWord (b : Bytes) : UInt32 := UInt32.ofNat (leNat b)

/-- The state: constants, key, and 16 bytes of counter and nonce. -/
def chachaState (key : Bytes) (nonce : Bytes) : Array UInt32 :=
  (#[0x61707865, 0x3320646e, 0x79622d32, 0x6b206574] ++ ((pieces 4 8 key).map leWord).toArray ++ ((pieces 4 4 nonce).map leWord).toArray)

/-- A block of the key stream (2.3); the counter starts as the nonce says. -/
def chachaBlock (key nonce : Bytes) (n : Nat) : Bytes :=
  let s := (chachaState key nonce).modify 12 (· + UInt32.ofNat n)
  let t := doubleRounds 10 s
  (List.zipWith (· + ·) s.toList t.toList).flatMap (fun w => (natToBE 4 w.toNat).reverse)

/-- Poly1305 (2.5): `m` pieces of up to sixteen bytes. -/
def polySum (r : Nat) : Nat → Nat → Bytes → Nat
  | 0, a, _ => a
  | m + 1, a, b => polySum r m ((a + leNat (b.take 16 ++ [1])) * r % (2 ^ 130 - 5)) (b.drop 16)

/-- Sixteen bytes, the least significant one first. -/
def polyTag (n : Nat) : Bytes := (natToBE 16 (n % 2 ^ 128)).reverse

def poly1305 (key b : Bytes) : Bytes :=
  let r := leNat (key.take 16) &&& 0x0ffffffc0ffffffc0ffffffc0fffffff
  let s := leNat ((key.drop 16).take 16)
  polyTag (polySum r ((b.length + 15) / 16) 0 b + s)

end OSK.Std
