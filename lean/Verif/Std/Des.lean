import Verif.Py.Basic
/-
The block cipher DES (FIPS 46-3) and triple DES, on lists of bits.
-/
namespace OSK.Std

/-- The initial permutation; bits are numbered from 1. -/
def desIP : List Nat :=
  [58, 50, 42, 34, 26, 18, 10, 2, 60, 52, 44, 36, 28, 20, 12, 4,
   62, 54, 46, 38, 30, 22, 14, 6, 64, 56, 48, 40, 32, 24, 16, 8,
   57, 49, 41, 33, 25, 17, 9, 1, 59, 51, 43, 35, 27, 19, 11, 3,
   61, 53, 45, 37, 29, 21, 13, 5, 63, 55, 47, 39, 31, 23, 15, 7]

/-- Its inverse. -/
def desFP : List Nat :=
  [40, 8, 48, 16, 56, 24, 64, 32, 39, 7, 47, 15, 55, 23, 63, 31,
   38, 6, 46, 14, 54, 22, 62, 30, 37, 5, 45, 13, 53, 21, 61, 29,
   36, 4, 44, 12, 52, 20, 60, 28, 35, 3, 43, 11, 51, 19, 59, 27,
   34, 2, 42, 10, 50, 18, 58, 26, 33, 1, 41, 9, 49, 17, 57, 25]

/-- The expansion `E`. -/
def desE : List Nat :=
  [32, 1, 2, 3, 4, 5, 4, 5, 6, 7, 8, 9, 8, 9, 10, 11, 12, 13, 12, 13, 14, 15, 16, 17,
   16, 17, 18, 19, 20, 21, 20, 21, 22, 23, 24, 25, 24, 25, 26, 27, 28, 29, 28, 29, 30, 31, 32, 1]

/-- The permutation `P`. -/
def desP : List Nat :=
  [16, 7, 20, 21, 29, 12, 28, 17, 1, 15, 23, 26, 5, 18, 31, 10,
   2, 8, 24, 14, 32, 27, 3, 9, 19, 13, 30, 6, 22, 11, 4, 25]

/-- The selection functions. -/
def desS : List (List Nat) := [
  [14, 4, 13, 1, 2, 15, 11, 8, 3, 10, 6, 12, 5, 9, 0, 7,
   0, 15, 7, 4, 14, 2, 13, 1, 10, 6, 12, 11, 9, 5, 3, 8,
   4, 1, 14, 8, 13, 6, 2, 11, 15, 12, 9, 7, 3, 10, 5, 0,
   15, 12, 8, 2, 4, 9, 1, 7, 5, 11, 3, 14, 10, 0, 6, 13],
  [15, 1, 8, 14, 6, 11, 3, 4, 9, 7, 2, 13, 12, 0, 5, 10,
   3, 13, 4, 7, 15, 2, 8, 14, 12, 0, 1, 10, 6, 9, 11, 5,
   0, 14, 7, 11, 10, 4, 13, 1, 5, 8, 12, 6, 9, 3, 2, 15,
   13, 8, 10, 1, 3, 15, 4, 2, 11, 6, 7, 12, 0, 5, 14, 9],
  [10, 0, 9, 14, 6, 3, 15, 5, 1, 13, 12, 7, 11, 4, 2, 8,
   13, 7, 0, 9, 3, 4, 6, 10, 2, 8, 5, 14, 12, 11, 15, 1,
   13, 6, 4, 9, 8, 15, 3, 0, 11, 1, 2, 12, 5, 10, 14, 7,
   1, 10, 13, 0, 6, 9, 8, 7, 4, 15, 14, 3, 11, 5, 2, 12],
  [7, 13, 14, 3, 0, 6, 9, 10, 1, 2, 8, 5, 11, 12, 4, 15,
   13, 8, 11, 5, 6, 15, 0, 3, 4, 7, 2, 12, 1, 10, 14, 9,
   10, 6, 9, 0, 12, 11, 7, 13, 15, 1, 3, 14, 5, 2, 8, 4,
   3, 15, 0, 6, 10, 1, 13, 8, 9, 4, 5, 11, 12, 7, 2, 14],
  [2, 12, 4, 1, 7, 10, 11, 6, 8, 5, 3, 15, 13, 0, 14, 9,
   14, 11, 2, 12, 4, 7, 13, 1, 5, 0, 15, 10, 3, 9, 8, 6,
   4, 2, 1, 11, 10, 13, 7, 8, 15, 9, 12, 5, 6, 3, 0, 14,
   11, 8, 12, 7, 1, 14, 2, 13, 6, 15, 0, 9, 10, 4, 5, 3],
  [12, 1, 10, 15, 9, 2, 6, 8, 0, 13, 3, 4, 14, 7, 5, 11,
   10, 15, 4, 2, 7, 12, 9, 5, 6, 1, 13, 14, 0, 11, 3, 8,
   9, 14, 15, 5, 2, 8, 12, 3, 7, 0, 4, 10, 1, 13, 11, 6,
   4, 3, 2, 12, 9, 5, 15, 10, 11, 14, 1, 7, 6, 0, 8, 13],
  [4, 11, 2, 14, 15, 0, 8, 13, 3, 12, 9, 7, 5, 10, 6, 1,
   13, 0, 11, 7, 4, 9, 1, 10, 14, 3, 5, 12, 2, 15, 8, 6,
   1, 4, 11, 13, 12, 3, 7, 14, 10, 15, 6, 8, 0, 5, 9, 2,
   6, 11, 13, 8, 1, 4, 10, 7, 9, 5, 0, 15, 14, 2, 3, 12],
  [13, 2, 8, 4, 6, 15, 11, 1, 10, 9, 3, 14, 5, 0, 12, 7,
   1, 15, 13, 8, 10, 3, 7, 4, 12, 5, 6, 11, 0, 14, 9, 2,
   7, 11, 4, 1, 9, 12, 14, 2, 0, 6, 10, 13, 15, 3, 5, 8,
   2, 1, 14, 7, 4, 10, 8, 13, 15, 12, 9, 0, 3, 5, 6, 11]]

/-- Permuted choice 1 and 2. -/
def desPC1 : List Nat :=
  [57, 49, 41, 33, 25, 17, 9, 1, 58, 50, 42, 34, 26, 18, 10, 2, 59, 51, 43, 35, 27, 19, 11, 3, 60, 52, 44, 36,
   63, 55, 47, 39, 31, 23, 15, 7, 62, 54, 46, 38, 30, 22, 14, 6, 61, 53, 45, 37, 29, 21, 13, 5, 28, 20, 12, 4]
def desPC2 : List Nat :=
  [14, 17, 11, 24, 1, 5, 3, 28, 15, 6, 21, 10, 23, 19, 12, 4, 26, 8, 16, 7, 27, 20, 13, 2,
   41, 52, 31, 37, 47, 55, 30, 40, 51, 45, 33, 48, 44, 49, 39, 56, 34, 53, 46, 42, 50, 36, 29, 32]

/-- The number of left shifts. -/
def desShifts : List Nat := [1, 1, 2, 2, 2, 2, 2, 2, 1, 2, 2, 2, 2, 2, 2, 1]

/-- Choose bits by their numbers. -/
def choose (table : List Nat) (b : List Bool) : List Bool := table.map (fun i => b.getD (i - 1) false)

/-- Exclusive or with as much of `k` as there is. -/
def xorBits : List Bool → List Bool → List Bool
  | x :: s, y :: k => (x ^^ y) :: xorBits s k
  | s, _ => s

def bitsToNat (b : List Bool) : Nat := b.foldl (fun a x => 2 * a + x.toNat) 0

/-- `n` bits, the most significant one first. -/
def natToBits : Nat → Nat → List Bool
  | 0, _ => []
  | n + 1, v => (v / 2 ^ n % 2 == 1) :: natToBits n v

/-- One selection function on six bits: the outer ones give the row. -/
def desBox (table : List Nat) (b : List Bool) : List Bool :=
  let row := 2 * (b.getD 0 false).toNat + (b.getD 5 false).toNat
  natToBits 4 (table.getD (16 * row + bitsToNat ((b.drop 1).take 4)) 0)

def desBoxes : List (List Nat) → List Bool → List Bool
  | [], _ => []
  | t :: ts, b => desBox t (b.take 6) ++ desBoxes ts (b.drop 6)

/-- The cipher function `f`. -/
def desF (k r : List Bool) : List Bool := choose desP (desBoxes desS (xorBits (choose desE r) k))

/-- The key schedule. -/
def desSchedule : List Nat → List Bool → List Bool → List (List Bool)
  | [], _, _ => []
  | n :: t, c, d =>
    let c := c.drop n ++ c.take n
    let d := d.drop n ++ d.take n
    choose desPC2 (c ++ d) :: desSchedule t c d

/-- The rounds; the halves are exchanged after each of them. -/
def desRounds : List (List Bool) → List Bool × List Bool → List Bool × List Bool
  | [], s => s
  | k :: t, (l, r) => desRounds t (r, xorBits l (desF k r))

/-- Enciphering with the given subkeys (with their reverse: deciphering). -/
def desCrypt (keys : List (List Bool)) (b : List Bool) : List Bool :=
  let s := choose desIP b
  let (l, r) := desRounds keys (s.take 32, s.drop 32)
  choose desFP (r ++ l)

def byteBits (b : Bytes) : List Bool := b.flatMap (fun x => natToBits 8 x.toNat)

/-- The bytes of a list of bits. -/
def bitBytes : List Bool → Bytes
  | a :: b :: c :: d :: e :: f :: g :: h :: t => UInt8.ofNat (bitsToNat [a, b, c, d, e, f, g, h]) :: bitBytes t
  | _ => []

/-- The subkeys of a key of eight bytes. -/
def desKeys (key : Bytes) : List (List Bool) :=
  let c := choose desPC1 (byteBits key)
  desSchedule desShifts (c.take 28) (c.drop 28)

/-- Triple DES (encipher, decipher, encipher) with three keys of eight bytes. -/
def tdesEncBlock (k1 k2 k3 : List (List Bool)) (b : Bytes) : Bytes :=
  bitBytes (desCrypt k3 (desCrypt k2.reverse (desCrypt k1 (byteBits b))))

def tdesDecBlock (k1 k2 k3 : List (List Bool)) (b : Bytes) : Bytes :=
  bitBytes (desCrypt k1.reverse (desCrypt k2 (desCrypt k3.reverse (byteBits b))))

end OSK.Std
