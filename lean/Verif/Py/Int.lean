import Verif.Py.Basic
/-
`int.from_bytes`, `int.to_bytes`, `int.bit_length`.
-/
namespace OSK

/-- `int.from_bytes(b, byteorder='big')` (unsigned). -/
def beNat (b : Bytes) : Nat := b.foldl (fun a x => a * 256 + x.toNat) 0

/-- `int.from_bytes(b, byteorder='big', signed=True)`: subtract `256^len` when the top bit is set. -/
def beInt (b : Bytes) : Int :=
  match b with
  | [] => 0
  | x :: _ => if 128 ≤ x.toNat then (beNat b : Int) - (256 : Int) ^ b.length else (beNat b : Int)

/-- The `len` low-order base-256 digits of `n`, most significant first. -/
def natToBE : Nat → Nat → Bytes
  | 0, _ => []
  | k + 1, n => natToBE k (n / 256) ++ [UInt8.ofNat (n % 256)]

/-- `n.to_bytes(length=len, byteorder='big', signed=False)` for a non-negative `n`; a negative
`len` raises `ValueError`, a too large `n` raises `OverflowError`. -/
def toBytesUnsigned (len : Int) (n : Nat) : Except Exn Bytes :=
  if len < 0 then .error (.valueError "length argument must be non-negative")
  else if n < 256 ^ len.toNat then .ok (natToBE len.toNat n)
  else .error .overflowError

/-- `abs(v).bit_length()`, which is `v.bit_length()`. -/
def bitLength (v : Int) : Nat := if v = 0 then 0 else Nat.log2 v.natAbs + 1

/-- `v.to_bytes(length=len, byteorder='big', signed=True)`: two's complement, `OverflowError` if
`v` is outside `[-256^len/2, 256^len/2)`.  (For `len = 0` only `v = 0` is accepted here; CPython
3.11 also lets -1 through, but the code never asks for it: `bit_length() >= 1` for negative ints.) -/
def toBytesSigned (len : Nat) (v : Int) : Except Exn Bytes :=
  if len = 0 then (if v = 0 then .ok [] else .error .overflowError)
  else if -(256 : Int) ^ len ≤ 2 * v ∧ 2 * v < (256 : Int) ^ len then
    .ok (natToBE len (v % (256 : Int) ^ len).toNat)
  else .error .overflowError

end OSK
