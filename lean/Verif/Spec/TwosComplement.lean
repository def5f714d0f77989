import Verif.Py.Basic
/-
Independent description of two's complement big-endian integers (RFC 4251, `mpint`).
-/
namespace OSK.Spec

/-- Unsigned positional value of base-256 digits, most significant first. -/
def digitSum : Bytes → Nat
  | [] => 0
  | x :: xs => x.toNat * 256 ^ xs.length + digitSum xs

/-- Two's complement value: the most significant digit counts as `x` or `x - 256`. -/
def tcVal : Bytes → Int
  | [] => 0
  | x :: xs =>
    (if x.toNat < 128 then (x.toNat : Int) else (x.toNat : Int) - 256) * (256 : Int) ^ xs.length
      + (digitSum xs : Int)

/-- `b` is a shortest two's complement form of `v`. -/
def IsShortestTC (b : Bytes) (v : Int) : Prop :=
  tcVal b = v ∧ ∀ b', tcVal b' = v → b.length ≤ b'.length

/-- Wire form of a length-prefixed value: big-endian length in `size` bytes, then the bytes. -/
def Prefixed (size : Nat) (b wire : Bytes) : Prop :=
  ∃ p : Bytes, p.length = size ∧ digitSum p = b.length ∧ wire = p ++ b

end OSK.Spec
