import Verif.Py.Basic
/-
Base64 as described in RFC 4648 section 4.
-/
namespace OSK.Spec

/-- RFC 4648, table 1, in order of the 6-bit values. -/
def base64Symbols : Bytes := pb! "ABCDEFGHIJKLMNOPQRSTUVWXYZabcdefghijklmnopqrstuvwxyz0123456789+/"

/-- The characters that can occur in base64 text: the 64 symbols and the padding character. -/
def base64Alphabet : Bytes := base64Symbols ++ pb! "="

/-- The symbol for a 6-bit value. -/
def base64Symbol (n : Nat) : UInt8 := base64Symbols.getD n 0

/-- Base64 text: groups of three bytes are 24-bit numbers, written with four 6-bit digits; a last group of
one or two bytes is completed with zero bits and the digits that carry none of its bits are `=`. -/
def base64 : Bytes → Bytes
  | a :: b :: c :: t =>
    let n := a.toNat * 2 ^ 16 + b.toNat * 2 ^ 8 + c.toNat
    [base64Symbol (n / 2 ^ 18), base64Symbol (n / 2 ^ 12 % 64), base64Symbol (n / 2 ^ 6 % 64),
      base64Symbol (n % 64)] ++ base64 t
  | [a, b] =>
    let n := a.toNat * 2 ^ 16 + b.toNat * 2 ^ 8
    [base64Symbol (n / 2 ^ 18), base64Symbol (n / 2 ^ 12 % 64), base64Symbol (n / 2 ^ 6 % 64)] ++ pb! "="
  | [a] =>
    let n := a.toNat * 2 ^ 16
    [base64Symbol (n / 2 ^ 18), base64Symbol (n / 2 ^ 12 % 64)] ++ pb! "=="
  | [] => []

/-- `c` stands for the 6-bit value `v`. -/
def Digit (c : UInt8) (v : Nat) : Prop := base64Symbols[v]? = some c

/-- Characters between digits: no digits, at most `n` padding characters. -/
def Gap (n : Nat) (g : Bytes) : Prop := (∀ c ∈ g, c ∉ base64Symbols) ∧ g.count 61 ≤ n

/-- How Python reads base64 text: four digits make three bytes; other characters between the digits are skipped,
padding characters only where they cannot be the end; after the second digit of a group two padding
characters, after the third one, end the text and make one or two bytes (leftover bits are ignored); what
comes after that is ignored. -/
inductive Base64Reads : Bytes → Bytes → Prop
  | done {g : Bytes} : (∀ c ∈ g, c ∉ base64Symbols) → Base64Reads g []
  | one {g0 g1 g2 t : Bytes} {c0 c1 x : UInt8} {v0 v1 : Nat} : (∀ c ∈ g0, c ∉ base64Symbols) → Digit c0 v0 →
      (∀ c ∈ g1, c ∉ base64Symbols) → Digit c1 v1 → Gap 1 g2 → g2.count 61 = 1 → x.toNat = (v0 * 2 ^ 6 + v1) / 2 ^ 4 →
      Base64Reads (g0 ++ c0 :: (g1 ++ c1 :: (g2 ++ 61 :: t))) [x]
  | two {g0 g1 g2 g3 t : Bytes} {c0 c1 c2 x y : UInt8} {v0 v1 v2 : Nat} : (∀ c ∈ g0, c ∉ base64Symbols) →
      Digit c0 v0 → (∀ c ∈ g1, c ∉ base64Symbols) → Digit c1 v1 → Gap 1 g2 → Digit c2 v2 → Gap 0 g3 →
      x.toNat * 2 ^ 8 + y.toNat = (v0 * 2 ^ 12 + v1 * 2 ^ 6 + v2) / 2 ^ 2 →
      Base64Reads (g0 ++ c0 :: (g1 ++ c1 :: (g2 ++ c2 :: (g3 ++ 61 :: t)))) [x, y]
  | three {g0 g1 g2 g3 t b : Bytes} {c0 c1 c2 c3 x y z : UInt8} {v0 v1 v2 v3 : Nat} : (∀ c ∈ g0, c ∉ base64Symbols) →
      Digit c0 v0 → (∀ c ∈ g1, c ∉ base64Symbols) → Digit c1 v1 → Gap 1 g2 → Digit c2 v2 → Gap 0 g3 → Digit c3 v3 →
      x.toNat * 2 ^ 16 + y.toNat * 2 ^ 8 + z.toNat = v0 * 2 ^ 18 + v1 * 2 ^ 12 + v2 * 2 ^ 6 + v3 →
      Base64Reads t b → Base64Reads (g0 ++ c0 :: (g1 ++ c1 :: (g2 ++ c2 :: (g3 ++ c3 :: t)))) (x :: y :: z :: b)

/-- The text is ASCII and is read as the bytes `b`. -/
def TextReads (s : Str) (b : Bytes) : Prop := (∀ c ∈ s, c < 128) ∧ Base64Reads (s.map UInt8.ofNat) b

end OSK.Spec
