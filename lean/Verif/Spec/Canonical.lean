import Verif.Model.Stream
import Verif.Spec.TwosComplement
/-
When the integers inside a record's wire form are canonical (RFC 4251 section 5).
-/
namespace OSK.Spec

/-- No shorter byte string has the same two's complement value. -/
def Minimal (b : Bytes) : Prop := ∀ b', tcVal b' = tcVal b → b.length ≤ b'.length

/-- Walks over the wire form of a record, field by field, and asks that the payload of every MPINT
field be minimal. -/
def CanonicalInts : FDict → Bytes → Prop
  | [], _ => True
  | (_, .struct f) :: t, b => CanonicalInts t (b.drop f.calcsize)
  | (_, .pascal p) :: t, b =>
    (p = .mpint → Minimal ((b.drop 4).take (digitSum (b.take 4)))) ∧
      CanonicalInts t (b.drop (4 + digitSum (b.take 4)))
  | (_, .pascalSized p n) :: t, b =>
    (p = .mpint → Minimal ((b.drop n.toNat).take (digitSum (b.take n.toNat)))) ∧
      CanonicalInts t (b.drop (n.toNat + digitSum (b.take n.toNat)))
  | (_, .unrecognised) :: _, _ => False

/-- The negative integers whose shortest two's complement form starts with a sign byte `FF`; by C05
these are the integers that the code can read but not write. -/
def NeedsSignByte (v : Int) : Prop :=
  ∃ k : Nat, (2 : Int) ^ (8 * k + 7) < -v ∧ -v < (2 : Int) ^ (8 * k + 8)

end OSK.Spec
