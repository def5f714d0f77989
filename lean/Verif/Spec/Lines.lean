import Verif.Spec.Exact
/-
Public key lines in the one form that packing gives.
-/
namespace OSK.Spec

/-- A line with this key type, the base64 form of these bytes, and this comment. -/
def lineOf (t : Str) (b : Bytes) (c : Str) : Str := t ++ 0x20 :: (base64Text b ++ 0x20 :: c)

/-- `s` is a line with the key `k` and nothing else, with its own type as the first word, and a space before the comment even if there is
none. -/
def LineTight (s : Str) (k : Key) : Prop :=
  ∃ t b c, k.header = [(py! "key_type", .str t)] ∧ KeyTight .pub b k ∧ s = lineOf t b c

end OSK.Spec
