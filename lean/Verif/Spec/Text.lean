import Verif.Py.Basic
/-
Independent description of UTF-8 text, through Lean's own `Char` (the Unicode scalar values) and
`String.utf8EncodeChar`.
-/
namespace OSK.Spec

/-- UTF-8 bytes of a sequence of Unicode scalar values. -/
def utf8 (cs : List Char) : Bytes := cs.flatMap String.utf8EncodeChar

/-- The Python `str` with these characters. -/
def strOf (cs : List Char) : Str := cs.map Char.toNat

end OSK.Spec
