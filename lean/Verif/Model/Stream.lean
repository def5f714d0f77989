import Verif.Py.Int
import Verif.Py.Utf8
import Verif.Py.Dict
import Verif.Py.Struct
/-
Model of openssh_key/pascal_style_byte_stream.py.
-/
namespace OSK

/-- Python values that occur in `ValuesDict`s.  `other n` is any object that is neither `bytes`,
`str` nor `int` (e.g. a list, a float).  Simplification: `bool` is identified with its `int` value,
and subclasses of these types are not distinguished. -/
inductive Val where
  | bytes (b : Bytes)
  | str (s : Str)
  | int (i : Int)
  /-- result of unpacking a struct format that does not have exactly one item -/
  | tuple (vs : List SVal)
  | other (n : Nat)
  deriving DecidableEq, Repr

/-- A `ValuesDict` (pascal_style_byte_stream.py:67-70). -/
abbrev VDict := List (Str × Val)

/-- `PascalStyleFormatInstruction` (pascal_style_byte_stream.py:16-34). -/
inductive Prim where
  | bytes | string | mpint
  deriving DecidableEq, Repr

/-- One value of a `FormatInstructionsDict` (pascal_style_byte_stream.py:57-64): a struct format
string, a `PascalStyleFormatInstruction` (default length-prefix size 4), a
`PascalStyleFormatInstructionStringLengthSize`, or anything else. -/
inductive FI where
  | struct (f : SFmt)
  | pascal (p : Prim)
  | pascalSized (p : Prim) (size : Int)
  | unrecognised
  deriving DecidableEq, Repr

/-- A `FormatInstructionsDict`; being a Python dict, its keys are distinct. -/
abbrev FDict := List (Str × FI)

/-- `PascalStyleByteStream(io.BytesIO)` (pascal_style_byte_stream.py:73): contents and position. -/
structure Stream where
  buf : Bytes
  pos : Nat
  deriving DecidableEq, Repr

/-- `PascalStyleByteStream(b)` -/
def Stream.of (b : Bytes) : Stream := ⟨b, 0⟩
/-- `PascalStyleByteStream()` -/
def Stream.new : Stream := ⟨[], 0⟩
/-- Bytes from the position to the end. -/
def Stream.rest (s : Stream) : Bytes := s.buf.drop s.pos

/-- Stream operations: the stream state persists when an exception is raised. -/
def SM (α : Type) := Stream → Except Exn α × Stream

namespace SM
variable {α β : Type}
protected def pure (a : α) : SM α := fun s => (.ok a, s)
protected def bind (x : SM α) (f : α → SM β) : SM β := fun s =>
  match x s with
  | (.ok a, s') => f a s'
  | (.error e, s') => (.error e, s')
instance : Monad SM where
  pure := SM.pure
  bind := SM.bind
def throw (e : Exn) : SM α := fun s => (.error e, s)
def lift (r : Except Exn α) : SM α := fun s => (r, s)
end SM

/-- `sys.maxsize` on the 64-bit platforms assumed here. -/
def pyMaxSize : Nat := 2 ^ 63 - 1

/-- `io.BytesIO.read(n)`: an `n` that is not index-sized raises `OverflowError`, negative `n` reads everything,
otherwise at most `n` bytes from the position. -/
def bytesIORead (n : Int) : SM Bytes := fun s =>
  if n < 0 then
    if n < -(pyMaxSize : Int) - 1 then (.error .overflowError, s)
    else (.ok s.rest, { s with pos := max s.pos s.buf.length })
  else if pyMaxSize < n.toNat then (.error .overflowError, s)
  else (.ok (s.rest.take n.toNat), { s with pos := s.pos + (s.rest.take n.toNat).length })

/-- `io.BytesIO.write(b)`: overwrite at the position, zero-filling a gap beyond the end. -/
def bytesIOWrite (b : Bytes) : SM Unit := fun s =>
  if b = [] then (.ok (), s)
  else (.ok (), ⟨(s.buf ++ List.replicate (s.pos - s.buf.length) 0).take s.pos ++ b
      ++ s.buf.drop (s.pos + b.length), s.pos + b.length⟩)

/-- pascal_style_byte_stream.py:245 -/
def eofEmptyText : Str := py! "Underlying bytestream is empty"
/-- pascal_style_byte_stream.py:246-247 -/
def eofShortText : Str := py! "Fewer than 'num_bytes' bytes remaining in the underlying bytestream"

/-- `read_fixed_bytes` (pascal_style_byte_stream.py:228-248). -/
def readFixed (n : Int) : SM Bytes := do
  let b ← bytesIORead n
  if (b.length : Int) < n then
    if b.length = 0 then SM.throw (.eofError true eofEmptyText)
    else SM.throw (.eofError false eofShortText)
  else pure b

/-- `read_pascal_bytes` (pascal_style_byte_stream.py:250-274). -/
def readPascalBytes (size : Int) : SM Bytes := do
  if size ≤ 0 then SM.throw (.valueError "string_length_size must be positive")
  else
    let lb ← readFixed size
    readFixed (beNat lb)

/-- The value a read `struct` tuple is returned as (pascal_style_byte_stream.py:134-137). -/
def structResult : List SVal → Val
  | [.int i] => .int i
  | [.bytes b] => .bytes b
  | vs => .tuple vs

/-- Conversion of the read bytes according to the instruction
(pascal_style_byte_stream.py:140-149). -/
def decodePrim : Prim → Bytes → Except Exn Val
  | .bytes, b => .ok (.bytes b)
  | .string, b => (bytesDecode b).map Val.str
  | .mpint, b => .ok (.int (beInt b))

/-- `get_openssh_default_string_length_size` (pascal_style_byte_stream.py:80-86). -/
def defaultLengthSize : Int := 4

/-- `read_from_format_instruction` (pascal_style_byte_stream.py:96-154), together with the dispatch
on `PascalStyleFormatInstructionStringLengthSize` (lines 178-187). -/
def readFI : FI → SM Val
  | .struct f => do
    let b ← readFixed f.calcsize
    pure (structResult (f.unpack b))
  | .pascal p => do
    let b ← readPascalBytes defaultLengthSize
    SM.lift (decodePrim p b)
  | .pascalSized p size => do
    let b ← readPascalBytes size
    SM.lift (decodePrim p b)
  | .unrecognised => SM.throw (.valueError "format instruction is not recognised")

/-- `read_from_format_instructions_dict` (pascal_style_byte_stream.py:156-189). -/
def readDict : FDict → SM VDict
  | [] => pure []
  | (k, fi) :: t => do
    let v ← readFI fi
    let vs ← readDict t
    pure ((k, v) :: vs)

/-- The loop of `read_repeatedly_from_format_instructions_dict`
(pascal_style_byte_stream.py:216-226): `EOFError(True, ..)` ends it, anything else propagates.
`fuel` bounds the number of iterations; running out of it is the distinguished outcome `none`
("did not terminate within `fuel` iterations"). -/
def readRepeatedlyLoop (fmt : FDict) : Nat → List VDict → Stream → Option (Except Exn (List VDict) × Stream)
  | 0, _, _ => none
  | fuel + 1, acc, s =>
    match readDict fmt s with
    | (.ok d, s') => readRepeatedlyLoop fmt fuel (acc ++ [d]) s'
    | (.error (.eofError true _), s') => some (.ok acc, s')
    | (.error e, s') => some (.error e, s')

/-- `read_repeatedly_from_format_instructions_dict` (pascal_style_byte_stream.py:191-226) with at
most `fuel` loop iterations; `none` means that the loop is still running. -/
def readRepeatedlyFuel (fmt : FDict) (fuel : Nat) (s : Stream) :
    Option (Except Exn (List VDict) × Stream) :=
  if fmt.length = 0 then
    some (.error (.valueError "format_instructions_dict cannot be empty"), s)
  else readRepeatedlyLoop fmt fuel [] s

/-- `read_repeatedly_from_format_instructions_dict` for formats whose records are never empty, for
which `remaining bytes + 1` iterations suffice (theorem `C12_read_repeatedly_terminates`).  The `getD`
default is therefore unreachable for those formats; the code only uses such formats. -/
def readRepeatedly (fmt : FDict) : SM (List VDict) := fun s =>
  (readRepeatedlyFuel fmt (s.rest.length + 1) s).getD (.error .recursionError, s)

/-- The `struct` view of a value. -/
def Val.toSVal : Val → Option SVal
  | .int i => some (.int i)
  | .bytes b => some (.bytes b)
  | _ => none

/-- `struct.pack(f, value)` -/
def structPack (f : SFmt) (v : Val) : Except Exn Bytes :=
  match v.toSVal with
  | some sv => f.pack1 sv
  | none => .error .structError

/-- Number of bytes used for an MPINT (pascal_style_byte_stream.py:330):
`(value.bit_length() + (8 if value > 0 else 7)) // 8`. -/
def mpintLength (v : Int) : Nat := (bitLength v + (if 0 < v then 8 else 7)) / 8

/-- The unprefixed bytes of a value (pascal_style_byte_stream.py:309-333). -/
def encodePrim : Prim → Val → Except Exn Bytes
  | .bytes, .bytes b => .ok b
  | .bytes, _ => .error (.valueError "value must be a bytes instance for bytes format instruction")
  | .string, .str s => strEncode s
  | .string, _ => .error (.valueError "value must be a str instance for string format instruction")
  | .mpint, .int i => toBytesSigned (mpintLength i) i
  | .mpint, _ => .error (.valueError "value must be an int instance for mpint format instruction")

/-- Length prefix followed by the value's bytes (pascal_style_byte_stream.py:308-341). -/
def packPascal (p : Prim) (size : Int) (v : Val) : Except Exn Bytes :=
  match encodePrim p v with
  | .error e => .error e
  | .ok b =>
    match toBytesUnsigned size b.length with
    | .error e => .error e
    | .ok lb => .ok (lb ++ b)

/-- The bytes that `write_from_format_instruction` (pascal_style_byte_stream.py:276-345) hands to
`self.write`. -/
def packFI : FI → Val → Except Exn Bytes
  | .struct f, v => structPack f v
  | .pascal p, v => packPascal p defaultLengthSize v
  | .pascalSized p size, v => packPascal p size v
  | .unrecognised, _ => .error (.valueError "format instruction is not recognised")

/-- `write_from_format_instruction` (pascal_style_byte_stream.py:276-346). -/
def writeFI (fi : FI) (v : Val) : SM Unit := do
  let b ← SM.lift (packFI fi v)
  bytesIOWrite b

/-- `d[k]`: `KeyError` if absent. -/
def getItem (d : VDict) (k : Str) : Except Exn Val :=
  match dget d k with
  | some v => .ok v
  | none => .error (.keyError (some k))

/-- `write_from_format_instructions_dict` (pascal_style_byte_stream.py:348-382). -/
def writeDict : FDict → VDict → SM Unit
  | [], _ => pure ()
  | (k, fi) :: t, d => do
    let v ← SM.lift (getItem d k)
    writeFI fi v
    writeDict t d

/-- `write_repeatedly_from_format_instructions_dict` (pascal_style_byte_stream.py:384-408). -/
def writeRepeatedly (fmt : FDict) : List VDict → SM Unit
  | [] => pure ()
  | d :: ds => do
    writeDict fmt d
    writeRepeatedly fmt ds

/-- `stream = PascalStyleByteStream(); <write>; return stream.getvalue()` -/
def written (w : SM Unit) : Except Exn Bytes :=
  match w Stream.new with
  | (.ok (), s) => .ok s.buf
  | (.error e, _) => .error e

/-- `isinstance(value, v.value)` (pascal_style_byte_stream.py:444, 449). -/
def Prim.matchesVal : Prim → Val → Bool
  | .bytes, .bytes _ => true
  | .string, .str _ => true
  | .mpint, .int _ => true
  | _, _ => false

/-- One iteration of `check_dict_matches_format_instructions_dict`
(pascal_style_byte_stream.py:434-459). -/
def checkField (d : VDict) (k : Str) (fi : FI) : Eff Unit :=
  match dget d k with
  | none => Eff.warn (.missing k)
  | some v =>
    match fi with
    | .struct f =>
      match structPack f v with
      | .ok _ => pure ()
      | .error .structError => Eff.warn (.shouldBeFormatted k)
      | .error e => Eff.throw e
    | .pascal p => if p.matchesVal v then pure () else Eff.warn (.shouldBeOfClass k)
    | .pascalSized p _ => if p.matchesVal v then pure () else Eff.warn (.shouldBeOfClass k)
    | .unrecognised => Eff.throw (.valueError "format instruction is not recognised")

/-- `check_dict_matches_format_instructions_dict` (pascal_style_byte_stream.py:410-459). -/
def checkDict (d : VDict) : FDict → Eff Unit
  | [] => pure ()
  | (k, fi) :: t => do
    checkField d k fi
    checkDict d t

end OSK
