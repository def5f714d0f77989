import Verif.Model.Stream
/-
Format strings of the `struct` module as strings: `Modules/_struct.c` of CPython 3.11 on 64-bit little-endian Linux, and the methods of
`PascalStyleByteStream` for instructions that are such strings (pascal_style_byte_stream.py:131-137, 306-307, 436-442).

`Model/Stream.lean` has the formats already parsed (`SFmt`), only with the codes that the package uses.  Here every string is a format
string or is refused.  Simplifications: floating point numbers (`e f d`) and the truth value of objects other than `bytes`, `str`, `int` and
`tuple` are given by `Floats`; so is what `?` makes of a byte other than 0 and 1 in native mode, where `nu_bool` copies the byte to a C `_Bool`
and the outcome is up to the compiler; `bool` is identified with `int`.
-/
namespace OSK

/-- What a code stands for. -/
inductive FKind where
  /-- `x` -/
  | pad
  /-- `c` -/
  | char
  /-- `?` -/
  | bool (native : Bool)
  /-- `b B h H i I l L q Q n N` -/
  | int (signed : Bool)
  /-- `P` -/
  | pointer
  /-- `e f d` -/
  | float
  /-- `s` -/
  | bytes
  /-- `p` -/
  | pascal
  deriving DecidableEq, Repr

/-- What depends on floating point numbers, other objects and the C compiler. -/
structure Floats where
  odd : Bytes → Bool
  unpack : Bytes → SVal
  pack : Nat → Val → Except Exn Bytes
  truth : Nat → Bool

/-- `native_table`, and `lilendian_table`/`bigendian_table` for which `native` is false: what the code stands for, size, alignment. -/
def fEntry (native : Bool) (c : Nat) : Option (FKind × Nat × Nat) :=
  let al := fun n : Nat => if native then n else 1
  if c = 'x'.toNat then some (.pad, 1, 1)
  else if c = 'b'.toNat then some (.int true, 1, 1)
  else if c = 'B'.toNat then some (.int false, 1, 1)
  else if c = 'c'.toNat then some (.char, 1, 1)
  else if c = 's'.toNat then some (.bytes, 1, 1)
  else if c = 'p'.toNat then some (.pascal, 1, 1)
  else if c = 'h'.toNat then some (.int true, 2, al 2)
  else if c = 'H'.toNat then some (.int false, 2, al 2)
  else if c = 'i'.toNat then some (.int true, 4, al 4)
  else if c = 'I'.toNat then some (.int false, 4, al 4)
  else if c = 'l'.toNat then some (.int true, if native then 8 else 4, al 8)
  else if c = 'L'.toNat then some (.int false, if native then 8 else 4, al 8)
  else if c = 'n'.toNat ∧ native then some (.int true, 8, 8)
  else if c = 'N'.toNat ∧ native then some (.int false, 8, 8)
  else if c = 'q'.toNat then some (.int true, 8, al 8)
  else if c = 'Q'.toNat then some (.int false, 8, al 8)
  else if c = '?'.toNat then some (.bool native, 1, 1)
  else if c = 'e'.toNat then some (.float, 2, al 2)
  else if c = 'f'.toNat then some (.float, 4, al 4)
  else if c = 'd'.toNat then some (.float, 8, al 8)
  else if c = 'P'.toNat ∧ native then some (.pointer, 8, 8)
  else none

/-- A `formatcode`: where its values are, how long each is and how many there are. -/
structure FField where
  kind : FKind
  offset : Nat
  size : Nat
  count : Nat
  deriving DecidableEq, Repr

/-- A prepared `Struct`: byte order, total size and fields. -/
structure Format where
  big : Bool
  size : Nat
  fields : List FField
  deriving DecidableEq, Repr

/-- `align` -/
def fAlign (al size : Nat) : Nat := if al > 1 ∧ size > 0 then size + ((al - 1) - (size - 1) % al) else size

/-- The `formatcode` that an entry with a count makes; none for `x`, and none for a count of zero other than of `s` and `p`. -/
def fField (k : FKind) (offset size count : Nat) : List FField :=
  match k with
  | .pad => []
  | .bytes | .pascal => [⟨k, offset, count, 1⟩]
  | _ => if count = 0 then [] else [⟨k, offset, size, count⟩]

/-- `Py_ISSPACE` -/
def fSpace (c : Nat) : Bool := (9 ≤ c && c ≤ 13) || c == 32
/-- `'0' <= c && c <= '9'` -/
def fDigit (c : Nat) : Bool := 48 ≤ c && c ≤ 57

/-- The loops of `prepare_s`: `count` is the repeat count read so far.  All errors are `struct.error`. -/
def fLoop (native big : Bool) : Str → Option Nat → Nat → List FField → Except Exn Format
  | [], some _, _, _ => .error .structError
  | [], none, size, fs => .ok ⟨big, size, fs⟩
  | c :: t, count, size, fs =>
    if count = none ∧ fSpace c then fLoop native big t none size fs
    else if fDigit c then fLoop native big t (some (count.getD 0 * 10 + (c - 48))) size fs
    else
      match fEntry native c with
      | none => .error .structError
      | some (k, sz, al) =>
        let n := count.getD 1
        let off := fAlign al size
        if pyMaxSize < off + n * sz then .error .structError
        else fLoop native big t none (off + n * sz) (fs ++ fField k off sz n)

/-- `Struct(format)`: `PyUnicode_AsASCIIString`, then `whichtable` and `prepare_s`.  A zero character is an error in any case, since no
table has it. -/
def parseFormat (s : Str) : Except Exn Format :=
  if s.any (fun c => 128 ≤ c) then .error .unicodeEncodeError
  else
    match s with
    | c :: t =>
      if c = '<'.toNat then fLoop false false t none 0 []
      else if c = '>'.toNat ∨ c = '!'.toNat then fLoop false true t none 0 []
      else if c = '='.toNat then fLoop false false t none 0 []
      else if c = '@'.toNat then fLoop true false t none 0 []
      else fLoop true false s none 0 []
    | [] => fLoop true false s none 0 []

/-- One value (`lu_*`, `bu_*`, `nu_*`, and the cases `s` and `p` of `s_unpack_internal`). -/
def fUnpack1 (fl : Floats) (big : Bool) (k : FKind) (b : Bytes) : Except Exn SVal :=
  let b' := if big then b else b.reverse
  match k with
  | .int signed => .ok (.int (if signed then beInt b' else (beNat b' : Int)))
  | .pointer => .ok (.int (beNat b'))
  | .bool native => .ok (.int (if b = [0] then 0 else if native ∧ b ≠ [1] then (if fl.odd b then 1 else 0) else 1))
  | .float => .ok (fl.unpack b')
  | .pascal =>
    match b with
    | [] => .error .systemError
    | n :: t => .ok (.bytes (t.take n.toNat))
  | _ => .ok (.bytes b)

/-- The values of one field. -/
def fUnpackField (fl : Floats) (big : Bool) (k : FKind) (size : Nat) : Nat → Bytes → Except Exn (List SVal)
  | 0, _ => .ok []
  | n + 1, b =>
    match fUnpack1 fl big k (b.take size) with
    | .error e => .error e
    | .ok v =>
      match fUnpackField fl big k size n (b.drop size) with
      | .error e => .error e
      | .ok vs => .ok (v :: vs)

def fUnpackFields (fl : Floats) (big : Bool) : List FField → Bytes → Except Exn (List SVal)
  | [], _ => .ok []
  | f :: t, b =>
    match fUnpackField fl big f.kind f.size f.count (b.drop f.offset) with
    | .error e => .error e
    | .ok vs =>
      match fUnpackFields fl big t b with
      | .error e => .error e
      | .ok ws => .ok (vs ++ ws)

/-- `struct.unpack(format, b)` -/
def structUnpack (fl : Floats) (s : Str) (b : Bytes) : Except Exn (List SVal) :=
  match parseFormat s with
  | .error e => .error e
  | .ok f => if b.length ≠ f.size then .error .structError else fUnpackFields fl f.big f.fields b

/-- `PyObject_IsTrue` -/
def Val.truth (fl : Floats) : Val → Bool
  | .bytes b => !b.isEmpty
  | .str s => !s.isEmpty
  | .int i => i != 0
  | .tuple vs => !vs.isEmpty
  | .other n => fl.truth n

/-- One value (`lp_*`, `bp_*`, `np_*`, and the cases `s` and `p` of `s_pack_internal`) in `size` bytes. -/
def fPack1 (fl : Floats) (big : Bool) (k : FKind) (size : Nat) (v : Val) : Except Exn Bytes :=
  match k, v with
  | .int signed, .int i =>
    if SCode.inIntRange size signed i then
      let b := natToBE size (i % (256 : Int) ^ size).toNat
      .ok (if big then b else b.reverse)
    else .error .structError
  | .pointer, .int i =>
    if SCode.inIntRange size true i ∨ SCode.inIntRange size false i then
      let b := natToBE size (i % (256 : Int) ^ size).toNat
      .ok (if big then b else b.reverse)
    else .error .structError
  | .bool _, v => .ok [if v.truth fl then 1 else 0]
  | .float, v => (fl.pack size v).map (fun b => if big then b else b.reverse)
  | .char, .bytes b => if b.length = 1 then .ok b else .error .structError
  | .bytes, .bytes b => .ok ((b ++ List.replicate size 0).take size)
  | .pascal, .bytes b =>
    if size = 0 then .ok []
    else
      let d := b.take (size - 1)
      .ok (UInt8.ofNat (min d.length 255) :: d ++ List.replicate (size - 1 - d.length) 0)
  | _, _ => .error .structError

/-- `struct.pack(format, value)` with one value: everything else is zero. -/
def structPackText (fl : Floats) (s : Str) (v : Val) : Except Exn Bytes :=
  match parseFormat s with
  | .error e => .error e
  | .ok f =>
    match f.fields with
    | [⟨k, off, size, 1⟩] =>
      match fPack1 fl f.big k size v with
      | .error e => .error e
      | .ok b => .ok (List.replicate off 0 ++ b ++ List.replicate (f.size - off - b.length) 0)
    | _ => .error .structError

/-- `read_from_format_instruction` with a string (pascal_style_byte_stream.py:131-137) -/
def readFormatText (fl : Floats) (s : Str) : SM Val := do
  let f ← SM.lift (parseFormat s)
  let b ← readFixed f.size
  let vs ← SM.lift (structUnpack fl s b)
  pure (structResult vs)

/-- `write_from_format_instruction` with a string (pascal_style_byte_stream.py:306-307, 345) -/
def writeFormatText (fl : Floats) (s : Str) (v : Val) : SM Unit := do
  let b ← SM.lift (structPackText fl s v)
  bytesIOWrite b

/-- What `check_dict_matches_format_instructions_dict` does with a string (pascal_style_byte_stream.py:435-442) -/
def checkFormatText (fl : Floats) (d : VDict) (k s : Str) : Eff Unit :=
  match dget d k with
  | none => Eff.warn (.missing k)
  | some v =>
    match structPackText fl s v with
    | .ok _ => pure ()
    | .error .structError => Eff.warn (.shouldBeFormatted k)
    | .error e => Eff.throw e

end OSK
