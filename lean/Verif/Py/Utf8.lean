import Verif.Py.Basic
/-
`str.encode()` and `bytes.decode()` (strict UTF-8).
-/
namespace OSK

/-- UTF-8 form of one code point; surrogates (and values that are not code points) have none. -/
def utf8EncodeCp (c : Nat) : Option Bytes :=
  if c < 0x80 then some [UInt8.ofNat c]
  else if c < 0x800 then some [UInt8.ofNat (0xC0 + c / 64), UInt8.ofNat (0x80 + c % 64)]
  else if 0xD800 ≤ c ∧ c < 0xE000 then none
  else if c < 0x10000 then
    some [UInt8.ofNat (0xE0 + c / 4096), UInt8.ofNat (0x80 + c / 64 % 64), UInt8.ofNat (0x80 + c % 64)]
  else if c < 0x110000 then
    some [UInt8.ofNat (0xF0 + c / 262144), UInt8.ofNat (0x80 + c / 4096 % 64),
      UInt8.ofNat (0x80 + c / 64 % 64), UInt8.ofNat (0x80 + c % 64)]
  else none

/-- `s.encode()`; `none` stands for `UnicodeEncodeError`. -/
def utf8Encode? : Str → Option Bytes
  | [] => some []
  | c :: cs =>
    match utf8EncodeCp c, utf8Encode? cs with
    | some b, some bs => some (b ++ bs)
    | _, _ => none

/-- A continuation byte `10xxxxxx` within `[lo, hi]`. -/
def inRange (b : UInt8) (lo hi : Nat) : Bool := lo ≤ b.toNat && b.toNat ≤ hi

/-- First code point of a byte string and the bytes after it.  Well-formed sequences as in the
Unicode standard's table 3-7, which CPython's decoder implements. -/
def utf8Next : Bytes → Option (Nat × Bytes)
  | [] => none
  | b0 :: rest =>
    if b0.toNat < 0x80 then some (b0.toNat, rest)
    else if b0.toNat < 0xC2 then none
    else if b0.toNat < 0xE0 then
      match rest with
      | b1 :: rest' =>
        if inRange b1 0x80 0xBF then
          some ((b0.toNat - 0xC0) * 64 + (b1.toNat - 0x80), rest')
        else none
      | _ => none
    else if b0.toNat < 0xF0 then
      match rest with
      | b1 :: b2 :: rest' =>
        if inRange b1 (if b0.toNat = 0xE0 then 0xA0 else 0x80) (if b0.toNat = 0xED then 0x9F else 0xBF)
            && inRange b2 0x80 0xBF then
          some ((b0.toNat - 0xE0) * 4096 + (b1.toNat - 0x80) * 64 + (b2.toNat - 0x80), rest')
        else none
      | _ => none
    else if b0.toNat < 0xF5 then
      match rest with
      | b1 :: b2 :: b3 :: rest' =>
        if inRange b1 (if b0.toNat = 0xF0 then 0x90 else 0x80) (if b0.toNat = 0xF4 then 0x8F else 0xBF)
            && inRange b2 0x80 0xBF && inRange b3 0x80 0xBF then
          some ((b0.toNat - 0xF0) * 262144 + (b1.toNat - 0x80) * 4096 + (b2.toNat - 0x80) * 64
            + (b3.toNat - 0x80), rest')
        else none
      | _ => none
    else none

/-- Decode code points until the end; the fuel (an upper bound on the number of code points) is
only there for structural recursion, see `utf8Decode?`. -/
def utf8DecodeAux : Nat → Bytes → Option Str
  | _, [] => some []
  | 0, _ :: _ => none
  | fuel + 1, b0 :: b =>
    match utf8Next (b0 :: b) with
    | none => none
    | some (c, r) => (utf8DecodeAux fuel r).map (c :: ·)

/-- `b.decode()`; `none` stands for `UnicodeDecodeError`. -/
def utf8Decode? (b : Bytes) : Option Str := utf8DecodeAux b.length b

/-- `s.encode()` -/
def strEncode (s : Str) : Except Exn Bytes :=
  match utf8Encode? s with
  | some b => .ok b
  | none => .error .unicodeEncodeError

/-- `b.decode()` -/
def bytesDecode (b : Bytes) : Except Exn Str :=
  match utf8Decode? b with
  | some s => .ok s
  | none => .error .unicodeDecodeError

end OSK
