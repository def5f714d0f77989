import Verif.Model.Cli
import Verif.Py.Utf8
/-
Model of the input and output of __main__.py: reading the file, and rendering the result with `KeyJSONEncoder`
(__main__.py:36-45) on top of the standard library's `json.encoder`.  Argument parsing
and opening the file are in Model/Args.lean.  Not modelled: that writing to the terminal can fail.
-/
namespace OSK

/-- A Python object as the encoder sees it: it asks for `str`, `None`, `int`, `list` or `tuple`, `dict`, and then
`KeyJSONEncoder.default` asks for `__dict__` and takes `str(o)` otherwise. -/
inductive PyObj where
  | none
  | int (i : Int)
  | str (s : Str)
  | bytes (b : Bytes)
  /-- an object without `__dict__`, with its `str(o)` -/
  | other (s : Str)
  /-- a `list` or `tuple` -/
  | seq (l : List PyObj)
  | dict (d : List (Str × PyObj))
  /-- an object with its `__dict__` -/
  | inst (attrs : List (Str × PyObj))

/-- Lower-case hexadecimal digit. -/
def hexDigit (n : Nat) : Nat := if n < 10 then 48 + n else 87 + n

/-- `'{0:04x}'.format(n)` for `n < 65536` -/
def hex4 (n : Nat) : Str :=
  [hexDigit (n / 4096), hexDigit (n / 256 % 16), hexDigit (n / 16 % 16), hexDigit (n % 16)]

/-- `replace` in `py_encode_basestring_ascii` (json/encoder.py), also for the characters that are not replaced. -/
def jsonChar (c : Nat) : Str :=
  if c = 92 then [92, 92]
  else if c = 34 then [92, 34]
  else if c = 8 then [92, 98]
  else if c = 12 then [92, 102]
  else if c = 10 then [92, 110]
  else if c = 13 then [92, 114]
  else if c = 9 then [92, 116]
  else if 32 ≤ c ∧ c ≤ 126 then [c]
  else if c < 65536 then [92, 117] ++ hex4 c
  else [92, 117] ++ hex4 (0xd800 + (c - 0x10000) / 1024 % 1024) ++ ([92, 117] ++ hex4 (0xdc00 + (c - 0x10000) % 1024))

/-- `encode_basestring_ascii(s)` (json/encoder.py) -/
def jsonString (s : Str) : Str := [34] ++ s.flatMap jsonChar ++ [34]

/-- Decimal digits of a natural number; the fuel is only there for structural recursion. -/
def decimalAux : Nat → Nat → Str
  | 0, _ => []
  | fuel + 1, n => if n < 10 then [48 + n] else decimalAux fuel (n / 10) ++ [48 + n % 10]

/-- Decimal digits of a natural number. -/
def decimal (n : Nat) : Str := decimalAux (n.log2 + 1) n

/-- `int.__repr__`: since Python 3.11 (and 3.10.7) a `ValueError` for more than `sys.get_int_max_str_digits()`
digits, which is 4300 by default; 0 stands for no limit. -/
def intRepr (maxDigits : Nat) (i : Int) : Except Exn Str :=
  let d := decimal i.natAbs
  if maxDigits ≠ 0 ∧ maxDigits < d.length then .error (.valueError "Exceeds the limit for integer string conversion")
  else .ok (if i < 0 then 45 :: d else d)

/-- One byte within `repr(b)`, given the quote. -/
def reprByte (quote : Nat) (x : UInt8) : Str :=
  let c := x.toNat
  if c = quote ∨ c = 92 then [92, c]
  else if c = 9 then [92, 116]
  else if c = 10 then [92, 110]
  else if c = 13 then [92, 114]
  else if c < 32 ∨ 127 ≤ c then [92, 120, hexDigit (c / 16), hexDigit (c % 16)]
  else [c]

/-- `repr(b)`, which is also `str(b)`: in double quotes if `b` has single quotes and no double quotes. -/
def bytesRepr (b : Bytes) : Str :=
  let quote := if b.contains 39 && !b.contains 34 then 34 else 39
  [98, quote] ++ b.flatMap (reprByte quote) ++ [quote]

/-- `'\n' + indent * level` -/
def newlineIndent (level : Nat) : Str := 10 :: List.replicate (4 * level) 32

mutual

/-- `_iterencode(o, level)` of the standard library (json/encoder.py, `_make_iterencode`) with `indent=4`, with
`default` of `KeyJSONEncoder` (__main__.py:36-43).  The check for circular references is left out: the objects
of the program are trees. -/
def jsonEncode (maxDigits level : Nat) : PyObj → Except Exn Str
  | .none => .ok (py! "null")
  | .int i => intRepr maxDigits i
  | .str s => .ok (jsonString s)
  | .bytes b => .ok (jsonString (bytesRepr b))
  | .other s => .ok (jsonString s)
  | .seq [] => .ok (py! "[]")
  | .seq (x :: t) => do
    let items ← jsonItems maxDigits (level + 1) (x :: t)
    pure (py! "[" ++ newlineIndent (level + 1) ++ items ++ newlineIndent level ++ py! "]")
  | .dict [] | .inst [] => .ok (py! "{}")
  | .dict (x :: t) | .inst (x :: t) => do
    let items ← jsonMembers maxDigits (level + 1) (x :: t)
    pure (py! "{" ++ newlineIndent (level + 1) ++ items ++ newlineIndent level ++ py! "}")

/-- The loop of `_iterencode_list`. -/
def jsonItems (maxDigits level : Nat) : List PyObj → Except Exn Str
  | [] => .ok []
  | [x] => jsonEncode maxDigits level x
  | x :: y :: t => do
    let a ← jsonEncode maxDigits level x
    let b ← jsonItems maxDigits level (y :: t)
    pure (a ++ py! "," ++ newlineIndent level ++ b)

/-- The loop of `_iterencode_dict`; all keys are `str`. -/
def jsonMembers (maxDigits level : Nat) : List (Str × PyObj) → Except Exn Str
  | [] => .ok []
  | [(k, x)] => do
    let a ← jsonEncode maxDigits level x
    pure (jsonString k ++ py! ": " ++ a)
  | (k, x) :: y :: t => do
    let a ← jsonEncode maxDigits level x
    let b ← jsonMembers maxDigits level (y :: t)
    pure (jsonString k ++ py! ": " ++ a ++ py! "," ++ newlineIndent level ++ b)

end

/-- The value in the dictionary of a parameters object.  Simplification: a `Val.other` is an object without
`__dict__`; parsing never produces one, nor a tuple. -/
def Val.toPy (ext : Ext) : Val → PyObj
  | .bytes b => .bytes b
  | .str s => .str s
  | .int i => .int i
  | .tuple vs => .seq (vs.map (fun | .bytes b => .bytes b | .int i => .int i))
  | .other n => .other (ext.pyRepr (.other n))

/-- A `dict`. -/
def vdictToPy (ext : Ext) (d : VDict) : PyObj := .dict (d.map (fun kv => (kv.1, kv.2.toPy ext)))

/-- A `PascalStyleDict`: a `UserDict`, whose only attribute is `data`. -/
def userDictToPy (ext : Ext) (d : VDict) : PyObj := .inst [(py! "data", vdictToPy ext d)]

/-- The attributes of a key (key.py:132-147). -/
def Key.toPy (ext : Ext) (k : Key) : PyObj :=
  .inst [(py! "header", vdictToPy ext k.header), (py! "params", userDictToPy ext k.params.data),
    (py! "footer", vdictToPy ext k.footer), (py! "clear", vdictToPy ext k.clear)]

/-- A `PublicPrivateKeyPair` is a tuple (private_key_list.py:26-39). -/
def Pair.toPy (ext : Ext) (p : Pair) : PyObj := .seq [p.pub.toPy ext, p.priv.toPy ext]

def optToPy {α : Type} (f : α → PyObj) : Option α → PyObj
  | none => .none
  | some x => f x

/-- The attributes of a key list: `data` of `UserList`, and private_key_list.py:195-202. -/
def KeyList.toPy (ext : Ext) (l : KeyList) : PyObj :=
  .inst [(py! "data", .seq (l.pairs.map (Pair.toPy ext))), (py! "byte_string", optToPy .bytes l.byteString),
    (py! "header", optToPy (vdictToPy ext) l.header), (py! "cipher_bytes", optToPy .bytes l.cipherBytes),
    (py! "kdf_options", optToPy (fun o => userDictToPy ext o.data) l.kdfOptions),
    (py! "decipher_bytes", optToPy .bytes l.decipherBytes),
    (py! "decipher_bytes_header", optToPy (vdictToPy ext) l.decipherHeader),
    (py! "decipher_padding", optToPy .bytes l.decipherPadding)]

/-- `parsed_contents` (__main__.py:22) -/
def CliResult.toPy (ext : Ext) : CliResult → PyObj
  | .keyList l => l.toPy ext
  | .publicKeys ks => .seq (ks.map (Key.toPy ext))

/-- `KeyJSONEncoder(indent=JSON_INDENT).encode(parsed_contents)` (__main__.py:45) -/
def render (ext : Ext) (maxDigits : Nat) (r : CliResult) : Except Exn Str := jsonEncode maxDigits 0 (r.toPy ext)

/-- Universal newlines: reading in text mode turns `'\r\n'` and `'\r'` into `'\n'`. -/
def universalNewlines : Str → Str
  | [] => []
  | 13 :: 10 :: t => 10 :: universalNewlines t
  | 13 :: t => 10 :: universalNewlines t
  | c :: t => c :: universalNewlines t

/-- `open(filename, encoding='utf8').read()` (__main__.py:19-20), from the bytes of the file. -/
def readText (file : Bytes) : Except Exn Str :=
  match utf8Decode? file with
  | some s => .ok (universalNewlines s)
  | none => .error .unicodeDecodeError

/-- __main__.py:19-45: what is printed. -/
def cliMain (ext : Ext) (cr : Crypto) (inp : Inputs) (maxDigits : Nat) (file : Bytes) (passphrase : Option Str) :
    Eff Str := do
  let contents ← Eff.lift (readText file)
  let r ← cliParse ext cr inp contents passphrase
  let out ← Eff.lift (render ext maxDigits r)
  pure (out ++ py! "\n")

end OSK
