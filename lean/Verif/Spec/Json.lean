import Verif.Model.Cli
import Verif.Spec.Text
import Mathlib.Data.List.Forall2
/-
JSON texts (RFC 8259), Python bytes literals, and which JSON document describes a parsed file; independently of the
encoder.
-/
namespace OSK.Spec

/-- A JSON value.  Numbers are integers; objects keep the order of their members. -/
inductive Json where
  | null
  | int (i : Int)
  | text (cs : List Char)
  | list (l : List Json)
  | object (m : List (List Char × Json))

/-- `ws` of RFC 8259 section 2 -/
def Ws (w : Str) : Prop := ∀ c ∈ w, c = 0x20 ∨ c = 0x09 ∨ c = 0x0a ∨ c = 0x0d

/-- Number that a string of decimal digits denotes. -/
def decValue (ds : Str) : Nat := ds.foldl (fun n d => 10 * n + (d - 48)) 0

/-- A non-empty string of decimal digits without needless zeros. -/
def Digits (ds : Str) : Prop := ds ≠ [] ∧ (∀ d ∈ ds, 48 ≤ d ∧ d ≤ 57) ∧ (ds.head? = some 48 → ds = [48])

/-- `s` denotes the integer `i` (RFC 8259 section 6, without fraction and exponent). -/
inductive IntText : Int → Str → Prop
  | pos {ds : Str} : Digits ds → IntText (decValue ds) ds
  | neg {ds : Str} : Digits ds → IntText (-(decValue ds : Int)) (45 :: ds)

/-- `h` is a hexadecimal digit with value `n`. -/
def HexDigit (n h : Nat) : Prop :=
  (n < 10 ∧ h = 48 + n) ∨ (10 ≤ n ∧ n < 16 ∧ (h = 55 + n ∨ h = 87 + n))

/-- The same with small letters only. -/
def SmallHexDigit (n h : Nat) : Prop :=
  (n < 10 ∧ h = 48 + n) ∨ (10 ≤ n ∧ n < 16 ∧ h = 87 + n)

/-- `s` is the four hexadecimal digits of `n`. -/
def Hex4 (n : Nat) (s : Str) : Prop :=
  ∃ a b c d x y z t, HexDigit a x ∧ HexDigit b y ∧ HexDigit c z ∧ HexDigit d t ∧ s = [x, y, z, t] ∧
    n = 4096 * a + 256 * b + 16 * c + d

/-- The escapes of one letter (RFC 8259 section 7). -/
def shortEscapes : List (Nat × Nat) :=
  [(0x22, 0x22), (0x5c, 0x5c), (0x2f, 0x2f), (8, 0x62), (12, 0x66), (10, 0x6e), (13, 0x72), (9, 0x74)]

/-- `s` denotes the character `c` within a string (RFC 8259 section 7). -/
inductive CharText : Char → Str → Prop
  | plain {c : Char} : 0x20 ≤ c.toNat → c.toNat ≠ 0x22 → c.toNat ≠ 0x5c → CharText c [c.toNat]
  | short {c : Char} {e : Nat} : (c.toNat, e) ∈ shortEscapes → CharText c [0x5c, e]
  | hex {c : Char} {s : Str} : Hex4 c.toNat s → CharText c ([0x5c, 0x75] ++ s)
  | surrogates {c : Char} {hi lo : Nat} {s s' : Str} : Hex4 (0xd800 + hi) s → Hex4 (0xdc00 + lo) s' → hi < 1024 →
      lo < 1024 → c.toNat = 0x10000 + 1024 * hi + lo → CharText c ([0x5c, 0x75] ++ s ++ ([0x5c, 0x75] ++ s'))

inductive CharsText : List Char → Str → Prop
  | nil : CharsText [] []
  | cons {c : Char} {cs : List Char} {s s' : Str} : CharText c s → CharsText cs s' → CharsText (c :: cs) (s ++ s')

/-- `s` denotes the string `cs`. -/
inductive StringText (cs : List Char) : Str → Prop
  | mk {s : Str} : CharsText cs s → StringText cs ([0x22] ++ s ++ [0x22])

/-- What a piece of JSON text can be. -/
inductive Piece where
  | value (j : Json)
  /-- the values of an array, with the commas -/
  | items (l : List Json)
  /-- the members of an object, with the commas -/
  | members (m : List (List Char × Json))

/-- `s` is JSON text for a piece (RFC 8259 sections 2 to 5). -/
inductive PieceText : Piece → Str → Prop
  | null : PieceText (.value .null) (py! "null")
  | int {i : Int} {s : Str} : IntText i s → PieceText (.value (.int i)) s
  | text {cs : List Char} {s : Str} : StringText cs s → PieceText (.value (.text cs)) s
  | emptyList {w : Str} : Ws w → PieceText (.value (.list [])) ([0x5b] ++ w ++ [0x5d])
  | list {l : List Json} {w s w' : Str} : Ws w → PieceText (.items l) s → Ws w' →
      PieceText (.value (.list l)) ([0x5b] ++ w ++ s ++ w' ++ [0x5d])
  | emptyObject {w : Str} : Ws w → PieceText (.value (.object [])) ([0x7b] ++ w ++ [0x7d])
  | object {m : List (List Char × Json)} {w s w' : Str} : Ws w → PieceText (.members m) s → Ws w' →
      PieceText (.value (.object m)) ([0x7b] ++ w ++ s ++ w' ++ [0x7d])
  | item {x : Json} {s : Str} : PieceText (.value x) s → PieceText (.items [x]) s
  | items {x : Json} {l : List Json} {s w w' s' : Str} : PieceText (.value x) s → Ws w → Ws w' →
      PieceText (.items l) s' → PieceText (.items (x :: l)) (s ++ w ++ [0x2c] ++ w' ++ s')
  | member {k : List Char} {x : Json} {n w w' s : Str} : StringText k n → Ws w → Ws w' → PieceText (.value x) s →
      PieceText (.members [(k, x)]) (n ++ w ++ [0x3a] ++ w' ++ s)
  | members {k : List Char} {x : Json} {m : List (List Char × Json)} {n w w' s v v' s' : Str} : StringText k n → Ws w →
      Ws w' → PieceText (.value x) s → Ws v → Ws v' → PieceText (.members m) s' →
      PieceText (.members ((k, x) :: m)) (n ++ w ++ [0x3a] ++ w' ++ s ++ v ++ [0x2c] ++ v' ++ s')

/-- A new line, and four blanks for each level. -/
def lineAt (level : Nat) : Str := py! "\n" ++ List.replicate (4 * level) 0x20

/-- `s` is JSON text for a piece at some level of nesting, laid out in lines: one for each value of an array and each member of an
object, with four blanks for each level in front of it, and one for the closing bracket; a blank after each colon, nothing in
empty arrays and objects, and nothing else between the parts. -/
inductive LaidOut : Nat → Piece → Str → Prop
  | null {n : Nat} : LaidOut n (.value .null) (py! "null")
  | int {n : Nat} {i : Int} {s : Str} : IntText i s → LaidOut n (.value (.int i)) s
  | text {n : Nat} {cs : List Char} {s : Str} : StringText cs s → LaidOut n (.value (.text cs)) s
  | emptyList {n : Nat} : LaidOut n (.value (.list [])) (py! "[]")
  | list {n : Nat} {l : List Json} {s : Str} : LaidOut (n + 1) (.items l) s →
      LaidOut n (.value (.list l)) (py! "[" ++ lineAt (n + 1) ++ s ++ lineAt n ++ py! "]")
  | emptyObject {n : Nat} : LaidOut n (.value (.object [])) (py! "{}")
  | object {n : Nat} {m : List (List Char × Json)} {s : Str} : LaidOut (n + 1) (.members m) s →
      LaidOut n (.value (.object m)) (py! "{" ++ lineAt (n + 1) ++ s ++ lineAt n ++ py! "}")
  | item {n : Nat} {x : Json} {s : Str} : LaidOut n (.value x) s → LaidOut n (.items [x]) s
  | items {n : Nat} {x : Json} {l : List Json} {s s' : Str} : LaidOut n (.value x) s → LaidOut n (.items l) s' →
      LaidOut n (.items (x :: l)) (s ++ py! "," ++ lineAt n ++ s')
  | member {n : Nat} {k : List Char} {x : Json} {t s : Str} : StringText k t → LaidOut n (.value x) s →
      LaidOut n (.members [(k, x)]) (t ++ py! ": " ++ s)
  | members {n : Nat} {k : List Char} {x : Json} {m : List (List Char × Json)} {t s s' : Str} : StringText k t →
      LaidOut n (.value x) s → LaidOut n (.members m) s' →
      LaidOut n (.members ((k, x) :: m)) (t ++ py! ": " ++ s ++ py! "," ++ lineAt n ++ s')

/-- `s` is a JSON document for `j`. -/
inductive Document (j : Json) : Str → Prop
  | mk {w s w' : Str} : Ws w → PieceText (.value j) s → Ws w' → Document j (w ++ s ++ w')

/-- `s` denotes the byte `x` within a bytes literal with quote `q` (Python reference, section 2.4.1; the escapes
that `repr` does not use are left out). -/
inductive ByteText (q : Nat) : UInt8 → Str → Prop
  | plain {x : UInt8} : 0x20 ≤ x.toNat → x.toNat < 0x7f → x.toNat ≠ q → x.toNat ≠ 0x5c → ByteText q x [x.toNat]
  | escape {x : UInt8} {e : Nat} :
      (x.toNat, e) ∈ [(0x27, 0x27), (0x22, 0x22), (0x5c, 0x5c), (10, 0x6e), (13, 0x72), (9, 0x74)] →
      ByteText q x [0x5c, e]
  | hex {x : UInt8} {a b h l : Nat} : SmallHexDigit a h → SmallHexDigit b l → x.toNat = 16 * a + b →
      ByteText q x [0x5c, 0x78, h, l]

inductive BytesText (q : Nat) : Bytes → Str → Prop
  | nil : BytesText q [] []
  | cons {x : UInt8} {b : Bytes} {s s' : Str} : ByteText q x s → BytesText q b s' → BytesText q (x :: b) (s ++ s')

/-- `s` is a Python bytes literal for `b`. -/
inductive BytesLiteral (b : Bytes) : Str → Prop
  | mk {q : Nat} {s : Str} : q = 0x27 ∨ q = 0x22 → BytesText q b s → BytesLiteral b ([0x62, q] ++ s ++ [q])

/-- How a value is shown: an integer as a number, text as a string, bytes as a string that holds a bytes
literal. -/
inductive ValShows : Val → Json → Prop
  | int {i : Int} : ValShows (.int i) (.int i)
  | str {cs : List Char} : ValShows (.str (strOf cs)) (.text cs)
  | bytes {b : Bytes} {cs : List Char} : BytesLiteral b (strOf cs) → ValShows (.bytes b) (.text cs)

/-- A dictionary is shown as an object with the same members in the same order. -/
def DictShows (d : VDict) (j : Json) : Prop :=
  ∃ m, j = .object m ∧ List.Forall₂ (fun kv e => kv.1 = strOf e.1 ∧ ValShows kv.2 e.2) d m

/-- The dictionaries of parameters are shown with one more level. -/
def DataShows (d : VDict) (j : Json) : Prop := ∃ x, j = .object [("data".toList, x)] ∧ DictShows d x

def KeyShows (k : Key) (j : Json) : Prop :=
  ∃ h p f c, j = .object [("header".toList, h), ("params".toList, p), ("footer".toList, f), ("clear".toList, c)] ∧
    DictShows k.header h ∧ DataShows k.params.data p ∧ DictShows k.footer f ∧ DictShows k.clear c

def PairShows (p : Pair) (j : Json) : Prop := ∃ a b, j = .list [a, b] ∧ KeyShows p.pub a ∧ KeyShows p.priv b

/-- An absent part is shown as `null`. -/
inductive OptShows {α : Type} (P : α → Json → Prop) : Option α → Json → Prop
  | none : OptShows P .none .null
  | some {x : α} {j : Json} : P x j → OptShows P (.some x) j

def BytesShows (b : Bytes) (j : Json) : Prop := ValShows (.bytes b) j

/-- How the result of the program is shown. -/
inductive ResultShows : CliResult → Json → Prop
  | keys {ks : List Key} {l : List Json} : List.Forall₂ KeyShows ks l → ResultShows (.publicKeys ks) (.list l)
  | list {kl : KeyList} {l : List Json} {b h c o d dh dp : Json} : List.Forall₂ PairShows kl.pairs l →
      OptShows BytesShows kl.byteString b → OptShows DictShows kl.header h → OptShows BytesShows kl.cipherBytes c →
      OptShows (fun o => DataShows o.data) kl.kdfOptions o → OptShows BytesShows kl.decipherBytes d →
      OptShows DictShows kl.decipherHeader dh → OptShows BytesShows kl.decipherPadding dp →
      ResultShows (.keyList kl) (.object [("data".toList, .list l), ("byte_string".toList, b), ("header".toList, h),
        ("cipher_bytes".toList, c), ("kdf_options".toList, o), ("decipher_bytes".toList, d),
        ("decipher_bytes_header".toList, dh), ("decipher_padding".toList, dp)])

/-- The integer `i` is one of the values of a key. -/
def NumberIn (k : Key) (i : Int) : Prop :=
  ∃ n, (n, Val.int i) ∈ k.header ∨ (n, Val.int i) ∈ k.params.data ∨ (n, Val.int i) ∈ k.footer ∨ (n, Val.int i) ∈ k.clear

/-- The integer `i` is somewhere in the result. -/
inductive Number : CliResult → Int → Prop
  | key {ks : List Key} {k : Key} {i : Int} : k ∈ ks → NumberIn k i → Number (.publicKeys ks) i
  | pub {kl : KeyList} {p : Pair} {i : Int} : p ∈ kl.pairs → NumberIn p.pub i → Number (.keyList kl) i
  | priv {kl : KeyList} {p : Pair} {i : Int} : p ∈ kl.pairs → NumberIn p.priv i → Number (.keyList kl) i
  | header {kl : KeyList} {h : VDict} {n : Str} {i : Int} : kl.header = some h → (n, .int i) ∈ h → Number (.keyList kl) i
  | options {kl : KeyList} {o : KdfOptions} {n : Str} {i : Int} : kl.kdfOptions = some o → (n, .int i) ∈ o.data →
      Number (.keyList kl) i
  | decipherHeader {kl : KeyList} {h : VDict} {n : Str} {i : Int} : kl.decipherHeader = some h → (n, .int i) ∈ h →
      Number (.keyList kl) i

/-- The number has at most `maxDigits` decimal digits; 0 stands for no limit. -/
def FewDigits (maxDigits : Nat) (i : Int) : Prop := maxDigits = 0 ∨ i.natAbs < 10 ^ maxDigits

end OSK.Spec
