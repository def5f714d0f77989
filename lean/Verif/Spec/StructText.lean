import Verif.Model.StructText
import Verif.Spec.TwosComplement
/-
Format strings as the documentation of `struct` describes them: a byte order, then codes with counts in front of them and white space
between them; where the values are; which bytes hold which value.
-/
namespace OSK.Spec

/-- The first character: whether sizes and alignment are the machine's, and whether the most significant byte comes first. -/
inductive OrderMark : Str → (native big : Bool) → Prop
  | absent : OrderMark [] true false
  | atSign : OrderMark (py! "@") true false
  | equals : OrderMark (py! "=") false false
  | less : OrderMark (py! "<") false false
  | greater : OrderMark (py! ">") false true
  | exclamation : OrderMark (py! "!") false true

/-- Codes with their sizes, in the table of the documentation. -/
def formatCodes (native : Bool) : List (Char × FKind × Nat) :=
  [('x', .pad, 1), ('c', .char, 1), ('b', .int true, 1), ('B', .int false, 1), ('?', .bool native, 1), ('h', .int true, 2), ('H', .int false, 2),
   ('i', .int true, 4), ('I', .int false, 4), ('l', .int true, if native then 8 else 4), ('L', .int false, if native then 8 else 4),
   ('q', .int true, 8), ('Q', .int false, 8), ('e', .float, 2), ('f', .float, 4), ('d', .float, 8), ('s', .bytes, 1), ('p', .pascal, 1)] ++
  (if native then [('n', .int true, 8), ('N', .int false, 8), ('P', .pointer, 8)] else [])

/-- A code with its count and the white space in front of both. -/
structure FormatItem where
  blanks : Str
  digits : Str
  code : Char
  kind : FKind
  size : Nat

def FormatItem.text (i : FormatItem) : Str := i.blanks ++ i.digits ++ [i.code.toNat]

/-- White space in C. -/
def FormatBlank (c : Nat) : Prop := c ∈ py! " \t\n\r" ∨ c = 11 ∨ c = 12

def FormatItem.Legal (native : Bool) (i : FormatItem) : Prop :=
  (∀ c ∈ i.blanks, FormatBlank c) ∧ (∀ c ∈ i.digits, c ∈ py! "0123456789") ∧ (i.code, i.kind, i.size) ∈ formatCodes native

/-- The number that decimal digits stand for. -/
def formatNumber : Str → Nat
  | [] => 0
  | c :: t => (c - '0'.toNat) * 10 ^ t.length + formatNumber t

def FormatItem.count (i : FormatItem) : Nat := if i.digits = [] then 1 else formatNumber i.digits

/-- Where a value is. -/
structure Place where
  kind : FKind
  offset : Nat
  size : Nat

/-- The values of an item that begins at `off`.  The count of `s` and `p` is the size of one value. -/
def FormatItem.places (i : FormatItem) (off : Nat) : List Place :=
  match i.kind with
  | .pad => []
  | .bytes | .pascal => [⟨i.kind, off, i.count⟩]
  | _ => (List.range i.count).map (fun j => ⟨i.kind, off + j * i.size, i.size⟩)

/-- An item begins where the one in front of it ends; with the machine's alignment, at the next multiple of its size. -/
def Starts (native : Bool) (size e off : Nat) : Prop :=
  e ≤ off ∧ (native = true → size ∣ off) ∧ ∀ o, e ≤ o → (native = true → size ∣ o) → off ≤ o

/-- The items from `e` to `n` and the places of their values. -/
inductive Laid (native : Bool) : Nat → List FormatItem → List Place → Nat → Prop
  | nil (e : Nat) : Laid native e [] [] e
  | cons {e off n : Nat} {i : FormatItem} {is : List FormatItem} {ps : List Place} (h : Starts native i.size e off)
      (t : Laid native (off + i.count * i.size) is ps n) : Laid native e (i :: is) (i.places off ++ ps) n

/-- `s` is a format string: for `n` bytes, with values at these places. -/
def IsFormat (s : Str) (big : Bool) (places : List Place) (n : Nat) : Prop :=
  ∃ mark native items blanks, OrderMark mark native big ∧ s = mark ++ items.flatMap FormatItem.text ++ blanks ∧
    (∀ i ∈ items, i.Legal native) ∧ (∀ c ∈ blanks, FormatBlank c) ∧ Laid native 0 items places n ∧ n < 2 ^ 63

/-- The most significant byte first. -/
def ordered (big : Bool) (b : Bytes) : Bytes := if big then b else b.reverse

/-- These bytes hold this value. -/
def Holds (fl : Floats) (big : Bool) (k : FKind) (b : Bytes) (v : SVal) : Prop :=
  match k with
  | .int true => v = .int (tcVal (ordered big b))
  | .int false | .pointer => v = .int (digitSum (ordered big b))
  | .bool native => (b = [0] ∧ v = .int 0) ∨ (b = [1] ∧ v = .int 1) ∨
      (b ≠ [0] ∧ b ≠ [1] ∧ v = .int (if native then (if fl.odd b then 1 else 0) else 1))
  | .float => v = fl.unpack (ordered big b)
  | .char | .bytes | .pad => v = .bytes b
  | .pascal => ∃ n t, b = n :: t ∧ v = .bytes (t.take n.toNat)

/-- The values that count as false: zero, and everything that is empty; of other objects `fl` says which. -/
def Falsy (fl : Floats) (v : Val) : Prop :=
  v = .int 0 ∨ v = .bytes [] ∨ v = .str [] ∨ v = .tuple [] ∨ ∃ n, v = .other n ∧ fl.truth n = false

/-- These bytes, as many as the place has, are written for this value. -/
def Stored (fl : Floats) (big : Bool) (k : FKind) (size : Nat) (v : Val) (x : Bytes) : Prop :=
  match k with
  | .int signed => ∃ i, v = .int i ∧ x.length = size ∧ (if signed then tcVal (ordered big x) else (digitSum (ordered big x) : Int)) = i
  | .pointer => ∃ i, v = .int i ∧ x.length = size ∧ (tcVal (ordered big x) = i ∨ (digitSum (ordered big x) : Int) = i)
  | .bool _ => (Falsy fl v ∧ x = [0]) ∨ (¬ Falsy fl v ∧ x = [1])
  | .float => fl.pack size v = .ok (ordered big x)
  | .char => v = .bytes x ∧ x.length = 1
  | .bytes => ∃ b, v = .bytes b ∧ x = b.take size ++ List.replicate (size - b.length) 0
  | .pascal => ∃ b, v = .bytes b ∧ ((size = 0 ∧ x = []) ∨ (0 < size ∧ ∃ n : UInt8, n.toNat = min (min b.length (size - 1)) 255 ∧
      x = n :: b.take (size - 1) ++ List.replicate (size - 1 - b.length) 0))
  | .pad => False

/-- Values that come back as they were. -/
def Lossless (k : FKind) (size : Nat) (v : Val) : Prop :=
  match k, v with
  | .int _, .int _ => True
  | .bool _, .int i => i = 0 ∨ i = 1
  | .char, .bytes _ => True
  | .bytes, .bytes b => b.length = size
  | .pascal, .bytes b => b.length < size ∧ b.length ≤ 255
  | .pointer, .int i => 0 ≤ i
  | _, _ => False

end OSK.Spec
