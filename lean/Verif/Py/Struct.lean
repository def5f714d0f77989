import Verif.Py.Int
/-
The part of the `struct` module used by the code, as parsed format strings.
-/
namespace OSK

/-- One item of a `struct` format: an integer code (`b B h H i I l L q Q` have `size` 1,2,4,4,8 and
the given signedness) or `'{n}s'`. -/
inductive SCode where
  | int (size : Nat) (signed : Bool)
  | str (n : Nat)
  deriving DecidableEq, Repr

/-- A `struct` format string: byte order (`'>'` is `big := true`, `'<'` is `false`) and items.
Simplification: the format is given already parsed; native alignment, padding `x`, booleans, floats
and single characters are not modelled (the code uses `'15s'`, `'>i'`, `'>I'`, `'>Q'`, `'>B'`). -/
structure SFmt where
  big : Bool
  items : List SCode
  deriving DecidableEq, Repr

/-- An unpacked `struct` item. -/
inductive SVal where
  | int (i : Int)
  | bytes (b : Bytes)
  deriving DecidableEq, Repr

def SCode.size : SCode → Nat
  | .int n _ => n
  | .str n => n

/-- `struct.calcsize(fmt)` -/
def SFmt.calcsize (f : SFmt) : Nat := (f.items.map SCode.size).sum

/-- Range of an integer item. -/
def SCode.inIntRange (size : Nat) (signed : Bool) (v : Int) : Prop :=
  if signed then -(256 : Int) ^ size ≤ 2 * v ∧ 2 * v < (256 : Int) ^ size
  else 0 ≤ v ∧ v < (256 : Int) ^ size

instance (size : Nat) (signed : Bool) (v : Int) : Decidable (SCode.inIntRange size signed v) := by
  unfold SCode.inIntRange; split <;> infer_instance

/-- Pack one item; `struct.error` if the value is of the wrong kind or out of range.  `'{n}s'` pads
with zero bytes or truncates, as `struct` does. -/
def SCode.pack (big : Bool) : SCode → SVal → Except Exn Bytes
  | .int size signed, .int v =>
    if SCode.inIntRange size signed v then
      let b := natToBE size (v % (256 : Int) ^ size).toNat
      .ok (if big then b else b.reverse)
    else .error .structError
  | .str n, .bytes b => .ok ((b ++ List.replicate n 0).take n)
  | _, _ => .error .structError

/-- Unpack one item from exactly `size` bytes. -/
def SCode.unpack (big : Bool) : SCode → Bytes → SVal
  | .int _ signed, b =>
    let b' := if big then b else b.reverse
    .int (if signed then beInt b' else (beNat b' : Int))
  | .str _, b => .bytes b

/-- `struct.unpack(fmt, b)` for `len(b) == calcsize(fmt)`. -/
def unpackItems (big : Bool) : List SCode → Bytes → List SVal
  | [], _ => []
  | c :: cs, b => c.unpack big (b.take c.size) :: unpackItems big cs (b.drop c.size)

def SFmt.unpack (f : SFmt) (b : Bytes) : List SVal := unpackItems f.big f.items b

/-- `struct.pack(fmt, value)` with exactly one value: the format must have exactly one item. -/
def SFmt.pack1 (f : SFmt) (v : SVal) : Except Exn Bytes :=
  match f.items with
  | [c] => c.pack f.big v
  | _ => .error .structError

/-- `'15s'` -/
def fmt15s : SFmt := ⟨false, [.str 15]⟩
/-- `'>i'` -/
def fmtBEi : SFmt := ⟨true, [.int 4 true]⟩
/-- `'>I'` -/
def fmtBEI : SFmt := ⟨true, [.int 4 false]⟩
/-- `'>Q'` -/
def fmtBEQ : SFmt := ⟨true, [.int 8 false]⟩
/-- `'>B'` -/
def fmtBEB : SFmt := ⟨true, [.int 1 false]⟩

end OSK
