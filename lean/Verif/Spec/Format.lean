import Verif.Model.Stream
/-
Vocabulary for stating properties of records.
-/
namespace OSK.Spec

/-- Values that are stored without loss: length-prefix sizes are positive and `'{n}s'` values have
exactly `n` bytes (`struct` pads or truncates others). -/
def Exact : FI → Val → Prop
  | .struct f, .bytes b => b.length = f.calcsize
  | .pascalSized _ size, _ => 0 < size
  | _, _ => True

/-- All values that the format names are stored without loss. -/
def ExactRecord (fmt : FDict) (d : VDict) : Prop :=
  ∀ k fi v, (k, fi) ∈ fmt → dget d k = some v → Exact fi v

/-- The values named by the format, in format order. -/
def named (fmt : FDict) (d : VDict) : VDict :=
  fmt.filterMap (fun kf => (dget d kf.1).map (fun v => (kf.1, v)))

/-- A record of this format occupies at least one byte: some field is not a zero-size struct. -/
def NonEmptyRecord (fmt : FDict) : Prop :=
  ∃ kf ∈ fmt, ∀ f, kf.2 = .struct f → 0 < f.calcsize

/-- The instructions are recognised, length-prefix sizes are positive, and no size exceeds
`sys.maxsize`. -/
def WellFormed (fmt : FDict) : Prop :=
  ∀ kf ∈ fmt, match kf.2 with
    | .struct f => f.calcsize ≤ pyMaxSize
    | .pascal _ => True
    | .pascalSized _ size => 0 < size ∧ size ≤ (pyMaxSize : Int)
    | .unrecognised => False

/-- The value is of the Python class that the instruction asks for (`None` for instructions that are
not recognised); struct formats must have exactly one item, and ints must be in range. -/
def HasClass : FI → Val → Prop
  | .struct f, v =>
    match f.items, v with
    | [.int size signed], .int i =>
      if signed then -(256 : Int) ^ size ≤ 2 * i ∧ 2 * i < (256 : Int) ^ size
      else 0 ≤ i ∧ i < (256 : Int) ^ size
    | [.str _], .bytes _ => True
    | _, _ => False
  | .pascal .bytes, v | .pascalSized .bytes _, v => ∃ b, v = .bytes b
  | .pascal .string, v | .pascalSized .string _, v => ∃ s, v = .str s
  | .pascal .mpint, v | .pascalSized .mpint _, v => ∃ i, v = .int i
  | .unrecognised, _ => False

end OSK.Spec
