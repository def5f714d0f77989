import Verif.Model.Key
import Mathlib.Data.Int.Bitwise
/-
Model of the flag methods of key_params/sk.py.
-/
namespace OSK

/-- `SecurityKeyFlag` (sk.py:18-43) -/
inductive SkFlag where
  | userPresenceRequired | userVerificationRequired | residentKey
  deriving DecidableEq, Repr

/-- `flag.value` (sk.py:23, 30, 38) -/
def SkFlag.value : SkFlag → Int
  | .userPresenceRequired => 0x1
  | .userVerificationRequired => 0x4
  | .residentKey => 0x20

/-- `get_flag` (sk.py:147-151).  `&` on Python ints is `Int.land` (two's complement with infinitely many
sign bits). -/
def getFlag (d : VDict) (f : SkFlag) : Except Exn Bool :=
  match getItem d (py! "flags") with
  | .error e => .error e
  | .ok (.int x) => .ok (decide (Int.land x f.value ≠ 0))
  | .ok _ => .error .typeError

/-- `self['flags'] += n` for an entry that is an int. -/
def addFlags (d : VDict) (n : Int) : Except Exn Unit × VDict :=
  match getItem d (py! "flags") with
  | .error e => (.error e, d)
  | .ok (.int x) => (.ok (), dset d (py! "flags") (.int (x + n)))
  | .ok _ => (.error .typeError, d)

/-- `set_flag` (sk.py:153-161): outcome and the dict afterwards. -/
def setFlag (d : VDict) (f : SkFlag) (newValue : Bool) : Except Exn Unit × VDict :=
  match getFlag d f with
  | .error e => (.error e, d)
  | .ok currentValue =>
    if newValue && !currentValue then addFlags d f.value
    else if !newValue && currentValue then addFlags d (-f.value)
    else (.ok (), d)

end OSK
