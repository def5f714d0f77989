import Verif.Model.Cert
/-
Model of the validity dates of certificates in key_params/cert.py.
-/
namespace OSK

/-- What the code takes from `datetime` and the local time zone. -/
structure Clock where
  /-- `datetime.datetime` objects -/
  Datetime : Type
  /-- `datetime.datetime.fromtimestamp(v)` -/
  fromTimestamp : Val → Except Exn Datetime
  /-- `t.timestamp()`: a `float`, which is a rational number -/
  timestamp : Datetime → Except Exn Rat

/-- `int(x)`: towards zero -/
def truncate (x : Rat) : Int := x.num.tdiv x.den

/-- `get_valid_after`, `get_valid_before` (cert.py:322-326, 334-338); `param` is `valid_after` or
`valid_before`. -/
def getValid (clock : Clock) (d : VDict) (param : Str) : Except Exn clock.Datetime := do
  let v ← getItem d param
  clock.fromTimestamp v

/-- `set_valid_after`, `set_valid_before` (cert.py:328-332, 340-344): outcome and the dict afterwards. -/
def setValid (clock : Clock) (d : VDict) (param : Str) (t : clock.Datetime) : Except Exn Unit × VDict :=
  match clock.timestamp t with
  | .error e => (.error e, d)
  | .ok x => (.ok (), dset d param (.int (truncate x)))

end OSK
