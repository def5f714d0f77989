import Verif.Model.Validity
/-
`datetime.datetime` of CPython as far as key_params/cert.py uses it: `fromtimestamp(i)` with an `int` and
no time zone, and `timestamp()`.  This follows CPython's Modules/_datetimemodule.c (`local`,
`local_to_seconds`, `datetime_from_timet_and_us`, `datetime_timestamp`) branch by branch.

The fields year, month, day, hour, minute and second of a `datetime` stand for the number of seconds they are
after 1970-01-01 00:00:00 on the calendar of the year (`utc_to_seconds`, with the origin moved to 1970);
distinct fields are distinct numbers and only the years 1 to 9999 exist.
-/
namespace OSK.Std

/-- A time zone: how many seconds the clocks on the wall are ahead of UTC at a moment, which is given in
seconds since 1970-01-01 00:00:00 UTC (`localtime`). -/
structure Zone where
  off : Int → Int

/-- A `datetime.datetime`. -/
inductive Datetime where
  /-- without a time zone: the fields as seconds, `microsecond`, `fold` -/
  | naive (secs : Int) (us : Nat) (fold : Bool)
  /-- with a time zone: the fields as seconds, `microsecond`, and `utcoffset()` in microseconds -/
  | aware (secs : Int) (us : Nat) (offset : Int)
  deriving DecidableEq, Repr

/-- 0001-01-01 00:00:00 -/
def minSecs : Int := -62135596800
/-- 9999-12-31 23:59:59 -/
def maxSecs : Int := 253402300799
/-- `max_fold_seconds` -/
def day : Int := 86400

def yearError : Exn := .valueError "year is out of range"

/-- `local(u)`: what the clocks on the wall show at the moment `u`.  Simplification: where the year does not
fit a C `int`, CPython raises an `OSError`. -/
def Zone.wall (z : Zone) (u : Int) : Except Exn Int :=
  let w := u + z.off u
  if minSecs ≤ w ∧ w ≤ maxSecs then .ok w else .error yearError

/-- `datetime.datetime.fromtimestamp(i)`: `datetime_from_timet_and_us`. -/
def Zone.fromSeconds (z : Zone) (i : Int) : Except Exn Datetime :=
  if i < -2 ^ 63 ∨ 2 ^ 63 ≤ i then .error .overflowError
  else do
    let result ← z.wall i
    let probe ← z.wall (i - day)
    let transition := result - probe - day
    if transition < 0 then
      let probe ← z.wall (i + transition)
      .ok (.naive result 0 (probe == result))
    else .ok (.naive result 0 false)

/-- `local_to_seconds`: the moment at which the clocks on the wall show `t`. -/
def Zone.toSeconds (z : Zone) (t : Int) (fold : Bool) : Except Exn Int := do
  let lt ← z.wall t
  let a := lt - t
  let u1 := t - a
  let t1 ← z.wall u1
  if t1 = t then
    let u2 := if fold then u1 + day else u1 - day
    let lt ← z.wall u2
    let b := lt - u2
    if a = b then .ok u1
    else
      let u2 := t - b
      let t2 ← z.wall u2
      if t2 = t then .ok u2 else .ok u1
  else
    let b := t1 - u1
    let u2 := t - b
    let t2 ← z.wall u2
    if t2 = t then .ok u2 else .ok (if fold then min u1 u2 else max u1 u2)

/-- The nearest whole number, of two equally near ones the even one. -/
def halfEven (x : Rat) : Int :=
  let f := x.floor
  let r := x - f
  if r < 1 / 2 then f else if 1 / 2 < r then f + 1 else if f % 2 = 0 then f else f + 1

/-- `x * 2^k` -/
def scale (x : Rat) (k : Int) : Rat := if 0 ≤ k then x * 2 ^ k.toNat else x / 2 ^ (-k).toNat

/-- The exponent of the first binary digit of `x ≠ 0`: `2^e ≤ |x| < 2^(e+1)`. -/
def exponent (x : Rat) : Int :=
  let e : Int := (Nat.log2 x.num.natAbs : Int) - Nat.log2 x.den
  if (2 : Rat) ^ e.toNat * x.den ≤ x.num.natAbs * (2 : Rat) ^ (-e).toNat then e else e - 1

/-- The `float` nearest to `x` (IEEE 754 double: 53 binary digits).  Simplification: numbers too large or too
close to zero for a `float` do not occur. -/
def double (x : Rat) : Rat :=
  if x = 0 then 0
  else
    let k := 52 - exponent x
    scale (halfEven (scale x k)) (-k)

/-- `t.timestamp()`: `datetime_timestamp`; with a time zone, `(self - epoch).total_seconds()`. -/
def Zone.stamp (z : Zone) : Datetime → Except Exn Rat
  | .naive secs us fold => do
    let s ← z.toSeconds secs fold
    .ok (double (s + double ((us : Rat) / 1000000)))
  | .aware secs us offset => .ok (double (((secs * 1000000 + us - offset : Int) : Rat) / 1000000))

/-- The `datetime` of a machine whose time zone is `z`.  Simplification: `fromtimestamp` also takes `float`s,
which are among `Val.other`. -/
def Zone.clock (z : Zone) : Clock where
  Datetime := Datetime
  fromTimestamp v := match v with
    | .int i => z.fromSeconds i
    | _ => .error .typeError
  timestamp := z.stamp

/-- A time zone from a table of changes, in order: the offset before the first, and for every change the
moment and the offset from then on. -/
def Zone.ofTable (first : Int) (changes : List (Int × Int)) : Zone where
  off u := changes.foldl (fun o c => if c.1 ≤ u then c.2 else o) first

end OSK.Std
