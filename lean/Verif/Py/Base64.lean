import Verif.Py.Basic
/-
`base64.b64encode` and `base64.b64decode` (with the default `validate=False`).
-/
namespace OSK

/-- The base64 alphabet, indexed by 6-bit value. -/
def b64Char (n : Nat) : UInt8 :=
  if n < 26 then UInt8.ofNat (65 + n)
  else if n < 52 then UInt8.ofNat (97 + (n - 26))
  else if n < 62 then UInt8.ofNat (48 + (n - 52))
  else if n = 62 then 43
  else 47

/-- Value of a base64 character, `none` for everything else (including `'='`). -/
def b64Val (c : UInt8) : Option Nat :=
  let n := c.toNat
  if 65 ≤ n ∧ n ≤ 90 then some (n - 65)
  else if 97 ≤ n ∧ n ≤ 122 then some (n - 97 + 26)
  else if 48 ≤ n ∧ n ≤ 57 then some (n - 48 + 52)
  else if n = 43 then some 62
  else if n = 47 then some 63
  else none

/-- `base64.b64encode(b)` (`binascii.b2a_base64` without the newline). -/
def b64encode : Bytes → Bytes
  | [] => []
  | [a] => [b64Char (a.toNat / 4), b64Char (a.toNat % 4 * 16), 61, 61]
  | [a, b] =>
    [b64Char (a.toNat / 4), b64Char (a.toNat % 4 * 16 + b.toNat / 16), b64Char (b.toNat % 16 * 4), 61]
  | a :: b :: c :: t =>
    b64Char (a.toNat / 4) :: b64Char (a.toNat % 4 * 16 + b.toNat / 16)
      :: b64Char (b.toNat % 16 * 4 + c.toNat / 64) :: b64Char (c.toNat % 64) :: b64encode t

/-- The loop of CPython's `binascii.a2b_base64` in non-strict mode (Modules/binascii.c).  State: position in
the current quad, left-over bits, consecutive pads, and the output so far.  A `'='` that completes the
quad ends the input; other `'='` and all non-alphabet characters are skipped; leftover characters at
the end are `binascii.Error`. -/
def a2bLoop : Bytes → (quad left pads : Nat) → (out : Bytes) → Except Exn Bytes
  | [], quad, _, _, out => if quad = 0 then .ok out else .error .binasciiError
  | c :: t, quad, left, pads, out =>
    if c = 61 then
      if 2 ≤ quad then
        if 4 ≤ quad + (pads + 1) then .ok out else a2bLoop t quad left (pads + 1) out
      else a2bLoop t quad left pads out
    else
      match b64Val c with
      | none => a2bLoop t quad left pads out
      | some v =>
        if quad = 0 then a2bLoop t 1 v 0 out
        else if quad = 1 then a2bLoop t 2 (v % 16) 0 (out ++ [UInt8.ofNat (left * 4 + v / 16)])
        else if quad = 2 then a2bLoop t 3 (v % 4) 0 (out ++ [UInt8.ofNat (left * 16 + v / 4)])
        else a2bLoop t 0 0 0 (out ++ [UInt8.ofNat (left * 64 + v)])

/-- `binascii.a2b_base64(b)` / `base64.b64decode(b)` for a byte string -/
def b64decode (b : Bytes) : Except Exn Bytes := a2bLoop b 0 0 0 []

/-- `base64.b64decode(s)` for a `str`: non-ASCII characters raise `ValueError`. -/
def b64decodeStr (s : Str) : Except Exn Bytes :=
  if s.all (fun c => c < 128) then b64decode (s.map UInt8.ofNat)
  else .error (.valueError "string argument should contain only ASCII characters")

/-- `base64.b64encode(b).decode()` -/
def b64encodeStr (b : Bytes) : Str := (b64encode b).map UInt8.toNat

end OSK
