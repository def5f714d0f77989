/-
Python runtime pieces used by the model: byte strings, text, exceptions as values, effect log.
-/
namespace OSK

/-- Python `bytes`. -/
abbrev Bytes := List UInt8

/-- Python `str`, as its list of code points.  (Python strings may contain lone surrogates
U+D800..U+DFFF, hence `Nat` rather than `Char`.) -/
abbrev Str := List Nat

/-- `py! "abc"` is the list of code points of the literal (expanded at elaboration time). -/
syntax "py!" str : term
macro_rules
  | `(py! $s:str) => do
    let cs := (s.getString.toList.map (fun c => Lean.Syntax.mkNumLit (toString c.toNat))).toArray
    `(([$cs,*] : List Nat))

/-- `pb! "abc"` is the byte string of an ASCII literal (expanded at elaboration time). -/
syntax "pb!" str : term
macro_rules
  | `(pb! $s:str) => do
    let cs := (s.getString.toList.map (fun c => Lean.Syntax.mkNumLit (toString c.toNat))).toArray
    `(([$cs,*] : List UInt8))

/-- The texts of `warnings.warn(...)` calls, structured. -/
inductive Warning where
  /-- `k + ' missing'` -/
  | missing (k : Str)
  /-- `k + ' should be formatted as ' + v` -/
  | shouldBeFormatted (k : Str)
  /-- `k + ' should be of class ' + ...` -/
  | shouldBeOfClass (k : Str)
  /-- 'Excess bytes in key' -/
  | excessBytes
  /-- 'Inconsistency between clear and encoded key types' -/
  | clearTypeMismatch
  /-- 'Cipher header check numbers do not match' -/
  | checkNumbers
  /-- 'Inconsistency between private and public key types for key {i}' -/
  | pairTypeMismatch (i : Nat)
  /-- 'Inconsistency between private and public values for key {i}' -/
  | pairValueMismatch (i : Nat)
  /-- 'Incorrect padding at end of ciphertext' -/
  | padding
  /-- 'Public key not of length 32' -/
  | ed25519PublicLength
  /-- 'Public key does not match' -/
  | ed25519PublicMismatch
  /-- 'Private key not of length 32' -/
  | ed25519PrivateLength
  /-- 'The curve identifier encoded in the public key does not correspond to the key type' -/
  | curveIdentifier
  /-- 'The point does not lie on the elliptic curve indicated by the identifier' -/
  | notOnCurve
  /-- 'Duplicate option ' ... ' in ' ... -/
  | duplicateOption (option param : Str)
  /-- 'Not a valid certificate principal type' -/
  | certType
  /-- 'Invalid format for certificate principals list' -/
  | certPrincipals
  /-- 'Invalid format for critical options list' -/
  | certCriticalOptions
  /-- 'Invalid format for extensions list' -/
  | certExtensions
  /-- 'The certificate authority must not be a certificate' -/
  | caIsCert
  /-- 'Certificate authority is not a valid key' -/
  | caInvalid
  /-- f'Could not parse line {i}' -/
  | couldNotParseLine (i : Nat)
  deriving DecidableEq, Repr

/-- Python exceptions, as values.  The constructors are the exception classes that the modelled
code can raise; `UnicodeDecodeError`, `UnicodeEncodeError` and `binascii.Error` are subclasses of
`ValueError` in Python (see `Exn.isValueError`).  Exception texts are only kept where the code has
several `ValueError`s worth telling apart. -/
inductive Exn where
  /-- `EOFError(empty, text)`, pascal_style_byte_stream.py:244-247 -/
  | eofError (empty : Bool) (text : Str)
  | valueError (msg : String)
  | unicodeDecodeError
  | unicodeEncodeError
  | binasciiError
  | overflowError
  /-- `KeyError(key)`; `none` when the key is not a `str` -/
  | keyError (key : Option Str)
  | indexError
  | typeError
  /-- `struct.error` (a direct subclass of `Exception`) -/
  | structError
  | notImplementedError
  /-- `cryptography.exceptions.InvalidTag` -/
  | invalidTag
  /-- `cryptography.exceptions.InvalidSignature` -/
  | invalidSignature
  /-- `RecursionError` -/
  | recursionError
  /-- `SystemError` (`struct.unpack` with the format `0p`) -/
  | systemError
  /-- `KeyboardInterrupt` (a direct subclass of `BaseException`), raised by `getpass.getpass` only -/
  | keyboardInterrupt
  /-- The `UserWarning` that `warnings.warn` raises where the warning filter says `error`
  (Model/Filtered.lean); under the default filter nothing raises it -/
  | userWarning (w : Warning)
  deriving DecidableEq, Repr

/-- `isinstance(e, ValueError)`. -/
def Exn.isValueError : Exn → Bool
  | .valueError _ | .unicodeDecodeError | .unicodeEncodeError | .binasciiError => true
  | _ => false

/-- `isinstance(e, EOFError)`. -/
def Exn.isEOFError : Exn → Bool
  | .eofError _ _ => true
  | _ => false

/-- Externally visible events, in order. -/
inductive Event where
  | warn (w : Warning)
  /-- `getpass.getpass('Key passphrase: ')` -/
  | prompt
  deriving DecidableEq, Repr

/-- A computation without stream state: the events it emitted (which persist if it raises) and its
outcome.  Simplification: the default warning filter is assumed, i.e. `warnings.warn` does not
raise (Model/Filtered.lean is the model without this assumption). -/
structure Eff (α : Type) where
  log : List Event
  res : Except Exn α

namespace Eff
variable {α β : Type}

@[ext] theorem ext {a b : Eff α} (h1 : a.log = b.log) (h2 : a.res = b.res) : a = b := by
  cases a; cases b; simp_all

protected def pure (a : α) : Eff α := ⟨[], .ok a⟩

protected def bind (x : Eff α) (f : α → Eff β) : Eff β :=
  match x.res with
  | .ok a => ⟨x.log ++ (f a).log, (f a).res⟩
  | .error e => ⟨x.log, .error e⟩

instance : Monad Eff where
  pure := Eff.pure
  bind := Eff.bind

/-- `raise e` -/
def throw (e : Exn) : Eff α := ⟨[], .error e⟩
/-- `warnings.warn(w)` -/
def warn (w : Warning) : Eff Unit := ⟨[.warn w], .ok ()⟩
/-- A computation that cannot warn. -/
def lift (r : Except Exn α) : Eff α := ⟨[], r⟩

/-- `try: x  except <classes selected by h>: ...` -/
def tryCatch (x : Eff α) (h : Exn → Option (Eff α)) : Eff α :=
  match x.res with
  | .ok _ => x
  | .error e =>
    match h e with
    | some y => ⟨x.log ++ y.log, y.res⟩
    | none => x

@[simp] theorem pure_log (a : α) : (pure a : Eff α).log = [] := rfl
@[simp] theorem pure_res (a : α) : (pure a : Eff α).res = .ok a := rfl
@[simp] theorem throw_log (e : Exn) : (throw e : Eff α).log = [] := rfl
@[simp] theorem throw_res (e : Exn) : (throw e : Eff α).res = .error e := rfl
@[simp] theorem warn_log (w : Warning) : (warn w).log = [.warn w] := rfl
@[simp] theorem warn_res (w : Warning) : (warn w).res = .ok () := rfl
@[simp] theorem lift_log (r : Except Exn α) : (lift r).log = [] := rfl
@[simp] theorem lift_res (r : Except Exn α) : (lift r).res = r := rfl

theorem bind_def (x : Eff α) (f : α → Eff β) : (x >>= f) = Eff.bind x f := rfl

theorem bind_ok {x : Eff α} {a : α} (h : x.res = .ok a) (f : α → Eff β) :
    (x >>= f) = ⟨x.log ++ (f a).log, (f a).res⟩ := by
  rw [bind_def]; unfold Eff.bind; rw [h]

theorem bind_error {x : Eff α} {e : Exn} (h : x.res = .error e) (f : α → Eff β) :
    (x >>= f) = ⟨x.log, .error e⟩ := by
  rw [bind_def]; unfold Eff.bind; rw [h]

@[simp] theorem pure_bind (a : α) (f : α → Eff β) : ((pure a : Eff α) >>= f) = f a := by
  rw [bind_ok (a := a) rfl]; simp

@[simp] theorem mk_bind_ok (l : List Event) (a : α) (f : α → Eff β) :
    ((⟨l, .ok a⟩ : Eff α) >>= f) = ⟨l ++ (f a).log, (f a).res⟩ := rfl
@[simp] theorem mk_bind_error (l : List Event) (e : Exn) (f : α → Eff β) :
    ((⟨l, .error e⟩ : Eff α) >>= f) = ⟨l, .error e⟩ := rfl

@[simp] theorem lift_ok_bind (a : α) (f : α → Eff β) :
    ((lift (.ok a) : Eff α) >>= f) = f a := by
  rw [bind_ok (a := a) rfl]; simp
@[simp] theorem lift_error_bind (e : Exn) (f : α → Eff β) :
    ((lift (.error e) : Eff α) >>= f) = throw e := by
  rw [bind_error (e := e) rfl]; rfl

/-- Success of a sequence: both parts succeed. -/
theorem bind_res_ok_iff {x : Eff α} {f : α → Eff β} {b : β} :
    (x >>= f).res = .ok b ↔ ∃ a, x.res = .ok a ∧ (f a).res = .ok b := by
  cases h : x.res with
  | ok a => rw [bind_ok h]; simp
  | error e => rw [bind_error h]; simp

theorem bind_res_error_iff {x : Eff α} {f : α → Eff β} {e : Exn} :
    (x >>= f).res = .error e ↔ x.res = .error e ∨ ∃ a, x.res = .ok a ∧ (f a).res = .error e := by
  cases h : x.res with
  | ok a => rw [bind_ok h]; simp
  | error e' => rw [bind_error h]; simp

end Eff
end OSK
