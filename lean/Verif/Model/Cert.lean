import Verif.Model.Classes
/-
Model of the certificate methods of key_params/cert.py that do not involve other keys.
A certificate parameters object is represented by its dict `self.data`.
-/
namespace OSK

/-- `CertPrincipalType` (cert.py:28-37) -/
inductive PrincipalType where
  | user | host
  deriving DecidableEq, Repr

/-- `CertPrincipalType.value` -/
def PrincipalType.value : PrincipalType → Int
  | .user => 1
  | .host => 2

/-- Members of `CertCriticalOption` (cert.py:64-94) and `CertExtension` (cert.py:97-151). -/
inductive CertOption where
  | forceCommand | sourceAddress | verifyRequired
  | noTouchRequired | permitX11Forwarding | permitAgentForwarding | permitPortForwarding
  | permitPty | permitUserRc
  deriving DecidableEq, Repr

/-- `option.value.name` -/
def CertOption.name : CertOption → Str
  | .forceCommand => py! "force-command"
  | .sourceAddress => py! "source-address"
  | .verifyRequired => py! "verify-required"
  | .noTouchRequired => py! "no-touch-required"
  | .permitX11Forwarding => py! "permit-x11-forwarding"
  | .permitAgentForwarding => py! "permit-agent-forwarding"
  | .permitPortForwarding => py! "permit-port-forwarding"
  | .permitPty => py! "permit-pty"
  | .permitUserRc => py! "permit-user-rc"

/-- `option.value.valid_principal_types` -/
def CertOption.validTypes : CertOption → List PrincipalType := fun _ => [.user]

/-- The `option` argument of the option methods: an enum member or a plain `str`. -/
inductive OptArg where
  | opt (o : CertOption)
  | name (s : Str)
  deriving DecidableEq, Repr

/-- `option.value.name` / `option` -/
def OptArg.key : OptArg → Str
  | .opt o => o.name
  | .name s => s

/-- `get_type` (cert.py:258-266) -/
def getType (d : VDict) : Except Exn PrincipalType :=
  match getItem d (py! "type") with
  | .error e => .error e
  | .ok v =>
    if v = .int PrincipalType.user.value then .ok .user
    else if v = .int PrincipalType.host.value then .ok .host
    else .error (.valueError "Not a valid certificate principal type")

/-- `set_type` (cert.py:268-273) -/
def setType (d : VDict) (t : PrincipalType) : VDict := dset d (py! "type") (.int t.value)

/-- `PascalStyleByteStream(v)`: `TypeError` unless `v` is bytes. -/
def asBuffer : Val → Except Exn Bytes
  | .bytes b => .ok b
  | _ => .error .typeError

/-- cert.py:285-287 -/
def principalFmt : FDict := [(py! "principal", .pascal .string)]

/-- `[x[k] for x in l]` -/
def column (k : Str) (l : List VDict) : Except Exn (List Val) :=
  match l with
  | [] => .ok []
  | d :: t =>
    match getItem d k with
    | .error e => .error e
    | .ok v => (column k t).map (v :: ·)

/-- `get_valid_principals` (cert.py:275-288) -/
def getValidPrincipals (d : VDict) : Except Exn (List Val) := do
  let v ← getItem d (py! "valid_principals")
  let b ← asBuffer v
  let l ← (readRepeatedly principalFmt (Stream.of b)).1
  column (py! "principal") l

/-- `pack_list(l, STRING)` (cert.py:290-310) -/
def packList (l : List Val) (p : Prim) : Except Exn Bytes :=
  written (writeRepeatedly [(py! "item", .pascal p)] (l.map (fun i => [(py! "item", i)])))

/-- `set_valid_principals` (cert.py:312-320): outcome and the dict afterwards. -/
def setValidPrincipals (d : VDict) (l : List Val) : Except Exn Unit × VDict :=
  match packList l .string with
  | .ok b => (.ok (), dset d (py! "valid_principals") (.bytes b))
  | .error e => (.error e, d)

/-- cert.py:351-354 -/
def optionFmt : FDict := [(py! "option", .pascal .string), (py! "value", .pascal .bytes)]

/-- The loop of `_get_option_values_dict` (cert.py:355-363).  Records read under `optionFmt` always
have a `str` option and a value, so the last case is not reachable. -/
def collectOptions (param : Str) : VDict → List VDict → Eff VDict
  | acc, [] => pure acc
  | acc, r :: t =>
    match dget r (py! "option"), dget r (py! "value") with
    | some (.str o), some v => do
      if dhas acc o then Eff.warn (.duplicateOption o param)
      collectOptions param (dset acc o v) t
    | _, _ => Eff.throw .typeError

/-- `_get_option_values_dict` (cert.py:346-363) -/
def getOptionValues (d : VDict) (param : Str) : Eff VDict := do
  let v ← Eff.lift (getItem d param)
  let b ← Eff.lift (asBuffer v)
  let l ← Eff.lift (readRepeatedly optionFmt (Stream.of b)).1
  collectOptions param [] l

/-- The guard of the option methods (cert.py:370-374, 456-461). -/
def optionGuard (d : VDict) : OptArg → Except Exn Unit
  | .name _ => .ok ()
  | .opt o =>
    match getType d with
    | .error e => .error e
    | .ok t =>
      if o.validTypes.contains t then .ok ()
      else .error (.valueError "Option is not valid for the principal types of this certificate")

/-- The search loop of `_get_option_from_param` (cert.py:376-380). -/
def findOption (k : Str) : VDict → Option Val
  | [] => none
  | (k', v) :: t => if k = k' then some v else findOption k t

/-- `_get_option_from_param` (cert.py:365-380); `get_critical_option` and `get_extension_value`
(cert.py:382-416) are this with `'critical_options'` and `'extensions'`. -/
def getOption (d : VDict) (param : Str) (o : OptArg) : Eff (Option Val) := do
  Eff.lift (optionGuard d o)
  let m ← getOptionValues d param
  pure (findOption o.key m)

/-- `a < b` for `str`: lexicographic by code point. -/
def strLt : Str → Str → Bool
  | [], [] => false
  | [], _ :: _ => true
  | _ :: _, [] => false
  | a :: as, b :: bs => if a < b then true else if b < a then false else strLt as bs

def insertSorted (x : Str) : List Str → List Str
  | [] => [x]
  | y :: t => if strLt y x then y :: insertSorted x t else x :: y :: t

/-- `sorted(l)` for a list of `str` (insertion sort; for the distinct keys of a dict every sorting
algorithm gives the same list). -/
def sortedStrs : List Str → List Str
  | [] => []
  | x :: t => insertSorted x (sortedStrs t)

/-- `pack_options(d, format_instruction)` (cert.py:418-448) -/
def packOptions (m : VDict) (p : Prim) : Except Exn Bytes :=
  written (writeRepeatedly [(py! "option", .pascal .string), (py! "value", .pascal p)]
    ((sortedStrs (dkeys m)).map (fun o =>
      (py! "option", Val.str o) :: ((dget m o).map (fun v => (py! "value", v))).toList)))

/-- `_set_option_for_param` (cert.py:450-470); `set_critical_option` and `set_extension_value`
(cert.py:472-510) are this with `'critical_options'` and `'extensions'`.  Result: outcome (with
warnings) and the dict afterwards. -/
def setOption (d : VDict) (param : Str) (o : OptArg) (v : Val) : Eff Unit × VDict :=
  let x : Eff Bytes := do
    Eff.lift (optionGuard d o)
    let m ← getOptionValues d param
    Eff.lift (packOptions (dset m o.key v) .bytes)
  match x.res with
  | .ok b => (⟨x.log, .ok ()⟩, dset d param (.bytes b))
  | .error e => (⟨x.log, .error e⟩, d)

/-- The format written by `pack_signed_bytes` (cert.py:524-528). -/
def signedFmt (c : Cls) : FDict := dupdate (dupdate certPrefix (formatOf (certBase c))) certSuffix

/-- `pack_signed_bytes` (cert.py:512-531) -/
def packSignedBytes (c : Cls) (d : VDict) : Except Exn Bytes :=
  written (writeDict (signedFmt c) d)

end OSK
