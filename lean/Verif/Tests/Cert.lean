import Verif.Model.Validity
import Verif.Model.Sk
import Verif.Tests.Params
/-
The other tests of tests/key_params/test_cert.py, and the test of the flags in test_sk.py, on the model.
-/
namespace OSK

/-- Two options, packed: `b` is `c`, and `d` is `e`. -/
def tOption (name value : Bytes) : Bytes :=
  [0, 0, 0, UInt8.ofNat name.length] ++ name ++ [0, 0, 0, UInt8.ofNat value.length] ++ value

/-- `assert … == value`, with no warning. -/
def gives {α : Type} [DecidableEq α] (x : Eff α) (a : α) : Bool :=
  match x with
  | ⟨[], .ok b⟩ => decide (b = a)
  | _ => false

/-- An option is set without a warning, and the parameter is then the given bytes. -/
def sets (r : Eff Unit × VDict) (param : Str) (b : Bytes) : Bool :=
  gives r.1 () && decide (dget r.2 param = some (.bytes b))

/-- test_cert.py:470-475 -/
theorem C115_cert_type :
    getType tCert = .ok .user ∧ getType (setType tCert .host) = .ok .host ∧
    dget (setType tCert .host) (py! "type") = some (.int 2) := by
  decide +kernel

/-- test_cert.py:478-483 -/
theorem C115_cert_valid_principals :
    getValidPrincipals tCert = .ok [.str (py! "a")] ∧
    (setValidPrincipals tCert [.str (py! "b"), .str (py! "c")]).1 = .ok () ∧
    getValidPrincipals (setValidPrincipals tCert [.str (py! "b"), .str (py! "c")]).2 = .ok [.str (py! "b"), .str (py! "c")] ∧
    dget (setValidPrincipals tCert [.str (py! "b"), .str (py! "c")]).2 (py! "valid_principals") =
      some (.bytes [0, 0, 0, 1, 98, 0, 0, 0, 1, 99]) := by
  decide +kernel

/-- test_cert.py:486-491 -/
theorem C115_cert_valid_after (clock : Clock) (t u : clock.Datetime) (ht : clock.fromTimestamp (.int 4) = .ok t)
    (hu : clock.fromTimestamp (.int 6) = .ok u) (hs : clock.timestamp u = .ok 6) :
    getValid clock tCert (py! "valid_after") = .ok t ∧ (setValid clock tCert (py! "valid_after") u).1 = .ok () ∧
    getValid clock (setValid clock tCert (py! "valid_after") u).2 (py! "valid_after") = .ok u ∧
    dget (setValid clock tCert (py! "valid_after") u).2 (py! "valid_after") = some (.int 6) := by
  have e : setValid clock tCert (py! "valid_after") u = (.ok (), dset tCert (py! "valid_after") (.int 6)) := by
    unfold setValid
    rw [hs]
    rfl
  have g : dget (dset tCert (py! "valid_after") (.int 6)) (py! "valid_after") = some (.int 6) := by decide +kernel
  rw [e]
  refine ⟨?_, rfl, ?_, g⟩
  · have : getItem tCert (py! "valid_after") = .ok (.int 4) := by decide +kernel
    unfold getValid
    rw [this]
    exact ht
  · have : getItem (dset tCert (py! "valid_after") (.int 6)) (py! "valid_after") = .ok (.int 6) := by decide +kernel
    unfold getValid
    rw [this]
    exact hu

/-- test_cert.py:494-499 -/
theorem C115_cert_valid_before (clock : Clock) (t u : clock.Datetime) (ht : clock.fromTimestamp (.int 5) = .ok t)
    (hu : clock.fromTimestamp (.int 7) = .ok u) (hs : clock.timestamp u = .ok 7) :
    getValid clock tCert (py! "valid_before") = .ok t ∧ (setValid clock tCert (py! "valid_before") u).1 = .ok () ∧
    getValid clock (setValid clock tCert (py! "valid_before") u).2 (py! "valid_before") = .ok u ∧
    dget (setValid clock tCert (py! "valid_before") u).2 (py! "valid_before") = some (.int 7) := by
  have e : setValid clock tCert (py! "valid_before") u = (.ok (), dset tCert (py! "valid_before") (.int 7)) := by
    unfold setValid
    rw [hs]
    rfl
  have g : dget (dset tCert (py! "valid_before") (.int 7)) (py! "valid_before") = some (.int 7) := by decide +kernel
  rw [e]
  refine ⟨?_, rfl, ?_, g⟩
  · have : getItem tCert (py! "valid_before") = .ok (.int 5) := by decide +kernel
    unfold getValid
    rw [this]
    exact ht
  · have : getItem (dset tCert (py! "valid_before") (.int 7)) (py! "valid_before") = .ok (.int 7) := by decide +kernel
    unfold getValid
    rw [this]
    exact hu

/-- test_cert.py:502-508 -/
theorem C115_cert_get_critical_option_str_option :
    gives (getOption (dset tCert (py! "critical_options") (.bytes (tOption [98] [99] ++ tOption [100] [101]))) (py! "critical_options") (.name (py! "b"))) (some (.bytes [99])) ∧
    gives (getOption (dset tCert (py! "critical_options") (.bytes (tOption [98] [99] ++ tOption [100] [101]))) (py! "critical_options") (.name (py! "d"))) (some (.bytes [101])) := by
  decide +kernel

/-- test_cert.py:511-513 -/
theorem C115_cert_get_critical_option_str_option_nonexistent :
    gives (getOption tCert (py! "critical_options") (.name (py! "c"))) none := by
  decide +kernel

/-- test_cert.py:516-523 -/
theorem C115_cert_get_critical_option_enum_option :
    gives (getOption (dset tCert (py! "critical_options") (.bytes (tOption [98] [99] ++ tOption (pb! "force-command") [101]))) (py! "critical_options") (.opt .forceCommand)) (some (.bytes [101])) := by
  decide +kernel

/-- test_cert.py:526-533 -/
theorem C115_cert_get_critical_option_enum_option_wrong_type :
    raises (getOption (dset tCert (py! "type") (.int 2)) (py! "critical_options") (.opt .forceCommand)).res Exn.isValueError := by
  decide +kernel

/-- test_cert.py:536-542 -/
theorem C115_cert_get_critical_option_duplicate_option :
    warns (getOption (dset tCert (py! "critical_options") (.bytes (tOption [98] [99] ++ tOption [98] [101]))) (py! "critical_options") (.name (py! "b"))) (.duplicateOption (py! "b") (py! "critical_options")) ∧
    (getOption (dset tCert (py! "critical_options") (.bytes (tOption [98] [99] ++ tOption [98] [101]))) (py! "critical_options") (.name (py! "b"))).res = .ok (some (.bytes [101])) := by
  decide +kernel

/-- test_cert.py:545-550 -/
theorem C115_cert_set_critical_option_different_option_before :
    sets (setOption tCert (py! "critical_options") (.name (py! "a")) (.bytes [101])) (py! "critical_options") (tOption [97] [101] ++ tOption [98] [99]) := by
  decide +kernel

/-- test_cert.py:553-558 -/
theorem C115_cert_set_critical_option_different_option_after :
    sets (setOption tCert (py! "critical_options") (.name (py! "d")) (.bytes [101])) (py! "critical_options") (tOption [98] [99] ++ tOption [100] [101]) := by
  decide +kernel

/-- test_cert.py:561-565 -/
theorem C115_cert_set_critical_option_same_option :
    sets (setOption tCert (py! "critical_options") (.name (py! "b")) (.bytes [101])) (py! "critical_options") (tOption [98] [101]) := by
  decide +kernel

/-- test_cert.py:568-576 -/
theorem C115_cert_set_critical_option_enum_option :
    sets (setOption tCert (py! "critical_options") (.opt .forceCommand) (.bytes [101])) (py! "critical_options") (tOption [98] [99] ++ tOption (pb! "force-command") [101]) := by
  decide +kernel

/-- test_cert.py:579-591 -/
theorem C115_cert_set_critical_option_enum_option_wrong_type :
    raises (setOption (dset tCert (py! "type") (.int 2)) (py! "critical_options") (.opt .forceCommand) (.bytes [101])).1.res Exn.isValueError ∧
    dget (setOption (dset tCert (py! "type") (.int 2)) (py! "critical_options") (.opt .forceCommand) (.bytes [101])).2 (py! "critical_options") = some (.bytes (tOption [98] [99])) := by
  decide +kernel

/-- test_cert.py:594-596 -/
theorem C115_cert_get_extension_str_option :
    gives (getOption tCert (py! "extensions") (.name (py! "b"))) (some (.bytes [99])) := by
  decide +kernel

/-- test_cert.py:599-601 -/
theorem C115_cert_get_extension_str_option_nonexistent :
    gives (getOption tCert (py! "extensions") (.name (py! "c"))) none := by
  decide +kernel

/-- test_cert.py:604-611 -/
theorem C115_cert_get_extension_enum_option :
    gives (getOption (dset tCert (py! "extensions") (.bytes (tOption [98] [99] ++ tOption (pb! "force-command") [101]))) (py! "extensions") (.opt .forceCommand)) (some (.bytes [101])) := by
  decide +kernel

/-- test_cert.py:614-621 -/
theorem C115_cert_get_extension_enum_option_wrong_type :
    raises (getOption (dset tCert (py! "type") (.int 2)) (py! "extensions") (.opt .forceCommand)).res Exn.isValueError := by
  decide +kernel

/-- test_cert.py:624-630 -/
theorem C115_cert_get_extension_duplicate_option :
    warns (getOption (dset tCert (py! "extensions") (.bytes (tOption [98] [99] ++ tOption [98] [101]))) (py! "extensions") (.name (py! "b"))) (.duplicateOption (py! "b") (py! "extensions")) := by
  decide +kernel

/-- test_cert.py:633-638 -/
theorem C115_cert_set_extension_different_option_before :
    sets (setOption tCert (py! "extensions") (.name (py! "a")) (.bytes [101])) (py! "extensions") (tOption [97] [101] ++ tOption [98] [99]) := by
  decide +kernel

/-- test_cert.py:641-646 -/
theorem C115_cert_set_extension_different_option_after :
    sets (setOption tCert (py! "extensions") (.name (py! "d")) (.bytes [101])) (py! "extensions") (tOption [98] [99] ++ tOption [100] [101]) := by
  decide +kernel

/-- test_cert.py:649-653 -/
theorem C115_cert_set_extension_same_option :
    sets (setOption tCert (py! "extensions") (.name (py! "b")) (.bytes [101])) (py! "extensions") (tOption [98] [101]) := by
  decide +kernel

/-- test_cert.py:656-664 -/
theorem C115_cert_set_extension_enum_option :
    sets (setOption tCert (py! "extensions") (.opt .forceCommand) (.bytes [101])) (py! "extensions") (tOption [98] [99] ++ tOption (pb! "force-command") [101]) := by
  decide +kernel

/-- test_cert.py:667-679 -/
theorem C115_cert_set_extension_enum_option_wrong_type :
    raises (setOption (dset tCert (py! "type") (.int 2)) (py! "extensions") (.opt .forceCommand) (.bytes [101])).1.res Exn.isValueError ∧
    dget (setOption (dset tCert (py! "type") (.int 2)) (py! "extensions") (.opt .forceCommand) (.bytes [101])).2 (py! "extensions") = some (.bytes (tOption [98] [99])) := by
  decide +kernel

/-- test_cert.py:682-703 -/
theorem C115_cert_pack_signed_bytes :
    packSignedBytes .certRsa tCert = written (writeDict
      [(py! "nonce", .pascal .bytes), (py! "e", .pascal .mpint), (py! "n", .pascal .mpint), (py! "serial", .struct fmtBEQ),
       (py! "type", .struct fmtBEI), (py! "key_id", .pascal .string), (py! "valid_principals", .pascal .bytes),
       (py! "valid_after", .struct fmtBEQ), (py! "valid_before", .struct fmtBEQ), (py! "critical_options", .pascal .bytes),
       (py! "extensions", .pascal .bytes), (py! "reserved", .pascal .bytes), (py! "signature_key", .pascal .bytes)] tCert) ∧
    (packSignedBytes .certRsa tCert).toBool = true := by
  decide +kernel

/-- test_cert.py:706-709 -/
theorem C115_cert_get_signature_key :
    (match (fromBytes tCurves .pub tRsaPubBytes none).res with
     | .ok k => returnsKey (getSignatureKey tCurves tCert) k
     | .error _ => false) = true := by
  decide +kernel

/-- test_cert.py:712-722 -/
theorem C115_cert_set_signature_key :
    (match (mkKey tCurves .pub tEdHeader tEdPrivate [] none).res with
     | .ok k =>
        (match packPublicBytes k, setSignatureKey tCert k with
         | .ok b, (.ok (), d) => decide (dget d (py! "signature_key") = some (.bytes b))
         | _, _ => false)
     | .error _ => false) = true := by
  decide +kernel

/-- test_cert.py:725-738 -/
theorem C115_cert_set_signature_key_cert :
    (match (mkKey tCurves .pub [(py! "key_type", .str (py! "ssh-rsa-cert-v01@openssh.com"))] tCert [] none).res with
     | .ok k => decide ((setSignatureKey tCert k).1 = .error (.valueError "The certificate authority must not be a certificate"))
     | .error _ => false) = true := by
  decide +kernel

/-- One round of the loop of `test_flag` (test_sk.py:124-131): the flags are set one by one, and each is read back. -/
def flagRound (d : VDict) (flags : List (SkFlag × Bool)) : Bool × VDict :=
  flags.foldl (fun (r : Bool × VDict) (f : SkFlag × Bool) =>
    let s := setFlag r.2 f.1 f.2
    (r.1 && decide (s.1 = .ok ()) && decide (getFlag s.2 f.1 = .ok f.2), s.2)) (true, d)

/-- All ways to choose the flags, in the order of the test. -/
def flagChoices : List (List (SkFlag × Bool)) :=
  (List.range 8).map (fun n => [(.userPresenceRequired, n.testBit 0), (.userVerificationRequired, n.testBit 1), (.residentKey, n.testBit 2)])

/-- `flag_total_value` -/
def flagTotal (flags : List (SkFlag × Bool)) : Int := (flags.map (fun f => if f.2 then f.1.value else 0)).foldl (· + ·) 0

/-- test_sk.py:115-132 -/
theorem C115_sk_flag :
    (flagChoices.foldl (fun (r : Bool × VDict) flags =>
      let s := flagRound r.2 flags
      (r.1 && s.1 && decide (dget s.2 (py! "flags") = some (.int (flagTotal flags))), s.2))
      (true, [(py! "public", .bytes []), (py! "application", .str (py! "ssh:")), (py! "flags", .int 0),
        (py! "key_handle", .str (py! "aaaa")), (py! "reserved", .bytes [])])).1 = true := by
  decide +kernel

end OSK
