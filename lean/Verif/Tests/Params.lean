import Verif.Std.Curves
import Verif.Tests.Key
/-
The tests of tests/key_params/test_params.py (for the test cases of all test files), test_factory.py and those of
test_cert.py that need no other key generation, on the model.  Random values are fixed here; points of curves are the
base points.  The properties C71 and C107 are about all values.
-/
namespace OSK

/-- Curves as the standards have them. -/
def tCurves : Ext := ⟨Std.validPoint, fun _ => []⟩

/-- A test case of `PARAMS_TEST_CASES`. -/
structure ParamsCase where
  cls : Cls
  format : FDict
  valid : VDict
  invalid : List (VDict × Warning) := []

/-- `==` of two format instruction dictionaries. -/
def sameFormat (a b : FDict) : Bool :=
  decide (a.length = b.length) && a.all (fun e => decide (e ∈ b))

/-- `cls(values)` without a warning. -/
def quiet (c : Cls) (d : VDict) : Bool :=
  match newParams tCurves c d with
  | ⟨[], .ok p⟩ => decide (p = ⟨c, d⟩)
  | _ => false

/-- `(mutated_type.value)()` (test_params.py:72) -/
def emptyOf : Prim → Val
  | .bytes => .bytes []
  | .string => .str []
  | .mpint => .int 0

/-- The warning that `test_bad_type_params_are_not_valid` expects, if it tries the value (test_params.py:73-83). -/
def badTypeWarning (k : Str) : FI → Prim → Option Warning
  | .struct _, .mpint => none
  | .struct _, _ => some (.shouldBeFormatted k)
  | .pascal p, q => if p = q then none else some (.shouldBeOfClass k)
  | _, _ => none

/-- test_params.py:26-29 -/
def ParamsCase.formatTest (t : ParamsCase) : Bool := sameFormat (formatOf t.cls) t.format

/-- test_params.py:32-38, 99-103 -/
def ParamsCase.validTest (t : ParamsCase) : Bool := quiet t.cls t.valid

/-- test_params.py:41-49 -/
def ParamsCase.extraTest (t : ParamsCase) : Bool := quiet t.cls (dset t.valid (py! "nonexistent") (.int 1))

/-- test_params.py:52-61 -/
def ParamsCase.missingTest (t : ParamsCase) : Bool :=
  t.valid.all (fun e => warns (newParams tCurves t.cls (t.valid.filter (fun f => decide (f.1 ≠ e.1)))) (.missing e.1))

/-- test_params.py:64-87 -/
def ParamsCase.badTypeTest (t : ParamsCase) : Bool :=
  t.valid.all (fun e => [Prim.bytes, .string, .mpint].all (fun p =>
    match (t.format.lookup e.1).bind (fun f => badTypeWarning e.1 f p) with
    | none => true
    | some w => warns (newParams tCurves t.cls (dset t.valid e.1 (emptyOf p))) w))

/-- test_params.py:90-99 -/
def ParamsCase.invalidTest (t : ParamsCase) : Bool := t.invalid.all (fun e => warns (newParams tCurves t.cls e.1) e.2)

/-- All tests of test_params.py on a case. -/
def ParamsCase.Passes (t : ParamsCase) : Prop :=
  t.formatTest ∧ t.validTest ∧ t.extraTest ∧ t.missingTest ∧ t.badTypeTest ∧ t.invalidTest

instance (t : ParamsCase) : Decidable t.Passes := by unfold ParamsCase.Passes; infer_instance

/-- `get_test_cert_params` (test_cert.py:31-47) -/
def tCert : VDict := [(py! "nonce", .bytes [97]), (py! "e", .int 1), (py! "n", .int 2), (py! "serial", .int 3), (py! "type", .int 1), (py! "key_id", .str (py! "test")), (py! "valid_principals", .bytes [0, 0, 0, 1, 97]), (py! "valid_after", .int 4), (py! "valid_before", .int 5), (py! "critical_options", .bytes [0, 0, 0, 1, 98, 0, 0, 0, 1, 99]), (py! "extensions", .bytes [0, 0, 0, 1, 98, 0, 0, 0, 1, 99]), (py! "reserved", .bytes []), (py! "signature_key", .bytes tRsaPubBytes), (py! "signature", .bytes [102])]

/-- test_cert.py:50-56 -/
def tCertBytes : Bytes :=
  (packPublicBytes ⟨.pub, [(py! "key_type", .str (py! "ssh-rsa-cert-v01@openssh.com"))], ⟨.certRsa, tCert⟩, [], []⟩).toOption.getD []

/-- test_rsa.py:7-17 -/
def tRsaPub : ParamsCase where
  cls := .rsaPub
  format := [(py! "e", .pascal .mpint), (py! "n", .pascal .mpint)]
  valid := [(py! "e", .int 1), (py! "n", .int 2)]

theorem C115_params_rsaPub : tRsaPub.Passes := by
  decide +kernel

/-- test_rsa.py:18-36 -/
def tRsaPriv : ParamsCase where
  cls := .rsaPriv
  format := [(py! "n", .pascal .mpint), (py! "e", .pascal .mpint), (py! "d", .pascal .mpint), (py! "iqmp", .pascal .mpint), (py! "p", .pascal .mpint), (py! "q", .pascal .mpint)]
  valid := [(py! "n", .int 1), (py! "e", .int 2), (py! "d", .int 3), (py! "iqmp", .int 4), (py! "p", .int 5), (py! "q", .int 6)]

theorem C115_params_rsaPriv : tRsaPriv.Passes := by
  decide +kernel

/-- test_ed25519.py:15-31 -/
def tEd25519Pub : ParamsCase where
  cls := .ed25519Pub
  format := [(py! "public", .pascal .bytes)]
  valid := [(py! "public", .bytes [3, 20, 37, 54, 71, 88, 105, 122, 139, 156, 173, 190, 207, 224, 241, 2, 19, 36, 53, 70, 87, 104, 121, 138, 155, 172, 189, 206, 223, 240, 1, 18])]
  invalid := [([(py! "public", .bytes [3, 20, 37, 54, 71, 88, 105, 122, 139, 156, 173, 190, 207, 224, 241, 2, 19, 36, 53, 70, 87, 104, 121, 138, 155, 172, 189, 206, 223, 240, 1])], .ed25519PublicLength)]

theorem C115_params_ed25519Pub : tEd25519Pub.Passes := by
  decide +kernel

/-- test_ed25519.py:32-64 -/
def tEd25519Priv : ParamsCase where
  cls := .ed25519Priv
  format := [(py! "public", .pascal .bytes), (py! "private_public", .pascal .bytes)]
  valid := [(py! "public", .bytes [3, 20, 37, 54, 71, 88, 105, 122, 139, 156, 173, 190, 207, 224, 241, 2, 19, 36, 53, 70, 87, 104, 121, 138, 155, 172, 189, 206, 223, 240, 1, 18]), (py! "private_public", .bytes [3, 20, 37, 54, 71, 88, 105, 122, 139, 156, 173, 190, 207, 224, 241, 2, 19, 36, 53, 70, 87, 104, 121, 138, 155, 172, 189, 206, 223, 240, 1, 18, 3, 20, 37, 54, 71, 88, 105, 122, 139, 156, 173, 190, 207, 224, 241, 2, 19, 36, 53, 70, 87, 104, 121, 138, 155, 172, 189, 206, 223, 240, 1, 18])]
  invalid := [([(py! "public", .bytes [3, 20, 37, 54, 71, 88, 105, 122, 139, 156, 173, 190, 207, 224, 241, 2, 19, 36, 53, 70, 87, 104, 121, 138, 155, 172, 189, 206, 223, 240, 1, 18]), (py! "private_public", .bytes [3, 20, 37, 54, 71, 88, 105, 122, 139, 156, 173, 190, 207, 224, 241, 2, 19, 36, 53, 70, 87, 104, 121, 138, 155, 172, 189, 206, 223, 240, 1, 18, 0, 0, 0, 0, 0, 0, 0, 0, 0, 0, 0, 0, 0, 0, 0, 0, 0, 0, 0, 0, 0, 0, 0, 0, 0, 0, 0, 0, 0, 0, 0, 0])], .ed25519PublicMismatch),
    ([(py! "public", .bytes [3, 20, 37, 54, 71, 88, 105, 122, 139, 156, 173, 190, 207, 224, 241, 2, 19, 36, 53, 70, 87, 104, 121, 138, 155, 172, 189, 206, 223, 240, 1, 18]), (py! "private_public", .bytes [3, 20, 37, 54, 71, 88, 105, 122, 139, 156, 173, 190, 207, 224, 241, 2, 19, 36, 53, 70, 87, 104, 121, 138, 155, 172, 189, 206, 223, 240, 1, 3, 20, 37, 54, 71, 88, 105, 122, 139, 156, 173, 190, 207, 224, 241, 2, 19, 36, 53, 70, 87, 104, 121, 138, 155, 172, 189, 206, 223, 240, 1, 18])], .ed25519PrivateLength)]

theorem C115_params_ed25519Priv : tEd25519Priv.Passes := by
  decide +kernel

/-- test_dss.py:7-21 -/
def tDssPub : ParamsCase where
  cls := .dssPub
  format := [(py! "p", .pascal .mpint), (py! "q", .pascal .mpint), (py! "g", .pascal .mpint), (py! "y", .pascal .mpint)]
  valid := [(py! "p", .int 1), (py! "q", .int 2), (py! "g", .int 3), (py! "y", .int 4)]

theorem C115_params_dssPub : tDssPub.Passes := by
  decide +kernel

/-- test_dss.py:22-38 -/
def tDssPriv : ParamsCase where
  cls := .dssPriv
  format := [(py! "p", .pascal .mpint), (py! "q", .pascal .mpint), (py! "g", .pascal .mpint), (py! "y", .pascal .mpint), (py! "x", .pascal .mpint)]
  valid := [(py! "p", .int 1), (py! "q", .int 2), (py! "g", .int 3), (py! "y", .int 4), (py! "x", .int 5)]

theorem C115_params_dssPriv : tDssPriv.Passes := by
  decide +kernel

/-- test_ecdsa.py:22-54 -/
def tEc256Pub : ParamsCase where
  cls := .ec256Pub
  format := [(py! "identifier", .pascal .string), (py! "q", .pascal .bytes)]
  valid := [(py! "identifier", .str (py! "nistp256")), (py! "q", .bytes [4, 107, 23, 209, 242, 225, 44, 66, 71, 248, 188, 230, 229, 99, 164, 64, 242, 119, 3, 125, 129, 45, 235, 51, 160, 244, 161, 57, 69, 216, 152, 194, 150, 79, 227, 66, 226, 254, 26, 127, 155, 142, 231, 235, 74, 124, 15, 158, 22, 43, 206, 51, 87, 107, 49, 94, 206, 203, 182, 64, 104, 55, 191, 81, 245])]
  invalid := [([(py! "identifier", .str (py! "nistp256")), (py! "q", .bytes [0])], .notOnCurve),
    ([(py! "identifier", .str (py! "nistp384")), (py! "q", .bytes [4, 107, 23, 209, 242, 225, 44, 66, 71, 248, 188, 230, 229, 99, 164, 64, 242, 119, 3, 125, 129, 45, 235, 51, 160, 244, 161, 57, 69, 216, 152, 194, 150, 79, 227, 66, 226, 254, 26, 127, 155, 142, 231, 235, 74, 124, 15, 158, 22, 43, 206, 51, 87, 107, 49, 94, 206, 203, 182, 64, 104, 55, 191, 81, 245])], .curveIdentifier)]

theorem C115_params_ec256Pub : tEc256Pub.Passes := by
  decide +kernel

/-- test_ecdsa.py:55-69 -/
def tEc256Priv : ParamsCase where
  cls := .ec256Priv
  format := [(py! "identifier", .pascal .string), (py! "q", .pascal .bytes), (py! "d", .pascal .mpint)]
  valid := [(py! "identifier", .str (py! "nistp256")), (py! "q", .bytes [4, 107, 23, 209, 242, 225, 44, 66, 71, 248, 188, 230, 229, 99, 164, 64, 242, 119, 3, 125, 129, 45, 235, 51, 160, 244, 161, 57, 69, 216, 152, 194, 150, 79, 227, 66, 226, 254, 26, 127, 155, 142, 231, 235, 74, 124, 15, 158, 22, 43, 206, 51, 87, 107, 49, 94, 206, 203, 182, 64, 104, 55, 191, 81, 245]), (py! "d", .int 7)]

theorem C115_params_ec256Priv : tEc256Priv.Passes := by
  decide +kernel

/-- test_ecdsa.py:70-102 -/
def tEc384Pub : ParamsCase where
  cls := .ec384Pub
  format := [(py! "identifier", .pascal .string), (py! "q", .pascal .bytes)]
  valid := [(py! "identifier", .str (py! "nistp384")), (py! "q", .bytes [4, 170, 135, 202, 34, 190, 139, 5, 55, 142, 177, 199, 30, 243, 32, 173, 116, 110, 29, 59, 98, 139, 167, 155, 152, 89, 247, 65, 224, 130, 84, 42, 56, 85, 2, 242, 93, 191, 85, 41, 108, 58, 84, 94, 56, 114, 118, 10, 183, 54, 23, 222, 74, 150, 38, 44, 111, 93, 158, 152, 191, 146, 146, 220, 41, 248, 244, 29, 189, 40, 154, 20, 124, 233, 218, 49, 19, 181, 240, 184, 192, 10, 96, 177, 206, 29, 126, 129, 157, 122, 67, 29, 124, 144, 234, 14, 95])]
  invalid := [([(py! "identifier", .str (py! "nistp384")), (py! "q", .bytes [0])], .notOnCurve),
    ([(py! "identifier", .str (py! "nistp521")), (py! "q", .bytes [4, 0, 198, 133, 142, 6, 183, 4, 4, 233, 205, 158, 62, 203, 102, 35, 149, 180, 66, 156, 100, 129, 57, 5, 63, 181, 33, 248, 40, 175, 96, 107, 77, 61, 186, 161, 75, 94, 119, 239, 231, 89, 40, 254, 29, 193, 39, 162, 255, 168, 222, 51, 72, 179, 193, 133, 106, 66, 155, 249, 126, 126, 49, 194, 229, 189, 102, 1, 24, 57, 41, 106, 120, 154, 59, 192, 4, 92, 138, 95, 180, 44, 125, 27, 217, 152, 245, 68, 73, 87, 155, 68, 104, 23, 175, 189, 23, 39, 62, 102, 44, 151, 238, 114, 153, 94, 244, 38, 64, 197, 80, 185, 1, 63, 173, 7, 97, 53, 60, 112, 134, 162, 114, 194, 64, 136, 190, 148, 118, 159, 209, 102, 80])], .curveIdentifier)]

theorem C115_params_ec384Pub : tEc384Pub.Passes := by
  decide +kernel

/-- test_ecdsa.py:103-117 -/
def tEc384Priv : ParamsCase where
  cls := .ec384Priv
  format := [(py! "identifier", .pascal .string), (py! "q", .pascal .bytes), (py! "d", .pascal .mpint)]
  valid := [(py! "identifier", .str (py! "nistp384")), (py! "q", .bytes [4, 170, 135, 202, 34, 190, 139, 5, 55, 142, 177, 199, 30, 243, 32, 173, 116, 110, 29, 59, 98, 139, 167, 155, 152, 89, 247, 65, 224, 130, 84, 42, 56, 85, 2, 242, 93, 191, 85, 41, 108, 58, 84, 94, 56, 114, 118, 10, 183, 54, 23, 222, 74, 150, 38, 44, 111, 93, 158, 152, 191, 146, 146, 220, 41, 248, 244, 29, 189, 40, 154, 20, 124, 233, 218, 49, 19, 181, 240, 184, 192, 10, 96, 177, 206, 29, 126, 129, 157, 122, 67, 29, 124, 144, 234, 14, 95]), (py! "d", .int 7)]

theorem C115_params_ec384Priv : tEc384Priv.Passes := by
  decide +kernel

/-- test_ecdsa.py:118-150 -/
def tEc521Pub : ParamsCase where
  cls := .ec521Pub
  format := [(py! "identifier", .pascal .string), (py! "q", .pascal .bytes)]
  valid := [(py! "identifier", .str (py! "nistp521")), (py! "q", .bytes [4, 0, 198, 133, 142, 6, 183, 4, 4, 233, 205, 158, 62, 203, 102, 35, 149, 180, 66, 156, 100, 129, 57, 5, 63, 181, 33, 248, 40, 175, 96, 107, 77, 61, 186, 161, 75, 94, 119, 239, 231, 89, 40, 254, 29, 193, 39, 162, 255, 168, 222, 51, 72, 179, 193, 133, 106, 66, 155, 249, 126, 126, 49, 194, 229, 189, 102, 1, 24, 57, 41, 106, 120, 154, 59, 192, 4, 92, 138, 95, 180, 44, 125, 27, 217, 152, 245, 68, 73, 87, 155, 68, 104, 23, 175, 189, 23, 39, 62, 102, 44, 151, 238, 114, 153, 94, 244, 38, 64, 197, 80, 185, 1, 63, 173, 7, 97, 53, 60, 112, 134, 162, 114, 194, 64, 136, 190, 148, 118, 159, 209, 102, 80])]
  invalid := [([(py! "identifier", .str (py! "nistp521")), (py! "q", .bytes [0])], .notOnCurve),
    ([(py! "identifier", .str (py! "nistp256")), (py! "q", .bytes [4, 0, 198, 133, 142, 6, 183, 4, 4, 233, 205, 158, 62, 203, 102, 35, 149, 180, 66, 156, 100, 129, 57, 5, 63, 181, 33, 248, 40, 175, 96, 107, 77, 61, 186, 161, 75, 94, 119, 239, 231, 89, 40, 254, 29, 193, 39, 162, 255, 168, 222, 51, 72, 179, 193, 133, 106, 66, 155, 249, 126, 126, 49, 194, 229, 189, 102, 1, 24, 57, 41, 106, 120, 154, 59, 192, 4, 92, 138, 95, 180, 44, 125, 27, 217, 152, 245, 68, 73, 87, 155, 68, 104, 23, 175, 189, 23, 39, 62, 102, 44, 151, 238, 114, 153, 94, 244, 38, 64, 197, 80, 185, 1, 63, 173, 7, 97, 53, 60, 112, 134, 162, 114, 194, 64, 136, 190, 148, 118, 159, 209, 102, 80])], .curveIdentifier)]

theorem C115_params_ec521Pub : tEc521Pub.Passes := by
  decide +kernel

/-- test_ecdsa.py:151-165 -/
def tEc521Priv : ParamsCase where
  cls := .ec521Priv
  format := [(py! "identifier", .pascal .string), (py! "q", .pascal .bytes), (py! "d", .pascal .mpint)]
  valid := [(py! "identifier", .str (py! "nistp521")), (py! "q", .bytes [4, 0, 198, 133, 142, 6, 183, 4, 4, 233, 205, 158, 62, 203, 102, 35, 149, 180, 66, 156, 100, 129, 57, 5, 63, 181, 33, 248, 40, 175, 96, 107, 77, 61, 186, 161, 75, 94, 119, 239, 231, 89, 40, 254, 29, 193, 39, 162, 255, 168, 222, 51, 72, 179, 193, 133, 106, 66, 155, 249, 126, 126, 49, 194, 229, 189, 102, 1, 24, 57, 41, 106, 120, 154, 59, 192, 4, 92, 138, 95, 180, 44, 125, 27, 217, 152, 245, 68, 73, 87, 155, 68, 104, 23, 175, 189, 23, 39, 62, 102, 44, 151, 238, 114, 153, 94, 244, 38, 64, 197, 80, 185, 1, 63, 173, 7, 97, 53, 60, 112, 134, 162, 114, 194, 64, 136, 190, 148, 118, 159, 209, 102, 80]), (py! "d", .int 7)]

theorem C115_params_ec521Priv : tEc521Priv.Passes := by
  decide +kernel

/-- test_sk.py:18-54 -/
def tSkEc256Pub : ParamsCase where
  cls := .skEc256Pub
  format := [(py! "identifier", .pascal .string), (py! "q", .pascal .bytes), (py! "application", .pascal .string)]
  valid := [(py! "identifier", .str (py! "nistp256")), (py! "q", .bytes [4, 107, 23, 209, 242, 225, 44, 66, 71, 248, 188, 230, 229, 99, 164, 64, 242, 119, 3, 125, 129, 45, 235, 51, 160, 244, 161, 57, 69, 216, 152, 194, 150, 79, 227, 66, 226, 254, 26, 127, 155, 142, 231, 235, 74, 124, 15, 158, 22, 43, 206, 51, 87, 107, 49, 94, 206, 203, 182, 64, 104, 55, 191, 81, 245]), (py! "application", .str (py! "ssh:"))]
  invalid := [([(py! "identifier", .str (py! "nistp256")), (py! "q", .bytes [0]), (py! "application", .str (py! "ssh:"))], .notOnCurve),
    ([(py! "identifier", .str (py! "nistp384")), (py! "q", .bytes [4, 107, 23, 209, 242, 225, 44, 66, 71, 248, 188, 230, 229, 99, 164, 64, 242, 119, 3, 125, 129, 45, 235, 51, 160, 244, 161, 57, 69, 216, 152, 194, 150, 79, 227, 66, 226, 254, 26, 127, 155, 142, 231, 235, 74, 124, 15, 158, 22, 43, 206, 51, 87, 107, 49, 94, 206, 203, 182, 64, 104, 55, 191, 81, 245]), (py! "application", .str (py! "ssh:"))], .curveIdentifier)]

theorem C115_params_skEc256Pub : tSkEc256Pub.Passes := by
  decide +kernel

/-- test_sk.py:55-75 -/
def tSkEc256Priv : ParamsCase where
  cls := .skEc256Priv
  format := [(py! "identifier", .pascal .string), (py! "q", .pascal .bytes), (py! "application", .pascal .string), (py! "flags", .struct fmtBEB), (py! "key_handle", .pascal .bytes), (py! "reserved", .pascal .bytes)]
  valid := [(py! "identifier", .str (py! "nistp256")), (py! "q", .bytes [4, 107, 23, 209, 242, 225, 44, 66, 71, 248, 188, 230, 229, 99, 164, 64, 242, 119, 3, 125, 129, 45, 235, 51, 160, 244, 161, 57, 69, 216, 152, 194, 150, 79, 227, 66, 226, 254, 26, 127, 155, 142, 231, 235, 74, 124, 15, 158, 22, 43, 206, 51, 87, 107, 49, 94, 206, 203, 182, 64, 104, 55, 191, 81, 245]), (py! "application", .str (py! "ssh:")), (py! "flags", .int 0), (py! "key_handle", .bytes [97, 97, 97, 97]), (py! "reserved", .bytes [])]

theorem C115_params_skEc256Priv : tSkEc256Priv.Passes := by
  decide +kernel

/-- test_sk.py:76-95 -/
def tSkEd25519Pub : ParamsCase where
  cls := .skEd25519Pub
  format := [(py! "public", .pascal .bytes), (py! "application", .pascal .string)]
  valid := [(py! "public", .bytes [3, 20, 37, 54, 71, 88, 105, 122, 139, 156, 173, 190, 207, 224, 241, 2, 19, 36, 53, 70, 87, 104, 121, 138, 155, 172, 189, 206, 223, 240, 1, 18]), (py! "application", .str (py! "ssh:"))]
  invalid := [([(py! "public", .bytes [3, 20, 37, 54, 71, 88, 105, 122, 139, 156, 173, 190, 207, 224, 241, 2, 19, 36, 53, 70, 87, 104, 121, 138, 155, 172, 189, 206, 223, 240, 1]), (py! "application", .str (py! "ssh:"))], .ed25519PublicLength)]

theorem C115_params_skEd25519Pub : tSkEd25519Pub.Passes := by
  decide +kernel

/-- test_sk.py:96-112 -/
def tSkEd25519Priv : ParamsCase where
  cls := .skEd25519Priv
  format := [(py! "public", .pascal .bytes), (py! "application", .pascal .string), (py! "flags", .struct fmtBEB), (py! "key_handle", .pascal .bytes), (py! "reserved", .pascal .bytes)]
  valid := [(py! "public", .bytes [3, 20, 37, 54, 71, 88, 105, 122, 139, 156, 173, 190, 207, 224, 241, 2, 19, 36, 53, 70, 87, 104, 121, 138, 155, 172, 189, 206, 223, 240, 1, 18]), (py! "application", .str (py! "ssh:")), (py! "flags", .int 0), (py! "key_handle", .bytes [97, 97, 97, 97]), (py! "reserved", .bytes [])]

theorem C115_params_skEd25519Priv : tSkEd25519Priv.Passes := by
  decide +kernel

/-- test_cert.py:59-209 -/
def tCertRsa : ParamsCase where
  cls := .certRsa
  format := [(py! "nonce", .pascal .bytes), (py! "e", .pascal .mpint), (py! "n", .pascal .mpint), (py! "serial", .struct fmtBEQ), (py! "type", .struct fmtBEI), (py! "key_id", .pascal .string), (py! "valid_principals", .pascal .bytes), (py! "valid_after", .struct fmtBEQ), (py! "valid_before", .struct fmtBEQ), (py! "critical_options", .pascal .bytes), (py! "extensions", .pascal .bytes), (py! "reserved", .pascal .bytes), (py! "signature_key", .pascal .bytes), (py! "signature", .pascal .bytes)]
  valid := [(py! "nonce", .bytes [97]), (py! "e", .int 1), (py! "n", .int 2), (py! "serial", .int 3), (py! "type", .int 1), (py! "key_id", .str (py! "test")), (py! "valid_principals", .bytes [0, 0, 0, 1, 97]), (py! "valid_after", .int 4), (py! "valid_before", .int 5), (py! "critical_options", .bytes [0, 0, 0, 1, 98, 0, 0, 0, 1, 99]), (py! "extensions", .bytes [0, 0, 0, 1, 98, 0, 0, 0, 1, 99]), (py! "reserved", .bytes []), (py! "signature_key", .bytes tRsaPubBytes), (py! "signature", .bytes [102])]
  invalid := [([(py! "nonce", .bytes [97]), (py! "e", .int 1), (py! "n", .int 2), (py! "serial", .int 3), (py! "type", .int 3), (py! "key_id", .str (py! "test")), (py! "valid_principals", .bytes [0, 0, 0, 1, 97]), (py! "valid_after", .int 4), (py! "valid_before", .int 5), (py! "critical_options", .bytes [0, 0, 0, 1, 98, 0, 0, 0, 1, 99]), (py! "extensions", .bytes [0, 0, 0, 1, 98, 0, 0, 0, 1, 99]), (py! "reserved", .bytes []), (py! "signature_key", .bytes tRsaPubBytes), (py! "signature", .bytes [102])], .certType),
    ([(py! "nonce", .bytes [97]), (py! "e", .int 1), (py! "n", .int 2), (py! "serial", .int 3), (py! "type", .int 3), (py! "key_id", .str (py! "test")), (py! "valid_principals", .bytes [105, 110, 118, 97, 108, 105, 100]), (py! "valid_after", .int 4), (py! "valid_before", .int 5), (py! "critical_options", .bytes [0, 0, 0, 1, 98, 0, 0, 0, 1, 99]), (py! "extensions", .bytes [0, 0, 0, 1, 98, 0, 0, 0, 1, 99]), (py! "reserved", .bytes []), (py! "signature_key", .bytes tRsaPubBytes), (py! "signature", .bytes [102])], .certPrincipals),
    ([(py! "nonce", .bytes [97]), (py! "e", .int 1), (py! "n", .int 2), (py! "serial", .int 3), (py! "type", .int 3), (py! "key_id", .str (py! "test")), (py! "valid_principals", .bytes [0, 0, 0, 1, 97]), (py! "valid_after", .int 4), (py! "valid_before", .int 5), (py! "critical_options", .bytes [105, 110, 118, 97, 108, 105, 100]), (py! "extensions", .bytes [0, 0, 0, 1, 98, 0, 0, 0, 1, 99]), (py! "reserved", .bytes []), (py! "signature_key", .bytes tRsaPubBytes), (py! "signature", .bytes [102])], .certCriticalOptions),
    ([(py! "nonce", .bytes [97]), (py! "e", .int 1), (py! "n", .int 2), (py! "serial", .int 3), (py! "type", .int 3), (py! "key_id", .str (py! "test")), (py! "valid_principals", .bytes [0, 0, 0, 1, 97]), (py! "valid_after", .int 4), (py! "valid_before", .int 5), (py! "critical_options", .bytes [0, 0, 0, 1, 98, 0, 0, 0, 1, 99]), (py! "extensions", .bytes [105, 110, 118, 97, 108, 105, 100]), (py! "reserved", .bytes []), (py! "signature_key", .bytes tRsaPubBytes), (py! "signature", .bytes [102])], .certExtensions),
    ([(py! "nonce", .bytes [97]), (py! "e", .int 1), (py! "n", .int 2), (py! "serial", .int 3), (py! "type", .int 1), (py! "key_id", .str (py! "test")), (py! "valid_principals", .bytes [0, 0, 0, 1, 97]), (py! "valid_after", .int 4), (py! "valid_before", .int 5), (py! "critical_options", .bytes [0, 0, 0, 1, 98, 0, 0, 0, 1, 99]), (py! "extensions", .bytes [0, 0, 0, 1, 98, 0, 0, 0, 1, 99]), (py! "reserved", .bytes []), (py! "signature_key", .bytes tCertBytes), (py! "signature", .bytes [100])], .caIsCert),
    ([(py! "nonce", .bytes [97]), (py! "e", .int 1), (py! "n", .int 2), (py! "serial", .int 3), (py! "type", .int 1), (py! "key_id", .str (py! "test")), (py! "valid_principals", .bytes [0, 0, 0, 1, 97]), (py! "valid_after", .int 4), (py! "valid_before", .int 5), (py! "critical_options", .bytes [0, 0, 0, 1, 98, 0, 0, 0, 1, 99]), (py! "extensions", .bytes [0, 0, 0, 1, 98, 0, 0, 0, 1, 99]), (py! "reserved", .bytes []), (py! "signature_key", .bytes [105, 110, 118, 97, 108, 105, 100]), (py! "signature", .bytes [100])], .caInvalid)]

theorem C115_params_certRsa : tCertRsa.Passes := by
  decide +kernel

/-- test_cert.py:210-242 -/
def tCertEd25519 : ParamsCase where
  cls := .certEd25519
  format := [(py! "nonce", .pascal .bytes), (py! "public", .pascal .bytes), (py! "serial", .struct fmtBEQ), (py! "type", .struct fmtBEI), (py! "key_id", .pascal .string), (py! "valid_principals", .pascal .bytes), (py! "valid_after", .struct fmtBEQ), (py! "valid_before", .struct fmtBEQ), (py! "critical_options", .pascal .bytes), (py! "extensions", .pascal .bytes), (py! "reserved", .pascal .bytes), (py! "signature_key", .pascal .bytes), (py! "signature", .pascal .bytes)]
  valid := [(py! "nonce", .bytes [97]), (py! "public", .bytes [3, 20, 37, 54, 71, 88, 105, 122, 139, 156, 173, 190, 207, 224, 241, 2, 19, 36, 53, 70, 87, 104, 121, 138, 155, 172, 189, 206, 223, 240, 1, 18]), (py! "serial", .int 3), (py! "type", .int 1), (py! "key_id", .str (py! "test")), (py! "valid_principals", .bytes [0, 0, 0, 1, 97]), (py! "valid_after", .int 4), (py! "valid_before", .int 5), (py! "critical_options", .bytes [0, 0, 0, 1, 98, 0, 0, 0, 1, 99]), (py! "extensions", .bytes [0, 0, 0, 1, 98, 0, 0, 0, 1, 99]), (py! "reserved", .bytes []), (py! "signature_key", .bytes tRsaPubBytes), (py! "signature", .bytes [102])]

theorem C115_params_certEd25519 : tCertEd25519.Passes := by
  decide +kernel

/-- test_cert.py:243-281 -/
def tCertDss : ParamsCase where
  cls := .certDss
  format := [(py! "nonce", .pascal .bytes), (py! "p", .pascal .mpint), (py! "q", .pascal .mpint), (py! "g", .pascal .mpint), (py! "y", .pascal .mpint), (py! "serial", .struct fmtBEQ), (py! "type", .struct fmtBEI), (py! "key_id", .pascal .string), (py! "valid_principals", .pascal .bytes), (py! "valid_after", .struct fmtBEQ), (py! "valid_before", .struct fmtBEQ), (py! "critical_options", .pascal .bytes), (py! "extensions", .pascal .bytes), (py! "reserved", .pascal .bytes), (py! "signature_key", .pascal .bytes), (py! "signature", .pascal .bytes)]
  valid := [(py! "nonce", .bytes [97]), (py! "p", .int 1), (py! "q", .int 2), (py! "g", .int 3), (py! "y", .int 4), (py! "serial", .int 3), (py! "type", .int 1), (py! "key_id", .str (py! "test")), (py! "valid_principals", .bytes [0, 0, 0, 1, 97]), (py! "valid_after", .int 4), (py! "valid_before", .int 5), (py! "critical_options", .bytes [0, 0, 0, 1, 98, 0, 0, 0, 1, 99]), (py! "extensions", .bytes [0, 0, 0, 1, 98, 0, 0, 0, 1, 99]), (py! "reserved", .bytes []), (py! "signature_key", .bytes tRsaPubBytes), (py! "signature", .bytes [102])]

theorem C115_params_certDss : tCertDss.Passes := by
  decide +kernel

/-- test_cert.py:282-318 -/
def tCertEc256 : ParamsCase where
  cls := .certEc256
  format := [(py! "nonce", .pascal .bytes), (py! "identifier", .pascal .string), (py! "q", .pascal .bytes), (py! "serial", .struct fmtBEQ), (py! "type", .struct fmtBEI), (py! "key_id", .pascal .string), (py! "valid_principals", .pascal .bytes), (py! "valid_after", .struct fmtBEQ), (py! "valid_before", .struct fmtBEQ), (py! "critical_options", .pascal .bytes), (py! "extensions", .pascal .bytes), (py! "reserved", .pascal .bytes), (py! "signature_key", .pascal .bytes), (py! "signature", .pascal .bytes)]
  valid := [(py! "nonce", .bytes [97]), (py! "identifier", .str (py! "nistp256")), (py! "q", .bytes [4, 107, 23, 209, 242, 225, 44, 66, 71, 248, 188, 230, 229, 99, 164, 64, 242, 119, 3, 125, 129, 45, 235, 51, 160, 244, 161, 57, 69, 216, 152, 194, 150, 79, 227, 66, 226, 254, 26, 127, 155, 142, 231, 235, 74, 124, 15, 158, 22, 43, 206, 51, 87, 107, 49, 94, 206, 203, 182, 64, 104, 55, 191, 81, 245]), (py! "serial", .int 3), (py! "type", .int 1), (py! "key_id", .str (py! "test")), (py! "valid_principals", .bytes [0, 0, 0, 1, 97]), (py! "valid_after", .int 4), (py! "valid_before", .int 5), (py! "critical_options", .bytes [0, 0, 0, 1, 98, 0, 0, 0, 1, 99]), (py! "extensions", .bytes [0, 0, 0, 1, 98, 0, 0, 0, 1, 99]), (py! "reserved", .bytes []), (py! "signature_key", .bytes tRsaPubBytes), (py! "signature", .bytes [102])]

theorem C115_params_certEc256 : tCertEc256.Passes := by
  decide +kernel

/-- test_cert.py:319-355 -/
def tCertEc384 : ParamsCase where
  cls := .certEc384
  format := [(py! "nonce", .pascal .bytes), (py! "identifier", .pascal .string), (py! "q", .pascal .bytes), (py! "serial", .struct fmtBEQ), (py! "type", .struct fmtBEI), (py! "key_id", .pascal .string), (py! "valid_principals", .pascal .bytes), (py! "valid_after", .struct fmtBEQ), (py! "valid_before", .struct fmtBEQ), (py! "critical_options", .pascal .bytes), (py! "extensions", .pascal .bytes), (py! "reserved", .pascal .bytes), (py! "signature_key", .pascal .bytes), (py! "signature", .pascal .bytes)]
  valid := [(py! "nonce", .bytes [97]), (py! "identifier", .str (py! "nistp384")), (py! "q", .bytes [4, 170, 135, 202, 34, 190, 139, 5, 55, 142, 177, 199, 30, 243, 32, 173, 116, 110, 29, 59, 98, 139, 167, 155, 152, 89, 247, 65, 224, 130, 84, 42, 56, 85, 2, 242, 93, 191, 85, 41, 108, 58, 84, 94, 56, 114, 118, 10, 183, 54, 23, 222, 74, 150, 38, 44, 111, 93, 158, 152, 191, 146, 146, 220, 41, 248, 244, 29, 189, 40, 154, 20, 124, 233, 218, 49, 19, 181, 240, 184, 192, 10, 96, 177, 206, 29, 126, 129, 157, 122, 67, 29, 124, 144, 234, 14, 95]), (py! "serial", .int 3), (py! "type", .int 1), (py! "key_id", .str (py! "test")), (py! "valid_principals", .bytes [0, 0, 0, 1, 97]), (py! "valid_after", .int 4), (py! "valid_before", .int 5), (py! "critical_options", .bytes [0, 0, 0, 1, 98, 0, 0, 0, 1, 99]), (py! "extensions", .bytes [0, 0, 0, 1, 98, 0, 0, 0, 1, 99]), (py! "reserved", .bytes []), (py! "signature_key", .bytes tRsaPubBytes), (py! "signature", .bytes [102])]

theorem C115_params_certEc384 : tCertEc384.Passes := by
  decide +kernel

/-- test_cert.py:356-392 -/
def tCertEc521 : ParamsCase where
  cls := .certEc521
  format := [(py! "nonce", .pascal .bytes), (py! "identifier", .pascal .string), (py! "q", .pascal .bytes), (py! "serial", .struct fmtBEQ), (py! "type", .struct fmtBEI), (py! "key_id", .pascal .string), (py! "valid_principals", .pascal .bytes), (py! "valid_after", .struct fmtBEQ), (py! "valid_before", .struct fmtBEQ), (py! "critical_options", .pascal .bytes), (py! "extensions", .pascal .bytes), (py! "reserved", .pascal .bytes), (py! "signature_key", .pascal .bytes), (py! "signature", .pascal .bytes)]
  valid := [(py! "nonce", .bytes [97]), (py! "identifier", .str (py! "nistp521")), (py! "q", .bytes [4, 0, 198, 133, 142, 6, 183, 4, 4, 233, 205, 158, 62, 203, 102, 35, 149, 180, 66, 156, 100, 129, 57, 5, 63, 181, 33, 248, 40, 175, 96, 107, 77, 61, 186, 161, 75, 94, 119, 239, 231, 89, 40, 254, 29, 193, 39, 162, 255, 168, 222, 51, 72, 179, 193, 133, 106, 66, 155, 249, 126, 126, 49, 194, 229, 189, 102, 1, 24, 57, 41, 106, 120, 154, 59, 192, 4, 92, 138, 95, 180, 44, 125, 27, 217, 152, 245, 68, 73, 87, 155, 68, 104, 23, 175, 189, 23, 39, 62, 102, 44, 151, 238, 114, 153, 94, 244, 38, 64, 197, 80, 185, 1, 63, 173, 7, 97, 53, 60, 112, 134, 162, 114, 194, 64, 136, 190, 148, 118, 159, 209, 102, 80]), (py! "serial", .int 3), (py! "type", .int 1), (py! "key_id", .str (py! "test")), (py! "valid_principals", .bytes [0, 0, 0, 1, 97]), (py! "valid_after", .int 4), (py! "valid_before", .int 5), (py! "critical_options", .bytes [0, 0, 0, 1, 98, 0, 0, 0, 1, 99]), (py! "extensions", .bytes [0, 0, 0, 1, 98, 0, 0, 0, 1, 99]), (py! "reserved", .bytes []), (py! "signature_key", .bytes tRsaPubBytes), (py! "signature", .bytes [102])]

theorem C115_params_certEc521 : tCertEc521.Passes := by
  decide +kernel

/-- test_cert.py:393-427 -/
def tCertSkEd25519 : ParamsCase where
  cls := .certSkEd25519
  format := [(py! "nonce", .pascal .bytes), (py! "public", .pascal .bytes), (py! "application", .pascal .string), (py! "serial", .struct fmtBEQ), (py! "type", .struct fmtBEI), (py! "key_id", .pascal .string), (py! "valid_principals", .pascal .bytes), (py! "valid_after", .struct fmtBEQ), (py! "valid_before", .struct fmtBEQ), (py! "critical_options", .pascal .bytes), (py! "extensions", .pascal .bytes), (py! "reserved", .pascal .bytes), (py! "signature_key", .pascal .bytes), (py! "signature", .pascal .bytes)]
  valid := [(py! "nonce", .bytes [97]), (py! "public", .bytes [3, 20, 37, 54, 71, 88, 105, 122, 139, 156, 173, 190, 207, 224, 241, 2, 19, 36, 53, 70, 87, 104, 121, 138, 155, 172, 189, 206, 223, 240, 1, 18]), (py! "application", .str (py! "ssh:")), (py! "serial", .int 3), (py! "type", .int 1), (py! "key_id", .str (py! "test")), (py! "valid_principals", .bytes [0, 0, 0, 1, 97]), (py! "valid_after", .int 4), (py! "valid_before", .int 5), (py! "critical_options", .bytes [0, 0, 0, 1, 98, 0, 0, 0, 1, 99]), (py! "extensions", .bytes [0, 0, 0, 1, 98, 0, 0, 0, 1, 99]), (py! "reserved", .bytes []), (py! "signature_key", .bytes tRsaPubBytes), (py! "signature", .bytes [102])]

theorem C115_params_certSkEd25519 : tCertSkEd25519.Passes := by
  decide +kernel

/-- test_cert.py:428-466 -/
def tCertSkEc256 : ParamsCase where
  cls := .certSkEc256
  format := [(py! "nonce", .pascal .bytes), (py! "identifier", .pascal .string), (py! "q", .pascal .bytes), (py! "application", .pascal .string), (py! "serial", .struct fmtBEQ), (py! "type", .struct fmtBEI), (py! "key_id", .pascal .string), (py! "valid_principals", .pascal .bytes), (py! "valid_after", .struct fmtBEQ), (py! "valid_before", .struct fmtBEQ), (py! "critical_options", .pascal .bytes), (py! "extensions", .pascal .bytes), (py! "reserved", .pascal .bytes), (py! "signature_key", .pascal .bytes), (py! "signature", .pascal .bytes)]
  valid := [(py! "nonce", .bytes [97]), (py! "identifier", .str (py! "nistp256")), (py! "q", .bytes [4, 107, 23, 209, 242, 225, 44, 66, 71, 248, 188, 230, 229, 99, 164, 64, 242, 119, 3, 125, 129, 45, 235, 51, 160, 244, 161, 57, 69, 216, 152, 194, 150, 79, 227, 66, 226, 254, 26, 127, 155, 142, 231, 235, 74, 124, 15, 158, 22, 43, 206, 51, 87, 107, 49, 94, 206, 203, 182, 64, 104, 55, 191, 81, 245]), (py! "application", .str (py! "ssh:")), (py! "serial", .int 3), (py! "type", .int 1), (py! "key_id", .str (py! "test")), (py! "valid_principals", .bytes [0, 0, 0, 1, 97]), (py! "valid_after", .int 4), (py! "valid_before", .int 5), (py! "critical_options", .bytes [0, 0, 0, 1, 98, 0, 0, 0, 1, 99]), (py! "extensions", .bytes [0, 0, 0, 1, 98, 0, 0, 0, 1, 99]), (py! "reserved", .bytes []), (py! "signature_key", .bytes tRsaPubBytes), (py! "signature", .bytes [102])]

theorem C115_params_certSkEc256 : tCertSkEc256.Passes := by
  decide +kernel

/-- test_factory.py:30-205 -/
theorem C115_params_factory :
    getPublicClass (.str (py! "ssh-rsa")) = .ok .rsaPub ∧
    getPrivateClass (.str (py! "ssh-rsa")) = .ok .rsaPriv ∧
    getPublicClass (.str (py! "ssh-ed25519")) = .ok .ed25519Pub ∧
    getPrivateClass (.str (py! "ssh-ed25519")) = .ok .ed25519Priv ∧
    getPublicClass (.str (py! "ssh-dss")) = .ok .dssPub ∧
    getPrivateClass (.str (py! "ssh-dss")) = .ok .dssPriv ∧
    getPublicClass (.str (py! "ecdsa-sha2-nistp256")) = .ok .ec256Pub ∧
    getPrivateClass (.str (py! "ecdsa-sha2-nistp256")) = .ok .ec256Priv ∧
    getPublicClass (.str (py! "ecdsa-sha2-nistp384")) = .ok .ec384Pub ∧
    getPrivateClass (.str (py! "ecdsa-sha2-nistp384")) = .ok .ec384Priv ∧
    getPublicClass (.str (py! "ecdsa-sha2-nistp521")) = .ok .ec521Pub ∧
    getPrivateClass (.str (py! "ecdsa-sha2-nistp521")) = .ok .ec521Priv ∧
    getPublicClass (.str (py! "sk-ecdsa-sha2-nistp256@openssh.com")) = .ok .skEc256Pub ∧
    getPrivateClass (.str (py! "sk-ecdsa-sha2-nistp256@openssh.com")) = .ok .skEc256Priv ∧
    getPublicClass (.str (py! "sk-ssh-ed25519@openssh.com")) = .ok .skEd25519Pub ∧
    getPrivateClass (.str (py! "sk-ssh-ed25519@openssh.com")) = .ok .skEd25519Priv ∧
    getPublicClass (.str (py! "ssh-rsa-cert-v01@openssh.com")) = .ok .certRsa ∧
    raises (getPrivateClass (.str (py! "ssh-rsa-cert-v01@openssh.com"))) isKeyError ∧
    getPublicClass (.str (py! "ssh-ed25519-cert-v01@openssh.com")) = .ok .certEd25519 ∧
    raises (getPrivateClass (.str (py! "ssh-ed25519-cert-v01@openssh.com"))) isKeyError ∧
    getPublicClass (.str (py! "ssh-dss-cert-v01@openssh.com")) = .ok .certDss ∧
    raises (getPrivateClass (.str (py! "ssh-dss-cert-v01@openssh.com"))) isKeyError ∧
    getPublicClass (.str (py! "ecdsa-sha2-nistp256-cert-v01@openssh.com")) = .ok .certEc256 ∧
    raises (getPrivateClass (.str (py! "ecdsa-sha2-nistp256-cert-v01@openssh.com"))) isKeyError ∧
    getPublicClass (.str (py! "ecdsa-sha2-nistp384-cert-v01@openssh.com")) = .ok .certEc384 ∧
    raises (getPrivateClass (.str (py! "ecdsa-sha2-nistp384-cert-v01@openssh.com"))) isKeyError ∧
    getPublicClass (.str (py! "ecdsa-sha2-nistp521-cert-v01@openssh.com")) = .ok .certEc521 ∧
    raises (getPrivateClass (.str (py! "ecdsa-sha2-nistp521-cert-v01@openssh.com"))) isKeyError ∧
    getPublicClass (.str (py! "sk-ssh-ed25519-cert-v01@openssh.com")) = .ok .certSkEd25519 ∧
    raises (getPrivateClass (.str (py! "sk-ssh-ed25519-cert-v01@openssh.com"))) isKeyError ∧
    getPublicClass (.str (py! "sk-ecdsa-sha2-nistp256-cert-v01@openssh.com")) = .ok .certSkEc256 ∧
    raises (getPrivateClass (.str (py! "sk-ecdsa-sha2-nistp256-cert-v01@openssh.com"))) isKeyError := by
  decide +kernel

end OSK
