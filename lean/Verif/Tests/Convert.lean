import Verif.Props.Convert
import Verif.Props.Generate
import Verif.Lemmas.KernelRfl
/-
The tests of `convert_from`, `convert_to` and `generate_private_params` in tests/key_params, on the model.  The tests work with keys
that are made afresh at each run; the theorems hold of all keys.  Hypotheses: the generator made the key (`gen.rsa … = .ok k`), its
results have the right form (`GenLaws`), and the library accepts the numbers of a key made by its own generator (`Genuine`).
-/
namespace OSK
open Spec

/-! ### What the tests work with -/

/-- `private_key` for the numbers that the RSA generator made -/
def rsaObj (k : RsaNumbers) : KeyObj := .rsaPrivate k.p k.q k.d k.dmp1 k.dmq1 k.iqmp k.e k.n

/-- the parameters of an RSA key -/
def rsaData (k : RsaNumbers) : VDict :=
  [(py! "n", .int k.n), (py! "e", .int k.e), (py! "d", .int k.d), (py! "iqmp", .int k.iqmp), (py! "p", .int k.p), (py! "q", .int k.q)]

/-- `private_key` for the numbers that the DSA generator made -/
def dsaObj (k : DsaNumbers) : KeyObj := .dsaPrivate k.p k.q k.g k.y k.x

/-- the parameters of a DSS key -/
def dsaData (k : DsaNumbers) : VDict :=
  [(py! "p", .int k.p), (py! "q", .int k.q), (py! "g", .int k.g), (py! "y", .int k.y), (py! "x", .int k.x)]

/-- the parameters of an Ed25519 key -/
def edData (lib : Lib) (b : Bytes) : VDict :=
  [(py! "public", .bytes (lib.edPublicOf b)), (py! "private_public", .bytes (b ++ lib.edPublicOf b))]

/-- `_ECDSA_CURVES` (test_ecdsa.py:170-189): the public class, the private class, the name of the curve, the identifier; first the key
type that the model's specification gives the curve. -/
def ecdsaCurves : List (PlainType × Cls × Cls × Str × Str) :=
  [(.ec256, .ec256Pub, .ec256Priv, py! "secp256r1", py! "nistp256"), (.ec384, .ec384Pub, .ec384Priv, py! "secp384r1", py! "nistp384"),
   (.ec521, .ec521Pub, .ec521Priv, py! "secp521r1", py! "nistp521")]

/-- the parameters of an elliptic curve key -/
def ecData (lib : Lib) (curve ident : Str) (x y : Nat) (d : Int) : VDict :=
  [(py! "identifier", .str ident), (py! "q", .bytes (lib.encodePoint curve x y)), (py! "d", .int d)]

theorem tests_generated {ext : Ext} {lib : Lib} {gen : Gen} (hl : GenLaws ext lib gen) (t : PlainType) (kwargs : VDict) (o : KeyObj)
    (v : VDict) (ho : asked gen kwargs t = .ok o) (hv : privateValues lib t o = some v) :
    generateParams ext lib gen (plainClass .priv t) kwargs = ⟨[], .ok ⟨plainClass .priv t, v⟩⟩ := by
  rcases generateParams_plain hl t kwargs with ⟨e, h1, _⟩ | ⟨o', v', h1, h2, h3⟩
  · rw [ho] at h1; cases h1
  · rw [ho] at h1
    cases h1
    rw [hv] at h2
    cases h2
    exact h3

theorem tests_from {lib : Lib} {ext : Ext} {kind : Kind} {t : PlainType} {o : KeyObj} {v : VDict} (hr : refusal lib kind t o = none)
    (hv : values lib kind t o = some v) : (convertFrom lib ext (plainClass kind t) o).res = .ok ⟨plainClass kind t, v⟩ := by
  have h := C59_convert_from lib ext kind t _ o (paramsClass_plain kind t)
  rw [hr, hv] at h
  exact h

theorem tests_from_none {lib : Lib} {ext : Ext} {kind : Kind} {t : PlainType} {o : KeyObj} (hr : refusal lib kind t o = none)
    (hv : values lib kind t o = none) : ∃ m, (convertFrom lib ext (plainClass kind t) o).res = .error (.valueError m) := by
  have h := C59_convert_from lib ext kind t _ o (paramsClass_plain kind t)
  rw [hr, hv] at h
  exact h

theorem tests_to_private (lib : Lib) (ext : Ext) (t : PlainType) (o : KeyObj) (v : VDict) (hr : refusal lib .priv t o = none)
    (hv : privateValues lib t o = some v) (hg : Genuine lib o) :
    convertTo lib ⟨plainClass .priv t, v⟩ (some (· == o.cls)) = .ok o :=
  (C61_private_object lib ext t _ o _ (paramsClass_plain .priv t) (tests_from (ext := ext) hr hv) hg).1

theorem tests_to_public_of_private (lib : Lib) (ext : Ext) (t : PlainType) (o : KeyObj) (v : VDict) (hr : refusal lib .priv t o = none)
    (hv : privateValues lib t o = some v) (hg : Genuine lib o) (hp : Genuine lib (publicObject lib o)) :
    convertTo lib ⟨plainClass .priv t, v⟩ (some (· == (publicObject lib o).cls)) = .ok (publicObject lib o) :=
  (C61_private_object lib ext t _ o _ (paramsClass_plain .priv t) (tests_from (ext := ext) hr hv) hg).2 hp

theorem tests_to_public (lib : Lib) (ext : Ext) (t : PlainType) (o : KeyObj) (v : VDict)
    (hv : publicValues lib t o = some v) (hp : Genuine lib (publicObject lib o)) :
    convertTo lib ⟨plainClass .pub t, v⟩ (some (· == (publicObject lib o).cls)) = .ok (publicObject lib o) :=
  C61_public_object lib ext t _ o _ (paramsClass_plain .pub t) (tests_from (ext := ext) rfl hv) hp

theorem tests_to_other (lib : Lib) (kind : Kind) (t : PlainType) (d : VDict) :
    ∃ m, convertTo lib ⟨plainClass kind t, d⟩ (some fun _ => false) = .error (.valueError m) :=
  (C63_unsupported lib kind t _ d _ (paramsClass_plain kind t) (fun _ _ => rfl)).1

/-! ### test_rsa.py -/

/-- test_rsa.py:40-42 -/
theorem C115_rsa_public_convert_from_unknown (lib : Lib) (ext : Ext) :
    ∃ m, (convertFrom lib ext .rsaPub .other).res = .error (.valueError m) :=
  tests_from_none (kind := .pub) (t := .rsa) rfl rfl

/-- test_rsa.py:45-56 -/
theorem C115_rsa_public_convert_from_cryptography_public (lib : Lib) (ext : Ext) (e n : Int) :
    (convertFrom lib ext .rsaPub (.rsaPublic e n)).res = .ok ⟨.rsaPub, [(py! "e", .int e), (py! "n", .int n)]⟩ :=
  tests_from (kind := .pub) (t := .rsa) rfl rfl

/-- test_rsa.py:59-70 -/
theorem C115_rsa_public_convert_from_cryptography_private (lib : Lib) (ext : Ext) (k : RsaNumbers) :
    (convertFrom lib ext .rsaPub (rsaObj k)).res = .ok ⟨.rsaPub, [(py! "e", .int k.e), (py! "n", .int k.n)]⟩ :=
  tests_from (kind := .pub) (t := .rsa) rfl rfl

theorem tests_asked_rsa {gen : Gen} {k : RsaNumbers} {kwargs : VDict} {e size : Val}
    (he : (dget kwargs (py! "e")).getD (.int 65537) = e) (hs : (dget kwargs (py! "key_size")).getD (.int 4096) = size)
    (h : gen.rsa e size = .ok k) : asked gen kwargs .rsa = .ok (rsaObj k) := by
  unfold asked
  dsimp only
  rw [he, hs, h]
  rfl

theorem tests_asked_rsa_error {gen : Gen} {x : Exn} {kwargs : VDict} {e size : Val}
    (he : (dget kwargs (py! "e")).getD (.int 65537) = e) (hs : (dget kwargs (py! "key_size")).getD (.int 4096) = size)
    (h : gen.rsa e size = .error x) : asked gen kwargs .rsa = .error x := by
  unfold asked
  dsimp only
  rw [he, hs, h]

/-- test_rsa.py:73-84 -/
theorem C115_rsa_public_convert_to_cryptography_public (ext : Ext) (lib : Lib) (gen : Gen) (hl : GenLaws ext lib gen) (k : RsaNumbers)
    (h : gen.rsa (.int 65537) (.int 4096) = .ok k) (hg : Genuine lib (.rsaPublic k.e k.n)) :
    ∃ p, generateParams ext lib gen .rsaPriv [] = ⟨[], .ok p⟩ ∧ dget p.data (py! "e") = some (.int k.e) ∧
      dget p.data (py! "n") = some (.int k.n) ∧
      convertTo lib ⟨.rsaPub, [(py! "e", .int k.e), (py! "n", .int k.n)]⟩ (some (· == .rsaPublicKey)) = .ok (.rsaPublic k.e k.n) :=
  ⟨_, tests_generated hl .rsa [] _ _ (tests_asked_rsa rfl rfl h) rfl, rfl, rfl,
    tests_to_public lib ext .rsa (.rsaPublic k.e k.n) _ rfl hg⟩

/-- test_rsa.py:87-106: the generator is asked for the exponent and the size, there is no warning, and the library accepts the numbers. -/
theorem C115_rsa_private_generate_private_params (ext : Ext) (lib : Lib) (gen : Gen) (hl : GenLaws ext lib gen) (k : RsaNumbers)
    (h : gen.rsa (.int 65537) (.int 4096) = .ok k) (hg : Genuine lib (rsaObj k)) :
    generateParams ext lib gen .rsaPriv [] = ⟨[], .ok ⟨.rsaPriv, rsaData k⟩⟩ ∧
      lib.rsaCrtDmp1 k.d k.p = .ok k.dmp1 ∧ lib.rsaCrtDmp1 k.d k.q = .ok k.dmq1 ∧
      lib.rsaPrivate k.p k.q k.d k.dmp1 k.dmq1 k.iqmp k.e k.n = .ok () :=
  ⟨tests_generated hl .rsa _ _ _ (tests_asked_rsa (by decide +kernel) (by decide +kernel) h) rfl, hg.2.1, hg.2.2, hg.1⟩

/-- test_rsa.py:109-129: the generator is asked for the exponent and the size, there is no warning, and the library accepts the numbers. -/
theorem C115_rsa_private_generate_private_params_valid_public_exponent (ext : Ext) (lib : Lib) (gen : Gen) (hl : GenLaws ext lib gen) (k : RsaNumbers)
    (h : gen.rsa (.int 3) (.int 4096) = .ok k) (hg : Genuine lib (rsaObj k)) :
    generateParams ext lib gen .rsaPriv [(py! "e", .int 3)] = ⟨[], .ok ⟨.rsaPriv, rsaData k⟩⟩ ∧
      lib.rsaCrtDmp1 k.d k.p = .ok k.dmp1 ∧ lib.rsaCrtDmp1 k.d k.q = .ok k.dmq1 ∧
      lib.rsaPrivate k.p k.q k.d k.dmp1 k.dmq1 k.iqmp k.e k.n = .ok () :=
  ⟨tests_generated hl .rsa _ _ _ (tests_asked_rsa (by decide +kernel) (by decide +kernel) h) rfl, hg.2.1, hg.2.2, hg.1⟩

/-- test_rsa.py:132-135: it is the generator that raises the `ValueError`. -/
theorem C115_rsa_private_generate_private_params_invalid_public_exponent (ext : Ext) (lib : Lib) (gen : Gen) (hl : GenLaws ext lib gen) (m : String)
    (h : gen.rsa (.int 1) (.int 4096) = .error (.valueError m)) :
    generateParams ext lib gen .rsaPriv [(py! "e", .int 1)] = ⟨[], .error (.valueError m)⟩ := by
  have ha := tests_asked_rsa_error (kwargs := [(py! "e", .int 1)]) (by decide +kernel) (by decide +kernel) h
  rcases generateParams_plain hl .rsa [(py! "e", .int 1)] with ⟨x, h1, h2⟩ | ⟨o, v, h1, _, _⟩
  · rw [ha] at h1
    cases h1
    exact h2
  · rw [ha] at h1; cases h1

/-- test_rsa.py:138-160: the generator is asked for the exponent and the size, there is no warning, and the library accepts the numbers. -/
theorem C115_rsa_private_generate_private_params_valid_key_size (ext : Ext) (lib : Lib) (gen : Gen) (hl : GenLaws ext lib gen) (k : RsaNumbers)
    (h : gen.rsa (.int 65537) (.int 1024) = .ok k) (hg : Genuine lib (rsaObj k)) :
    generateParams ext lib gen .rsaPriv [(py! "key_size", .int 1024)] = ⟨[], .ok ⟨.rsaPriv, rsaData k⟩⟩ ∧
      lib.rsaCrtDmp1 k.d k.p = .ok k.dmp1 ∧ lib.rsaCrtDmp1 k.d k.q = .ok k.dmq1 ∧
      lib.rsaPrivate k.p k.q k.d k.dmp1 k.dmq1 k.iqmp k.e k.n = .ok () :=
  ⟨tests_generated hl .rsa _ _ _ (tests_asked_rsa (by decide +kernel) (by decide +kernel) h) rfl, hg.2.1, hg.2.2, hg.1⟩

/-- test_rsa.py:163-166: it is the generator that raises the `ValueError`. -/
theorem C115_rsa_private_generate_private_params_invalid_key_size (ext : Ext) (lib : Lib) (gen : Gen) (hl : GenLaws ext lib gen) (m : String)
    (h : gen.rsa (.int 65537) (.int 1) = .error (.valueError m)) :
    generateParams ext lib gen .rsaPriv [(py! "key_size", .int 1)] = ⟨[], .error (.valueError m)⟩ := by
  have ha := tests_asked_rsa_error (kwargs := [(py! "key_size", .int 1)]) (by decide +kernel) (by decide +kernel) h
  rcases generateParams_plain hl .rsa [(py! "key_size", .int 1)] with ⟨x, h1, h2⟩ | ⟨o, v, h1, _, _⟩
  · rw [ha] at h1
    cases h1
    exact h2
  · rw [ha] at h1; cases h1

/-- test_rsa.py:169-171 -/
theorem C115_rsa_private_convert_from_unknown (lib : Lib) (ext : Ext) :
    ∃ m, (convertFrom lib ext .rsaPriv .other).res = .error (.valueError m) :=
  tests_from_none (kind := .priv) (t := .rsa) rfl rfl

/-- test_rsa.py:174-189 -/
theorem C115_rsa_private_convert_from_cryptography_private (lib : Lib) (ext : Ext) (k : RsaNumbers) :
    (convertFrom lib ext .rsaPriv (rsaObj k)).res = .ok ⟨.rsaPriv, rsaData k⟩ :=
  tests_from (kind := .priv) (t := .rsa) rfl rfl

/-- test_rsa.py:192-207, and again in 210-225 -/
theorem C115_rsa_private_convert_to_cryptography_private (ext : Ext) (lib : Lib) (gen : Gen) (hl : GenLaws ext lib gen) (k : RsaNumbers)
    (h : gen.rsa (.int 65537) (.int 4096) = .ok k) (hg : Genuine lib (rsaObj k)) :
    ∃ p, generateParams ext lib gen .rsaPriv [] = ⟨[], .ok p⟩ ∧ p.data = rsaData k ∧
      convertTo lib p (some (· == .rsaPrivateKey)) = .ok (rsaObj k) :=
  ⟨_, tests_generated hl .rsa [] _ _ (tests_asked_rsa rfl rfl h) rfl, rfl, tests_to_private lib ext .rsa (rsaObj k) _ rfl rfl hg⟩

/-- test_rsa.py:228-235 -/
theorem C115_rsa_private_convert_to_cryptography_public (ext : Ext) (lib : Lib) (gen : Gen) (hl : GenLaws ext lib gen) (k : RsaNumbers)
    (h : gen.rsa (.int 65537) (.int 4096) = .ok k)
    (hg : Genuine lib (rsaObj k)) (hp : Genuine lib (.rsaPublic k.e k.n)) :
    ∃ p, generateParams ext lib gen .rsaPriv [] = ⟨[], .ok p⟩ ∧ p.data = rsaData k ∧
      convertTo lib p (some (· == .rsaPublicKey)) = .ok (.rsaPublic k.e k.n) :=
  ⟨_, tests_generated hl .rsa [] _ _ (tests_asked_rsa rfl rfl h) rfl, rfl,
    tests_to_public_of_private lib ext .rsa (rsaObj k) _ rfl rfl hg hp⟩

/-- test_rsa.py:238-241 -/
theorem C115_rsa_public_convert_to_not_implemented (ext : Ext) (lib : Lib) (gen : Gen) (hl : GenLaws ext lib gen) (k : RsaNumbers)
    (h : gen.rsa (.int 65537) (.int 4096) = .ok k) :
    ∃ p m, generateParams ext lib gen .rsaPriv [] = ⟨[], .ok p⟩ ∧ convertTo lib p (some fun _ => false) = .error (.valueError m) :=
  ⟨_, (tests_to_other lib .priv .rsa _).choose, tests_generated hl .rsa [] _ _ (tests_asked_rsa rfl rfl h) rfl,
    (tests_to_other lib .priv .rsa _).choose_spec⟩

/-- test_common.py:21-24 -/
theorem C115_convert_to_not_class (ext : Ext) (lib : Lib) (gen : Gen) (hl : GenLaws ext lib gen) (k : RsaNumbers)
    (h : gen.rsa (.int 65537) (.int 4096) = .ok k) :
    ∃ p m, generateParams ext lib gen .rsaPriv [] = ⟨[], .ok p⟩ ∧ convertTo lib p none = .error (.valueError m) :=
  ⟨_, _, tests_generated hl .rsa [] _ _ (tests_asked_rsa rfl rfl h) rfl, rfl⟩

/-! ### test_dss.py -/

theorem tests_asked_dsa {gen : Gen} {k : DsaNumbers} (h : gen.dsa 1024 = .ok k) : asked gen [] .dss = .ok (dsaObj k) := by
  unfold asked
  dsimp only
  rw [h]
  rfl

/-- test_dss.py:42-44 -/
theorem C115_dss_public_convert_from_unknown (lib : Lib) (ext : Ext) :
    ∃ m, (convertFrom lib ext .dssPub .other).res = .error (.valueError m) :=
  tests_from_none (kind := .pub) (t := .dss) rfl rfl

/-- test_dss.py:47-60 -/
theorem C115_dss_public_convert_from_cryptography_public (lib : Lib) (ext : Ext) (p q g y : Int) :
    (convertFrom lib ext .dssPub (.dsaPublic p q g y)).res =
      .ok ⟨.dssPub, [(py! "p", .int p), (py! "q", .int q), (py! "g", .int g), (py! "y", .int y)]⟩ :=
  tests_from (kind := .pub) (t := .dss) rfl rfl

/-- test_dss.py:63-77 -/
theorem C115_dss_public_convert_from_cryptography_private (lib : Lib) (ext : Ext) (k : DsaNumbers) :
    (convertFrom lib ext .dssPub (dsaObj k)).res =
      .ok ⟨.dssPub, [(py! "p", .int k.p), (py! "q", .int k.q), (py! "g", .int k.g), (py! "y", .int k.y)]⟩ :=
  tests_from (kind := .pub) (t := .dss) rfl rfl

/-- test_dss.py:80-97 -/
theorem C115_dss_public_convert_to_cryptography_public (ext : Ext) (lib : Lib) (gen : Gen) (hl : GenLaws ext lib gen) (k : DsaNumbers)
    (h : gen.dsa 1024 = .ok k) (hg : Genuine lib (.dsaPublic k.p k.q k.g k.y)) :
    ∃ p, generateParams ext lib gen .dssPriv [] = ⟨[], .ok p⟩ ∧ p.data = dsaData k ∧
      convertTo lib ⟨.dssPub, [(py! "p", .int k.p), (py! "q", .int k.q), (py! "g", .int k.g), (py! "y", .int k.y)]⟩
        (some (· == .dsaPublicKey)) = .ok (.dsaPublic k.p k.q k.g k.y) :=
  ⟨_, tests_generated hl .dss [] _ _ (tests_asked_dsa h) rfl, rfl, tests_to_public lib ext .dss (.dsaPublic k.p k.q k.g k.y) _ rfl hg⟩

/-- test_dss.py:100-102 -/
theorem C115_dss_private_convert_from_unknown (lib : Lib) (ext : Ext) :
    ∃ m, (convertFrom lib ext .dssPriv .other).res = .error (.valueError m) :=
  tests_from_none (kind := .priv) (t := .dss) rfl rfl

/-- test_dss.py:105-120 -/
theorem C115_dss_private_convert_from_cryptography_private (lib : Lib) (ext : Ext) (k : DsaNumbers) :
    (convertFrom lib ext .dssPriv (dsaObj k)).res = .ok ⟨.dssPriv, dsaData k⟩ :=
  tests_from (kind := .priv) (t := .dss) rfl rfl

/-- test_dss.py:123-137, and again in 140-154 -/
theorem C115_dss_private_convert_to_cryptography_private (ext : Ext) (lib : Lib) (gen : Gen) (hl : GenLaws ext lib gen) (k : DsaNumbers)
    (h : gen.dsa 1024 = .ok k) (hg : Genuine lib (dsaObj k)) :
    ∃ p, generateParams ext lib gen .dssPriv [] = ⟨[], .ok p⟩ ∧ p.data = dsaData k ∧
      convertTo lib p (some (· == .dsaPrivateKey)) = .ok (dsaObj k) :=
  ⟨_, tests_generated hl .dss [] _ _ (tests_asked_dsa h) rfl, rfl, tests_to_private lib ext .dss (dsaObj k) _ rfl rfl hg⟩

/-- test_dss.py:157-168 -/
theorem C115_dss_private_convert_to_cryptography_public (ext : Ext) (lib : Lib) (gen : Gen) (hl : GenLaws ext lib gen) (k : DsaNumbers)
    (h : gen.dsa 1024 = .ok k)
    (hg : Genuine lib (dsaObj k)) (hp : Genuine lib (.dsaPublic k.p k.q k.g k.y)) :
    ∃ p, generateParams ext lib gen .dssPriv [] = ⟨[], .ok p⟩ ∧ p.data = dsaData k ∧
      convertTo lib p (some (· == .dsaPublicKey)) = .ok (.dsaPublic k.p k.q k.g k.y) :=
  ⟨_, tests_generated hl .dss [] _ _ (tests_asked_dsa h) rfl, rfl,
    tests_to_public_of_private lib ext .dss (dsaObj k) _ rfl rfl hg hp⟩

/-- test_dss.py:171-174 -/
theorem C115_dss_public_convert_to_not_implemented (ext : Ext) (lib : Lib) (gen : Gen) (hl : GenLaws ext lib gen) (k : DsaNumbers)
    (h : gen.dsa 1024 = .ok k) :
    ∃ p m, generateParams ext lib gen .dssPriv [] = ⟨[], .ok p⟩ ∧ convertTo lib p (some fun _ => false) = .error (.valueError m) :=
  ⟨_, (tests_to_other lib .priv .dss _).choose, tests_generated hl .dss [] _ _ (tests_asked_dsa h) rfl,
    (tests_to_other lib .priv .dss _).choose_spec⟩

/-! ### test_ed25519.py -/

theorem tests_asked_ed {gen : Gen} {b : Bytes} (h : gen.ed25519 = .ok b) : asked gen [] .ed25519 = .ok (.edPrivate b) := by
  unfold asked
  dsimp only
  rw [h]

theorem tests_take (lib : Lib) {b : Bytes} (h : b.length = 32) : sliceTo (b ++ lib.edPublicOf b) ed25519KeySize = b := by
  have : sliceTo (b ++ lib.edPublicOf b) ed25519KeySize = (b ++ lib.edPublicOf b).take 32 := sliceTo_nat _ _
  rw [this, ← h, List.take_left]

theorem tests_ed_data {lib : Lib} {b : Bytes} (h : b.length = 32) :
    convertTo lib ⟨.ed25519Priv, edData lib b⟩ (some (· == .bytes)) = .ok (.bytes b) ∧
    (lib.nacl = true → lib.signingKey b = .ok () →
      convertTo lib ⟨.ed25519Priv, edData lib b⟩ (some (· == .signingKey)) = .ok (.signingKey b)) ∧
    (lib.nacl = true → lib.verifyKey (lib.edPublicOf b) = .ok () →
      convertTo lib ⟨.ed25519Priv, edData lib b⟩ (some (· == .verifyKey)) = .ok (.verifyKey (lib.edPublicOf b))) := by
  refine ⟨?_, fun hn hs => ?_, fun hn hs => ?_⟩
  · rw [show Cls.ed25519Priv = plainClass .priv .ed25519 from rfl, convertTo_plain]
    have hf : (picks lib .priv .ed25519).find? (fun sk => sk.2 == .bytes) = some (.ed25519Priv, .bytes) := by rfl
    rw [hf]
    exact congrArg (fun x => Except.ok (KeyObj.bytes x)) (tests_take lib h)
  · rw [show Cls.ed25519Priv = plainClass .priv .ed25519 from rfl, convertTo_plain]
    have hf : (picks lib .priv .ed25519).find? (fun sk => sk.2 == .signingKey) = some (.ed25519Priv, .signingKey) := by
      simp [picks, objClasses, hn]
      rfl
    rw [hf]
    have e : mappingToObject lib .ed25519Priv (edData lib b) .ed25519Priv .signingKey =
        (do lib.signingKey (sliceTo (b ++ lib.edPublicOf b) ed25519KeySize)
            pure (.signingKey (sliceTo (b ++ lib.edPublicOf b) ed25519KeySize))) := rfl
    refine Eq.trans e ?_
    rw [tests_take lib h, hs]
    rfl
  · rw [show Cls.ed25519Priv = plainClass .priv .ed25519 from rfl, convertTo_plain]
    have hf : (picks lib .priv .ed25519).find? (fun sk => sk.2 == .verifyKey) = some (.ed25519Pub, .verifyKey) := by
      simp [picks, objClasses, hn]
      rfl
    rw [hf]
    have e : mappingToObject lib .ed25519Pub (edData lib b) .ed25519Pub .verifyKey =
        (do lib.verifyKey (lib.edPublicOf b)
            pure (.verifyKey (lib.edPublicOf b))) := rfl
    refine Eq.trans e ?_
    rw [hs]
    rfl

/-- test_ed25519.py:68-70 -/
theorem C115_ed25519_public_convert_from_unknown (lib : Lib) (ext : Ext) :
    ∃ m, (convertFrom lib ext .ed25519Pub .other).res = .error (.valueError m) :=
  tests_from_none (kind := .pub) (t := .ed25519) rfl rfl

/-- test_ed25519.py:73-82 -/
theorem C115_ed25519_public_convert_from_cryptography_public (lib : Lib) (ext : Ext) (b : Bytes) :
    (convertFrom lib ext .ed25519Pub (.edPublic b)).res = .ok ⟨.ed25519Pub, [(py! "public", .bytes b)]⟩ :=
  tests_from (kind := .pub) (t := .ed25519) rfl rfl

/-- test_ed25519.py:85-91 -/
theorem C115_ed25519_public_convert_from_bytes_public (lib : Lib) (ext : Ext) (b : Bytes) :
    (convertFrom lib ext .ed25519Pub (.bytes b)).res = .ok ⟨.ed25519Pub, [(py! "public", .bytes b)]⟩ :=
  tests_from (kind := .pub) (t := .ed25519) rfl rfl

/-- test_ed25519.py:94-100 -/
theorem C115_ed25519_public_convert_from_pynacl_public (lib : Lib) (ext : Ext) (b : Bytes) (hn : lib.nacl = true) :
    (convertFrom lib ext .ed25519Pub (.verifyKey b)).res = .ok ⟨.ed25519Pub, [(py! "public", .bytes b)]⟩ :=
  tests_from (kind := .pub) (t := .ed25519) rfl (by simp [values, publicValues, publicObject, hn])

/-- test_ed25519.py:103-113 -/
theorem C115_ed25519_public_convert_from_cryptography_private (lib : Lib) (ext : Ext) (b : Bytes) :
    (convertFrom lib ext .ed25519Pub (.edPrivate b)).res = .ok ⟨.ed25519Pub, [(py! "public", .bytes (lib.edPublicOf b))]⟩ :=
  tests_from (kind := .pub) (t := .ed25519) rfl rfl

/-- test_ed25519.py:116-123 -/
theorem C115_ed25519_public_convert_from_pynacl_private (lib : Lib) (ext : Ext) (b : Bytes) (hn : lib.nacl = true) :
    (convertFrom lib ext .ed25519Pub (.signingKey b)).res = .ok ⟨.ed25519Pub, [(py! "public", .bytes (lib.edPublicOf b))]⟩ :=
  tests_from (kind := .pub) (t := .ed25519) rfl (by simp [values, publicValues, publicObject, hn])

/-- test_ed25519.py:126-136 -/
theorem C115_ed25519_public_convert_to_cryptography_public (ext : Ext) (lib : Lib) (gen : Gen) (hl : GenLaws ext lib gen) (b : Bytes)
    (h : gen.ed25519 = .ok b) (hg : lib.edPublic (lib.edPublicOf b) = .ok ()) :
    generateParams ext lib gen .ed25519Priv [] = ⟨[], .ok ⟨.ed25519Priv, edData lib b⟩⟩ ∧
      convertTo lib ⟨.ed25519Pub, [(py! "public", .bytes (lib.edPublicOf b))]⟩ (some (· == .ed25519PublicKey)) = .ok (.edPublic (lib.edPublicOf b)) :=
  ⟨tests_generated hl .ed25519 [] _ _ (tests_asked_ed h) rfl, tests_to_public lib ext .ed25519 (.edPublic (lib.edPublicOf b)) _ rfl hg⟩

/-- test_ed25519.py:139-146 -/
theorem C115_ed25519_public_convert_to_bytes_public (ext : Ext) (lib : Lib) (gen : Gen) (hl : GenLaws ext lib gen) (b : Bytes)
    (h : gen.ed25519 = .ok b) :
    generateParams ext lib gen .ed25519Priv [] = ⟨[], .ok ⟨.ed25519Priv, edData lib b⟩⟩ ∧
      convertTo lib ⟨.ed25519Pub, [(py! "public", .bytes (lib.edPublicOf b))]⟩ (some (· == .bytes)) = .ok (.bytes (lib.edPublicOf b)) :=
  ⟨tests_generated hl .ed25519 [] _ _ (tests_asked_ed h) rfl, tests_to_public lib ext .ed25519 (.bytes (lib.edPublicOf b)) _ rfl (hl.ed h).2⟩

/-- test_ed25519.py:149-156 -/
theorem C115_ed25519_public_convert_to_pynacl_public (ext : Ext) (lib : Lib) (gen : Gen) (hl : GenLaws ext lib gen) (b : Bytes)
    (h : gen.ed25519 = .ok b) (hn : lib.nacl = true) (hg : lib.verifyKey (lib.edPublicOf b) = .ok ()) :
    generateParams ext lib gen .ed25519Priv [] = ⟨[], .ok ⟨.ed25519Priv, edData lib b⟩⟩ ∧
      convertTo lib ⟨.ed25519Pub, [(py! "public", .bytes (lib.edPublicOf b))]⟩ (some (· == .verifyKey)) = .ok (.verifyKey (lib.edPublicOf b)) :=
  ⟨tests_generated hl .ed25519 [] _ _ (tests_asked_ed h) rfl, tests_to_public lib ext .ed25519 (.verifyKey (lib.edPublicOf b)) _ (by simp [publicValues, publicObject, hn]) hg⟩

/-- test_ed25519.py:159-166 -/
theorem C115_ed25519_public_convert_to_missing_pynacl (ext : Ext) (lib : Lib) (gen : Gen) (hl : GenLaws ext lib gen) (b : Bytes)
    (h : gen.ed25519 = .ok b) (hn : lib.nacl = false) :
    generateParams ext lib gen .ed25519Priv [] = ⟨[], .ok ⟨.ed25519Priv, edData lib b⟩⟩ ∧
      ∃ m, convertTo lib ⟨.ed25519Pub, [(py! "public", .bytes (lib.edPublicOf b))]⟩ (some (· == .verifyKey)) = .error (.valueError m) := by
  refine ⟨tests_generated hl .ed25519 [] _ _ (tests_asked_ed h) rfl,
    (C63_unsupported lib .pub .ed25519 _ _ _ (paramsClass_plain .pub .ed25519) ?_).1⟩
  intro c hc
  cases c <;> first | rfl | (simp [objClasses, hn] at hc)

/-- test_ed25519.py:169-178: `check_params_are_valid` is run once more, without a warning. -/
theorem C115_ed25519_private_generate_private_params (ext : Ext) (lib : Lib) (gen : Gen) (hl : GenLaws ext lib gen) (b : Bytes)
    (h : gen.ed25519 = .ok b) :
    generateParams ext lib gen .ed25519Priv [] = ⟨[], .ok ⟨.ed25519Priv, edData lib b⟩⟩ ∧
      runChecks (localCheck ext (caFromBytes ext) .ed25519Priv (edData lib b)) (checkPlan .ed25519Priv) = ⟨[], .ok ()⟩ := by
  refine ⟨tests_generated hl .ed25519 [] _ _ (tests_asked_ed h) rfl, ?_⟩
  obtain ⟨v, hv, hq⟩ := generated_quiet hl (ca := caFromBytes ext) .priv (tests_asked_ed h)
  cases hv
  exact hq

/-- test_ed25519.py:181-183 -/
theorem C115_ed25519_private_convert_from_unknown (lib : Lib) (ext : Ext) :
    ∃ m, (convertFrom lib ext .ed25519Priv .other).res = .error (.valueError m) :=
  tests_from_none (kind := .priv) (t := .ed25519) rfl rfl

/-- test_ed25519.py:186-201 -/
theorem C115_ed25519_private_convert_from_cryptography_private (lib : Lib) (ext : Ext) (b : Bytes) :
    (convertFrom lib ext .ed25519Priv (.edPrivate b)).res = .ok ⟨.ed25519Priv, edData lib b⟩ :=
  tests_from (kind := .priv) (t := .ed25519) rfl rfl

/-- test_ed25519.py:204-217 -/
theorem C115_ed25519_private_convert_from_bytes_private (lib : Lib) (ext : Ext) (b : Bytes) (hb : lib.edPrivate b = .ok ()) :
    (convertFrom lib ext .ed25519Priv (.bytes b)).res = .ok ⟨.ed25519Priv, edData lib b⟩ :=
  tests_from (kind := .priv) (t := .ed25519) (by simp [refusal, hb]) rfl

/-- test_ed25519.py:220-228 -/
theorem C115_ed25519_private_convert_from_pynacl_private (lib : Lib) (ext : Ext) (b : Bytes) (hn : lib.nacl = true) :
    (convertFrom lib ext .ed25519Priv (.signingKey b)).res = .ok ⟨.ed25519Priv, edData lib b⟩ :=
  tests_from (kind := .priv) (t := .ed25519) rfl (by simp [values, privateValues, hn, edData])

/-- test_ed25519.py:231-239 -/
theorem C115_ed25519_private_convert_to_cryptography_private (ext : Ext) (lib : Lib) (gen : Gen) (hl : GenLaws ext lib gen) (b : Bytes)
    (h : gen.ed25519 = .ok b) (hg : lib.edPrivate b = .ok ()) :
    generateParams ext lib gen .ed25519Priv [] = ⟨[], .ok ⟨.ed25519Priv, edData lib b⟩⟩ ∧
      convertTo lib ⟨.ed25519Priv, edData lib b⟩ (some (· == .ed25519PrivateKey)) = .ok (.edPrivate b) :=
  ⟨tests_generated hl .ed25519 [] _ _ (tests_asked_ed h) rfl, tests_to_private lib ext .ed25519 (.edPrivate b) _ rfl rfl ⟨(hl.ed h).1, hg⟩⟩

/-- test_ed25519.py:242-249 -/
theorem C115_ed25519_private_convert_to_cryptography_public (ext : Ext) (lib : Lib) (gen : Gen) (hl : GenLaws ext lib gen) (b : Bytes)
    (h : gen.ed25519 = .ok b) (hg : lib.edPrivate b = .ok ()) (hp : lib.edPublic (lib.edPublicOf b) = .ok ()) :
    generateParams ext lib gen .ed25519Priv [] = ⟨[], .ok ⟨.ed25519Priv, edData lib b⟩⟩ ∧
      convertTo lib ⟨.ed25519Priv, edData lib b⟩ (some (· == .ed25519PublicKey)) = .ok (.edPublic (lib.edPublicOf b)) :=
  ⟨tests_generated hl .ed25519 [] _ _ (tests_asked_ed h) rfl, tests_to_public_of_private lib ext .ed25519 (.edPrivate b) _ rfl rfl ⟨(hl.ed h).1, hg⟩ hp⟩

/-- test_ed25519.py:252-257 -/
theorem C115_ed25519_private_convert_to_bytes_private (ext : Ext) (lib : Lib) (gen : Gen) (hl : GenLaws ext lib gen) (b : Bytes)
    (h : gen.ed25519 = .ok b) :
    generateParams ext lib gen .ed25519Priv [] = ⟨[], .ok ⟨.ed25519Priv, edData lib b⟩⟩ ∧
      convertTo lib ⟨.ed25519Priv, edData lib b⟩ (some (· == .bytes)) = .ok (.bytes b) :=
  ⟨tests_generated hl .ed25519 [] _ _ (tests_asked_ed h) rfl, (tests_ed_data (hl.ed h).1).1⟩

/-- test_ed25519.py:260-265 -/
theorem C115_ed25519_private_convert_to_pynacl_private (ext : Ext) (lib : Lib) (gen : Gen) (hl : GenLaws ext lib gen) (b : Bytes)
    (h : gen.ed25519 = .ok b) (hn : lib.nacl = true) (hg : lib.signingKey b = .ok ()) :
    generateParams ext lib gen .ed25519Priv [] = ⟨[], .ok ⟨.ed25519Priv, edData lib b⟩⟩ ∧
      convertTo lib ⟨.ed25519Priv, edData lib b⟩ (some (· == .signingKey)) = .ok (.signingKey b) :=
  ⟨tests_generated hl .ed25519 [] _ _ (tests_asked_ed h) rfl, (tests_ed_data (hl.ed h).1).2.1 hn hg⟩

/-- test_ed25519.py:268-272 -/
theorem C115_ed25519_private_convert_to_pynacl_public (ext : Ext) (lib : Lib) (gen : Gen) (hl : GenLaws ext lib gen) (b : Bytes)
    (h : gen.ed25519 = .ok b) (hn : lib.nacl = true) (hg : lib.verifyKey (lib.edPublicOf b) = .ok ()) :
    generateParams ext lib gen .ed25519Priv [] = ⟨[], .ok ⟨.ed25519Priv, edData lib b⟩⟩ ∧
      convertTo lib ⟨.ed25519Priv, edData lib b⟩ (some (· == .verifyKey)) = .ok (.verifyKey (lib.edPublicOf b)) :=
  ⟨tests_generated hl .ed25519 [] _ _ (tests_asked_ed h) rfl, (tests_ed_data (hl.ed h).1).2.2 hn hg⟩

/-- test_ed25519.py:275-279 -/
theorem C115_ed25519_private_convert_to_missing_pynacl (ext : Ext) (lib : Lib) (gen : Gen) (hl : GenLaws ext lib gen) (b : Bytes)
    (h : gen.ed25519 = .ok b) (hn : lib.nacl = false) :
    generateParams ext lib gen .ed25519Priv [] = ⟨[], .ok ⟨.ed25519Priv, edData lib b⟩⟩ ∧
      ∃ m, convertTo lib ⟨.ed25519Priv, edData lib b⟩ (some (· == .verifyKey)) = .error (.valueError m) := by
  refine ⟨tests_generated hl .ed25519 [] _ _ (tests_asked_ed h) rfl,
    (C63_unsupported lib .priv .ed25519 _ _ _ (paramsClass_plain .priv .ed25519) ?_).1⟩
  intro c hc
  cases c <;> first | rfl | (simp [objClasses, hn] at hc)

/-- test_ed25519.py:282-285 -/
theorem C115_ed25519_public_convert_to_not_implemented (ext : Ext) (lib : Lib) (gen : Gen) (hl : GenLaws ext lib gen) (b : Bytes)
    (h : gen.ed25519 = .ok b) :
    generateParams ext lib gen .ed25519Priv [] = ⟨[], .ok ⟨.ed25519Priv, edData lib b⟩⟩ ∧
      ∃ m, convertTo lib ⟨.ed25519Priv, edData lib b⟩ (some fun _ => false) = .error (.valueError m) :=
  ⟨tests_generated hl .ed25519 [] _ _ (tests_asked_ed h) rfl, tests_to_other lib .priv .ed25519 _⟩

/-! ### test_ecdsa.py -/

theorem tests_curve {t : PlainType} {pub priv : Cls} {curve ident : Str} (h : (t, pub, priv, curve, ident) ∈ ecdsaCurves) :
    pub = plainClass .pub t ∧ priv = plainClass .priv t ∧ ∃ oid, t.curve = some (curve, ident, oid) := by
  simp only [ecdsaCurves, List.mem_cons, List.not_mem_nil, or_false, Prod.mk.injEq] at h
  rcases h with ⟨rfl, rfl, rfl, rfl, rfl⟩ | ⟨rfl, rfl, rfl, rfl, rfl⟩ | ⟨rfl, rfl, rfl, rfl, rfl⟩ <;> exact ⟨rfl, rfl, _, rfl⟩

theorem tests_ec_values {lib : Lib} {t : PlainType} {curve ident oid : Str} (h : t.curve = some (curve, ident, oid)) (x y : Nat)
    (d : Int) :
    publicValues lib t (.ecPublic curve x y) = some [(py! "identifier", .str ident), (py! "q", .bytes (lib.encodePoint curve x y))] ∧
    publicValues lib t (.ecPrivate curve x y d) = some [(py! "identifier", .str ident), (py! "q", .bytes (lib.encodePoint curve x y))] ∧
    privateValues lib t (.ecPrivate curve x y d) = some (ecData lib curve ident x y d) := by
  cases t <;> first | (cases h; done) | (cases h; exact ⟨rfl, rfl, rfl⟩)

theorem tests_asked_ec {gen : Gen} {t : PlainType} {curve ident oid : Str} {x y : Nat} {d : Int}
    (ht : t.curve = some (curve, ident, oid)) (h : gen.ec curve = .ok (x, y, d)) :
    asked gen [] t = .ok (.ecPrivate curve x y d) := by
  cases t <;> first | (cases ht; done) | (cases ht; simp only [asked, asked.onCurve]; rw [h])

theorem tests_bad_identifier {ext : Ext} {t : PlainType} {curve ident oid other : Str} {q : Bytes}
    (ht : t.curve = some (curve, ident, oid)) (hp : ext.validPoint oid q = true) (hne : other ≠ ident) :
    newParams ext (plainClass .pub t) [(py! "identifier", .str other), (py! "q", .bytes q)] =
      ⟨[.warn .curveIdentifier], .ok ⟨plainClass .pub t, [(py! "identifier", .str other), (py! "q", .bytes q)]⟩⟩ := by
  have h1 := plain_tables .pub t
  rw [Prod.ext_iff] at h1
  have h2 := plain_curve .pub t ht
  have hv : (Val.str ident ≠ Val.str other) := fun e => hne (Val.str.inj e).symm
  cases t <;> first | (cases ht; done) | skip
  all_goals
    simp only at h1
    simp only [newParams, newParamsWith, h1.1, runChecks, localCheck, h1.2, checkDict, checkField, ecdsaLocalCheck, h2, dget, bytesOf?]
    simp [hv, hp, Prim.matchesVal]
    try rfl

/-- test_ecdsa.py:191-193 -/
theorem C115_ecdsa_public_convert_from_unknown (lib : Lib) (ext : Ext) :
    ∃ m, (convertFrom lib ext .ecdsaPub .other).res = .error (.valueError m) :=
  ⟨"key_object is not of a supported type", by kernel_rfl⟩

/-- test_ecdsa.py:196-208 -/
theorem C115_ecdsa_public_convert_from_cryptography_public (lib : Lib) (ext : Ext) (x y : Nat) :
    ∀ t pub priv curve ident, (t, pub, priv, curve, ident) ∈ ecdsaCurves →
    (convertFrom lib ext .ecdsaPub (.ecPublic curve x y)).res =
      .ok ⟨pub, [(py! "identifier", .str ident), (py! "q", .bytes (lib.encodePoint curve x y))]⟩ := by
  intro t pub priv curve ident hc
  obtain ⟨rfl, rfl, oid, ht⟩ := tests_curve hc
  exact (C64_curve_class lib ext t _ _ _ _ (by rw [ht]; rfl) (paramsClass_plain .priv t) (paramsClass_plain .pub t)).1
    (tests_ec_values ht x y 0).1

/-- test_ecdsa.py:211-223 -/
theorem C115_ecdsa_public_convert_from_cryptography_private (lib : Lib) (ext : Ext) (x y : Nat) (d : Int) :
    ∀ t pub priv curve ident, (t, pub, priv, curve, ident) ∈ ecdsaCurves →
    (convertFrom lib ext .ecdsaPub (.ecPrivate curve x y d)).res =
      .ok ⟨pub, [(py! "identifier", .str ident), (py! "q", .bytes (lib.encodePoint curve x y))]⟩ := by
  intro t pub priv curve ident hc
  obtain ⟨rfl, rfl, oid, ht⟩ := tests_curve hc
  exact (C64_curve_class lib ext t _ _ _ _ (by rw [ht]; rfl) (paramsClass_plain .priv t) (paramsClass_plain .pub t)).1
    (tests_ec_values ht x y d).2.1

/-- test_ecdsa.py:226-237 -/
theorem C115_ecdsa_public_convert_from_cryptography_public_different_curve (lib : Lib) (ext : Ext) (x y : Nat) :
    ∀ t pub priv curve ident, (t, pub, priv, curve, ident) ∈ ecdsaCurves →
    ∀ other ∈ ecdsaCurves, other ≠ (t, pub, priv, curve, ident) →
    ∃ m, (convertFrom lib ext pub (.ecPublic other.2.2.2.1 x y)).res = .error (.valueError m) := by
  intro t pub priv curve ident hc other ho hne
  obtain ⟨rfl, rfl, oid, ht⟩ := tests_curve hc
  refine tests_from_none rfl ?_
  simp only [ecdsaCurves, List.mem_cons, List.not_mem_nil, or_false, Prod.mk.injEq] at hc ho
  rcases hc with ⟨rfl, hc⟩ | ⟨rfl, hc⟩ | ⟨rfl, hc⟩ <;> rcases ho with rfl | rfl | rfl <;>
    first
      | rfl
      | (exfalso; obtain ⟨h1, h2, rfl, rfl⟩ := hc; exact hne rfl)

/-- test_ecdsa.py:240-252, and again in 276-288 -/
theorem C115_ecdsa_public_convert_to_cryptography_public (ext : Ext) (lib : Lib) (gen : Gen) (hl : GenLaws ext lib gen) (x y : Nat) (d : Int) (t : PlainType)
    (pub priv : Cls) (curve ident : Str) (hc : (t, pub, priv, curve, ident) ∈ ecdsaCurves)
    (h : gen.ec curve = .ok (x, y, d)) (hg : Genuine lib (.ecPublic curve x y)) :
    generateParams ext lib gen priv [] = ⟨[], .ok ⟨priv, ecData lib curve ident x y d⟩⟩ ∧
      convertTo lib ⟨pub, [(py! "identifier", .str ident), (py! "q", .bytes (lib.encodePoint curve x y))]⟩ (some (· == .ecPublicKey)) = .ok (.ecPublic curve x y) := by
  obtain ⟨rfl, rfl, oid, ht⟩ := tests_curve hc
  refine ⟨tests_generated hl t [] _ _ (tests_asked_ec ht h) (tests_ec_values ht x y d).2.2, ?_⟩
  exact tests_to_public lib ext t (.ecPublic curve x y) _ (tests_ec_values ht x y d).1 hg

/-- test_ecdsa.py:255-273: there is a warning, and then the exception with this message. -/
theorem C115_ecdsa_public_convert_to_cryptography_public_bad_curve_identifier (ext : Ext) (lib : Lib) (gen : Gen) (hl : GenLaws ext lib gen) (x y : Nat) (d : Int) (t : PlainType)
    (pub priv : Cls) (curve ident : Str) (hc : (t, pub, priv, curve, ident) ∈ ecdsaCurves)
    (h : gen.ec curve = .ok (x, y, d))
    (other : Str) (hother : other ∈ ecdsaCurves.map (·.2.2.2.2)) (hne : other ≠ ident) :
    generateParams ext lib gen priv [] = ⟨[], .ok ⟨priv, ecData lib curve ident x y d⟩⟩ ∧
      newParams ext pub [(py! "identifier", .str other), (py! "q", .bytes (lib.encodePoint curve x y))] =
        ⟨[.warn .curveIdentifier], .ok ⟨pub, [(py! "identifier", .str other), (py! "q", .bytes (lib.encodePoint curve x y))]⟩⟩ ∧
      convertTo lib ⟨pub, [(py! "identifier", .str other), (py! "q", .bytes (lib.encodePoint curve x y))]⟩ (some (· == .ecPublicKey)) =
        .error (.valueError "The curve identifier encoded in the public key does not correspond to the key type") := by
  obtain ⟨rfl, rfl, oid, ht⟩ := tests_curve hc
  refine ⟨tests_generated hl t [] _ _ (tests_asked_ec ht h) (tests_ec_values ht x y d).2.2, ?_⟩
  refine ⟨tests_bad_identifier ht (hl.point ht h) hne, ?_⟩
  simp only [ecdsaCurves, List.mem_cons, List.not_mem_nil, or_false, Prod.mk.injEq, List.map_cons, List.map_nil] at hc hother
  rcases hc with ⟨rfl, _, _, rfl, rfl⟩ | ⟨rfl, _, _, rfl, rfl⟩ | ⟨rfl, _, _, rfl, rfl⟩ <;>
    rcases hother with rfl | rfl | rfl <;> first | exact absurd rfl hne | kernel_rfl

/-- test_ecdsa.py:291-295 -/
theorem C115_ecdsa_private_generate_private_params (ext : Ext) (lib : Lib) (gen : Gen) (hl : GenLaws ext lib gen) (x y : Nat) (d : Int)
    (h : gen.ec (py! "secp256r1") = .ok (x, y, d)) :
    generateParams ext lib gen .ecdsaPriv [] = ⟨[], .ok ⟨.ec256Priv, ecData lib (py! "secp256r1") (py! "nistp256") x y d⟩⟩ := by
  have hd := C65_default_curve ext lib gen hl []
  rw [tests_asked_ec (t := .ec256) rfl h] at hd
  obtain ⟨v, c, h1, h2, h3⟩ := hd
  rw [(tests_ec_values (lib := lib) (t := .ec256) rfl x y d).2.2] at h1
  cases h1
  cases h2.symm.trans (paramsClass_plain .priv .ec256)
  exact h3

/-- test_ecdsa.py:298-304 -/
theorem C115_ecdsa_private_generate_private_params_specific_curve (ext : Ext) (lib : Lib) (gen : Gen) (hl : GenLaws ext lib gen) (x y : Nat) (d : Int) (t : PlainType)
    (pub priv : Cls) (curve ident : Str) (hc : (t, pub, priv, curve, ident) ∈ ecdsaCurves)
    (h : gen.ec curve = .ok (x, y, d)) :
    generateParams ext lib gen priv [] = ⟨[], .ok ⟨priv, ecData lib curve ident x y d⟩⟩ := by
  obtain ⟨rfl, rfl, oid, ht⟩ := tests_curve hc
  exact tests_generated hl t [] _ _ (tests_asked_ec ht h) (tests_ec_values ht x y d).2.2

/-- test_ecdsa.py:307-309 -/
theorem C115_ecdsa_private_convert_from_unknown (lib : Lib) (ext : Ext) :
    ∃ m, (convertFrom lib ext .ecdsaPriv .other).res = .error (.valueError m) :=
  ⟨"key_object is not of a supported type", by kernel_rfl⟩

/-- test_ecdsa.py:312-325 -/
theorem C115_ecdsa_private_convert_from_cryptography_private (lib : Lib) (ext : Ext) (x y : Nat) (d : Int) :
    ∀ t pub priv curve ident, (t, pub, priv, curve, ident) ∈ ecdsaCurves →
    (convertFrom lib ext .ecdsaPriv (.ecPrivate curve x y d)).res = .ok ⟨priv, ecData lib curve ident x y d⟩ := by
  intro t pub priv curve ident hc
  obtain ⟨rfl, rfl, oid, ht⟩ := tests_curve hc
  exact (C64_curve_class lib ext t _ _ _ _ (by rw [ht]; rfl) (paramsClass_plain .priv t) (paramsClass_plain .pub t)).2
    (tests_ec_values ht x y d).2.2

/-- test_ecdsa.py:328-339 -/
theorem C115_ecdsa_private_convert_from_cryptography_private_different_curve (lib : Lib) (ext : Ext) (x y : Nat) (d : Int) :
    ∀ t pub priv curve ident, (t, pub, priv, curve, ident) ∈ ecdsaCurves →
    ∀ other ∈ ecdsaCurves, other ≠ (t, pub, priv, curve, ident) →
    ∃ m, (convertFrom lib ext priv (.ecPrivate other.2.2.2.1 x y d)).res = .error (.valueError m) := by
  intro t pub priv curve ident hc other ho hne
  obtain ⟨rfl, rfl, oid, ht⟩ := tests_curve hc
  simp only [ecdsaCurves, List.mem_cons, List.not_mem_nil, or_false, Prod.mk.injEq] at hc ho
  rcases hc with ⟨rfl, hc⟩ | ⟨rfl, hc⟩ | ⟨rfl, hc⟩ <;> rcases ho with rfl | rfl | rfl <;>
    first
      | exact tests_from_none rfl rfl
      | (exfalso; obtain ⟨h1, h2, rfl, rfl⟩ := hc; exact hne rfl)

/-- test_ecdsa.py:342-351 -/
theorem C115_ecdsa_private_convert_to_cryptography_private (ext : Ext) (lib : Lib) (gen : Gen) (hl : GenLaws ext lib gen) (x y : Nat) (d : Int) (t : PlainType)
    (pub priv : Cls) (curve ident : Str) (hc : (t, pub, priv, curve, ident) ∈ ecdsaCurves)
    (h : gen.ec curve = .ok (x, y, d)) (hg : Genuine lib (.ecPrivate curve x y d)) :
    generateParams ext lib gen priv [] = ⟨[], .ok ⟨priv, ecData lib curve ident x y d⟩⟩ ∧
      convertTo lib ⟨priv, ecData lib curve ident x y d⟩ (some (· == .ecPrivateKey)) = .ok (.ecPrivate curve x y d) := by
  obtain ⟨rfl, rfl, oid, ht⟩ := tests_curve hc
  refine ⟨tests_generated hl t [] _ _ (tests_asked_ec ht h) (tests_ec_values ht x y d).2.2, ?_⟩
  refine tests_to_private lib ext t (.ecPrivate curve x y d) _ ?_ (tests_ec_values ht x y d).2.2 hg
  cases t <;> rfl

/-- test_ecdsa.py:354-362 -/
theorem C115_ecdsa_private_convert_to_cryptography_public (ext : Ext) (lib : Lib) (gen : Gen) (hl : GenLaws ext lib gen) (x y : Nat) (d : Int) (t : PlainType)
    (pub priv : Cls) (curve ident : Str) (hc : (t, pub, priv, curve, ident) ∈ ecdsaCurves)
    (h : gen.ec curve = .ok (x, y, d)) (hg : Genuine lib (.ecPrivate curve x y d)) :
    generateParams ext lib gen priv [] = ⟨[], .ok ⟨priv, ecData lib curve ident x y d⟩⟩ ∧
      convertTo lib ⟨priv, ecData lib curve ident x y d⟩ (some (· == .ecPublicKey)) = .ok (.ecPublic curve x y) := by
  obtain ⟨rfl, rfl, oid, ht⟩ := tests_curve hc
  refine ⟨tests_generated hl t [] _ _ (tests_asked_ec ht h) (tests_ec_values ht x y d).2.2, ?_⟩
  refine tests_to_public_of_private lib ext t (.ecPrivate curve x y d) _ ?_ (tests_ec_values ht x y d).2.2 hg hg.1
  cases t <;> rfl

/-- test_ecdsa.py:365-369 -/
theorem C115_ecdsa_public_convert_to_not_implemented (ext : Ext) (lib : Lib) (gen : Gen) (hl : GenLaws ext lib gen) (x y : Nat) (d : Int) (t : PlainType)
    (pub priv : Cls) (curve ident : Str) (hc : (t, pub, priv, curve, ident) ∈ ecdsaCurves)
    (h : gen.ec curve = .ok (x, y, d)) :
    generateParams ext lib gen priv [] = ⟨[], .ok ⟨priv, ecData lib curve ident x y d⟩⟩ ∧
      ∃ m, convertTo lib ⟨priv, ecData lib curve ident x y d⟩ (some fun _ => false) = .error (.valueError m) := by
  obtain ⟨rfl, rfl, oid, ht⟩ := tests_curve hc
  refine ⟨tests_generated hl t [] _ _ (tests_asked_ec ht h) (tests_ec_values ht x y d).2.2, ?_⟩
  exact tests_to_other lib .priv t _

/-! ### The hypotheses can be met -/

/-- A generator that makes keys on all curves and refuses an exponent of 1 and a size of 1. -/
def exTestGen : Gen :=
  { exGen with
    rsa := fun e size => if e = .int 1 ∨ size = .int 1 then .error (.valueError "refused") else exGen.rsa e size
    ec := fun _ => .ok (2, 3, 300) }

theorem exTestGen_laws (nacl : Bool) : GenLaws exExt { exLib with nacl := nacl } exTestGen where
  curve := exGen_laws.curve
  ed := exGen_laws.ed
  point := fun _ _ => rfl

example (nacl : Bool) : ∀ k ∈ [3, 65537], ∀ size ∈ [1024, 4096],
    exTestGen.rsa (.int k) (.int size) = .ok ⟨3, 11, 7, 1, 7, 2, k, 33⟩ ∧
      Genuine { exLib with nacl := nacl } (rsaObj ⟨3, 11, 7, 1, 7, 2, k, 33⟩) ∧ Genuine { exLib with nacl := nacl } (.rsaPublic k 33) := by
  simp [exTestGen, exGen, Genuine, rsaObj, exLib]
example : exTestGen.rsa (.int 1) (.int 4096) = .error (.valueError "refused") ∧
    exTestGen.rsa (.int 65537) (.int 1) = .error (.valueError "refused") := ⟨rfl, rfl⟩
example : exTestGen.dsa 1024 = .ok ⟨23, 11, 2, 18, 7⟩ ∧ Genuine exLib (dsaObj ⟨23, 11, 2, 18, 7⟩) ∧
    Genuine exLib (.dsaPublic 23 11 2 18) := ⟨rfl, rfl, rfl⟩
example : exTestGen.ed25519 = .ok (List.replicate 32 9) ∧ exLib.edPrivate (List.replicate 32 9) = .ok () ∧
    exLib.edPublic (exLib.edPublicOf (List.replicate 32 9)) = .ok () ∧ exLib.nacl = true ∧
    exLib.verifyKey (exLib.edPublicOf (List.replicate 32 9)) = .ok () ∧ exLib.signingKey (List.replicate 32 9) = .ok () :=
  ⟨rfl, rfl, rfl, rfl, rfl, rfl⟩
example : ∀ c ∈ ecdsaCurves, exTestGen.ec c.2.2.2.1 = .ok (2, 3, 300) ∧ Genuine exLib (.ecPrivate c.2.2.2.1 2 3 300) ∧
    Genuine exLib (.ecPublic c.2.2.2.1 2 3) := by
  have h : ∀ c ∈ ecdsaCurves, Genuine exLib (.ecPublic c.2.2.2.1 2 3) := by
    intro c hc t ident oid ht
    cases t <;> try cases ht
    all_goals
      injection ht with e
      injection e with e1 e2
      injection e2 with e3 e4
      rw [← e1, ← e4]
      exact ⟨by decide +kernel, by rfl⟩
  exact fun c hc => ⟨rfl, ⟨h c hc, rfl⟩, h c hc⟩

end OSK
