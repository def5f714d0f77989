import Verif.Lemmas.Curves
import Verif.Spec.Generate
import Verif.Props.Checks
/-
Property C107: the check of elliptic curve points, with the curves of the three key types.
-/
namespace OSK
open Spec OSK.Std

/-- The curve of the table with the same numbers. -/
theorem nist_curve {c : Nist} (hc : c ∈ nistCurves) : ∃ s : Curve, curveByOid c.oid = some s ∧ s.Good ∧
    s.p = c.p ∧ s.b = c.b ∧ s.size = c.size ∧ c.p ≤ 256 ^ c.size := by
  simp only [nistCurves, List.mem_cons, List.not_mem_nil, or_false] at hc
  rcases hc with rfl | rfl | rfl
  · exact ⟨p256, rfl, p256_good, by decide +kernel, by decide +kernel, by decide +kernel, by decide +kernel⟩
  · exact ⟨p384, rfl, p384_good, by decide +kernel, by decide +kernel, by decide +kernel, by decide +kernel⟩
  · exact ⟨p521, rfl, p521_good, by decide +kernel, by decide +kernel, by decide +kernel, by decide +kernel⟩

theorem decodePoint_ok {oid : Str} {s : Curve} (h : curveByOid oid = some s) (q : Bytes) (xy : Nat × Nat) :
    Std.decodePoint oid q = .ok xy ↔ s.decode q = some xy := by
  unfold Std.decodePoint
  rw [h]
  dsimp only
  cases s.decode q <;> simp

/-! ### Decoding -/

/-- **C107** (fields). The numbers that the standard prints for the fields are prime. -/
theorem C107_primes : ∀ c ∈ nistCurves, c.p.Prime := by
  intro c hc
  obtain ⟨s, _, hg, hp, _⟩ := nist_curve hc
  exact hp ▸ hg.prime

/-- **C107** (decoding). Decoding succeeds for the encodings of points of the curve and for nothing else, and gives the
point: for compressed points too, whose second coordinate is computed. -/
theorem C107_decode {c : Nist} (hc : c ∈ nistCurves) (q : Bytes) (x y : Nat) :
    Std.decodePoint c.oid q = .ok (x, y) ↔ OnCurve c x y ∧ PointBytes c x y q := by
  obtain ⟨s, h1, hg, hp, hb, hs, _⟩ := nist_curve hc
  rw [decodePoint_ok h1, hg.decode_iff, hg.equation_int, hp, hb, hs]
  unfold OnCurve
  constructor
  · rintro ⟨hx, hy, he, ⟨X, Y, hX, hY, h2, h3, rfl⟩ | ⟨X, hX, h2, rfl⟩⟩
    · exact ⟨⟨hx, hy, he⟩, .whole hX hY (by rw [digitSum_eq, h2]) (by rw [digitSum_eq, h3])⟩
    · exact ⟨⟨hx, hy, he⟩, .compressed hX (by rw [digitSum_eq, h2])⟩
  · rintro ⟨⟨hx, hy, he⟩, hq⟩
    refine ⟨hx, hy, he, ?_⟩
    cases hq with
    | whole hX hY h2 h3 => exact Or.inl ⟨_, _, hX, hY, by rw [← h2, digitSum_eq], by rw [← h3, digitSum_eq], rfl⟩
    | compressed hX h2 => exact Or.inr ⟨_, hX, by rw [← h2, digitSum_eq], rfl⟩

/-- **C107** (acceptance). The check accepts exactly the encodings of points of the curve. -/
theorem C107_valid {c : Nist} (hc : c ∈ nistCurves) (q : Bytes) : Std.validPoint c.oid q = true ↔ Point c q := by
  unfold Std.validPoint
  constructor
  · intro h
    cases hd : Std.decodePoint c.oid q with
    | error e => rw [hd] at h; cases h
    | ok xy => exact ⟨xy.1, xy.2, (C107_decode hc q xy.1 xy.2).1 hd⟩
  · rintro ⟨x, y, h⟩
    rw [(C107_decode hc q x y).2 h]
    rfl

/-- **C107** (one point). An encoding belongs to one point only. -/
theorem C107_one_point {c : Nist} (hc : c ∈ nistCurves) {q : Bytes} {x y x' y' : Nat} (h : OnCurve c x y)
    (hq : PointBytes c x y q) (h' : OnCurve c x' y') (hq' : PointBytes c x' y' q) : x = x' ∧ y = y' := by
  have h1 := (C107_decode hc q x y).2 ⟨h, hq⟩
  rw [(C107_decode hc q x' y').2 ⟨h', hq'⟩] at h1
  simp only [Except.ok.injEq, Prod.mk.injEq] at h1
  exact ⟨h1.1.symm, h1.2.symm⟩

theorem encode_whole {c : Nist} (hc : c ∈ nistCurves) {x y : Nat} (h : OnCurve c x y) :
    PointBytes c x y (4 :: (natToBE c.size x ++ natToBE c.size y)) := by
  obtain ⟨_, _, _, _, _, _, hl⟩ := nist_curve hc
  exact .whole (natToBE_length _ _) (natToBE_length _ _)
    (by rw [digitSum_eq, beNat_natToBE_of_lt (h.1.trans_le hl)])
    (by rw [digitSum_eq, beNat_natToBE_of_lt (h.2.1.trans_le hl)])

/-- **C107** (two encodings). Each point of the curve has two encodings, of different length: a key can be written in two
ways, and its fingerprint differs between them. -/
theorem C107_two {c : Nist} (hc : c ∈ nistCurves) {x y : Nat} (h : OnCurve c x y) :
    ∃ w s, w.length = 2 * c.size + 1 ∧ s.length = c.size + 1 ∧ w ≠ s ∧ ∀ q, PointBytes c x y q ↔ q = w ∨ q = s := by
  obtain ⟨_, _, _, _, _, _, hl⟩ := nist_curve hc
  have hx := beNat_natToBE_of_lt (h.1.trans_le hl)
  have hy := beNat_natToBE_of_lt (h.2.1.trans_le hl)
  refine ⟨4 :: (natToBE c.size x ++ natToBE c.size y), (if y % 2 = 0 then 2 else 3) :: natToBE c.size x, ?_, ?_, ?_, ?_⟩
  · simp; omega
  · simp
  · intro he
    have h4 := (List.cons.inj he).1
    split at h4 <;> exact absurd h4 (by decide)
  · intro q
    constructor
    · rintro (⟨hX, hY, h2, h3⟩ | ⟨hX, h2⟩)
      · left
        rw [digitSum_eq] at h2 h3
        rw [← h2, ← h3]
        conv_rhs => rw [← hX]
        rw [natToBE_beNat, hX, ← hY, natToBE_beNat]
      · right
        rw [digitSum_eq] at h2
        rw [← h2, ← hX, natToBE_beNat]
    · rintro (rfl | rfl)
      · exact encode_whole hc h
      · exact .compressed (natToBE_length _ _) (by rw [digitSum_eq, hx])

/-! ### The warning -/

/-- The curve of a key type. -/
theorem curve_of_type {t name oid : Str} (ht : (t, name, oid) ∈ curveTable) : ∃ c ∈ nistCurves, c.oid = oid := by
  revert t name oid
  have : ∀ e ∈ curveTable, ∃ c ∈ nistCurves, c.oid = e.2.2 := by decide +kernel
  intro t name oid ht
  exact this _ ht

theorem curveTable_once {t name oid name' oid' : Str} (h : (t, name, oid) ∈ curveTable)
    (h' : (t, name', oid') ∈ curveTable) : oid = oid' := by
  have : ∀ e ∈ curveTable, ∀ e' ∈ curveTable, e.1 = e'.1 → e.2.2 = e'.2.2 := by decide +kernel
  exact this _ h _ h' rfl

theorem materialFault_point {ext : Ext} (hext : ext.validPoint = Std.validPoint) {kind : Kind} {t name : Str} {c : Nist}
    (hc : c ∈ nistCurves) (ht : (t, name, c.oid) ∈ curveTable) (d : VDict) :
    MaterialFault ext kind t d .notOnCurve ↔
      (∃ v, dget d (py! "identifier") = some v) ∧ ∃ q, dget d (py! "q") = some (.bytes q) ∧ ¬ Point c q := by
  constructor
  · generalize hw : Warning.notOnCurve = w
    intro h
    cases h with
    | point h1 h2 h3 h4 =>
      have := curveTable_once ht h1
      subst this
      exact ⟨⟨_, h2⟩, _, h3, fun hp => by rw [hext, (C107_valid hc _).2 hp] at h4; cases h4⟩
    | curve => cases hw
    | edLength => cases hw
    | edMismatch => cases hw
    | edPrivate => cases hw
  · rintro ⟨⟨v, hv⟩, q, hq, hn⟩
    refine .point ht hv hq ?_
    rw [hext]
    cases h : Std.validPoint c.oid q
    · rfl
    · exact absurd ((C107_valid hc q).1 h) hn

/-- **C107** (warning). Constructing the parameters of a key on one of the curves warns that the point is not on the curve
if and only if there is an identifier, and `q` is a byte string that encodes no point of the curve. -/
theorem C107_warning (ext : Ext) (hext : ext.validPoint = Std.validPoint) (kind : Kind) {t name : Str} {k : Cls} {c : Nist}
    (hc : c ∈ nistCurves) (ht : (t, name, c.oid) ∈ curveTable) (d : VDict) (fmt : FDict)
    (hk : paramsClass kind (.str t) = .ok k) (hf : fieldsOf kind t = some fmt) (hn : isCertType t = false) :
    .warn .notOnCurve ∈ (newParams ext k d).log ↔
      (∃ v, dget d (py! "identifier") = some v) ∧ ∃ q, dget d (py! "q") = some (.bytes q) ∧ ¬ Point c q := by
  rw [(C71_checks ext kind t k d fmt hk hf hn).2, ← materialFault_point hext hc ht]
  constructor
  · rintro ⟨w, hw, h⟩
    obtain rfl : Warning.notOnCurve = w := by injection hw
    rcases h with h | h
    · nomatch h
    · exact h
  · exact fun h => ⟨_, rfl, Or.inr h⟩

/-- **C107** (certificates). Likewise for certificates, unless the warning is about the key of the authority. -/
theorem C107_certificate (ext : Ext) (hext : ext.validPoint = Std.validPoint) {t name : Str} {k : Cls} {c : Nist}
    (hc : c ∈ nistCurves) (ht : (t, name, c.oid) ∈ curveTable) (d : VDict) (fmt : FDict) (prm : Params)
    (hk : paramsClass .pub (.str t) = .ok k) (hf : publicFields t = some fmt) (hct : isCertType t = true)
    (h : (newParams ext k d).res = .ok prm) :
    .warn .notOnCurve ∈ (newParams ext k d).log ↔
      ((∃ v, dget d (py! "identifier") = some v) ∧ ∃ q, dget d (py! "q") = some (.bytes q) ∧ ¬ Point c q) ∨
      CertFault ext d (.warn .notOnCurve) := by
  rw [(C71_certificate_checks ext t k d fmt prm hk hf hct h).2, ← materialFault_point hext hc ht]
  refine or_congr_left ?_
  constructor
  · rintro ⟨w, hw, h⟩
    obtain rfl : Warning.notOnCurve = w := by injection hw
    rcases h with h | h
    · nomatch h
    · exact h
  · exact fun h => ⟨_, rfl, Or.inr h⟩

/-! ### The assumptions about `cryptography` -/

/-- The encoding used for key objects is the one with both coordinates. -/
theorem encodePoint_eq {t : PlainType} {name ident oid : Str} (ht : t.curve = some (name, ident, oid)) :
    ∃ c ∈ nistCurves, c.oid = oid ∧
      ∀ x y, Std.encodePoint name x y = 4 :: (natToBE c.size x ++ natToBE c.size y) := by
  cases t <;> simp only [PlainType.curve, reduceCtorEq, Option.some.injEq, Prod.mk.injEq] at ht
  all_goals
    obtain ⟨rfl, rfl, rfl⟩ := ht
  · exact ⟨nistCurves[0], by simp [nistCurves], rfl, fun x y => rfl⟩
  · exact ⟨nistCurves[1], by simp [nistCurves], rfl, fun x y => rfl⟩
  · exact ⟨nistCurves[2], by simp [nistCurves], rfl, fun x y => rfl⟩

/-- **C107** (assumptions). What the theorems about conversion (C60, C61) and generation (C65, C67) assume of `cryptography`'s
points holds of these curves: the encoding of a point of the curve is decoded to it, and is accepted. -/
theorem C107_assumed {t : PlainType} {name ident oid : Str} (ht : t.curve = some (name, ident, oid)) :
    ∃ c ∈ nistCurves, c.oid = oid ∧ ∀ x y, OnCurve c x y →
      Std.decodePoint oid (Std.encodePoint name x y) = .ok (x, y) ∧
      Std.validPoint oid (Std.encodePoint name x y) = true := by
  obtain ⟨c, hc, rfl, he⟩ := encodePoint_eq ht
  refine ⟨c, hc, rfl, fun x y h => ?_⟩
  rw [he]
  exact ⟨(C107_decode hc _ x y).2 ⟨h, encode_whole hc h⟩, (C107_valid hc _).2 ⟨x, y, h, encode_whole hc h⟩⟩

/-! ### OpenSSH -/

/-- **C107** (OpenSSH). Points that OpenSSH takes are accepted; but each point of the curves also has an encoding that is accepted
without warning and that OpenSSH does not take. -/
theorem C107_openssh {c : Nist} (hc : c ∈ nistCurves) :
    (∀ q, SshPoint c q → Std.validPoint c.oid q = true) ∧
    ∀ x y, OnCurve c x y → ∃ q, PointBytes c x y q ∧ Std.validPoint c.oid q = true ∧ ¬ SshPoint c q := by
  refine ⟨fun q h => (C107_valid hc q).2 ?_, fun x y h => ?_⟩
  · obtain ⟨x, y, h1, h2, _⟩ := h
    exact ⟨x, y, h1, h2⟩
  · obtain ⟨_, _, _, _, _, _, hl⟩ := nist_curve hc
    have hq : PointBytes c x y ((if y % 2 = 0 then 2 else 3) :: natToBE c.size x) :=
      .compressed (natToBE_length _ _) (by rw [digitSum_eq, beNat_natToBE_of_lt (h.1.trans_le hl)])
    refine ⟨_, hq, (C107_valid hc _).2 ⟨x, y, h, hq⟩, ?_⟩
    rintro ⟨_, _, _, _, h4, _⟩
    simp only [List.head?_cons, Option.some.injEq] at h4
    split at h4 <;> exact absurd h4 (by decide)

/-! ### Examples -/

/-- The base point of P-256. -/
def exBase : Nat × Nat := (0x6b17d1f2e12c4247f8bce6e563a440f277037d812deb33a0f4a13945d898c296,
  0x4fe342e2fe1a7f9b8ee7eb4a7c0f9e162bce33576b315ececbb6406837bf51f5)

/-- The base point of P-521. -/
def exBase521 : Nat × Nat :=
  (0xc6858e06b70404e9cd9e3ecb662395b4429c648139053fb521f828af606b4d3dbaa14b5e77efe75928fe1dc127a2ffa8de3348b3c1856a429bf97e7e31c2e5bd66,
   0x11839296a789a3bc0045c8a5fb42c7d1bd998f54449579b446817afbd17273e662c97ee72995ef42640c550b9013fad0761353c7086a272c24088be94769fd16650)

/-- Both encodings of the base points are decoded to them; a coordinate that is one too large, other lengths, the hybrid
encoding, the point at infinity, a first coordinate without a point and one that is not reduced are refused. -/
example : Std.decodePoint (py! "1.2.840.10045.3.1.7") (p256.encode exBase.1 exBase.2) = .ok exBase ∧
    Std.decodePoint (py! "1.2.840.10045.3.1.7") (3 :: natToBE 32 exBase.1) = .ok exBase ∧
    Std.decodePoint (py! "1.2.840.10045.3.1.7") (2 :: natToBE 32 exBase.1) = .ok (exBase.1, p256.p - exBase.2) ∧
    Std.decodePoint (py! "1.3.132.0.35") (2 :: natToBE 66 exBase521.1) = .ok exBase521 ∧
    Std.validPoint (py! "1.3.132.0.34") (p256.encode exBase.1 exBase.2) = false := by
  refine ⟨?_, ?_, ?_, ?_, ?_⟩ <;> decide +kernel

example : Std.validPoint (py! "1.2.840.10045.3.1.7") (p256.encode exBase.1 (exBase.2 + 1)) = false ∧
    Std.validPoint (py! "1.2.840.10045.3.1.7") (p256.encode exBase.1 exBase.2 ++ [0]) = false ∧
    Std.validPoint (py! "1.2.840.10045.3.1.7") (7 :: (p256.encode exBase.1 exBase.2).drop 1) = false ∧
    Std.validPoint (py! "1.2.840.10045.3.1.7") [0] = false ∧
    Std.validPoint (py! "1.2.840.10045.3.1.7") (2 :: natToBE 32 1) = false ∧
    Std.validPoint (py! "1.2.840.10045.3.1.7") (2 :: natToBE 32 p256.p) = false ∧
    Std.validPoint (py! "1.2.840.10045.3.1.7") (2 :: natToBE 32 0) = true := by
  refine ⟨?_, ?_, ?_, ?_, ?_, ?_, ?_⟩ <;> decide +kernel

/-- The base point is one that OpenSSH takes. -/
example : ∃ c ∈ nistCurves, c.oid = py! "1.2.840.10045.3.1.7" ∧ OnCurve c exBase.1 exBase.2 ∧
    SshPoint c (p256.encode exBase.1 exBase.2) := by
  have hc : nistCurves[0] ∈ nistCurves := by simp [nistCurves]
  have h := (C107_decode hc (p256.encode exBase.1 exBase.2) exBase.1 exBase.2).1 (by decide +kernel)
  exact ⟨_, hc, rfl, h.1, exBase.1, exBase.2, h.1, h.2, rfl, by decide +kernel, by decide +kernel, by decide +kernel,
    by decide +kernel⟩

/-- The library of these theorems, and a key with a point that is not on the curve. -/
def exStd : Ext := ⟨Std.validPoint, fun _ => []⟩

example : exStd.validPoint = Std.validPoint ∧
    (py! "ecdsa-sha2-nistp256", py! "nistp256", nistCurves[0].oid) ∈ curveTable ∧
    paramsClass .priv (.str (py! "ecdsa-sha2-nistp256")) = .ok .ec256Priv ∧
    (fieldsOf .priv (py! "ecdsa-sha2-nistp256")).isSome = true ∧
    (newParams exStd .ec256Pub [(py! "identifier", .str (py! "nistp256")),
      (py! "q", .bytes (p256.encode exBase.1 exBase.2))]).log = [] ∧
    (newParams exStd .ec256Pub [(py! "identifier", .str (py! "nistp256")),
      (py! "q", .bytes (p256.encode exBase.2 exBase.1))]).log = [.warn .notOnCurve] := by
  refine ⟨rfl, ?_, ?_, ?_, ?_, ?_⟩ <;> decide +kernel

end OSK
