import Verif.Lemmas.KeyPairs
import Verif.Props.Curves
import Verif.Props.Generate
/-
Property C109: the two halves of a private key belong together.
-/
namespace OSK
open Spec OSK.Std

/-! ### Conversion -/

theorem intArg_ok {d : VDict} {k : Str} {i : Int} : intArg d k = .ok i ↔ dget d k = some (.int i) := by
  unfold intArg getItem
  cases h : dget d k with
  | none => simp
  | some v => cases v <;> simp

theorem bytesArg_ok {d : VDict} {k : Str} {b : Bytes} : bytesArg d k = .ok b ↔ dget d k = some (.bytes b) := by
  unfold bytesArg getItem
  cases h : dget d k with
  | none => simp
  | some v => cases v <;> simp

theorem except_bind_ok {α β : Type} {x : Except Exn α} {f : α → Except Exn β} {b : β} :
    (x >>= f) = .ok b ↔ ∃ a, x = .ok a ∧ f a = .ok b := by
  cases x <;> simp [bind, Except.bind]

theorem exists_unit {P : Unit → Prop} : (∃ u, P u) ↔ P () := ⟨fun ⟨_, h⟩ => h, fun h => ⟨_, h⟩⟩

theorem EcRow.onCurve {t : PlainType} {c : Nist} {b : Nat × Nat} {g : Group} (h : EcRow t c b g) {d x y : Nat}
    (hm : Multiple c b d x y) : OnCurve c x y := by
  rw [← h.base, h.good.multiple_iff h.prime h.coefficient] at hm
  obtain ⟨h1, h2, h3⟩ := h.good.public_some hm
  rw [h.good.curve.equation_int, h.prime, h.coefficient] at h3
  rw [h.prime] at h1 h2
  exact ⟨h1, h2, h3⟩

theorem EcRow.nist {t : PlainType} {c : Nist} {b : Nat × Nat} {g : Group} (h : EcRow t c b g) : c ∈ nistCurves :=
  (List.of_mem_zip h.member).1

theorem EcRow.convert {t : PlainType} {c : Nist} {b : Nat × Nat} {g : Group} (h : EcRow t c b g) (nacl : Bool) (s : Cls)
    (hs : (curveOf s).2 = c.oid) (v : VDict) :
    (∃ o, mappingToObject (Std.lib nacl) s v .ecdsaPriv .ecPrivateKey = .ok o) ↔
      ∃ q d, EcPair c b q d ∧ dget v (py! "q") = some (.bytes q) ∧ dget v (py! "d") = some (.int d) := by
  obtain ⟨name, ident, h1, h2, h3⟩ := h.names
  have e : ∀ o, mappingToObject (Std.lib nacl) s v .ecdsaPriv .ecPrivateKey = .ok o ↔
      ∃ d, dget v (py! "d") = some (.int d) ∧ ∃ q, dget v (py! "q") = some (.bytes q) ∧ ∃ xy,
        Std.decodePoint c.oid q = .ok xy ∧ ecPrivate name xy.1 xy.2 d = .ok () ∧ .ecPrivate name xy.1 xy.2 d = o := by
    intro o
    simp only [mappingToObject, except_bind_ok, intArg_ok, bytesArg_ok, Std.lib, hs, h3, pure, Except.pure,
      Except.ok.injEq, Prod.exists]
    constructor
    · rintro ⟨d, hd, q, hq, x, y, hxy, ⟨⟩, hok, ho⟩
      exact ⟨d, hd, q, hq, x, y, hxy, hok, ho⟩
    · rintro ⟨d, hd, q, hq, x, y, hxy, hok, ho⟩
      exact ⟨d, hd, q, hq, x, y, hxy, ⟨⟩, hok, ho⟩
  simp only [e]
  constructor
  · rintro ⟨_, d, hd, q, hq, ⟨x, y⟩, hxy, hok, rfl⟩
    obtain ⟨h4, h5, h6⟩ := (h.checks h1 x y d).1 hok
    exact ⟨q, d, ⟨h4, h5, x, y, h6, ((C107_decode h.nist q x y).1 hxy).2⟩, hq, hd⟩
  · rintro ⟨q, d, ⟨h4, h5, x, y, h6, h7⟩, hq, hd⟩
    exact ⟨_, d, hd, q, hq, (x, y), (C107_decode h.nist q x y).2 ⟨h.onCurve h6, h7⟩, (h.checks h1 x y d).2 ⟨h4, h5, h6⟩, rfl⟩

theorem rsa_convert (nacl : Bool) (s : Cls) (v : VDict) :
    (∃ o, mappingToObject (Std.lib nacl) s v .rsaPriv .rsaPrivateKey = .ok o) ↔ BelongTogether .rsa v := by
  have e : ∀ o, mappingToObject (Std.lib nacl) s v .rsaPriv .rsaPrivateKey = .ok o ↔
      ∃ p, dget v (py! "p") = some (.int p) ∧ ∃ q, dget v (py! "q") = some (.int q) ∧
      ∃ d, dget v (py! "d") = some (.int d) ∧ ∃ dmp1, rsaCrtDmp1 d p = .ok dmp1 ∧ ∃ dmq1, rsaCrtDmp1 d q = .ok dmq1 ∧
      ∃ iqmp, dget v (py! "iqmp") = some (.int iqmp) ∧ ∃ e, dget v (py! "e") = some (.int e) ∧
      ∃ n, dget v (py! "n") = some (.int n) ∧ rsaPrivate p q d dmp1 dmq1 iqmp e n = .ok () ∧
        .rsaPrivate p q d dmp1 dmq1 iqmp e n = o := by
    intro o
    simp only [mappingToObject, except_bind_ok, intArg_ok, Std.lib, pure, Except.pure, Except.ok.injEq, exists_unit]
  simp only [e, BelongTogether]
  constructor
  · rintro ⟨_, p, hp, q, hq, d, hd, m1, h1, m2, h2, i, hi, e, he, n, hn, h, rfl⟩
    exact ⟨p, q, d, i, e, n, rsa_checks.1 ⟨m1, m2, h1, h2, h⟩, hp, hq, hd, hi, he, hn⟩
  · rintro ⟨p, q, d, i, e, n, h, hp, hq, hd, hi, he, hn⟩
    obtain ⟨m1, m2, h1, h2, h⟩ := rsa_checks.2 h
    exact ⟨_, p, hp, q, hq, d, hd, m1, h1, m2, h2, i, hi, e, he, n, hn, h, rfl⟩

theorem dsa_convert (nacl : Bool) (s : Cls) (v : VDict) :
    (∃ o, mappingToObject (Std.lib nacl) s v .dssPriv .dsaPrivateKey = .ok o) ↔ BelongTogether .dss v := by
  have e : ∀ o, mappingToObject (Std.lib nacl) s v .dssPriv .dsaPrivateKey = .ok o ↔
      ∃ x, dget v (py! "x") = some (.int x) ∧ ∃ y, dget v (py! "y") = some (.int y) ∧
      ∃ p, dget v (py! "p") = some (.int p) ∧ ∃ q, dget v (py! "q") = some (.int q) ∧
      ∃ g, dget v (py! "g") = some (.int g) ∧ dsaPrivate p q g y x = .ok () ∧ .dsaPrivate p q g y x = o := by
    intro o
    simp only [mappingToObject, except_bind_ok, intArg_ok, Std.lib, pure, Except.pure, Except.ok.injEq, exists_unit]
  simp only [e, BelongTogether, dsa_checks]
  constructor
  · rintro ⟨_, x, hx, y, hy, p, hp, q, hq, g, hg, h, rfl⟩
    exact ⟨p, q, g, y, x, h, hp, hq, hg, hy, hx⟩
  · rintro ⟨p, q, g, y, x, h, hp, hq, hg, hy, hx⟩
    exact ⟨_, x, hx, y, hy, p, hp, q, hq, g, hg, h, rfl⟩

/-- **C109** for RSA, DSA and ECDSA. Converting the values of a private key to a private key object succeeds exactly if the
values belong together. Missing from the full statement: Ed25519, see `C109_false` and `C109_ed25519`. -/
theorem C109_convert_partial (nacl : Bool) (t : PlainType) (ht : t ≠ .ed25519) (c : Cls)
    (hc : paramsClass .priv (.str t.name) = .ok c) (v : VDict) (dst : Dest)
    (hd : ∀ k ∈ objClasses (Std.lib nacl) .priv t, dst k = true) :
    (∃ o, convertTo (Std.lib nacl) ⟨c, v⟩ (some dst) = .ok o) ↔ BelongTogether t v := by
  rw [paramsClass_plain] at hc
  cases hc
  rw [convertTo_plain]
  cases t <;> simp only [objClasses, List.mem_singleton, forall_eq] at hd <;>
    simp only [picks, objClasses, List.map_cons, List.map_nil, List.cons_append, List.nil_append, List.find?_cons, hd]
  · exact rsa_convert nacl _ v
  · exact dsa_convert nacl _ v
  · exact absurd rfl ht
  · rw [show (plainClass .priv .ec256).conversionOf = .ecdsaPriv by decide +kernel,
      row_ec256.convert nacl _ (by decide +kernel)]
    simp only [BelongTogether, BelongTogether.ec]
    constructor
    · rintro ⟨q, d, h⟩
      exact ⟨_, _, q, d, rfl, rfl, h⟩
    · rintro ⟨c, g, q, d, h1, h2, h⟩
      obtain rfl : nistCurves[0] = c := Option.some.inj h1
      obtain rfl : basePoints[0] = g := Option.some.inj h2
      exact ⟨q, d, h⟩
  · rw [show (plainClass .priv .ec384).conversionOf = .ecdsaPriv by decide +kernel,
      row_ec384.convert nacl _ (by decide +kernel)]
    simp only [BelongTogether, BelongTogether.ec]
    constructor
    · rintro ⟨q, d, h⟩
      exact ⟨_, _, q, d, rfl, rfl, h⟩
    · rintro ⟨c, g, q, d, h1, h2, h⟩
      obtain rfl : nistCurves[1] = c := Option.some.inj h1
      obtain rfl : basePoints[1] = g := Option.some.inj h2
      exact ⟨q, d, h⟩
  · rw [show (plainClass .priv .ec521).conversionOf = .ecdsaPriv by decide +kernel,
      row_ec521.convert nacl _ (by decide +kernel)]
    simp only [BelongTogether, BelongTogether.ec]
    constructor
    · rintro ⟨q, d, h⟩
      exact ⟨_, _, q, d, rfl, rfl, h⟩
    · rintro ⟨c, g, q, d, h1, h2, h⟩
      obtain rfl : nistCurves[2] = c := Option.some.inj h1
      obtain rfl : basePoints[2] = g := Option.some.inj h2
      exact ⟨q, d, h⟩

theorem ed_convert (nacl : Bool) (v : VDict) (o : KeyObj) :
    mappingToObject (Std.lib nacl) .ed25519Priv v .ed25519Priv .ed25519PrivateKey = .ok o ↔
      ∃ seed rest, dget v (py! "private_public") = some (.bytes (seed ++ rest)) ∧ seed.length = 32 ∧ o = .edPrivate seed := by
  simp only [mappingToObject, except_bind_ok, bytesArg_ok, Std.lib, pure, Except.pure, Except.ok.injEq, exists_unit, edKey]
  constructor
  · rintro ⟨b, hb, hl, rfl⟩
    have e : sliceTo b ed25519KeySize = b.take 32 := sliceTo_nat b 32
    rw [e] at hl ⊢
    refine ⟨b.take 32, b.drop 32, by rw [List.take_append_drop]; exact hb, ?_, rfl⟩
    by_contra h
    rw [if_neg h] at hl
    cases hl
  · rintro ⟨seed, rest, hb, hl, rfl⟩
    refine ⟨_, hb, ?_, ?_⟩
    · rw [sliceTo_seed hl, if_pos hl]
    · rw [sliceTo_seed hl]

/-- **C109** for Ed25519. What becomes of the values of an Ed25519 private key: only the first 32 bytes of `private_public`
are looked at, and the public key of the object is computed from them. -/
theorem C109_ed25519 (nacl : Bool) (v : VDict) (o : KeyObj) :
    convertTo (Std.lib nacl) ⟨.ed25519Priv, v⟩ (some (· == .ed25519PrivateKey)) = .ok o ↔
      ∃ seed rest, dget v (py! "private_public") = some (.bytes (seed ++ rest)) ∧ seed.length = 32 ∧ o = .edPrivate seed := by
  have h0 : convertTo (Std.lib nacl) ⟨.ed25519Priv, v⟩ (some (· == .ed25519PrivateKey))
      = mappingToObject (Std.lib nacl) .ed25519Priv v .ed25519Priv .ed25519PrivateKey := by
    rw [show (Cls.ed25519Priv) = plainClass .priv .ed25519 from rfl, convertTo_plain]
    rfl
  rw [h0]
  exact ed_convert nacl v o

/-- An Ed25519 private key with the public half of another. -/
def exMixed : VDict := [(py! "public", .bytes (List.replicate 32 7)),
  (py! "private_public", .bytes (List.replicate 32 9 ++ List.replicate 32 7))]

/-- **C109** is false: the public half of an Ed25519 private key is not compared with the private half. The values are taken
without warning, are converted without exception, and come back changed. -/
theorem C109_false : ((newParams exStd .ed25519Priv exMixed).log = [] ∧
      (newParams exStd .ed25519Priv exMixed).res = .ok ⟨.ed25519Priv, exMixed⟩) ∧
    ¬ BelongTogether .ed25519 exMixed ∧
    convertTo (Std.lib true) ⟨.ed25519Priv, exMixed⟩ (some (· == .ed25519PrivateKey))
      = .ok (.edPrivate (List.replicate 32 9)) ∧
    ∃ p, (convertFrom (Std.lib true) exStd .ed25519Priv (.edPrivate (List.replicate 32 9))).res = .ok p ∧
      p.data ≠ exMixed ∧ BelongTogether .ed25519 p.data := by
  have hne : Std.edPublicOf (List.replicate 32 9) ≠ List.replicate 32 7 := by decide +kernel
  refine ⟨by decide +kernel, ?_, ?_, ?_⟩
  · rintro ⟨seed, hl, h1, h2⟩
    have e1 : dget exMixed (py! "public") = some (.bytes (List.replicate 32 7)) := by decide +kernel
    have e2 : dget exMixed (py! "private_public") = some (.bytes (List.replicate 32 9 ++ List.replicate 32 7)) := by
      decide +kernel
    rw [e2] at h2
    rw [e1] at h1
    simp only [Option.some.injEq, Val.bytes.injEq] at h1 h2
    obtain ⟨h3, -⟩ := List.append_inj h2 (by rw [hl]; rfl)
    rw [← h3] at h1
    exact hne h1.symm
  · exact (C109_ed25519 true _ _).2 ⟨_, List.replicate 32 7, by decide +kernel, rfl, rfl⟩
  · have h := C59_convert_from (Std.lib true) exStd .priv .ed25519 .ed25519Priv (.edPrivate (List.replicate 32 9))
      (by decide +kernel)
    refine ⟨_, h, ?_, ⟨List.replicate 32 9, rfl, rfl, rfl⟩⟩
    intro e
    simp only [exMixed, List.cons.injEq, Prod.mk.injEq, Val.bytes.injEq, true_and] at e
    exact hne e.1

/-! ### What belonging together means -/

theorem pow_mul_modEq {p : Nat} (hp : p.Prime) {d e : Nat} (h : (d : Int) * e ≡ 1 [ZMOD (p : Int) - 1]) (hd : 0 < d)
    (he : 0 < e) (m : Nat) : (m ^ e) ^ d ≡ m [MOD p] := by
  have := Fact.mk hp
  rw [← pow_mul, ← ZMod.natCast_eq_natCast_iff, Nat.cast_pow]
  by_cases hm : (m : ZMod p) = 0
  · rw [hm, zero_pow (Nat.mul_pos he hd).ne']
  · obtain ⟨k, hk⟩ : ∃ k : Nat, e * d = 1 + (p - 1) * k := by
      obtain ⟨k, hk⟩ := (Int.modEq_iff_dvd.1 h.symm)
      have hp1 := hp.one_lt
      have hpos : 0 ≤ k := by
        have h1 : 0 ≤ (d : Int) * e - 1 := by
          have : 1 ≤ (d : Int) * e := by exact_mod_cast Nat.mul_pos hd he
          omega
        rw [hk] at h1
        exact nonneg_of_mul_nonneg_right h1 (by omega)
      refine ⟨k.toNat, ?_⟩
      zify [hp1.le]
      rw [Int.toNat_of_nonneg hpos]
      linarith
    rw [hk, pow_add, pow_one, pow_mul, ZMod.pow_card_sub_one_eq_one hm, one_pow, mul_one]

/-- **C109** (RSA). With numbers that belong together, the private exponent undoes what the public one does, for every
message. -/
theorem C109_rsa {p q d iqmp e n : Int} (h : RsaPair p q d iqmp e n) (m : Int) : (m ^ e.toNat) ^ d.toNat ≡ m [ZMOD n] := by
  obtain ⟨⟨hp2, hp⟩, ⟨hq2, hq⟩, hn, ⟨he1, he⟩, ⟨hd0, hd⟩, hu1, hu2, hi0, hi1, hi⟩ := h
  obtain ⟨P, rfl⟩ := Int.eq_ofNat_of_zero_le (show 0 ≤ p by omega)
  obtain ⟨Q, rfl⟩ := Int.eq_ofNat_of_zero_le (show 0 ≤ q by omega)
  obtain ⟨D, rfl⟩ := Int.eq_ofNat_of_zero_le (show 0 ≤ d by omega)
  obtain ⟨E, rfl⟩ := Int.eq_ofNat_of_zero_le (show 0 ≤ e by omega)
  subst hn
  simp only [Int.toNat_natCast] at hp hq ⊢
  have hpq : P ≠ Q := by
    rintro rfl
    have : iqmp * (P : Int) ≡ 0 [ZMOD P] := (Int.modEq_zero_iff_dvd).2 (Dvd.intro_left _ rfl)
    have h1 := (hi.symm.trans this)
    have := Int.le_of_dvd (by decide) (Int.modEq_zero_iff_dvd.1 h1)
    omega
  have hco : Nat.Coprime P Q := (Nat.coprime_primes hp hq).2 hpq
  have nat : ∀ k : Nat, (k ^ E) ^ D ≡ k [MOD P * Q] := fun k =>
    (Nat.modEq_and_modEq_iff_modEq_mul hco).1 ⟨pow_mul_modEq hp hu1 (by omega) (by omega) k,
      pow_mul_modEq hq hu2 (by omega) (by omega) k⟩
  have hpos : 0 < (P : Int) * Q := by
    have h1 := hp.pos
    have h2 := hq.pos
    positivity
  have h1 : m ≡ ((m % (P * Q)).toNat : Int) [ZMOD P * Q] := by
    rw [Int.toNat_of_nonneg (Int.emod_nonneg _ hpos.ne')]
    exact (Int.mod_modEq _ _).symm
  refine ((h1.pow E).pow D).trans (Int.ModEq.trans ?_ h1.symm)
  have := nat (m % (P * Q)).toNat
  exact_mod_cast (Int.natCast_modEq_iff).2 this

/-- The groups whose order is proved to be prime. -/
theorem EcRow.every {t : PlainType} {c : Nist} {b : Nat × Nat} {g : Group} (h : EcRow t c b g) (hc : g.Cyclic) :
    (∀ d : Nat, 0 < d → d < c.order → ∃ x y, Multiple c b d x y) ∧
    ∀ d d' x y : Nat, d < c.order → d' < c.order → Multiple c b d x y → Multiple c b d' x y → d = d' := by
  simp only [← h.base, h.good.multiple_iff h.prime h.coefficient, ← h.order]
  constructor
  · intro d h1 h2
    cases hp : g.public d with
    | none => exact absurd (Nat.le_of_dvd h1 ((h.good.public_none hc d).1 hp)) (by omega)
    | some xy => exact ⟨xy.1, xy.2, rfl⟩
  · intro d d' x y h1 h2 h3 h4
    have := (h.good.public_eq hc d d').1 (h3.trans h4.symm)
    unfold Nat.ModEq at this
    rwa [Nat.mod_eq_of_lt h1, Nat.mod_eq_of_lt h2] at this

/-- **C109** (curves). Every private value in the range has a public point, and no two have the same. -/
theorem C109_ec : ∀ i < 3, ∃ c b, nistCurves[i]? = some c ∧ basePoints[i]? = some b ∧
    (∀ d : Nat, 0 < d → d < c.order → ∃ x y, Multiple c b d x y) ∧
    ∀ d d' x y : Nat, d < c.order → d' < c.order → Multiple c b d x y → Multiple c b d' x y → d = d' := by
  intro i hi
  have : i = 0 ∨ i = 1 ∨ i = 2 := by omega
  rcases this with rfl | rfl | rfl
  · exact ⟨_, _, rfl, rfl, row_ec256.every g256_cyclic⟩
  · exact ⟨_, _, rfl, rfl, row_ec384.every g384_cyclic⟩
  · exact ⟨_, _, rfl, rfl, row_ec521.every g521_cyclic⟩

/-! ### Generation -/

theorem row_of_curve {t : PlainType} {name ident oid : Str} (ht : t.curve = some (name, ident, oid)) :
    ∃ c b g, EcRow t c b g ∧ c.oid = oid ∧ groupByName name = some g := by
  cases t <;> simp only [PlainType.curve, reduceCtorEq, Option.some.injEq, Prod.mk.injEq] at ht
  all_goals
    obtain ⟨rfl, rfl, rfl⟩ := ht
  · exact ⟨_, _, _, row_ec256, rfl, rfl⟩
  · exact ⟨_, _, _, row_ec384, rfl, rfl⟩
  · exact ⟨_, _, _, row_ec521, rfl, rfl⟩

theorem nist_oid {c c' : Nist} (h : c ∈ nistCurves) (h' : c' ∈ nistCurves) (he : c.oid = c'.oid) : c = c' := by
  simp only [nistCurves, List.mem_cons, List.not_mem_nil, or_false] at h h'
  rcases h with rfl | rfl | rfl <;> rcases h' with rfl | rfl | rfl <;> first | rfl | exact absurd he (by decide)

theorem nist_pair {c : Nist} {b b' : Nat × Nat} (h : (c, b) ∈ nistCurves.zip basePoints)
    (h' : (c, b') ∈ nistCurves.zip basePoints) : b = b' := by
  simp only [nistCurves, basePoints, List.zip_cons_cons, List.zip_nil_right, List.mem_cons, List.not_mem_nil, or_false,
    Prod.mk.injEq] at h h'
  rcases h with ⟨h1, rfl⟩ | ⟨h1, rfl⟩ | ⟨h1, rfl⟩ <;> rcases h' with ⟨h2, rfl⟩ | ⟨h2, rfl⟩ | ⟨h2, rfl⟩ <;>
    first | rfl | exact absurd (congrArg Nist.oid (h1.symm.trans h2)) (by decide)

theorem edPublicOf_length (seed : Bytes) : (Std.edPublicOf seed).length = 32 := by
  simp [Std.edPublicOf, Std.edEncode]

attribute [local irreducible] Std.edPublicOf Std.validPoint Std.encodePoint

/-- **C109** (laws). What the theorems about generation assume of the library follows from what belongs together. -/
theorem C109_laws (ext : Ext) (hext : ext.validPoint = Std.validPoint) (nacl : Bool) {gen : Gen} (hg : Generates gen) :
    GenLaws ext (Std.lib nacl) gen where
  curve := by
    intro t name ident oid ht
    cases t <;> simp only [PlainType.curve, reduceCtorEq, Option.some.injEq, Prod.mk.injEq] at ht
    all_goals
      obtain ⟨rfl, rfl, rfl⟩ := ht
      rfl
  ed := fun h => ⟨hg.ed h, edPublicOf_length _⟩
  point := by
    intro t name ident oid x y d ht h
    obtain ⟨c, b, g, hr, rfl, -⟩ := row_of_curve ht
    obtain ⟨c', hc', ho, hv⟩ := C107_assumed ht
    obtain rfl := nist_oid hc' hr.nist ho
    rw [hext]
    exact (hv x y (hr.onCurve (hg.ec ht h hr.member rfl).2.2)).2

theorem together_ec {t : PlainType} {c : Nist} {b : Nat × Nat} {g : Group} (h : EcRow t c b g) {v : VDict} {q : Bytes}
    {d : Int} (hp : EcPair c b q d) (hq : dget v (py! "q") = some (.bytes q)) (hd : dget v (py! "d") = some (.int d)) :
    BelongTogether t v := by
  obtain ⟨name, ident, h1, -⟩ := h.names
  have hm := h.member
  have hn := h.nist
  cases t <;> simp only [PlainType.curve, reduceCtorEq, Option.some.injEq, Prod.mk.injEq] at h1
  · obtain rfl := nist_oid (show nistCurves[0] ∈ nistCurves by simp) hn h1.2.2
    obtain rfl := nist_pair row_ec256.member hm
    exact ⟨_, _, q, d, rfl, rfl, hp, hq, hd⟩
  · obtain rfl := nist_oid (show nistCurves[1] ∈ nistCurves by simp) hn h1.2.2
    obtain rfl := nist_pair row_ec384.member hm
    exact ⟨_, _, q, d, rfl, rfl, hp, hq, hd⟩
  · obtain rfl := nist_oid (show nistCurves[2] ∈ nistCurves by simp) hn h1.2.2
    obtain rfl := nist_pair row_ec521.member hm
    exact ⟨_, _, q, d, rfl, rfl, hp, hq, hd⟩

theorem together_generated (nacl : Bool) {gen : Gen} (hg : Generates gen) {t : PlainType} {kwargs : VDict} {o : KeyObj}
    {v : VDict} (h1 : asked gen kwargs t = .ok o) (h2 : privateValues (Std.lib nacl) t o = some v) : BelongTogether t v := by
  have ec : ∀ {name ident oid : Str}, t.curve = some (name, ident, oid) → asked.onCurve gen name = .ok o →
      BelongTogether t v := by
    intro name ident oid ht h1
    unfold asked.onCurve at h1
    cases hk : gen.ec name with
    | error e => rw [hk] at h1; cases h1
    | ok xyd =>
      obtain ⟨x, y, d⟩ := xyd
      rw [hk] at h1
      cases h1
      obtain ⟨c, b, g, hr, rfl, -⟩ := row_of_curve ht
      obtain ⟨h3, h4, h5⟩ := hg.ec ht hk hr.member rfl
      obtain ⟨c', hc', ho, he⟩ := encodePoint_eq ht
      obtain rfl := nist_oid hc' hr.nist ho
      have hv : v = [(py! "identifier", .str ident), (py! "q", .bytes (Std.encodePoint name x y)), (py! "d", .int d)] := by
        cases t <;> simp only [PlainType.curve, reduceCtorEq, Option.some.injEq, Prod.mk.injEq] at ht <;>
          (obtain ⟨rfl, rfl, -⟩ := ht; exact (Option.some.inj h2).symm)
      subst hv
      exact together_ec hr ⟨h3, h4, x, y, h5, (he x y) ▸ encode_whole hc' (hr.onCurve h5)⟩ rfl rfl
  cases t with
  | rsa =>
    simp only [asked] at h1
    split at h1
    · next k hk =>
      cases h1
      cases h2
      exact ⟨k.p, k.q, k.d, k.iqmp, k.e, k.n, hg.rsa hk, rfl, rfl, rfl, rfl, rfl, rfl⟩
    · cases h1
  | dss =>
    simp only [asked] at h1
    split at h1
    · next k hk =>
      cases h1
      cases h2
      exact ⟨k.p, k.q, k.g, k.y, k.x, hg.dsa hk, rfl, rfl, rfl, rfl, rfl⟩
    · cases h1
  | ed25519 =>
    simp only [asked] at h1
    split at h1
    · next k hk =>
      cases h1
      cases h2
      exact ⟨k, hg.ed hk, rfl, rfl⟩
    · cases h1
  | ec256 => exact ec rfl h1
  | ec384 => exact ec rfl h1
  | ec521 => exact ec rfl h1

/-- **C109** (generation). If the library makes keys that belong together, so are the values of generated pairs, in both
keys, for every key type and every argument; and the private key can be converted to the library's objects. -/
theorem C109_generated (ext : Ext) (hext : ext.validPoint = Std.validPoint) (nacl : Bool) {gen : Gen} (hg : Generates gen)
    (t : PlainType) (comment : Str) (kwargs : VDict) (p : Pair)
    (h : (generate ext (Std.lib nacl) gen t.name comment kwargs).res = .ok p) :
    BelongTogether t p.priv.params.data ∧ p.pub.params.data = p.priv.params.data ∧
      ∀ dst : Dest, (∀ k ∈ objClasses (Std.lib nacl) .priv t, dst k = true) →
        ∃ o, convertTo (Std.lib nacl) p.priv.params (some dst) = .ok o := by
  rcases generate_plain (C109_laws ext hext nacl hg) t comment kwargs with ⟨e, h1, h2⟩ | ⟨o, v, h1, h2, h3⟩
  · rw [h2] at h; cases h
  · rw [h3] at h
    cases h
    have hb := together_generated nacl hg h1 h2
    refine ⟨hb, rfl, fun dst hd => ?_⟩
    by_cases ht : t = .ed25519
    · subst ht
      obtain ⟨seed, hl, -, hpp⟩ := hb
      simp only [objClasses, List.cons_append, List.mem_cons, forall_eq_or_imp] at hd
      refine ⟨.edPrivate seed, ?_⟩
      rw [convertTo_plain]
      simp only [picks, objClasses, List.map_cons, List.cons_append, List.find?_cons, hd.1]
      exact (ed_convert nacl v _).2 ⟨seed, _, hpp, hl, rfl⟩
    · exact (C109_convert_partial nacl t ht _ (paramsClass_plain .priv t) v dst hd).2 hb

/-- **C109** (curves, generation). Computing the public point from a private value in the range is enough. -/
theorem C109_ec_generate {choice : Str → Nat} {t : PlainType} {name ident oid : Str} {c : Nist} {b : Nat × Nat} {x y : Nat}
    {d : Int} (ht : t.curve = some (name, ident, oid)) (h : Std.ecGenerate choice name = .ok (x, y, d))
    (hm : (c, b) ∈ nistCurves.zip basePoints) (hc : c.oid = oid) (hr : choice name < c.order) :
    0 < d ∧ d < c.order ∧ Multiple c b d.toNat x y := by
  obtain ⟨c', b', g, hrow, ho, hg⟩ := row_of_curve ht
  obtain rfl := nist_oid hrow.nist (List.of_mem_zip hm).1 (ho.trans hc.symm)
  obtain rfl := nist_pair hrow.member hm
  unfold Std.ecGenerate at h
  rw [hg] at h
  dsimp only at h
  cases hp : g.public (choice name) with
  | none => rw [hp] at h; cases h
  | some xy =>
    rw [hp] at h
    cases h
    refine ⟨?_, by exact_mod_cast hr, ?_⟩
    · rcases Nat.eq_zero_or_pos (choice name) with h0 | h0
      · rw [h0] at hp
        exact absurd hp (by simp [Group.public, Curve.mul, Curve.mulAux, Nat.log2])
      · exact_mod_cast h0
    · rw [Int.toNat_natCast, ← hrow.base, hrow.good.multiple_iff hrow.prime hrow.coefficient]
      exact hp

end OSK
