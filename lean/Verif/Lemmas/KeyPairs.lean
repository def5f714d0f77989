import Verif.Std.Keys
import Verif.Lemmas.EcGroup
import Mathlib.Tactic.LinearCombination

/-! The checks of the libraries are those of the specification. -/

namespace OSK
open Spec OSK.Std

/-! ### RSA -/

theorem rsaCrtDmp1_ok {d p : Int} (hp : 1 < p) : rsaCrtDmp1 d p = .ok (d % (p - 1)) := by
  unfold rsaCrtDmp1
  rw [if_neg (by omega), Int.fmod_eq_emod_of_nonneg d (by omega)]

theorem rsaPrivate_iff {p q d dmp1 dmq1 iqmp e n : Int} : rsaPrivate p q d dmp1 dmq1 iqmp e n = .ok () ↔
    3 ≤ n ∧ p < n ∧ q < n ∧ dmp1 < n ∧ dmq1 < n ∧ iqmp < n ∧ d < n ∧ (3 ≤ e ∧ e < n) ∧ e % 2 ≠ 0 ∧ dmp1 % 2 ≠ 0 ∧
    dmq1 % 2 ≠ 0 ∧ p * q = n ∧ (0 ≤ p ∧ 0 ≤ q ∧ 0 ≤ d ∧ 0 ≤ dmp1 ∧ 0 ≤ dmq1 ∧ 0 ≤ iqmp) ∧
    (p.toNat.Prime ∧ q.toNat.Prime ∧ d * e % Int.lcm (p - 1) (q - 1) = 1 ∧ dmp1 = d % (p - 1) ∧ dmq1 = d % (q - 1) ∧
      iqmp < p ∧ iqmp * q % p = 1) := by
  have step : ∀ (P : Prop) [Decidable P] (m : Exn) (r : Except Exn Unit),
      (if P then .error m else r) = .ok () ↔ ¬P ∧ r = .ok () := by
    intro P _ m r
    by_cases h : P <;> simp [h]
  have last : ∀ (P : Prop) [Decidable P] (m : Exn), (if P then Except.ok () else .error m) = Except.ok () ↔ P := by
    intro P _ m
    by_cases h : P <;> simp [h]
  unfold rsaPrivate
  simp only [step, last, not_lt, ge_iff_le, not_le, not_or, ne_eq, not_not]

theorem odd_of_mul_modEq {a b m : Int} (h : a * b ≡ 1 [ZMOD m]) (hm : m % 2 = 0) : a % 2 = 1 ∧ b % 2 = 1 := by
  have h2 : a * b ≡ 1 [ZMOD 2] := h.of_dvd (Int.dvd_of_emod_eq_zero hm)
  unfold Int.ModEq at h2
  rw [Int.mul_emod] at h2
  rcases Int.emod_two_eq_zero_or_one a with ha | ha <;> rcases Int.emod_two_eq_zero_or_one b with hb | hb <;>
    simp [ha, hb] at h2 ⊢

theorem odd_prime {p : Int} (h2 : 2 < p) (hp : p.toNat.Prime) : p % 2 = 1 := by
  have := hp.eq_two_or_odd
  omega

theorem rsa_checks {p q d iqmp e n : Int} :
    (∃ dmp1 dmq1, rsaCrtDmp1 d p = .ok dmp1 ∧ rsaCrtDmp1 d q = .ok dmq1 ∧
      rsaPrivate p q d dmp1 dmq1 iqmp e n = .ok ()) ↔ RsaPair p q d iqmp e n := by
  constructor
  · rintro ⟨dmp1, dmq1, -, -, h⟩
    rw [rsaPrivate_iff] at h
    obtain ⟨h1, h2, h3, h4, h5, h6, h7, ⟨h8, h9⟩, h10, h11, h12, h13, ⟨h14, h15, h16, h17, h18, h19⟩, h20, h21, h22, h23,
      h24, h25, h26⟩ := h
    have hp2 : 2 < p := by
      have := h20.two_le
      by_contra hc
      have : p = 2 := by omega
      subst this
      rw [h23] at h11
      omega
    have hq2 : 2 < q := by
      have := h21.two_le
      by_contra hc
      have : q = 2 := by omega
      subst this
      rw [h24] at h12
      omega
    have hm : d * e ≡ 1 [ZMOD Int.lcm (p - 1) (q - 1)] := by
      unfold Int.ModEq
      rw [h22]
      refine (Int.emod_eq_of_lt (by omega) ?_).symm
      by_contra hc
      have hl : (Int.lcm (p - 1) (q - 1) : Int) = 0 ∨ (Int.lcm (p - 1) (q - 1) : Int) = 1 := by omega
      rcases hl with hl | hl
      · have := Int.lcm_ne_zero (m := p - 1) (n := q - 1) (by omega) (by omega)
        omega
      · rw [hl] at h22
        omega
    refine ⟨⟨hp2, h20⟩, ⟨hq2, h21⟩, h13.symm, ⟨by omega, h9⟩, ⟨?_, h7⟩, hm.of_dvd (Int.dvd_lcm_left ..),
      hm.of_dvd (Int.dvd_lcm_right ..), h19, h25, ?_⟩
    · rcases Int.lt_or_eq_of_le h16 with h | h
      · exact h
      · rw [← h] at h22
        simp at h22
    · unfold Int.ModEq
      rw [h26]
      exact (Int.emod_eq_of_lt (by omega) (by omega)).symm
  · rintro ⟨⟨hp2, hp⟩, ⟨hq2, hq⟩, hn, ⟨he1, he⟩, ⟨hd0, hd⟩, hu1, hu2, hi0, hi1, hi⟩
    refine ⟨_, _, rsaCrtDmp1_ok (by omega), rsaCrtDmp1_ok (by omega), ?_⟩
    have hpo := odd_prime hp2 hp
    have hqo := odd_prime hq2 hq
    obtain ⟨o1, o2⟩ := odd_of_mul_modEq hu1 (by omega)
    have hpn : p < n := by rw [hn]; nlinarith
    have hqn : q < n := by rw [hn]; nlinarith
    have b1 := Int.emod_lt_of_pos d (show 0 < p - 1 by omega)
    have b2 := Int.emod_lt_of_pos d (show 0 < q - 1 by omega)
    have b3 := Int.emod_nonneg d (show p - 1 ≠ 0 by omega)
    have b4 := Int.emod_nonneg d (show q - 1 ≠ 0 by omega)
    have par : ∀ m : Int, m % 2 = 0 → (d % m) % 2 ≠ 0 := by
      intro m hm
      rw [Int.emod_emod_of_dvd d (Int.dvd_of_emod_eq_zero hm), o1]
      decide
    rw [rsaPrivate_iff]
    refine ⟨by omega, hpn, hqn, by omega, by omega, by omega, hd, ⟨by omega, he⟩, by omega, par _ (by omega),
      par _ (by omega), hn.symm, ⟨by omega, by omega, by omega, b3, b4, hi0⟩, hp, hq, ?_, rfl, rfl, hi1, ?_⟩
    · have hl : (Int.lcm (p - 1) (q - 1) : Int) ∣ d * e - 1 := by
        refine Int.coe_lcm_dvd ?_ ?_
        · exact (Int.modEq_iff_dvd.1 hu1.symm)
        · exact (Int.modEq_iff_dvd.1 hu2.symm)
      have hm : d * e ≡ 1 [ZMOD Int.lcm (p - 1) (q - 1)] := (Int.modEq_iff_dvd.2 hl).symm
      unfold Int.ModEq at hm
      rw [hm]
      refine Int.emod_eq_of_lt (by omega) ?_
      have h0 := Int.lcm_ne_zero (m := p - 1) (n := q - 1) (by omega) (by omega)
      have hdv := Int.dvd_lcm_left (p - 1) (q - 1)
      have := Int.le_of_dvd (by omega) hdv
      omega
    · unfold Int.ModEq at hi
      rw [hi]
      exact Int.emod_eq_of_lt (by omega) (by omega)

/-! ### DSA -/

theorem bits_iff {n : Nat} (hn : 0 < n) {i : Int} (hi : 0 < i) : bits i = n ↔ HasBits n i := by
  unfold bits HasBits
  obtain ⟨k, rfl⟩ := Int.eq_ofNat_of_zero_le hi.le
  have hk : k ≠ 0 := by omega
  rw [if_neg (by omega), Int.natAbs_natCast]
  obtain ⟨m, rfl⟩ : ∃ m, n = m + 1 := ⟨n - 1, by omega⟩
  have : k.log2 + 1 = m + 1 ↔ k.log2 = m := by omega
  rw [this, Nat.log2_eq_iff hk, Nat.add_sub_cancel]
  norm_cast

theorem dsaParameters_ok {p q g : Int} : dsaParameters p q g = .ok () ↔
    bits p ∈ [1024, 2048, 3072, 4096] ∧ bits q ∈ [160, 224, 256] ∧ 1 < g ∧ g < p := by
  unfold dsaParameters
  by_cases h1 : bits p ∈ [1024, 2048, 3072, 4096]
  · by_cases h2 : bits q ∈ [160, 224, 256]
    · by_cases h3 : 1 < g ∧ g < p <;> simp only [h1, h2, h3, not_true_eq_false, if_false, not_false_eq_true, if_true,
        true_and, reduceCtorEq, and_self]
    · simp only [h1, h2, not_true_eq_false, if_false, not_false_eq_true, if_true, reduceCtorEq, false_and, and_false]
  · simp only [h1, not_false_eq_true, if_true, reduceCtorEq, false_and]

theorem bits_mem {l : List Nat} (hl : ∀ n ∈ l, 0 < n) {i : Int} (hi : 0 < i) : bits i ∈ l ↔ ∃ n ∈ l, HasBits n i := by
  constructor
  · intro h
    exact ⟨_, h, (bits_iff (hl _ h) hi).1 rfl⟩
  · rintro ⟨n, h, hb⟩
    rw [(bits_iff (hl _ h) hi).2 hb]
    exact h

theorem dsa_checks {p q g y x : Int} : dsaPrivate p q g y x = .ok () ↔ DsaPair p q g y x := by
  have e : dsaPrivate p q g y x = .ok () ↔ (bits p ∈ [1024, 2048, 3072, 4096] ∧ bits q ∈ [160, 224, 256] ∧ 1 < g ∧ g < p)
      ∧ (0 < x ∧ x < q) ∧ y = powMod p.toNat g.toNat x.toNat := by
    rw [← dsaParameters_ok]
    unfold dsaPrivate
    cases h : dsaParameters p q g with
    | error m => simp [bind, Except.bind]
    | ok u =>
      simp only [bind, Except.bind, true_and]
      by_cases h1 : x ≤ 0 ∨ x ≥ q
      · rw [if_pos h1]
        simp only [reduceCtorEq, false_iff]
        rintro ⟨h2, -⟩
        omega
      · rw [if_neg h1]
        by_cases h2 : y = powMod p.toNat g.toNat x.toNat
        · rw [if_neg (by simpa using h2)]
          simp only [h2, and_true, true_iff]
          omega
        · rw [if_pos h2]
          simp [h2]
  rw [e]
  have pos1 : ∀ n ∈ [1024, 2048, 3072, 4096], 0 < n := by decide
  have pos2 : ∀ n ∈ [160, 224, 256], 0 < n := by decide
  have key : 1 < g → g < p → (y = powMod p.toNat g.toNat x.toNat ↔ 0 ≤ y ∧ y < p ∧ y ≡ g ^ x.toNat [ZMOD p]) := by
    intro h1 h2
    have hp : ((p.toNat : Nat) : Int) = p := Int.toNat_of_nonneg (by omega)
    have hg : ((g.toNat : Nat) : Int) = g := Int.toNat_of_nonneg (by omega)
    rw [powMod_eq, Int.natCast_emod, Nat.cast_pow, hp, hg]
    unfold Int.ModEq
    constructor
    · intro hy
      refine ⟨?_, ?_, ?_⟩
      · rw [hy]; exact Int.emod_nonneg _ (by omega)
      · rw [hy]; exact Int.emod_lt_of_pos _ (by omega)
      · rw [hy, Int.emod_emod_of_dvd _ (dvd_refl p)]
    · rintro ⟨h3, h4, h5⟩
      rw [← h5, Int.emod_eq_of_lt h3 h4]
  constructor
  · rintro ⟨⟨h1, h2, h3, h4⟩, ⟨h5, h6⟩, h7⟩
    exact ⟨(bits_mem pos1 (by omega)).1 h1, (bits_mem pos2 (by omega)).1 h2, ⟨h3, h4⟩, ⟨h5, h6⟩, (key h3 h4).1 h7⟩
  · rintro ⟨h1, h2, ⟨h3, h4⟩, ⟨h5, h6⟩, h7⟩
    exact ⟨⟨(bits_mem pos1 (by omega)).2 h1, (bits_mem pos2 (by omega)).2 h2, h3, h4⟩, ⟨h5, h6⟩, (key h3 h4).2 h7⟩

/-! ### ECDSA -/

/-- A curve of the specification with the group of the model. -/
structure EcRow (t : PlainType) (c : Nist) (b : Nat × Nat) (g : Group) : Prop where
  names : ∃ name ident, t.curve = some (name, ident, c.oid) ∧ groupByName name = some g ∧ curveName c.oid = name
  member : (c, b) ∈ nistCurves.zip basePoints
  good : g.Good
  prime : g.curve.p = c.p
  coefficient : g.curve.b = c.b
  order : g.order = c.order
  base : (g.gx, g.gy) = b

theorem row_ec256 : EcRow .ec256 nistCurves[0] basePoints[0] g256 where
  names := ⟨_, _, rfl, rfl, rfl⟩
  member := by simp [nistCurves, basePoints]
  good := g256_good
  prime := by decide +kernel
  coefficient := by decide +kernel
  order := by decide +kernel
  base := by decide +kernel

theorem row_ec384 : EcRow .ec384 nistCurves[1] basePoints[1] g384 where
  names := ⟨_, _, rfl, rfl, rfl⟩
  member := by simp [nistCurves, basePoints]
  good := g384_good
  prime := by decide +kernel
  coefficient := by decide +kernel
  order := by decide +kernel
  base := by decide +kernel

theorem row_ec521 : EcRow .ec521 nistCurves[2] basePoints[2] g521 where
  names := ⟨_, _, rfl, rfl, rfl⟩
  member := by simp [nistCurves, basePoints]
  good := g521_good
  prime := by decide +kernel
  coefficient := by decide +kernel
  order := by decide +kernel
  base := by decide +kernel

theorem EcRow.checks {t : PlainType} {c : Nist} {b : Nat × Nat} {g : Group} (h : EcRow t c b g) {name ident oid : Str}
    (ht : t.curve = some (name, ident, oid)) (x y : Nat) (d : Int) :
    ecPrivate name x y d = .ok () ↔ 0 < d ∧ d < c.order ∧ Multiple c b d.toNat x y := by
  obtain ⟨name', ident', h1, h2, -⟩ := h.names
  rw [ht] at h1
  simp only [Option.some.injEq, Prod.mk.injEq] at h1
  obtain ⟨rfl, -, -⟩ := h1
  rw [← h.base, h.good.multiple_iff h.prime h.coefficient, ← h.order]
  unfold ecPrivate
  rw [h2]
  dsimp only
  by_cases h0 : d < 0
  · rw [if_pos h0]
    simp only [reduceCtorEq, false_iff]
    omega
  · rw [if_neg h0]
    by_cases h3 : d < g.order ∧ g.public d.toNat = some (x, y)
    · rw [if_pos h3]
      simp only [true_iff]
      refine ⟨?_, h3⟩
      rcases Int.lt_or_eq_of_le (by omega : 0 ≤ d) with h | h
      · exact h
      · rw [← h] at h3
        exact absurd h3.2 (by simp [Group.public, Curve.mul, Curve.mulAux, Nat.log2])
    · rw [if_neg h3]
      simp only [reduceCtorEq, false_iff]
      exact fun h4 => h3 h4.2

end OSK
