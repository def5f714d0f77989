import Verif.Lemmas.Ec
import Mathlib.Tactic.FieldSimp
import Mathlib.Tactic.LinearCombination

/-!
Multiples of points in Jacobian coordinates, without divisions, so that the kernel can compute them: `(X, Y, Z)` stands for the
point `(X / Z², Y / Z³)`.
-/

namespace OSK
open Spec OSK.Std WeierstrassCurve.Affine

namespace Std.Curve

variable {c : Curve}

/-- Twice a point -/
def jdbl (c : Curve) (P : Nat × Nat × Nat) : Nat × Nat × Nat :=
  let (X, Y, Z) := P
  let zz := Z * Z % c.p
  let m := (3 * X * X + 3 * ((c.p - zz) * zz)) % c.p
  let yy := Y * Y % c.p
  let s := 4 * X * yy % c.p
  let X₃ := (m * m + 2 * (c.p - s)) % c.p
  (X₃, (m * (s + (c.p - X₃)) + 8 * ((c.p - yy) * yy)) % c.p, 2 * Y * Z % c.p)

/-- The sum of two points -/
def jadd (c : Curve) (P Q : Nat × Nat × Nat) : Nat × Nat × Nat :=
  let (X₁, Y₁, Z₁) := P
  let (X₂, Y₂, Z₂) := Q
  if Z₁ = 0 then Q
  else if Z₂ = 0 then P
  else
    let a := Z₁ * Z₁ % c.p
    let b := Z₂ * Z₂ % c.p
    let u := X₁ * b % c.p
    let h := (X₂ * a + (c.p - u)) % c.p
    let s := Y₁ * b * Z₂ % c.p
    let r := (Y₂ * a * Z₁ + (c.p - s)) % c.p
    if h = 0 then if r = 0 then c.jdbl P else (1, 1, 0)
    else
      let hh := h * h % c.p
      let k := hh * h % c.p
      let v := u * hh % c.p
      let X₃ := (r * r + (c.p - k) + 2 * (c.p - v)) % c.p
      (X₃, (r * (v + (c.p - X₃)) + s * (c.p - k)) % c.p, h * Z₁ * Z₂ % c.p)

/-- Double and add -/
def jmulAux (c : Curve) : Nat → Nat → Nat × Nat × Nat → Nat × Nat × Nat → Nat × Nat × Nat
  | 0, _, _, acc => acc
  | k + 1, d, P, acc => c.jmulAux k (d / 2) (c.jdbl P) (if d % 2 = 1 then c.jadd acc P else acc)

/-- `d` times the point -/
def jmul (c : Curve) (d x y : Nat) : Nat × Nat × Nat := c.jmulAux (d.log2 + 1) d (x, y, 1) (1, 1, 0)

/-- The coordinates stand for the point. -/
def JRep (c : Curve) (P : Nat × Nat × Nat) : c.toW.Point → Prop
  | .zero => P.2.2 = 0
  | .some x y _ => P.2.2 < c.p ∧ (P.2.2 : ZMod c.p) ≠ 0 ∧ (P.1 : ZMod c.p) = x * P.2.2 ^ 2 ∧ (P.2.1 : ZMod c.p) = y * P.2.2 ^ 3

theorem mod_lt' (h : c.Good) (a : Nat) : a % c.p < c.p := Nat.mod_lt _ h.prime.pos

theorem cast_sub_mod (h : c.Good) (a : Nat) : ((c.p - a % c.p : Nat) : ZMod c.p) = -(a : ZMod c.p) := by
  rw [sub_cast (mod_lt' h a).le, ZMod.natCast_mod]

theorem JRep.z_zero {P : Nat × Nat × Nat} {A : c.toW.Point} (h : JRep c P A) : P.2.2 = 0 ↔ A = .zero := by
  cases A with
  | zero => exact ⟨fun _ => rfl, fun _ => h⟩
  | some x y hn =>
    constructor
    · intro e
      have := h.2.1
      rw [e] at this
      exact absurd Nat.cast_zero this
    · intro e; cases e

theorem jdbl_cast (h : c.Good) (X Y Z : Nat) :
    ((c.jdbl (X, Y, Z)).1 : ZMod c.p) = (3 * X ^ 2 - 3 * Z ^ 4) ^ 2 - 8 * X * Y ^ 2 ∧
    ((c.jdbl (X, Y, Z)).2.1 : ZMod c.p)
      = (3 * X ^ 2 - 3 * Z ^ 4) * (4 * X * Y ^ 2 - ((3 * X ^ 2 - 3 * Z ^ 4) ^ 2 - 8 * X * Y ^ 2)) - 8 * Y ^ 4 ∧
    ((c.jdbl (X, Y, Z)).2.2 : ZMod c.p) = 2 * Y * Z := by
  refine ⟨?_, ?_, ?_⟩ <;> simp only [jdbl, ZMod.natCast_mod, Nat.cast_add, Nat.cast_mul, cast_sub_mod h, Nat.cast_ofNat] <;> ring

theorem two_ne (h : c.Good) : (2 : ZMod c.p) ≠ 0 := by
  have := (cast_inj (p := c.p) (a := 2) (b := 0) (by have := h.large; omega) h.prime.pos).not.2 (by decide)
  simpa using this

theorem negY_toW (x y : ZMod c.p) : c.toW.negY x y = -y := by
  simp only [WeierstrassCurve.Affine.negY, toW]; ring

theorem Good.jdbl_rep (h : c.Good) [Fact c.p.Prime] {P : Nat × Nat × Nat} {A : c.toW.Point} (hP : JRep c P A) :
    JRep c (c.jdbl P) (A + A) := by
  obtain ⟨X, Y, Z⟩ := P
  obtain ⟨c1, c2, c3⟩ := jdbl_cast h X Y Z
  have lt3 : (c.jdbl (X, Y, Z)).2.2 < c.p := mod_lt' h _
  have two := two_ne h
  cases A with
  | zero =>
    have hz : Z = 0 := hP
    have : (WeierstrassCurve.Affine.Point.zero : c.toW.Point) + .zero = .zero := add_zero (0 : c.toW.Point)
    rw [this, hz]
    show (2 * Y * 0 % c.p) = 0
    simp
  | some x y hn =>
    obtain ⟨-, hz, hx, hy⟩ := hP
    dsimp only at hz hx hy
    by_cases h0 : y = 0
    · rw [Point.add_of_Y_eq rfl (by rw [negY_toW, h0, neg_zero])]
      show (c.jdbl (X, Y, Z)).2.2 = 0
      rw [h0, zero_mul] at hy
      rw [hy, mul_zero, zero_mul] at c3
      rw [ZMod.natCast_eq_zero_iff] at c3
      exact Nat.eq_zero_of_dvd_of_lt c3 lt3
    · have hY : y ≠ c.toW.negY x y := by
        rw [negY_toW]
        intro e
        have : 2 * y = 0 := by linear_combination e
        exact (mul_ne_zero two h0) this
      rw [Point.add_of_Y_ne hY]
      have hne : (2 : ZMod c.p) * Y * Z ≠ 0 := by
        rw [hy]
        exact mul_ne_zero (mul_ne_zero two (mul_ne_zero h0 (pow_ne_zero _ hz))) hz
      have sl : c.toW.slope x x y y = (3 * x ^ 2 - 3) / (2 * y) := by
        rw [slope_of_Y_ne rfl hY, negY_toW]
        simp only [toW]
        congr 1 <;> ring
      refine ⟨lt3, by rw [c3]; exact hne, ?_, ?_⟩
      · rw [c1, c3, sl, hx, hy]
        simp only [addX, toW]
        field_simp
        ring
      · rw [c2, c3, sl, hx, hy]
        simp only [addY, negAddY, addX, negY, toW]
        field_simp
        ring

/-- The intermediate values of `jadd` -/
theorem jadd_eq (c : Curve) (X₁ Y₁ Z₁ X₂ Y₂ Z₂ : Nat) (h₁ : Z₁ ≠ 0) (h₂ : Z₂ ≠ 0) (u s h r hh k v X₃ : Nat)
    (hu : u = X₁ * (Z₂ * Z₂ % c.p) % c.p) (hh' : h = (X₂ * (Z₁ * Z₁ % c.p) + (c.p - u)) % c.p)
    (hs : s = Y₁ * (Z₂ * Z₂ % c.p) * Z₂ % c.p) (hr : r = (Y₂ * (Z₁ * Z₁ % c.p) * Z₁ + (c.p - s)) % c.p)
    (hhh : hh = h * h % c.p) (hk : k = hh * h % c.p) (hv : v = u * hh % c.p)
    (hX : X₃ = (r * r + (c.p - k) + 2 * (c.p - v)) % c.p) :
    c.jadd (X₁, Y₁, Z₁) (X₂, Y₂, Z₂) =
      if h = 0 then if r = 0 then c.jdbl (X₁, Y₁, Z₁) else (1, 1, 0)
      else (X₃, (r * (v + (c.p - X₃)) + s * (c.p - k)) % c.p, h * Z₁ * Z₂ % c.p) := by
  subst hX hv hk hhh hr hs hh' hu
  unfold jadd
  dsimp only
  rw [if_neg h₁, if_neg h₂]

theorem Good.jadd_rep (hg : c.Good) [Fact c.p.Prime] {P Q : Nat × Nat × Nat} {A B : c.toW.Point} (hP : JRep c P A)
    (hQ : JRep c Q B) : JRep c (c.jadd P Q) (A + B) := by
  have hP' := hP
  obtain ⟨X₁, Y₁, Z₁⟩ := P
  obtain ⟨X₂, Y₂, Z₂⟩ := Q
  cases A with
  | zero =>
    have hz : Z₁ = 0 := hP
    have : (WeierstrassCurve.Affine.Point.zero : c.toW.Point) + B = B := zero_add B
    rw [this]
    unfold jadd
    dsimp only
    rw [if_pos hz]
    exact hQ
  | some x₁ y₁ n₁ =>
    have hz₁ : Z₁ ≠ 0 := fun e => by cases hP.z_zero.1 e
    cases B with
    | zero =>
      have hz : Z₂ = 0 := hQ
      have : (Point.some x₁ y₁ n₁ : c.toW.Point) + WeierstrassCurve.Affine.Point.zero = .some x₁ y₁ n₁ :=
        add_zero (Point.some x₁ y₁ n₁)
      rw [this]
      unfold jadd
      dsimp only
      rw [if_neg hz₁, if_pos hz]
      exact hP
    | some x₂ y₂ n₂ =>
      have hz₂ : Z₂ ≠ 0 := fun e => by cases hQ.z_zero.1 e
      rw [jadd_eq c X₁ Y₁ Z₁ X₂ Y₂ Z₂ hz₁ hz₂ _ _ _ _ _ _ _ _ rfl rfl rfl rfl rfl rfl rfl rfl]
      generalize hu : X₁ * (Z₂ * Z₂ % c.p) % c.p = u
      generalize hh : (X₂ * (Z₁ * Z₁ % c.p) + (c.p - u)) % c.p = h
      generalize hs : Y₁ * (Z₂ * Z₂ % c.p) * Z₂ % c.p = s
      generalize hr : (Y₂ * (Z₁ * Z₁ % c.p) * Z₁ + (c.p - s)) % c.p = r
      generalize hhh : h * h % c.p = hh'
      generalize hk : hh' * h % c.p = k
      generalize hv : u * hh' % c.p = v
      generalize hX : (r * r + (c.p - k) + 2 * (c.p - v)) % c.p = X₃
      obtain ⟨-, z₁, e₁, f₁⟩ := hP
      obtain ⟨-, z₂, e₂, f₂⟩ := hQ
      dsimp only at z₁ e₁ f₁ z₂ e₂ f₂
      have lt {a b : Nat} (e : a % c.p = b) : b ≤ c.p := e ▸ (mod_lt' hg a).le
      have cu : (u : ZMod c.p) = X₁ * Z₂ ^ 2 := by
        rw [← hu]; simp only [ZMod.natCast_mod, Nat.cast_mul]; ring
      have ch : (h : ZMod c.p) = X₂ * Z₁ ^ 2 - X₁ * Z₂ ^ 2 := by
        rw [← hh]; simp only [ZMod.natCast_mod, Nat.cast_mul, Nat.cast_add, sub_cast (lt hu), cu]; ring
      have cs : (s : ZMod c.p) = Y₁ * Z₂ ^ 3 := by
        rw [← hs]; simp only [ZMod.natCast_mod, Nat.cast_mul]; ring
      have cr : (r : ZMod c.p) = Y₂ * Z₁ ^ 3 - Y₁ * Z₂ ^ 3 := by
        rw [← hr]; simp only [ZMod.natCast_mod, Nat.cast_mul, Nat.cast_add, sub_cast (lt hs), cs]; ring
      have chh : (hh' : ZMod c.p) = h ^ 2 := by
        rw [← hhh]; simp only [ZMod.natCast_mod, Nat.cast_mul]; ring
      have ck : (k : ZMod c.p) = h ^ 3 := by
        rw [← hk]; simp only [ZMod.natCast_mod, Nat.cast_mul, chh]; ring
      have cv : (v : ZMod c.p) = u * h ^ 2 := by
        rw [← hv]; simp only [ZMod.natCast_mod, Nat.cast_mul, chh]
      have cX : (X₃ : ZMod c.p) = r ^ 2 - h ^ 3 - 2 * (u * h ^ 2) := by
        rw [← hX]
        simp only [ZMod.natCast_mod, Nat.cast_mul, Nat.cast_add, sub_cast (lt hk), sub_cast (lt hv), ck, cv, Nat.cast_ofNat]
        ring
      have zero {a b : Nat} (e : a % c.p = b) : b = 0 ↔ (b : ZMod c.p) = 0 := by
        rw [ZMod.natCast_eq_zero_iff]
        exact ⟨fun h => h ▸ Nat.dvd_zero _, fun h => Nat.eq_zero_of_dvd_of_lt h (e ▸ mod_lt' hg a)⟩
      have hne : (h : ZMod c.p) = (x₂ - x₁) * (Z₁ ^ 2 * Z₂ ^ 2) := by rw [ch, e₁, e₂]; ring
      have rne : (r : ZMod c.p) = (y₂ - y₁) * (Z₁ ^ 3 * Z₂ ^ 3) := by rw [cr, f₁, f₂]; ring
      have w : (Z₁ : ZMod c.p) ^ 2 * Z₂ ^ 2 ≠ 0 := mul_ne_zero (pow_ne_zero _ z₁) (pow_ne_zero _ z₂)
      have w' : (Z₁ : ZMod c.p) ^ 3 * Z₂ ^ 3 ≠ 0 := mul_ne_zero (pow_ne_zero _ z₁) (pow_ne_zero _ z₂)
      by_cases h0 : h = 0
      · rw [if_pos h0]
        rw [zero hh, hne, mul_eq_zero, or_iff_left w, sub_eq_zero] at h0
        subst h0
        by_cases r0 : r = 0
        · rw [if_pos r0]
          rw [zero hr, rne, mul_eq_zero, or_iff_left w', sub_eq_zero] at r0
          subst r0
          exact hg.jdbl_rep hP'
        · rw [if_neg r0]
          rw [zero hr, rne, mul_eq_zero, or_iff_left w', sub_eq_zero] at r0
          have hY : y₁ = c.toW.negY x₂ y₂ :=
            (Y_eq_of_X_eq n₁.1 n₂.1 rfl).resolve_left (fun e => r0 e.symm)
          rw [Point.add_of_Y_eq rfl hY]
          rfl
      · rw [if_neg h0]
        have hX' : x₁ ≠ x₂ := by
          intro e
          apply h0
          rw [zero hh, hne, e, sub_self, zero_mul]
        have d : x₂ - x₁ ≠ 0 := sub_ne_zero.2 hX'.symm
        rw [Point.add_of_X_ne hX']
        have sl : c.toW.slope x₁ x₂ y₁ y₂ = (y₂ - y₁) / (x₂ - x₁) := by
          rw [slope_of_X_ne hX', ← neg_div_neg_eq]
          congr 1 <;> ring
        have cz : ((h * Z₁ * Z₂ % c.p : Nat) : ZMod c.p) = (x₂ - x₁) * (Z₁ ^ 3 * Z₂ ^ 3) := by
          simp only [ZMod.natCast_mod, Nat.cast_mul, hne]; ring
        refine ⟨mod_lt' hg _, ?_, ?_, ?_⟩
        · dsimp only
          rw [cz]
          exact mul_ne_zero d w'
        · dsimp only
          rw [cX, cz, cu, rne, hne, e₁, sl]
          simp only [addX, toW]
          field_simp
          ring
        · dsimp only
          rw [cz]
          simp only [ZMod.natCast_mod, Nat.cast_mul, Nat.cast_add, sub_cast (lt hX), sub_cast (lt hk), cX, ck, cv, cs, cu,
            rne, hne, e₁, f₁, sl]
          simp only [addY, negAddY, addX, negY, toW]
          field_simp
          ring

theorem Good.jmulAux_rep (h : c.Good) [Fact c.p.Prime] : ∀ {k d : Nat} {P Q : Nat × Nat × Nat} {A B : c.toW.Point},
    d < 2 ^ k → JRep c P A → JRep c Q B → JRep c (c.jmulAux k d P Q) (B + d • A)
  | 0, d, P, Q, A, B, hd, hP, hQ => by
    have : d = 0 := by simpa using hd
    subst this
    simpa [jmulAux] using hQ
  | k + 1, d, P, Q, A, B, hd, hP, hQ => by
    have h2 : d / 2 < 2 ^ k := by rw [Nat.pow_succ] at hd; omega
    unfold jmulAux
    have hPP := h.jdbl_rep hP
    rcases Nat.mod_two_eq_zero_or_one d with hm | hm
    · rw [if_neg (by omega)]
      have := h.jmulAux_rep h2 hPP hQ
      have e : B + d • A = B + (d / 2) • (A + A) := by
        rw [← two_nsmul, ← mul_nsmul']
        congr 2
        omega
      rw [e]; exact this
    · rw [if_pos hm]
      have := h.jmulAux_rep h2 hPP (h.jadd_rep hQ hP)
      have e : B + d • A = B + A + (d / 2) • (A + A) := by
        rw [← two_nsmul, ← mul_nsmul', add_assoc, ← succ_nsmul']
        congr 2
        omega
      rw [e]; exact this

/-- Both ways of multiplying agree about the point at infinity. -/
theorem Good.mul_none (h : c.Good) {x y : Nat} (hx : x < c.p) (hy : y < c.p)
    (hn : c.toW.Nonsingular (x : ZMod c.p) (y : ZMod c.p)) (d : Nat) :
    c.mul d (some (x, y)) = none ↔ (c.jmul d x y).2.2 = 0 := by
  have := Fact.mk h.prime
  have h1 := h.mul_rep d (.some hx hy hn)
  have h2 : JRep c (c.jmul d x y) (.zero + d • Point.some _ _ hn) :=
    h.jmulAux_rep Nat.lt_log2_self ⟨h.prime.one_lt, by simp, by simp, by simp⟩ rfl
  rw [show (WeierstrassCurve.Affine.Point.zero : c.toW.Point) + d • Point.some _ _ hn = d • Point.some _ _ hn from
    zero_add _] at h2
  rw [h1.none_iff, h2.z_zero]

/-- Both ways of multiplying agree about other points. -/
theorem Good.mul_some (h : c.Good) {x y : Nat} (hx : x < c.p) (hy : y < c.p)
    (hn : c.toW.Nonsingular (x : ZMod c.p) (y : ZMod c.p)) (d a b : Nat) :
    c.mul d (some (x, y)) = some (a, b) ↔ (c.jmul d x y).2.2 ≠ 0 ∧ a < c.p ∧ b < c.p ∧
      (c.jmul d x y).1 % c.p = a * (c.jmul d x y).2.2 ^ 2 % c.p ∧
      (c.jmul d x y).2.1 % c.p = b * (c.jmul d x y).2.2 ^ 3 % c.p := by
  have := Fact.mk h.prime
  have h1 := h.mul_rep d (.some hx hy hn)
  have h2 : JRep c (c.jmul d x y) (.zero + d • Point.some _ _ hn) :=
    h.jmulAux_rep Nat.lt_log2_self ⟨h.prime.one_lt, by simp, by simp, by simp⟩ rfl
  rw [show (WeierstrassCurve.Affine.Point.zero : c.toW.Point) + d • Point.some _ _ hn = d • Point.some _ _ hn from
    zero_add _] at h2
  rw [h1.some_iff]
  generalize d • Point.some _ _ hn = A at h1 h2
  generalize c.jmul d x y = J at h2
  obtain ⟨X, Y, Z⟩ := J
  cases A with
  | zero =>
    have hz : Z = 0 := h2
    simp [hz]
  | some u v hn' =>
    obtain ⟨hZ, z, e, f⟩ := h2
    dsimp only at hZ z e f
    have hz : Z ≠ 0 := by rintro rfl; simp at z
    dsimp only
    rw [← ZMod.natCast_eq_natCast_iff', ← ZMod.natCast_eq_natCast_iff', Nat.cast_mul, Nat.cast_mul, Nat.cast_pow, Nat.cast_pow, e, f]
    rw [mul_left_inj' (pow_ne_zero _ z), mul_left_inj' (pow_ne_zero _ z)]
    constructor
    · rintro ⟨ha, hb, _, e'⟩
      rw [Point.some.injEq] at e'
      exact ⟨hz, ha, hb, e'.1, e'.2⟩
    · rintro ⟨_, ha, hb, rfl, rfl⟩
      exact ⟨ha, hb, hn', rfl⟩

end Std.Curve
end OSK
