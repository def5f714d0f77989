import Verif.Std.Ec
import Verif.Lemmas.Curves
import Mathlib.AlgebraicGeometry.EllipticCurve.Affine.Point

/-! Adding points in the model is adding points in the group of the curve. -/

namespace OSK
open Spec OSK.Std

namespace Std.Curve

variable {c : Curve}

/-- The curve in Mathlib's form. -/
def toW (c : Curve) : WeierstrassCurve.Affine (ZMod c.p) := ⟨0, 0, 0, -3, c.b⟩

/-- A pair of numbers, or nothing, stands for a point of the group. -/
inductive Rep (c : Curve) : Option (Nat × Nat) → c.toW.Point → Prop
  | zero : Rep c none .zero
  | some {x y : Nat} (hx : x < c.p) (hy : y < c.p) (h : c.toW.Nonsingular (x : ZMod c.p) (y : ZMod c.p)) :
      Rep c (some (x, y)) (.some _ _ h)

theorem Good.inv_cast (h : c.Good) (a : Nat) [Fact c.p.Prime] :
    ((c.inv a : Nat) : ZMod c.p) = ((a : Nat) : ZMod c.p)⁻¹ := by
  unfold inv
  rw [powMod_eq, ZMod.natCast_mod, Nat.cast_pow]
  by_cases ha : ((a : Nat) : ZMod c.p) = 0
  · rw [ha, inv_zero, zero_pow]
    have := h.large; omega
  · refine eq_inv_of_mul_eq_one_left ?_
    rw [← pow_succ]
    have : c.p - 2 + 1 = c.p - 1 := by have := h.large; omega
    rw [this, ZMod.pow_card_sub_one_eq_one ha]

theorem sub_cast {p a : Nat} (h : a ≤ p) : ((p - a : Nat) : ZMod p) = -(a : ZMod p) := by
  rw [Nat.cast_sub h, ZMod.natCast_self, zero_sub]

theorem third_lt (h : c.Good) (x₁ y₁ x₂ l : Nat) :
    (c.third x₁ y₁ x₂ l).1 < c.p ∧ (c.third x₁ y₁ x₂ l).2 < c.p :=
  ⟨Nat.mod_lt _ h.prime.pos, Nat.mod_lt _ h.prime.pos⟩

theorem third_cast (h : c.Good) {x₁ y₁ x₂ : Nat} (l : Nat) (hx₁ : x₁ < c.p) (hy₁ : y₁ < c.p) (hx₂ : x₂ < c.p) :
    ((c.third x₁ y₁ x₂ l).1 : ZMod c.p) = c.toW.addX x₁ x₂ l
    ∧ ((c.third x₁ y₁ x₂ l).2 : ZMod c.p) = c.toW.addY x₁ x₂ y₁ l := by
  have h1 : ((c.third x₁ y₁ x₂ l).1 : ZMod c.p) = c.toW.addX x₁ x₂ l := by
    simp only [third, ZMod.natCast_mod, Nat.cast_add, Nat.cast_mul, sub_cast hx₁.le, sub_cast hx₂.le,
      WeierstrassCurve.Affine.addX, toW]
    ring
  refine ⟨h1, ?_⟩
  have h2 : (c.third x₁ y₁ x₂ l).2
      = (l * (x₁ + (c.p - (c.third x₁ y₁ x₂ l).1)) + (c.p - y₁)) % c.p := rfl
  rw [h2]
  simp only [ZMod.natCast_mod, Nat.cast_add, Nat.cast_mul, sub_cast hy₁.le, sub_cast (third_lt h x₁ y₁ x₂ l).1.le,
    WeierstrassCurve.Affine.addY, WeierstrassCurve.Affine.negY, WeierstrassCurve.Affine.negAddY, h1]
  simp only [toW]
  ring

theorem cast_inj {p a b : Nat} (ha : a < p) (hb : b < p) : ((a : Nat) : ZMod p) = b ↔ a = b := by
  rw [ZMod.natCast_eq_natCast_iff', Nat.mod_eq_of_lt ha, Nat.mod_eq_of_lt hb]

theorem rep_some {x y : Nat} {X Y : ZMod c.p} (hx : x < c.p) (hy : y < c.p) (h : c.toW.Nonsingular X Y)
    (hX : (x : ZMod c.p) = X) (hY : (y : ZMod c.p) = Y) : Rep c (some (x, y)) (.some _ _ h) := by
  subst hX hY
  exact .some hx hy h

theorem Good.add_rep (h : c.Good) [Fact c.p.Prime] {P Q : Option (Nat × Nat)} {A B : c.toW.Point}
    (hP : Rep c P A) (hQ : Rep c Q B) : Rep c (c.add P Q) (A + B) := by
  cases hP with
  | zero =>
    have : (WeierstrassCurve.Affine.Point.zero : c.toW.Point) = 0 := rfl
    rw [this, zero_add]
    cases Q <;> exact hQ
  | @some x₁ y₁ hx₁ hy₁ h₁ =>
    cases hQ with
    | zero =>
      have : (WeierstrassCurve.Affine.Point.zero : c.toW.Point) = 0 := rfl
      rw [this, add_zero]
      exact .some hx₁ hy₁ h₁
    | @some x₂ y₂ hx₂ hy₂ h₂ =>
      have two : (2 : ZMod c.p) ≠ 0 := by
        have := (cast_inj (p := c.p) (a := 2) (b := 0) (by have := h.large; omega) h.prime.pos).not.2 (by decide)
        simpa using this
      have neg : ((y₁ : ZMod c.p) = c.toW.negY x₂ y₂) ↔ (y₁ + y₂) % c.p = 0 := by
        have e : c.toW.negY x₂ y₂ = -(y₂ : ZMod c.p) := by
          simp only [WeierstrassCurve.Affine.negY, toW]; ring
        rw [e, eq_neg_iff_add_eq_zero, ← Nat.cast_add, ZMod.natCast_eq_zero_iff, Nat.dvd_iff_mod_eq_zero]
      unfold add
      by_cases hx : x₁ = x₂
      · dsimp only
        rw [if_pos hx]
        by_cases hy : (y₁ + y₂) % c.p = 0
        · rw [if_pos hy, WeierstrassCurve.Affine.Point.add_of_Y_eq (by rw [hx]) (neg.2 hy)]
          exact .zero
        · rw [if_neg hy]
          have hY : (y₁ : ZMod c.p) ≠ c.toW.negY x₂ y₂ := fun e => hy (neg.1 e)
          rw [WeierstrassCurve.Affine.Point.add_of_Y_ne hY]
          have hsl : (((3 * x₁ * x₁ + (c.p - 3)) * c.inv (2 * y₁) % c.p : Nat) : ZMod c.p)
              = c.toW.slope x₁ x₂ y₁ y₂ := by
            rw [WeierstrassCurve.Affine.slope_of_Y_ne (by rw [hx]) hY, ZMod.natCast_mod, Nat.cast_mul, h.inv_cast]
            simp only [Nat.cast_add, Nat.cast_mul, sub_cast h.large.le, WeierstrassCurve.Affine.negY, toW,
              Nat.cast_ofNat]
            rw [div_eq_mul_inv]
            ring_nf
          obtain ⟨t1, t2⟩ := third_cast h ((3 * x₁ * x₁ + (c.p - 3)) * c.inv (2 * y₁) % c.p) hx₁ hy₁ hx₂
          rw [hsl] at t1 t2
          exact rep_some (third_lt h ..).1 (third_lt h ..).2 _ t1 t2
      · dsimp only
        rw [if_neg hx]
        have hX : (x₁ : ZMod c.p) ≠ x₂ := fun e => hx ((cast_inj hx₁ hx₂).1 e)
        rw [WeierstrassCurve.Affine.Point.add_of_X_ne hX]
        have hsl : (((y₂ + (c.p - y₁)) * c.inv (x₂ + (c.p - x₁)) % c.p : Nat) : ZMod c.p)
            = c.toW.slope x₁ x₂ y₁ y₂ := by
          rw [WeierstrassCurve.Affine.slope_of_X_ne hX, ZMod.natCast_mod, Nat.cast_mul, h.inv_cast]
          simp only [Nat.cast_add, sub_cast hx₁.le, sub_cast hy₁.le]
          rw [← div_eq_mul_inv, ← neg_div_neg_eq]
          congr 1 <;> ring
        obtain ⟨t1, t2⟩ := third_cast h ((y₂ + (c.p - y₁)) * c.inv (x₂ + (c.p - x₁)) % c.p) hx₁ hy₁ hx₂
        rw [hsl] at t1 t2
        exact rep_some (third_lt h ..).1 (third_lt h ..).2 _ t1 t2

theorem Good.mulAux_rep (h : c.Good) [Fact c.p.Prime] : ∀ {k d : Nat} {P Q : Option (Nat × Nat)} {A B : c.toW.Point},
    d < 2 ^ k → Rep c P A → Rep c Q B → Rep c (c.mulAux k d P Q) (B + d • A)
  | 0, d, P, Q, A, B, hd, hP, hQ => by
    have : d = 0 := by simpa using hd
    subst this
    simpa [mulAux] using hQ
  | k + 1, d, P, Q, A, B, hd, hP, hQ => by
    have h2 : d / 2 < 2 ^ k := by rw [Nat.pow_succ] at hd; omega
    unfold mulAux
    have hPP := h.add_rep hP hP
    rcases Nat.mod_two_eq_zero_or_one d with hm | hm
    · rw [if_neg (by omega)]
      have := h.mulAux_rep h2 hPP hQ
      have e : B + d • A = B + (d / 2) • (A + A) := by
        rw [← two_nsmul, ← mul_nsmul']
        congr 2
        omega
      rw [e]; exact this
    · rw [if_pos hm]
      have := h.mulAux_rep h2 hPP (h.add_rep hQ hP)
      have e : B + d • A = B + A + (d / 2) • (A + A) := by
        rw [← two_nsmul, ← mul_nsmul', add_assoc, ← succ_nsmul']
        congr 2
        omega
      rw [e]; exact this

/-- Double and add multiplies. -/
theorem Good.mul_rep (h : c.Good) [Fact c.p.Prime] (d : Nat) {P : Option (Nat × Nat)} {A : c.toW.Point}
    (hP : Rep c P A) : Rep c (c.mul d P) (d • A) := by
  have := h.mulAux_rep (k := d.log2 + 1) (d := d) Nat.lt_log2_self hP .zero
  have e : d • A = WeierstrassCurve.Affine.Point.zero + d • A := (zero_add (d • A)).symm
  rw [e]
  exact this

theorem Rep.none_iff {P : Option (Nat × Nat)} {A : c.toW.Point} (h : Rep c P A) : P = none ↔ A = .zero := by
  cases h <;> simp

theorem Rep.some_iff {P : Option (Nat × Nat)} {A : c.toW.Point} (h : Rep c P A) {x y : Nat} :
    P = Option.some (x, y) ↔ x < c.p ∧ y < c.p ∧ ∃ hn : c.toW.Nonsingular (x : ZMod c.p) (y : ZMod c.p), A = .some _ _ hn := by
  cases h with
  | zero => simp
  | @some a b ha hb hn =>
    simp only [Option.some.injEq, Prod.mk.injEq]
    constructor
    · rintro ⟨rfl, rfl⟩; exact ⟨ha, hb, hn, rfl⟩
    · rintro ⟨hx, hy, _, e⟩
      rw [WeierstrassCurve.Affine.Point.some.injEq] at e
      exact ⟨(cast_inj ha hx).1 e.1, (cast_inj hb hy).1 e.2⟩

theorem Rep.inj {P Q : Option (Nat × Nat)} {A : c.toW.Point} (h : Rep c P A) (h' : Rep c Q A) : P = Q := by
  cases h with
  | zero => exact (h'.none_iff.2 rfl).symm
  | some hx hy hn => exact (h'.some_iff.2 ⟨hx, hy, hn, rfl⟩).symm

end Std.Curve
end OSK
