import Verif.Lemmas.EcOrder
import Verif.Spec.KeyPairs

/-! The public points of private keys. -/

namespace OSK
open Spec OSK.Std WeierstrassCurve.Affine

namespace Std.Group

variable {g : Group}

theorem Good.Δ_ne (h : g.Good) [Fact g.curve.p.Prime] : g.curve.toW.Δ ≠ 0 := by
  have e : g.curve.toW.Δ = 16 * (108 - 27 * (g.curve.b : ZMod g.curve.p) * g.curve.b) := by
    simp only [WeierstrassCurve.Δ, WeierstrassCurve.b₂, WeierstrassCurve.b₄, WeierstrassCurve.b₆, WeierstrassCurve.b₈,
      Curve.toW]
    ring
  rw [e]
  refine mul_ne_zero ?_ ?_
  · intro h0
    have := (Curve.cast_inj (p := g.curve.p) (a := 16) (b := 0) h.sixteen h.curve.prime.pos).1 (by simpa using h0)
    omega
  · intro h0
    have h1 : ((27 * g.curve.b * g.curve.b : Nat) : ZMod g.curve.p) = ((108 : Nat) : ZMod g.curve.p) := by
      push_cast
      linear_combination -h0
    rw [ZMod.natCast_eq_natCast_iff'] at h1
    exact h.smooth h1

theorem equation_toW {c : Curve} (h : c.Good) (x y : Nat) :
    c.toW.Equation (x : ZMod c.p) (y : ZMod c.p) ↔ y * y % c.p = c.rhs x := by
  rw [h.equation, WeierstrassCurve.Affine.equation_iff]
  simp only [Curve.toW]
  constructor <;> intro e <;> linear_combination e

theorem Good.nonsingular (h : g.Good) [Fact g.curve.p.Prime] {x y : Nat} :
    g.curve.toW.Nonsingular (x : ZMod g.curve.p) (y : ZMod g.curve.p) ↔ y * y % g.curve.p = g.curve.rhs x := by
  rw [← equation_toW h.curve, equation_iff_nonsingular_of_Δ_ne_zero h.Δ_ne]

/-- The base point -/
def Good.base (h : g.Good) [Fact g.curve.p.Prime] : g.curve.toW.Point :=
  .some (g.gx : ZMod g.curve.p) (g.gy : ZMod g.curve.p) (h.nonsingular.2 h.equation)

theorem Good.public_rep (h : g.Good) [Fact g.curve.p.Prime] (d : Nat) :
    Curve.Rep g.curve (g.public d) (d • h.base) :=
  h.curve.mul_rep d (.some h.x h.y _)

/-- A public point, computed without divisions -/
theorem Good.public_fast (h : g.Good) (d a b : Nat) : g.public d = some (a, b) ↔
    (g.curve.jmul d g.gx g.gy).2.2 ≠ 0 ∧ a < g.curve.p ∧ b < g.curve.p ∧
      (g.curve.jmul d g.gx g.gy).1 % g.curve.p = a * (g.curve.jmul d g.gx g.gy).2.2 ^ 2 % g.curve.p ∧
      (g.curve.jmul d g.gx g.gy).2.1 % g.curve.p = b * (g.curve.jmul d g.gx g.gy).2.2 ^ 3 % g.curve.p := by
  have := Fact.mk h.curve.prime
  exact h.curve.mul_some h.x h.y (h.nonsingular.2 h.equation) d a b

theorem Good.addOrderOf (h : g.Good) (hc : g.Cyclic) [Fact g.curve.p.Prime] : addOrderOf h.base = g.order := by
  have := Fact.mk hc.prime
  refine addOrderOf_eq_prime ?_ ?_
  · exact (h.public_rep g.order).none_iff.1
      ((h.curve.mul_none h.x h.y (h.nonsingular.2 h.equation) g.order).2 hc.infinity)
  · intro e
    have : h.base = .zero := e
    exact absurd this (by unfold Good.base; simp)

theorem Good.public_none (h : g.Good) (hc : g.Cyclic) (d : Nat) : g.public d = none ↔ g.order ∣ d := by
  have := Fact.mk h.curve.prime
  rw [(h.public_rep d).none_iff, ← h.addOrderOf hc, addOrderOf_dvd_iff_nsmul_eq_zero]
  exact Iff.rfl

theorem Good.public_eq (h : g.Good) (hc : g.Cyclic) (d d' : Nat) : g.public d = g.public d' ↔ d ≡ d' [MOD g.order] := by
  have := Fact.mk h.curve.prime
  rw [← h.addOrderOf hc, ← nsmul_eq_nsmul_iff_modEq]
  constructor
  · intro e
    have h1 := h.public_rep d
    have h2 := h.public_rep d'
    rw [e] at h1
    cases hp : g.public d' with
    | none =>
      rw [hp] at h1 h2
      rw [h1.none_iff.1 rfl, h2.none_iff.1 rfl]
    | some xy =>
      obtain ⟨x, y⟩ := xy
      rw [hp] at h1 h2
      obtain ⟨_, _, n1, e1⟩ := h1.some_iff.1 rfl
      obtain ⟨_, _, n2, e2⟩ := h2.some_iff.1 rfl
      rw [e1, e2]
  · intro e
    have h1 := h.public_rep d
    rw [e] at h1
    exact h1.inj (h.public_rep d')

theorem Good.public_some (h : g.Good) {d x y : Nat} (e : g.public d = some (x, y)) :
    x < g.curve.p ∧ y < g.curve.p ∧ y * y % g.curve.p = g.curve.rhs x := by
  have := Fact.mk h.curve.prime
  obtain ⟨hx, hy, n, _⟩ := (h.public_rep d).some_iff.1 e
  exact ⟨hx, hy, h.nonsingular.1 n⟩

/-- The model's multiples are those of the specification. -/
theorem Good.multiple_iff (h : g.Good) {c : Nist} (hp : g.curve.p = c.p) (hb : g.curve.b = c.b) (d x y : Nat) :
    Multiple c (g.gx, g.gy) d x y ↔ g.public d = some (x, y) := by
  obtain ⟨s, gx, gy, n⟩ := g
  obtain ⟨p, b, size⟩ := s
  obtain ⟨oid, p', b', size', n'⟩ := c
  simp only at hp hb
  subst hp hb
  have hf := Fact.mk h.curve.prime
  rw [(h.public_rep d).some_iff]
  constructor
  · rintro ⟨hx, hy, _, hg, hn, e⟩
    exact ⟨hx, hy, hn, e⟩
  · rintro ⟨hx, hy, hn, e⟩
    exact ⟨hx, hy, hf, h.nonsingular.2 h.equation, hn, e⟩

end Std.Group
end OSK
