import Verif.Lemmas.Prime
import Verif.Lemmas.Mpint
import Verif.Spec.Curves
import Mathlib.FieldTheory.Finite.Basic

/-! Decoding points over a prime field whose prime is of the form `4k + 3`. -/

namespace OSK
open Spec OSK.Std

/-- What the decoding relies on. -/
structure Std.Curve.Good (c : Curve) : Prop where
  prime : c.p.Prime
  three : c.p % 4 = 3
  large : 3 < c.p

theorem Std.p256_good : p256.Good := ⟨p256_prime, by decide +kernel, by decide +kernel⟩
theorem Std.p384_good : p384.Good := ⟨p384_prime, by decide +kernel, by decide +kernel⟩
theorem Std.p521_good : p521.Good := ⟨p521_prime, by decide +kernel, by decide +kernel⟩

namespace Std.Curve

variable {c : Curve}

theorem Good.rhs_cast (h : c.Good) (x : Nat) :
    ((c.rhs x : Nat) : ZMod c.p) = (x : ZMod c.p) ^ 3 - 3 * x + c.b := by
  unfold rhs
  rw [ZMod.natCast_mod]
  push_cast [Nat.cast_sub h.large.le]
  rw [ZMod.natCast_self]
  ring

/-- The equation in the model is the equation of the field. -/
theorem Good.equation (h : c.Good) (x y : Nat) :
    y * y % c.p = c.rhs x ↔ (y : ZMod c.p) ^ 2 = (x : ZMod c.p) ^ 3 - 3 * x + c.b := by
  have hr : c.rhs x % c.p = c.rhs x := by simp [rhs]
  rw [← h.rhs_cast x, ← Nat.cast_pow, ZMod.natCast_eq_natCast_iff, Nat.ModEq, hr, pow_two]

theorem Good.equation_int (h : c.Good) (x y : Nat) :
    y * y % c.p = c.rhs x ↔ (y : Int) ^ 2 ≡ (x : Int) ^ 3 - 3 * x + c.b [ZMOD c.p] := by
  rw [h.equation, ← ZMod.intCast_eq_intCast_iff]
  push_cast
  exact Iff.rfl

/-- If there is a root then the candidate is one of the two. -/
theorem Good.root_of (h : c.Good) {a y : Nat} (hy : y < c.p) (he : ((a : Nat) : ZMod c.p) = (y : ZMod c.p) ^ 2) :
    c.root a = y ∨ c.root a + y = c.p := by
  have := Fact.mk h.prime
  have hlt : c.root a < c.p := by
    unfold root; rw [powMod_eq]; exact Nat.mod_lt _ h.prime.pos
  have hs : ((c.root a : Nat) : ZMod c.p) = (y : ZMod c.p) ^ ((c.p + 1) / 2) := by
    unfold root
    rw [powMod_eq, ZMod.natCast_mod, Nat.cast_pow, he, ← pow_mul]
    congr 1
    have := h.three
    omega
  have hsq : ((c.root a : Nat) : ZMod c.p) ^ 2 = (y : ZMod c.p) ^ 2 := by
    rw [hs, ← pow_mul]
    have : (c.p + 1) / 2 * 2 = c.p + 1 := by have := h.three; omega
    rw [this, pow_succ, ZMod.pow_card, pow_two]
  rcases sq_eq_sq_iff_eq_or_eq_neg.1 hsq with h1 | h1
  · left
    have := (ZMod.natCast_eq_natCast_iff _ _ _).1 h1
    exact Nat.ModEq.eq_of_lt_of_lt this hlt hy
  · rcases Nat.eq_zero_or_pos y with h0 | h0
    · subst h0
      left
      have h1 : ((c.root a : Nat) : ZMod c.p) = ((0 : Nat) : ZMod c.p) := by simpa using h1
      exact Nat.ModEq.eq_of_lt_of_lt ((ZMod.natCast_eq_natCast_iff _ _ _).1 h1) hlt hy
    · right
      have h2 : ((c.root a + y : Nat) : ZMod c.p) = 0 := by push_cast; rw [h1]; ring
      have hd := (ZMod.natCast_eq_zero_iff _ _).1 h2
      obtain ⟨k, hk⟩ := hd
      have : k = 1 := by
        have hk2 : c.p * k < c.p * 2 := by omega
        have := Nat.lt_of_mul_lt_mul_left hk2
        rcases k with _ | _ | k
        · omega
        · rfl
        · omega
      rw [hk, this, Nat.mul_one]

theorem root_lt (h : c.Good) (a : Nat) : c.root a < c.p := by
  unfold root; rw [powMod_eq]; exact Nat.mod_lt _ h.prime.pos

/-- The other root satisfies the equation too. -/
theorem Good.other (h : c.Good) {x r : Nat} (hr : r ≤ c.p) (he : r * r % c.p = c.rhs x) :
    (c.p - r) * (c.p - r) % c.p = c.rhs x := by
  rw [h.equation] at he ⊢
  rw [← he, Nat.cast_sub hr, ZMod.natCast_self]
  ring

theorem decode_nil : c.decode [] = none := rfl

/-- Decoding is exact. -/
theorem Good.decode_iff (h : c.Good) (q : Bytes) (x y : Nat) : c.decode q = some (x, y) ↔
    x < c.p ∧ y < c.p ∧ y * y % c.p = c.rhs x ∧
    ((∃ X Y, X.length = c.size ∧ Y.length = c.size ∧ beNat X = x ∧ beNat Y = y ∧ q = 4 :: (X ++ Y)) ∨
     (∃ X, X.length = c.size ∧ beNat X = x ∧ q = (if y % 2 = 0 then 2 else 3) :: X)) := by
  have h3 := h.three
  constructor
  · cases q with
    | nil => simp [decode]
    | cons form t =>
      unfold decode
      dsimp only
      by_cases h4 : form = 4
      · rw [if_pos h4]
        by_cases hl : t.length = 2 * c.size
        · rw [if_pos hl]
          intro hh
          split at hh
          · rename_i hc
            simp only [Option.some.injEq, Prod.mk.injEq] at hh
            obtain ⟨rfl, rfl⟩ := hh
            refine ⟨hc.1, hc.2.1, hc.2.2, Or.inl ⟨t.take c.size, t.drop c.size, ?_, ?_, rfl, rfl, ?_⟩⟩
            · rw [List.length_take, hl]; omega
            · rw [List.length_drop, hl]; omega
            · rw [List.take_append_drop, h4]
          · simp at hh
        · rw [if_neg hl]; simp
      · rw [if_neg h4]
        by_cases h23 : form = 2 ∨ form = 3
        · rw [if_pos h23]
          by_cases hl : t.length = c.size ∧ beNat t < c.p
          · rw [if_pos hl]
            intro hh
            have hrl := root_lt h (c.rhs (beNat t))
            by_cases hr : c.root (c.rhs (beNat t)) * c.root (c.rhs (beNat t)) % c.p = c.rhs (beNat t)
            · rw [if_pos hr] at hh
              generalize c.root (c.rhs (beNat t)) = r at hh hr hrl
              have hform : ∀ z : Nat, z % 2 = form.toNat % 2 → form = if z % 2 = 0 then 2 else 3 := by
                intro z hz
                rcases h23 with rfl | rfl
                · rw [if_pos (by simpa using hz)]
                · rw [if_neg (by rw [hz]; decide)]
              by_cases hpar : r % 2 = form.toNat % 2
              · rw [if_pos hpar] at hh
                simp only [Option.some.injEq, Prod.mk.injEq] at hh
                obtain ⟨rfl, rfl⟩ := hh
                exact ⟨hl.2, hrl, hr, Or.inr ⟨t, hl.1, rfl, by rw [← hform _ hpar]⟩⟩
              · rw [if_neg hpar] at hh
                by_cases h0 : r = 0
                · rw [if_pos h0] at hh; simp at hh
                · rw [if_neg h0] at hh
                  simp only [Option.some.injEq, Prod.mk.injEq] at hh
                  obtain ⟨rfl, rfl⟩ := hh
                  refine ⟨hl.2, by omega, h.other hrl.le hr, Or.inr ⟨t, hl.1, rfl, ?_⟩⟩
                  rw [← hform _ (by omega)]
            · rw [if_neg hr] at hh; simp at hh
          · rw [if_neg hl]; simp
        · rw [if_neg h23]; simp
  · rintro ⟨hx, hy, he, ⟨X, Y, hX, hY, rfl, rfl, rfl⟩ | ⟨X, hX, rfl, rfl⟩⟩
    · unfold decode
      dsimp only
      rw [if_pos rfl, if_pos (by rw [List.length_append, hX, hY]; omega)]
      rw [List.take_left' hX, List.drop_left' hX, if_pos ⟨hx, hy, he⟩]
    · unfold decode
      dsimp only
      have h4 : ¬ (if y % 2 = 0 then (2 : UInt8) else 3) = 4 := by split <;> decide
      have h23 : (if y % 2 = 0 then (2 : UInt8) else 3) = 2 ∨ (if y % 2 = 0 then (2 : UInt8) else 3) = 3 := by
        split <;> simp
      have hpar : (if y % 2 = 0 then (2 : UInt8) else 3).toNat % 2 = y % 2 := by
        split
        · rename_i h0; rw [h0]; rfl
        · rename_i h0
          have : y % 2 = 1 := by omega
          rw [this]; rfl
      rw [if_neg h4, if_pos h23, if_pos ⟨hX, hx⟩]
      rw [hpar]
      have hroot := h.root_of (a := c.rhs (beNat X)) hy
        (by rw [h.rhs_cast]; exact ((h.equation _ _).1 he).symm)
      have hlt := root_lt h (c.rhs (beNat X))
      have hsq : c.root (c.rhs (beNat X)) * c.root (c.rhs (beNat X)) % c.p = c.rhs (beNat X) := by
        rcases hroot with h1 | h1
        · rw [h1]; exact he
        · have h2 : c.root (c.rhs (beNat X)) = c.p - y := by omega
          rw [h2]; exact h.other hy.le he
      rw [if_pos hsq]
      generalize c.root (c.rhs (beNat X)) = r at hroot hlt
      rcases hroot with rfl | h1
      · rw [if_pos rfl]
      · rcases Nat.eq_zero_or_pos r with h0 | h0
        · omega
        · rw [if_neg (by omega), if_neg (by omega)]
          have : c.p - r = y := by omega
          rw [this]

end Std.Curve

end OSK
