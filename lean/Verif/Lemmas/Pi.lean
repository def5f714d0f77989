import Mathlib.Analysis.SpecialFunctions.Complex.Arctan
import Mathlib.Analysis.SpecialFunctions.Trigonometric.Arctan
import Mathlib.Analysis.SpecificLimits.Normed
import Verif.Std.Bcrypt
/-
The computation of the digits of π in Std/Bcrypt.lean is right.
-/
namespace OSK.Std

/-- The terms of the series for `2^N · arctan(1/x)`, rounded down. -/
def arctanTerm (N x j : Nat) : Nat := 2 ^ N / (x ^ (2 * j + 1) * (2 * j + 1))

theorem arctanTerms_eq (N x m : Nat) : ∀ i a,
    arctanTerms (x * x) m (2 ^ N / x ^ (2 * i + 1)) (2 * i + 1) (decide (i % 2 = 0)) a =
      a + ∑ j ∈ Finset.range m, (-1) ^ (i + j) * (arctanTerm N x (i + j) : Int) := by
  induction m with
  | zero => intro i a; simp [arctanTerms]
  | succ m ih =>
    intro i a
    rw [arctanTerms]
    have e1 : 2 ^ N / x ^ (2 * i + 1) / (x * x) = 2 ^ N / x ^ (2 * (i + 1) + 1) := by
      rw [Nat.div_div_eq_div_mul]
      congr 1
      ring
    have e2 : (!decide (i % 2 = 0)) = decide ((i + 1) % 2 = 0) := by
      rcases Nat.mod_two_eq_zero_or_one i with h | h
      · have : (i + 1) % 2 = 1 := by omega
        rw [h, this]; rfl
      · have : (i + 1) % 2 = 0 := by omega
        rw [h, this]; rfl
    have e3 : 2 * i + 1 + 2 = 2 * (i + 1) + 1 := by ring
    rw [e1, e2, e3, ih, Finset.sum_range_succ', Nat.div_div_eq_div_mul]
    have e4 : ∀ j, i + 1 + j = i + (j + 1) := by intro j; omega
    simp only [e4, Nat.add_zero]
    rcases Nat.mod_two_eq_zero_or_one i with h | h
    · rw [if_pos (by simp [h]), (Nat.even_iff.2 h).neg_one_pow]
      unfold arctanTerm
      ring
    · rw [if_neg (by simp [h]), (Nat.odd_iff.2 h).neg_one_pow]
      unfold arctanTerm
      ring

theorem arctanInv_eq (N x : Nat) :
    arctanInv x N = ∑ j ∈ Finset.range N, (-1) ^ j * (arctanTerm N x j : Int) := by
  have := arctanTerms_eq N x N 0 0
  simp only [Nat.mul_zero, pow_one, zero_add] at this
  exact this

open Real Filter

/-- The exact terms. -/
noncomputable def arctanReal (x : Nat) (j : Nat) : ℝ := (x : ℝ)⁻¹ ^ (2 * j + 1) / ((2 * j + 1 : Nat) : ℝ)

theorem arctanReal_antitone {x : Nat} (hx : 2 ≤ x) : Antitone (arctanReal x) := by
  intro i j h
  unfold arctanReal
  have h0 : (0 : ℝ) ≤ (x : ℝ)⁻¹ := by positivity
  have h1 : (x : ℝ)⁻¹ ≤ 1 := inv_le_one_of_one_le₀ (by exact_mod_cast (by omega : 1 ≤ x))
  refine div_le_div₀ (by positivity) (pow_le_pow_of_le_one h0 h1 (by omega)) (by positivity) ?_
  exact_mod_cast (by omega : 2 * i + 1 ≤ 2 * j + 1)

theorem arctan_tendsto {x : Nat} (hx : 2 ≤ x) :
    Tendsto (fun n => ∑ i ∈ Finset.range n, (-1) ^ i * arctanReal x i) atTop (nhds (arctan (x : ℝ)⁻¹)) := by
  have h : ‖(x : ℝ)⁻¹‖ < 1 := by
    rw [norm_inv, Real.norm_natCast]
    exact inv_lt_one_of_one_lt₀ (by exact_mod_cast (by omega : 1 < x))
  have := (hasSum_arctan h).tendsto_sum_nat
  refine this.congr fun n => Finset.sum_congr rfl fun i _ => ?_
  unfold arctanReal
  rw [mul_div_assoc]

theorem arctan_bounds {x : Nat} (hx : 2 ≤ x) (k : Nat) :
    ∑ i ∈ Finset.range (2 * k), (-1) ^ i * arctanReal x i ≤ arctan (x : ℝ)⁻¹ ∧
    arctan (x : ℝ)⁻¹ ≤ ∑ i ∈ Finset.range (2 * k), (-1) ^ i * arctanReal x i + arctanReal x (2 * k) := by
  refine ⟨(arctanReal_antitone hx).alternating_series_le_tendsto (arctan_tendsto hx) k, ?_⟩
  have := (arctanReal_antitone hx).tendsto_le_alternating_series (arctan_tendsto hx) k
  rw [Finset.sum_range_succ, (even_two_mul k).neg_one_pow, one_mul] at this
  exact this

theorem arctanTerm_bounds {N x : Nat} (hx : 2 ≤ x) (j : Nat) :
    (arctanTerm N x j : ℝ) ≤ 2 ^ N * arctanReal x j ∧ 2 ^ N * arctanReal x j ≤ arctanTerm N x j + 1 := by
  have hp : 0 < x ^ (2 * j + 1) * (2 * j + 1) := by positivity
  have e : 2 ^ N * arctanReal x j = ((2 ^ N : Nat) : ℝ) / ((x ^ (2 * j + 1) * (2 * j + 1) : Nat) : ℝ) := by
    unfold arctanReal
    push_cast
    rw [inv_pow, div_eq_mul_inv, div_eq_mul_inv, mul_inv]
  rw [e]
  refine ⟨Nat.cast_div_le, ?_⟩
  rw [div_le_iff₀ (by exact_mod_cast hp)]
  have := Nat.lt_div_mul_add (a := 2 ^ N) hp
  have h2 : 2 ^ N ≤ (arctanTerm N x j + 1) * (x ^ (2 * j + 1) * (2 * j + 1)) := by
    unfold arctanTerm
    rw [Nat.add_mul, Nat.one_mul]
    omega
  exact_mod_cast h2

theorem alternating_error (f : Nat → ℝ) (h : ∀ j, 0 ≤ f j ∧ f j ≤ 1) (k : Nat) :
    -(k : ℝ) ≤ ∑ j ∈ Finset.range (2 * k), (-1) ^ j * f j ∧ ∑ j ∈ Finset.range (2 * k), (-1) ^ j * f j ≤ k := by
  induction k with
  | zero => simp
  | succ k ih =>
    rw [show 2 * (k + 1) = 2 * k + 1 + 1 by ring, Finset.sum_range_succ, Finset.sum_range_succ, (even_two_mul k).neg_one_pow,
      pow_succ, (even_two_mul k).neg_one_pow]
    have h1 := h (2 * k)
    have h2 := h (2 * k + 1)
    push_cast
    constructor <;> linarith [ih.1, ih.2]

theorem arctanInv_error {x k : Nat} (hx : 2 ≤ x) :
    |2 ^ (2 * k) * arctan (x : ℝ)⁻¹ - (arctanInv x (2 * k) : ℝ)| ≤ k + 1 := by
  have hb := arctan_bounds hx k
  have he := alternating_error (fun j => 2 ^ (2 * k) * arctanReal x j - arctanTerm (2 * k) x j)
    (fun j => by have := arctanTerm_bounds (N := 2 * k) hx j; constructor <;> linarith [this.1, this.2]) k
  have hsum : ∑ j ∈ Finset.range (2 * k), (-1 : ℝ) ^ j * (2 ^ (2 * k) * arctanReal x j - arctanTerm (2 * k) x j) =
      2 ^ (2 * k) * (∑ j ∈ Finset.range (2 * k), (-1) ^ j * arctanReal x j) - (arctanInv x (2 * k) : ℝ) := by
    rw [arctanInv_eq]
    push_cast
    rw [Finset.mul_sum, ← Finset.sum_sub_distrib]
    refine Finset.sum_congr rfl fun j _ => ?_
    ring
  rw [hsum] at he
  have hs : 2 ^ (2 * k) * arctanReal x (2 * k) ≤ 1 := by
    unfold arctanReal
    have h2 : (2 : ℝ) ^ (2 * k) ≤ (x : ℝ) ^ (2 * (2 * k) + 1) := by
      have : 2 ^ (2 * k) ≤ x ^ (2 * (2 * k) + 1) :=
        (Nat.pow_le_pow_left hx _).trans (Nat.pow_le_pow_right (by omega) (by omega))
      exact_mod_cast this
    have hxp : (0 : ℝ) < (x : ℝ) ^ (2 * (2 * k) + 1) := by positivity
    rw [inv_pow, ← mul_div_assoc, ← div_eq_mul_inv]
    refine div_le_one_of_le₀ ?_ (by positivity)
    refine ((div_le_one hxp).2 h2).trans ?_
    exact_mod_cast (by omega : 1 ≤ 2 * (2 * k) + 1)
  have hp : (0 : ℝ) ≤ 2 ^ (2 * k) := by positivity
  have h1 := mul_le_mul_of_nonneg_left hb.1 hp
  have h2 := mul_le_mul_of_nonneg_left hb.2 hp
  rw [mul_add] at h2
  rw [abs_le]
  constructor <;> linarith [he.1, he.2]

theorem machin_error (k : Nat) :
    |2 ^ (2 * k) * π - ((16 * arctanInv 5 (2 * k) - 4 * arctanInv 239 (2 * k) : Int) : ℝ)| ≤ 20 * (k + 1) := by
  have h1 := abs_le.1 (arctanInv_error (x := 5) (k := k) (by norm_num))
  have h2 := abs_le.1 (arctanInv_error (x := 239) (k := k) (by norm_num))
  have h3 := four_mul_arctan_inv_5_sub_arctan_inv_239
  push_cast at h1 h2 ⊢
  have e : π = 16 * arctan 5⁻¹ - 4 * arctan 239⁻¹ := by linarith
  rw [e, abs_le]
  constructor <;> linarith [h1.1, h1.2, h2.1, h2.2]

/-! ### The numbers -/

/-- Every second term, `2^d` of them (the sum is split in the middle). -/
def arctanPart (N x s : Nat) : Nat → Nat → Nat
  | 0, i => 2 ^ N / (x ^ (4 * i + s) * (4 * i + s))
  | d + 1, i => arctanPart N x s d i + arctanPart N x s d (i + 2 ^ d)

theorem arctanPart_eq (N x s : Nat) (d : Nat) : ∀ i,
    arctanPart N x s d i = ∑ j ∈ Finset.range (2 ^ d), 2 ^ N / (x ^ (4 * (i + j) + s) * (4 * (i + j) + s)) := by
  induction d with
  | zero => intro i; simp [arctanPart]
  | succ d ih =>
    intro i
    rw [arctanPart, ih, ih, pow_succ, Nat.mul_two, Finset.sum_range_add]
    congr 1
    refine Finset.sum_congr rfl fun j _ => ?_
    rw [Nat.add_assoc]

theorem alternating_split (f : Nat → Int) (k : Nat) : ∑ j ∈ Finset.range (2 * k), (-1) ^ j * f j =
    ∑ j ∈ Finset.range k, f (2 * j) - ∑ j ∈ Finset.range k, f (2 * j + 1) := by
  induction k with
  | zero => simp
  | succ k ih =>
    rw [show 2 * (k + 1) = 2 * k + 1 + 1 by ring, Finset.sum_range_succ, Finset.sum_range_succ, (even_two_mul k).neg_one_pow,
      pow_succ, (even_two_mul k).neg_one_pow, ih, Finset.sum_range_succ, Finset.sum_range_succ]
    ring

theorem arctanInv_parts {x k d : Nat} (hx : 2 ≤ x) (hd : 2 ^ d ≤ k) (h : 2 ^ (2 * k) < x ^ (4 * 2 ^ d)) :
    arctanInv x (2 * k) = (arctanPart (2 * k) x 1 d 0 : Int) - arctanPart (2 * k) x 3 d 0 := by
  have hz : ∀ s j, 2 ^ d ≤ j → 2 ^ (2 * k) / (x ^ (4 * j + s) * (4 * j + s)) = 0 := by
    intro s j hj
    rcases Nat.eq_zero_or_pos (4 * j + s) with h0 | h0
    · rw [h0, Nat.mul_zero, Nat.div_zero]
    · apply Nat.div_eq_of_lt
      refine lt_of_lt_of_le (lt_of_lt_of_le h (Nat.pow_le_pow_right (by omega) (by omega : 4 * 2 ^ d ≤ 4 * j + s))) ?_
      exact Nat.le_mul_of_pos_right _ h0
  have hcut : ∀ s, ∑ j ∈ Finset.range k, 2 ^ (2 * k) / (x ^ (4 * j + s) * (4 * j + s)) =
      ∑ j ∈ Finset.range (2 ^ d), 2 ^ (2 * k) / (x ^ (4 * j + s) * (4 * j + s)) := by
    intro s
    obtain ⟨c, rfl⟩ := Nat.exists_eq_add_of_le hd
    rw [Finset.sum_range_add, Finset.sum_eq_zero (s := Finset.range c) (fun j _ => hz s _ (by omega)), Nat.add_zero]
  rw [arctanInv_eq, alternating_split, arctanPart_eq, arctanPart_eq]
  simp only [Nat.zero_add]
  rw [← hcut, ← hcut]
  unfold arctanTerm
  push_cast
  congr 1 <;>
  · refine Finset.sum_congr rfl fun j _ => ?_
    congr 2 <;> ring

/-- What is left after the first bits is neither close to the next number nor to the last one. -/
theorem machin_rest :
    334100 ≤ (16 * arctanPart 33408 5 1 12 0 + 4 * arctanPart 33408 239 3 12 0 -
      (16 * arctanPart 33408 5 3 12 0 + 4 * arctanPart 33408 239 1 12 0)) % 2 ^ 64 ∧
    (16 * arctanPart 33408 5 1 12 0 + 4 * arctanPart 33408 239 3 12 0 -
      (16 * arctanPart 33408 5 3 12 0 + 4 * arctanPart 33408 239 1 12 0)) % 2 ^ 64 < 2 ^ 64 - 334100 := by
  decide +kernel

theorem machin_order :
    16 * arctanPart 33408 5 3 12 0 + 4 * arctanPart 33408 239 1 12 0 ≤ 16 * arctanPart 33408 5 1 12 0 + 4 * arctanPart 33408 239 3 12 0 := by
  decide +kernel

end OSK.Std
