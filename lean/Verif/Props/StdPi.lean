import Mathlib.Algebra.Order.Floor.Semifield
import Verif.Lemmas.Pi
/-
C104, further: the tables of Blowfish are the digits of π.
-/
namespace OSK
open OSK.Std Real

theorem pi_parts : (16 * arctanInv 5 33408 - 4 * arctanInv 239 33408).toNat =
    16 * arctanPart 33408 5 1 12 0 + 4 * arctanPart 33408 239 3 12 0 -
      (16 * arctanPart 33408 5 3 12 0 + 4 * arctanPart 33408 239 1 12 0) := by
  have e5 : arctanInv 5 33408 = _ := arctanInv_parts (x := 5) (k := 16704) (d := 12) (by norm_num) (by norm_num) (by decide +kernel)
  have e239 : arctanInv 239 33408 = _ := arctanInv_parts (x := 239) (k := 16704) (d := 12) (by norm_num) (by norm_num) (by decide +kernel)
  rw [show 2 * 16704 = 33408 from rfl] at e5 e239
  rw [e5, e239]
  generalize arctanPart 33408 5 1 12 0 = a
  generalize arctanPart 33408 5 3 12 0 = b
  generalize arctanPart 33408 239 1 12 0 = c
  generalize arctanPart 33408 239 3 12 0 = d
  omega

/-- The number that is computed, before it is cut to the bits after the point, is `π · 2^33344`, rounded down. -/
theorem pi_floor : (16 * arctanInv 5 33408 - 4 * arctanInv 239 33408).toNat / 2 ^ 64 = ⌊π * 2 ^ 33344⌋₊ := by
  have e5 : arctanInv 5 33408 = _ := arctanInv_parts (x := 5) (k := 16704) (d := 12) (by norm_num) (by norm_num) (by decide +kernel)
  have e239 : arctanInv 239 33408 = _ := arctanInv_parts (x := 239) (k := 16704) (d := 12) (by norm_num) (by norm_num) (by decide +kernel)
  have hm := machin_error 16704
  have hr := machin_rest
  have ho := machin_order
  rw [show 2 * 16704 = 33408 from rfl] at hm e5 e239
  rw [e5, e239] at hm ⊢
  generalize arctanPart 33408 5 1 12 0 = a at *
  generalize arctanPart 33408 5 3 12 0 = b at *
  generalize arctanPart 33408 239 1 12 0 = c at *
  generalize arctanPart 33408 239 3 12 0 = d at *
  obtain ⟨x, hx⟩ := Nat.exists_eq_add_of_le ho
  have hx2 : 16 * ((a : Int) - b) - 4 * ((c : Int) - d) = (x : Int) := by omega
  have hx3 : 16 * a + 4 * d - (16 * b + 4 * c) = x := by omega
  rw [hx2] at hm ⊢
  rw [hx3] at hr
  rw [Int.toNat_natCast]
  have hdm := Nat.div_add_mod x (2 ^ 64)
  generalize x / 2 ^ 64 = q at *
  generalize x % 2 ^ 64 = r at *
  symm
  rw [Nat.floor_eq_iff (by positivity)]
  obtain ⟨h1, h2⟩ := abs_le.1 hm
  have hq : (x : ℝ) = 2 ^ 64 * q + r := by exact_mod_cast hdm.symm
  have hr1 : (334100 : ℝ) ≤ r := by exact_mod_cast hr.1
  have hr2 : (r : ℝ) < 2 ^ 64 - 334100 := by
    have := hr.2
    rw [Nat.lt_sub_iff_add_lt] at this
    have h' : (r : ℝ) + 334100 < 2 ^ 64 := by exact_mod_cast this
    linarith
  have hp : (2 : ℝ) ^ 33408 = 2 ^ 33344 * 2 ^ 64 := by rw [← pow_add]
  rw [hp] at h1 h2
  generalize (2 : ℝ) ^ 33344 = P at *
  rw [show ((16704 : Nat) : ℝ) = 16704 by norm_num, Int.cast_natCast, hq] at h1 h2
  have e64 : (2 : ℝ) ^ 64 = 18446744073709551616 := by norm_num
  rw [e64] at *
  constructor <;> linarith

theorem floor_shift (x : ℝ) (m n : Nat) (h : n ≤ m) : ⌊x * 2 ^ m⌋₊ / 2 ^ (m - n) = ⌊x * 2 ^ n⌋₊ := by
  have : x * 2 ^ n = x * 2 ^ m / ((2 ^ (m - n) : Nat) : ℝ) := by
    push_cast
    rw [eq_div_iff (by positivity), mul_assoc, ← pow_add, Nat.add_sub_cancel' h]
  rw [this, Nat.floor_div_natCast]

theorem floor_word (x : ℝ) (n k : Nat) (h : 32 ≤ k) (hk : k ≤ n) :
    (⌊x * 2 ^ n⌋₊ % 2 ^ n / 2 ^ (n - k)) % 2 ^ 32 = ⌊x * 2 ^ k⌋₊ % 2 ^ 32 := by
  rw [← floor_shift x n k hk]
  have : 2 ^ n = 2 ^ (n - k) * 2 ^ k := by
    rw [← pow_add]
    congr 1
    omega
  generalize ⌊x * 2 ^ n⌋₊ = q
  rw [this, Nat.mod_mul_right_div_self, Nat.mod_mod_of_dvd _ (pow_dvd_pow 2 h)]

theorem piBits_floor (n : Nat)
    (h : (16 * arctanInv 5 (n + 64) - 4 * arctanInv 239 (n + 64)).toNat / 2 ^ 64 = ⌊π * 2 ^ n⌋₊) :
    piBits n = ⌊π * 2 ^ n⌋₊ % 2 ^ n := by
  unfold piBits
  rw [h]

theorem blowfishInit_word {i : Nat} (hi : i < 1042) (n : Nat) (hn : n = 33344) :
    blowfishInit.getD i 0 = UInt32.ofNat (piBits n / 2 ^ (32 * (1041 - i))) := by
  rw [hn]
  unfold blowfishInit
  simp [Array.getD, hi]

/-- The words of the initial state of Blowfish are the binary digits of π after the point, 32 for each word: in front the
eighteen words of `P`, then the four boxes of 256. -/
theorem C104_blowfish_pi : blowfishInit.size = 1042 ∧
    ∀ i < 1042, (blowfishInit.getD i 0).toNat = ⌊π * 2 ^ (32 * (i + 1))⌋₊ % 2 ^ 32 := by
  have hs : blowfishInit.size = 1042 := by simp [blowfishInit]
  refine ⟨hs, fun i hi => ?_⟩
  have e := blowfishInit_word hi
  have hf : ∀ n, n = 33344 → (16 * arctanInv 5 (n + 64) - 4 * arctanInv 239 (n + 64)).toNat / 2 ^ 64 = ⌊π * 2 ^ n⌋₊ := by
    intro n hn
    have h64 : n + 64 = 33408 := by omega
    rw [h64, pi_floor, hn]
  obtain ⟨n, hn⟩ : ∃ n, n = 33344 := ⟨_, rfl⟩
  rw [e n hn, piBits_floor n (hf n hn), UInt32.toNat_ofNat', show 32 * (1041 - i) = n - 32 * (i + 1) by omega]
  exact floor_word π n (32 * (i + 1)) (by omega) (by omega)

end OSK
