import Verif.Lemmas.Int
import Verif.Spec.TwosComplement
import Verif.Model.Stream
/-
The MPINT codec against the two's complement specification.
-/
namespace OSK
open Spec

theorem digitSum_eq (b : Bytes) : digitSum b = beNat b := by
  induction b with
  | nil => rfl
  | cons x b ih => rw [digitSum, beNat_cons, ih]

theorem tcVal_eq (b : Bytes) : tcVal b = beInt b := by
  cases b with
  | nil => rfl
  | cons x b =>
    rw [tcVal, beInt, digitSum_eq, beNat_cons]
    have e : (256 : Int) ^ (x :: b).length = 256 * 256 ^ b.length := by
      rw [List.length_cons, Int.pow_succ]; ring
    by_cases h : 128 ≤ x.toNat
    · rw [if_neg (by omega), if_pos h, e]; push_cast; ring
    · rw [if_pos (by omega), if_neg h]; push_cast; ring

theorem bitLength_pos_bounds {v : Int} (hv : v ≠ 0) :
    ∃ L : Nat, bitLength v = L + 1 ∧ 2 ^ L ≤ v.natAbs ∧ v.natAbs < 2 ^ (L + 1) := by
  refine ⟨Nat.log2 v.natAbs, ?_, ?_, ?_⟩
  · simp [bitLength, hv]
  · exact Nat.log2_self_le (by omega)
  · exact Nat.lt_log2_self

theorem pow256 (m : Nat) : (256 : Nat) ^ m = 2 ^ (8 * m) := by
  rw [Nat.pow_mul]

/-- `mpintLength v` is a lower bound on the length of any representation of `v`. -/
theorem mpintLength_le {b : Bytes} {v : Int} (h : beInt b = v) : mpintLength v ≤ b.length := by
  by_cases hv : v = 0
  · subst hv; simp [mpintLength, bitLength]
  · have hb : b ≠ [] := by intro hb; subst hb; simp [beInt] at h; omega
    have hr := beInt_range b hb
    rw [h] at hr
    obtain ⟨L, hL, h1, h2⟩ := bitLength_pos_bounds hv
    have hc : ((256 ^ b.length : Nat) : Int) = (256 : Int) ^ b.length := by push_cast; rfl
    rw [← hc, pow256] at hr
    unfold mpintLength
    rw [hL]
    by_cases hp : 0 < v
    · rw [if_pos hp]
      have : 2 ^ (L + 1) < 2 ^ (8 * b.length) := by
        rw [Nat.pow_succ]; omega
      have := (Nat.pow_lt_pow_iff_right (by omega : 1 < 2)).1 this
      omega
    · rw [if_neg hp]
      have : 2 ^ (L + 1) ≤ 2 ^ (8 * b.length) := by
        rw [Nat.pow_succ]; omega
      have := (Nat.pow_le_pow_iff_right (by omega : 1 < 2)).1 this
      omega

theorem mpint_shortest {v : Int} {b : Bytes} (h : toBytesSigned (mpintLength v) v = .ok b) :
    IsShortestTC b v := by
  obtain ⟨h1, h2⟩ := toBytesSigned_ok h
  refine ⟨by rw [tcVal_eq, h2], fun b' hb' => ?_⟩
  rw [h1]
  rw [tcVal_eq] at hb'
  exact mpintLength_le hb'

theorem shortest_unique {v : Int} {b b' : Bytes} (h : IsShortestTC b v) (h' : IsShortestTC b' v) :
    b = b' := by
  have hl : b.length = b'.length := Nat.le_antisymm (h.2 b' h'.1) (h'.2 b h.1)
  have e1 := toBytesSigned_beInt b
  have e2 := toBytesSigned_beInt b'
  rw [← tcVal_eq, h.1] at e1
  rw [← tcVal_eq, h'.1] at e2
  rw [hl, e2] at e1
  simpa using e1.symm

/-- Exactly which integers can be written. -/
theorem mpint_writable_iff (v : Int) :
    (∃ b, toBytesSigned (mpintLength v) v = .ok b) ↔
      ¬ ∃ k : Nat, (2 : Int) ^ (8 * k + 7) < -v ∧ -v < (2 : Int) ^ (8 * k + 8) := by
  by_cases hv : v = 0
  · subst hv
    constructor
    · rintro - ⟨k, h1, h2⟩
      have : (0 : Int) < 2 ^ (8 * k + 7) := by positivity
      omega
    · intro _; exact ⟨[], by decide⟩
  obtain ⟨L, hL, h1, h2⟩ := bitLength_pos_bounds hv
  have key : (∃ b, toBytesSigned (mpintLength v) v = .ok b) ↔
      mpintLength v ≠ 0 ∧ (-(256 : Int) ^ (mpintLength v) ≤ 2 * v ∧ 2 * v < (256 : Int) ^ (mpintLength v)) := by
    unfold toBytesSigned
    constructor
    · rintro ⟨b, hb⟩
      split at hb
      · simp at hb
      · split at hb
        · rename_i hh hr; exact ⟨hh, hr⟩
        · simp at hb
    · rintro ⟨hh, hr⟩
      rw [if_neg hh, if_pos hr]; exact ⟨_, rfl⟩
  rw [key]
  have hc : ((256 ^ mpintLength v : Nat) : Int) = (256 : Int) ^ mpintLength v := by push_cast; rfl
  rw [← hc, pow256]
  have hcast : ∀ n : Nat, ((2 ^ n : Nat) : Int) = (2 : Int) ^ n := by intro n; push_cast; rfl
  by_cases hp : 0 < v
  · constructor
    · rintro - ⟨k, hk, _⟩
      have : (0 : Int) < 2 ^ (8 * k + 7) := by positivity
      omega
    · intro _
      have hm : mpintLength v = (L + 9) / 8 := by unfold mpintLength; rw [hL, if_pos hp]
      rw [hm]
      have : 2 ^ (L + 2) ≤ 2 ^ (8 * ((L + 9) / 8)) := Nat.pow_le_pow_right (by omega) (by omega)
      rw [Nat.pow_succ] at this
      omega
  · have hm : mpintLength v = (L + 8) / 8 := by unfold mpintLength; rw [hL, if_neg hp]
    rw [hm]
    constructor
    · rintro ⟨_, hr, _⟩ ⟨k, hk1, hk2⟩
      rw [← hcast] at hk1 hk2
      have a1 : 2 ^ (8 * k + 7) < 2 ^ (L + 1) := by omega
      have a2 : 2 ^ L < 2 ^ (8 * k + 8) := by omega
      have a1 := (Nat.pow_lt_pow_iff_right (by omega : 1 < 2)).1 a1
      have a2 := (Nat.pow_lt_pow_iff_right (by omega : 1 < 2)).1 a2
      have e : L = 8 * k + 7 := by omega
      subst e
      have e2 : 8 * ((8 * k + 7 + 8) / 8) = 8 * k + 7 + 1 := by omega
      rw [e2, Nat.pow_succ] at hr
      omega
    · intro hne
      refine ⟨by omega, ?_, ?_⟩
      · by_cases hd : (L + 1) % 8 = 0
        · have e : 8 * ((L + 8) / 8) = L + 1 := by omega
          rw [e, Nat.pow_succ]
          by_contra hcon
          apply hne
          refine ⟨L / 8, ?_, ?_⟩
          · rw [← hcast, (by omega : 8 * (L / 8) + 7 = L)]; omega
          · rw [← hcast, (by omega : 8 * (L / 8) + 8 = L + 1)]; omega
        · have : 2 ^ (L + 2) ≤ 2 ^ (8 * ((L + 8) / 8)) := Nat.pow_le_pow_right (by omega) (by omega)
          rw [Nat.pow_succ] at this
          omega
      · have : 0 < 2 ^ (8 * ((L + 8) / 8)) := by positivity
        omega

end OSK
