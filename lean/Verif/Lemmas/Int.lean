import Verif.Py.Int
import Mathlib.Data.List.Induction
import Mathlib.Tactic.Ring
import Mathlib.Tactic.Linarith
/-
Facts about base-256 digits and two's complement.
-/
namespace OSK

@[simp] theorem beNat_nil : beNat [] = 0 := rfl

theorem beNat_append_singleton (b : Bytes) (x : UInt8) :
    beNat (b ++ [x]) = beNat b * 256 + x.toNat := by
  simp [beNat]

theorem beNat_append (a b : Bytes) : beNat (a ++ b) = beNat a * 256 ^ b.length + beNat b := by
  induction b using List.reverseRecOn with
  | nil => simp
  | append_singleton b x ih =>
    rw [← List.append_assoc, beNat_append_singleton, beNat_append_singleton, ih]
    simp [Nat.pow_succ]; ring

theorem beNat_cons (x : UInt8) (b : Bytes) : beNat (x :: b) = x.toNat * 256 ^ b.length + beNat b := by
  have := beNat_append [x] b
  simpa [beNat] using this

theorem beNat_lt (b : Bytes) : beNat b < 256 ^ b.length := by
  induction b with
  | nil => simp
  | cons x b ih =>
    rw [beNat_cons, List.length_cons, Nat.pow_succ]
    have := x.toNat_lt
    nlinarith

@[simp] theorem natToBE_length (k n : Nat) : (natToBE k n).length = k := by
  induction k generalizing n with
  | zero => rfl
  | succ k ih => simp [natToBE, ih]

theorem beNat_natToBE (k n : Nat) : beNat (natToBE k n) = n % 256 ^ k := by
  induction k generalizing n with
  | zero => simp [natToBE, Nat.mod_one]
  | succ k ih =>
    rw [natToBE, beNat_append_singleton, ih]
    have : (UInt8.ofNat (n % 256)).toNat = n % 256 := by simp
    rw [this, Nat.pow_succ, Nat.mul_comm (256 ^ k), Nat.mod_mul]
    omega

theorem beNat_natToBE_of_lt {k n : Nat} (h : n < 256 ^ k) : beNat (natToBE k n) = n := by
  rw [beNat_natToBE, Nat.mod_eq_of_lt h]

theorem natToBE_beNat (b : Bytes) : natToBE b.length (beNat b) = b := by
  induction b using List.reverseRecOn with
  | nil => rfl
  | append_singleton b x ih =>
    have hx := x.toNat_lt
    rw [beNat_append_singleton, List.length_append, List.length_singleton, natToBE]
    have h1 : (beNat b * 256 + x.toNat) / 256 = beNat b := by omega
    have h2 : (beNat b * 256 + x.toNat) % 256 = x.toNat := by omega
    rw [h1, h2, ih]
    simp

theorem beNat_inj {a b : Bytes} (hl : a.length = b.length) (h : beNat a = beNat b) : a = b := by
  rw [← natToBE_beNat a, ← natToBE_beNat b, hl, h]

/-- The head byte is the quotient by the weight of the rest. -/
theorem head_ge_iff (x : UInt8) (b : Bytes) :
    128 ≤ x.toNat ↔ 256 ^ (b.length + 1) ≤ 2 * beNat (x :: b) := by
  rw [beNat_cons, Nat.pow_succ]
  have := beNat_lt b
  constructor
  · intro h; nlinarith
  · intro h
    by_contra hc
    have : x.toNat ≤ 127 := by omega
    nlinarith

theorem beInt_eq (b : Bytes) : beInt b =
    if b ≠ [] ∧ 256 ^ b.length ≤ 2 * beNat b then (beNat b : Int) - (256 : Int) ^ b.length
    else (beNat b : Int) := by
  cases b with
  | nil => simp [beInt]
  | cons x b =>
    unfold beInt
    simp only [head_ge_iff x b, List.length_cons]
    simp

theorem beInt_range (b : Bytes) (hb : b ≠ []) :
    -(256 : Int) ^ b.length ≤ 2 * beInt b ∧ 2 * beInt b < (256 : Int) ^ b.length := by
  rw [beInt_eq]
  have h1 := beNat_lt b
  have h2 : (beNat b : Int) < (256 : Int) ^ b.length := by exact_mod_cast h1
  split
  · rename_i h
    have : (256 : Int) ^ b.length ≤ 2 * beNat b := by exact_mod_cast h.2
    constructor <;> linarith
  · rename_i h
    simp [hb] at h
    have h3 : 2 * (beNat b : Int) < (256 : Int) ^ b.length := by exact_mod_cast h
    constructor <;> [skip; exact h3]
    have : (0 : Int) ≤ beNat b := by positivity
    linarith

theorem beInt_emod (b : Bytes) : beInt b % (256 : Int) ^ b.length = (beNat b : Int) := by
  have h1 := beNat_lt b
  have h2 : (beNat b : Int) < (256 : Int) ^ b.length := by exact_mod_cast h1
  rw [beInt_eq]
  split
  · rw [Int.sub_emod_right]; exact Int.emod_eq_of_lt (by positivity) h2
  · exact Int.emod_eq_of_lt (by positivity) h2

theorem toBytesSigned_beInt (b : Bytes) : toBytesSigned b.length (beInt b) = .ok b := by
  unfold toBytesSigned
  by_cases hb : b = []
  · subst hb; simp [beInt]
  · rw [if_neg (by simpa using hb), if_pos (beInt_range b hb), beInt_emod]
    simp [natToBE_beNat]

theorem beInt_natToBE {len : Nat} (h0 : len ≠ 0) {v : Int}
    (h : -(256 : Int) ^ len ≤ 2 * v ∧ 2 * v < (256 : Int) ^ len) :
    beInt (natToBE len (v % (256 : Int) ^ len).toNat) = v := by
  have hp : (0 : Int) < (256 : Int) ^ len := by positivity
  have hm0 := Int.emod_nonneg v hp.ne'
  have hm1 := Int.emod_lt_of_pos v hp
  have hlt : (v % (256 : Int) ^ len).toNat < 256 ^ len := by
    have : ((v % (256 : Int) ^ len).toNat : Int) < ((256 ^ len : Nat) : Int) := by
      rw [Int.toNat_of_nonneg hm0]; push_cast; exact hm1
    exact_mod_cast this
  rw [beInt_eq, beNat_natToBE_of_lt hlt, natToBE_length]
  have hne : natToBE len (v % (256 : Int) ^ len).toNat ≠ [] := by
    intro hc; have := congrArg List.length hc; simp at this; exact h0 this
  have hcast : ((256 ^ len : Nat) : Int) = (256 : Int) ^ len := by push_cast; rfl
  by_cases hv : 0 ≤ v
  · have e : v % (256 : Int) ^ len = v := Int.emod_eq_of_lt hv (by linarith)
    rw [e, if_neg]
    · exact Int.toNat_of_nonneg hv
    · intro hc
      have h3 := hc.2
      have : ((256 ^ len : Nat) : Int) ≤ ((2 * v.toNat : Nat) : Int) := by exact_mod_cast h3
      rw [hcast] at this
      push_cast at this
      rw [Int.toNat_of_nonneg hv] at this
      linarith
  · have e : v % (256 : Int) ^ len = v + (256 : Int) ^ len := by
      rw [← Int.add_emod_right]
      exact Int.emod_eq_of_lt (by linarith) (by linarith)
    have hnn : 0 ≤ v + (256 : Int) ^ len := by linarith
    rw [e, if_pos]
    · rw [Int.toNat_of_nonneg hnn]; ring
    · refine ⟨by rw [← e]; exact hne, ?_⟩
      have : ((256 ^ len : Nat) : Int) ≤ ((2 * (v + (256 : Int) ^ len).toNat : Nat) : Int) := by
        rw [hcast]; push_cast
        rw [Int.toNat_of_nonneg hnn]; linarith
      exact_mod_cast this

theorem toBytesSigned_ok {len : Nat} {v : Int} {b : Bytes} (h : toBytesSigned len v = .ok b) :
    b.length = len ∧ beInt b = v := by
  unfold toBytesSigned at h
  split at h
  · split at h
    · simp at h; subst h; simp_all [beInt]
    · simp at h
  · split at h
    · rename_i h0 h1
      simp at h; subst h
      exact ⟨by simp, beInt_natToBE h0 h1⟩
    · simp at h

theorem toBytesSigned_error {len : Nat} {v : Int} {e : Exn} (h : toBytesSigned len v = .error e) :
    e = .overflowError := by
  unfold toBytesSigned at h
  split at h <;> split at h <;> simp_all

theorem toBytesUnsigned_ok {len : Int} {n : Nat} {b : Bytes} (h : toBytesUnsigned len n = .ok b) :
    0 ≤ len ∧ b.length = len.toNat ∧ beNat b = n := by
  unfold toBytesUnsigned at h
  split at h
  · simp at h
  · split at h
    · simp at h; subst h
      exact ⟨by omega, by simp, beNat_natToBE_of_lt (by assumption)⟩
    · simp at h

theorem toBytesUnsigned_eq {len : Nat} {n : Nat} (h : n < 256 ^ len) :
    toBytesUnsigned len n = .ok (natToBE len n) := by
  unfold toBytesUnsigned
  rw [if_neg (by omega)]
  simp [h]

end OSK
