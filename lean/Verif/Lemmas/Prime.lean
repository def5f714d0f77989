import Verif.Std.Curves
import Mathlib.NumberTheory.LucasPrimality
import Mathlib.NumberTheory.LucasLehmer
import Mathlib.Data.Nat.Prime.Basic
import Mathlib.Tactic.NormNum.Prime
import Mathlib.Tactic.NormNum.ModEq

/-!
The prime fields of P-256, P-384 and P-521: certificates of primality for the first two after Pratt, which
the kernel checks, and the test of Lucas and Lehmer for the third.
-/

namespace OSK.Std

theorem powModAux_eq (m : Nat) : ∀ k a e acc, e < 2 ^ k → acc % m = acc →
    powModAux m k a e acc = acc * a ^ e % m
  | 0, a, e, acc, h, hacc => by
    have : e = 0 := by simpa using h
    subst this
    simp [powModAux, hacc]
  | k + 1, a, e, acc, h, hacc => by
    have h2 : e / 2 < 2 ^ k := by rw [Nat.pow_succ] at h; omega
    show powModAux m k (a * a % m) (e / 2) (if e % 2 = 1 then acc * a % m else acc) = _
    rw [powModAux_eq m k _ _ _ h2 (by split <;> simp [hacc])]
    have he : e = 2 * (e / 2) + e % 2 := by omega
    have hp : (a * a % m) ^ (e / 2) % m = a ^ (2 * (e / 2)) % m := by
      rw [← Nat.pow_mod, pow_mul, pow_two]
    rcases Nat.mod_two_eq_zero_or_one e with h0 | h1
    · rw [h0, Nat.add_zero] at he
      rw [if_neg (by omega), Nat.mul_mod, hp, ← Nat.mul_mod, ← he]
    · rw [h1] at he
      rw [if_pos h1, Nat.mul_mod, hp, Nat.mod_mod, ← Nat.mul_mod]
      conv_rhs => rw [he, Nat.pow_succ]
      congr 1
      ring

/-- The function computes powers. -/
theorem powMod_eq (m a e : Nat) : powMod m a e = a ^ e % m := by
  unfold powMod
  rw [powModAux_eq m _ _ _ _ Nat.lt_log2_self (by simp), Nat.mul_mod, Nat.mod_mod, ← Nat.pow_mod, ← Nat.mul_mod,
    Nat.one_mul]

/-- One step of a certificate: `a` generates the multiplicative group modulo `p`, since its order divides
`p - 1` and no proper divisor of it. -/
def prattStep (known : List Nat) (p a : Nat) (fs : List Nat) : Bool :=
  fs.prod == p - 1 && powMod p a (p - 1) == 1 &&
    fs.all (fun q => known.contains q && powMod p a ((p - 1) / q) != 1)

/-- A certificate: each number is proved prime from those before it. -/
def prattCheck : List Nat → List (Nat × Nat × List Nat) → Bool
  | _, [] => true
  | known, (p, a, fs) :: t => decide (1 < p) && prattStep known p a fs && prattCheck (p :: known) t

theorem prime_of_prattStep {known : List Nat} (hk : ∀ q ∈ known, q.Prime) {p a : Nat} {fs : List Nat}
    (hp : 1 < p) (h : prattStep known p a fs = true) : p.Prime := by
  simp only [prattStep, Bool.and_eq_true, beq_iff_eq, List.all_eq_true, bne_iff_ne, ne_eq,
    List.contains_iff_mem, powMod_eq] at h
  obtain ⟨⟨h1, h2⟩, h3⟩ := h
  have cast1 : ∀ e, ((a : ZMod p) ^ e = 1) ↔ a ^ e % p = 1 := by
    intro e
    have h1p : 1 % p = 1 := Nat.mod_eq_of_lt hp
    rw [← Nat.cast_one, ← Nat.cast_pow, ZMod.natCast_eq_natCast_iff, Nat.ModEq, h1p]
  refine lucas_primality p (a : ZMod p) ((cast1 _).2 h2) ?_
  intro q hq hd hc
  rw [← h1] at hd
  obtain ⟨r, hr, hqr⟩ := (Prime.dvd_prod_iff hq.prime).1 hd
  obtain ⟨hk1, hk2⟩ := h3 r hr
  have : q = r := (Nat.prime_dvd_prime_iff_eq hq (hk r hk1)).1 hqr
  subst this
  exact hk2 ((cast1 _).1 hc)

theorem primes_of_prattCheck : ∀ {cert : List (Nat × Nat × List Nat)} {known : List Nat},
    (∀ q ∈ known, q.Prime) → prattCheck known cert = true → ∀ e ∈ cert, e.1.Prime
  | [], _, _, _ => by simp
  | (p, a, fs) :: t, known, hk, h => by
    simp only [prattCheck, Bool.and_eq_true, decide_eq_true_eq] at h
    have hp := prime_of_prattStep hk h.1.1 h.1.2
    intro e he
    rcases List.mem_cons.1 he with rfl | he
    · exact hp
    · exact primes_of_prattCheck (List.forall_mem_cons.2 ⟨hp, hk⟩) h.2 e he

/-- The primes below one hundred. -/
def smallPrimes : List Nat :=
  [2, 3, 5, 7, 11, 13, 17, 19, 23, 29, 31, 37, 41, 43, 47, 53, 59, 61, 67, 71, 73, 79, 83, 89, 97]

theorem smallPrimes_prime : ∀ q ∈ smallPrimes, q.Prime := by
  simp only [smallPrimes, List.forall_mem_cons, List.not_mem_nil, false_implies, implies_true, and_true]
  norm_num

/-- A number, a generator of its multiplicative group, and the prime factors of the number less one. -/
def certificate : List (Nat × Nat × List Nat) := [
  (107, 2, [2, 53]),
  (131, 2, [2, 5, 13]),
  (139, 2, [2, 3, 23]),
  (157, 5, [2, 2, 3, 13]),
  (173, 2, [2, 2, 43]),
  (181, 2, [2, 2, 3, 3, 5]),
  (197, 2, [2, 2, 7, 7]),
  (211, 2, [2, 3, 5, 7]),
  (233, 3, [2, 2, 2, 29]),
  (241, 7, [2, 2, 2, 2, 3, 5]),
  (257, 3, [2, 2, 2, 2, 2, 2, 2, 2]),
  (263, 5, [2, 131]),
  (271, 6, [2, 3, 3, 3, 5]),
  (293, 2, [2, 2, 73]),
  (313, 10, [2, 2, 2, 3, 13]),
  (599, 7, [2, 13, 23]),
  (641, 3, [2, 2, 2, 2, 2, 2, 2, 5]),
  (661, 2, [2, 2, 3, 5, 11]),
  (727, 5, [2, 3, 11, 11]),
  (757, 2, [2, 2, 3, 3, 3, 7]),
  (881, 3, [2, 2, 2, 2, 5, 11]),
  (919, 7, [2, 3, 3, 3, 17]),
  (937, 5, [2, 2, 2, 3, 3, 13]),
  (1033, 5, [2, 2, 2, 3, 43]),
  (1087, 3, [2, 3, 181]),
  (1373, 2, [2, 2, 7, 7, 7]),
  (1531, 2, [2, 3, 3, 5, 17]),
  (1579, 3, [2, 3, 263]),
  (2213, 2, [2, 2, 7, 79]),
  (2411, 6, [2, 5, 241]),
  (3253, 2, [2, 2, 3, 271]),
  (3517, 2, [2, 2, 3, 293]),
  (3677, 2, [2, 2, 919]),
  (3769, 7, [2, 2, 2, 3, 157]),
  (4349, 2, [2, 2, 1087]),
  (6317, 2, [2, 2, 1579]),
  (8389, 6, [2, 2, 3, 3, 233]),
  (17449, 14, [2, 2, 2, 3, 727]),
  (18169, 11, [2, 2, 2, 3, 757]),
  (21407, 5, [2, 7, 11, 139]),
  (38557, 2, [2, 2, 3, 3, 3, 3, 7, 17]),
  (65537, 3, [2, 2, 2, 2, 2, 2, 2, 2, 2, 2, 2, 2, 2, 2, 2, 2]),
  (78283, 3, [2, 3, 3, 4349]),
  (312289, 14, [2, 2, 2, 2, 2, 3, 3253]),
  (336757, 2, [2, 2, 3, 7, 19, 211]),
  (363557, 2, [2, 2, 97, 937]),
  (490463, 14, [2, 7, 53, 661]),
  (568151, 17, [2, 5, 5, 11, 1033]),
  (704251, 2, [2, 3, 3, 5, 5, 5, 313]),
  (6051631, 6, [2, 3, 5, 13, 59, 263]),
  (6700417, 5, [2, 2, 2, 2, 2, 2, 2, 3, 17449]),
  (105957871, 3, [2, 3, 5, 19, 211, 881]),
  (204061199, 11, [2, 11, 23, 107, 3769]),
  (246608641, 19, [2, 2, 2, 2, 2, 2, 2, 2, 3, 3, 5, 21407]),
  (513928823, 5, [2, 11, 59, 599, 661]),
  (532247449, 7, [2, 2, 2, 3, 61, 363557]),
  (2862218959, 3, [2, 3, 157, 1373, 2213]),
  (34282281433, 17, [2, 2, 2, 3, 7, 204061199]),
  (53448597593, 3, [2, 2, 2, 13, 513928823]),
  (66417393611, 6, [2, 5, 53, 173, 197, 3677]),
  (807145746439, 3, [2, 3, 47, 2862218959]),
  (11290956913871, 13, [2, 5, 17, 66417393611]),
  (44925942675193, 5, [2, 2, 2, 3, 3517, 532247449]),
  (46076956964474543, 5, [2, 23, 18169, 78283, 704251]),
  (1357291859799823621, 2, [2, 2, 3, 5, 67, 6317, 53448597593]),
  (529709925838459440593, 3, [2, 2, 2, 2, 7, 181, 105957871, 246608641]),
  (35581458644053887931343, 5, [2, 17, 41, 568151, 44925942675193]),
  (23964610537191310276190549303, 5, [2, 336757, 35581458644053887931343]),
  (862725979338887169942859774909, 2, [2, 2, 3, 3, 23964610537191310276190549303]),
  (20705423504133292078628634597817, 5, [2, 2, 2, 3, 862725979338887169942859774909]),
  (413244619895455989650825325680172591660047, 5, [2, 17, 97, 6051631, 20705423504133292078628634597817]),
  (12397338596863679689524759770405177749801411, 2, [2, 3, 5, 413244619895455989650825325680172591660047]),
  (774023187263532362759620327192479577272145303, 3, [2, 3, 3, 2411, 34282281433, 11290956913871,
   46076956964474543]),
  (835945042244614951780389953367877943453916927241, 11, [2, 2, 2, 3, 3, 3, 5,
   774023187263532362759620327192479577272145303]),
  (115792089210356248762697446949407573530086143415290314195533631308867097853951, 6, [2, 3, 5, 5, 17, 257,
   641, 1531, 65537, 490463, 6700417, 835945042244614951780389953367877943453916927241]),
  (19173790298027098165721053155794528970226934547887232785722672956982046098136719667167519737147526097, 3,
   [2, 2, 2, 2, 11, 11, 11, 8389, 38557, 312289, 1357291859799823621, 529709925838459440593,
   12397338596863679689524759770405177749801411]),
  (39402006196394479212279040100143613805079739270465446667948293404245721771496870329047266088258938001861606973112319,
   19, [2, 19, 67, 807145746439,
   19173790298027098165721053155794528970226934547887232785722672956982046098136719667167519737147526097])]

theorem certificate_checked : prattCheck smallPrimes certificate = true := by decide +kernel

theorem p256_prime : p256.p.Prime := by
  have h := primes_of_prattCheck smallPrimes_prime certificate_checked
  obtain ⟨e, he, h2⟩ : ∃ e ∈ certificate, e.1 = p256.p := by decide +kernel
  exact h2 ▸ h e he

theorem p384_prime : p384.p.Prime := by
  have h := primes_of_prattCheck smallPrimes_prime certificate_checked
  obtain ⟨e, he, h2⟩ : ∃ e ∈ certificate, e.1 = p384.p := by decide +kernel
  exact h2 ▸ h e he

theorem p521_prime : p521.p.Prime := by
  have h : Nat.Prime (mersenne 521) := lucas_lehmer_sufficiency 521 (by norm_num) (by norm_num)
  have e : p521.p = mersenne 521 := by decide +kernel
  exact e ▸ h

end OSK.Std
